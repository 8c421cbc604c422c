import Verif.Lemmas.CylinderNormal
import Verif.Lemmas.Dyadic64
/-!
The cylinder and the rays of script_testCylinder.py. Used by `Props/RoundedCylinders.lean`.
-/

namespace Optics
open V3

theorem script_len : ‖(⟨0, 1, 1⟩ : V3 ℝ).toE‖ = Real.sqrt 2 := by
  rw [norm_toE]; simp [V3.norm, dot]; norm_num

theorem script_axis : SaneLength (⟨0, 1, 1⟩ : V3 ℝ) := by
  have h1 : (1 : ℝ) ≤ Real.sqrt 2 := Real.one_le_sqrt.mpr (by norm_num)
  have h2 : Real.sqrt 2 ≤ 2 := by rw [Real.sqrt_le_left (by norm_num)]; norm_num
  unfold SaneLength
  rw [script_len]
  constructor
  · exact le_trans (by norm_num) h1
  · exact h2.trans (by norm_num)

theorem script_one : ‖(⟨1, 0, 0⟩ : V3 ℝ).toE‖ = 1 := by rw [norm_toE]; simp [V3.norm, dot]

theorem script_dir : SaneLength (⟨1, 0, 0⟩ : V3 ℝ) := sane_of_near (by rw [script_one]; norm_num)

theorem script_dirE : (⟨1, 0, 0⟩ : V3 ℝ).dirE = (⟨1, 0, 0⟩ : V3 ℝ).toE := by
  unfold V3.dirE; rw [script_one, div_one, one_smul]

theorem script_repC : Rep binary64 (-⟨0, 2, 0⟩ : V3 ℝ) := by
  have h0 : binary64.rnd (-0) = .fin (-0) := by rw [neg_zero]; exact binary64.zero
  refine ⟨h0, ?_, h0⟩
  have : binary64.rnd ((-2 : ℤ) : ℝ) = .fin ((-2 : ℤ) : ℝ) := rnd64_int (by norm_num)
  simpa using this

/-- The part across the axis of a vector. -/
theorem script_across (x y z : ℝ) :
    across (⟨0, 1, 1⟩ : V3 ℝ).dirE (⟨x, y, z⟩ : V3 ℝ).toE = (⟨x, (y - z) / 2, (z - y) / 2⟩ : V3 ℝ).toE := by
  unfold across V3.dirE
  rw [script_len, real_inner_smul_right, inner_toE, smul_smul]
  have e : 1 / Real.sqrt 2 * dot (⟨x, y, z⟩ : V3 ℝ) ⟨0, 1, 1⟩ * (1 / Real.sqrt 2) = (y + z) / 2 := by
    have : Real.sqrt 2 * Real.sqrt 2 = 2 := Real.mul_self_sqrt (by norm_num)
    have h0 : Real.sqrt 2 ≠ 0 := by positivity
    field_simp
    simp only [dot]
    rw [show Real.sqrt 2 ^ 2 = 2 by rw [sq, this]]
    ring
  rw [e, ← toE_smul, ← toE_sub]
  congr 1
  apply V3.ext <;> simp <;> ring

/-- The ray of the script that starts at height `z`. -/
theorem script_ahead {z : ℝ} (hz : |z| ≤ 2) :
    CylinderAhead binary64 ⟨0, 2, 0⟩ ⟨-6, 2, z⟩ (⟨1, 0, 0⟩ : V3 ℝ).dirE (⟨0, 1, 1⟩ : V3 ℝ).dirE 2 (6 - Real.sqrt (4 - z ^ 2 / 2))
      (Real.sqrt (4 - z ^ 2 / 2)) 1 (133 / 20) (1 + inner ℝ (⟨0, 1, 1⟩ : V3 ℝ).dirE (⟨0, 0, 1⟩ : V3 ℝ).toE) ∧
    1 ≤ 1 + inner ℝ (⟨0, 1, 1⟩ : V3 ℝ).dirE (⟨0, 0, 1⟩ : V3 ℝ).toE := by
  have hu : binary64.u = 1 / 2 ^ 53 := rfl
  have z2 : z ^ 2 ≤ 4 := by have := sq_le_sq' (abs_le.mp hz).1 (abs_le.mp hz).2; linarith
  have z0 := sq_nonneg z
  obtain ⟨h, hh⟩ : ∃ h, h = Real.sqrt (4 - z ^ 2 / 2) := ⟨_, rfl⟩
  have h2 : h ^ 2 = 4 - z ^ 2 / 2 := by rw [hh, Real.sq_sqrt (by linarith)]
  have h0 : 0 ≤ h := hh ▸ Real.sqrt_nonneg _
  have hlo : 7 / 5 ≤ h := le_of_sq_le_sq (by linarith) h0
  have hhi : h ≤ 2 := le_of_sq_le_sq (by linarith) (by norm_num)
  rw [← hh]
  have na : ‖(⟨0, 1, 1⟩ : V3 ℝ).dirE‖ = 1 := dirE_norm script_axis.pos
  have hin : inner ℝ (⟨0, 1, 1⟩ : V3 ℝ).dirE (⟨0, 0, 1⟩ : V3 ℝ).toE = 1 / Real.sqrt 2 := by
    unfold V3.dirE
    rw [script_len, real_inner_smul_left, inner_toE]; simp [dot]
  rw [hin]
  have r0 : 0 < 1 / Real.sqrt 2 := by positivity
  have r1 : 1 / Real.sqrt 2 ≤ 1 := by
    rw [div_le_one (by positivity)]; exact Real.one_le_sqrt.mpr (by norm_num)
  rw [script_dirE]
  have hpt : (⟨-6, 2, z⟩ : V3 ℝ).toE + (6 - h) • (⟨1, 0, 0⟩ : V3 ℝ).toE - (⟨0, 2, 0⟩ : V3 ℝ).toE = (⟨-h, 0, z⟩ : V3 ℝ).toE := by
    rw [← toE_smul, ← toE_add, ← toE_sub]; congr 1; apply V3.ext <;> simp; ring
  have le : ∀ v : V3 ℝ, ∀ r : ℝ, 0 ≤ r → v.x ^ 2 + v.y ^ 2 + v.z ^ 2 ≤ r ^ 2 → ‖v.toE‖ ≤ r := by
    intro v r hr h
    refine le_of_sq_le_sq ?_ hr
    rw [normE_sq]; exact h
  refine ⟨⟨script_one, na, ?_, ?_, ?_, by linarith, by linarith, by linarith, ?_, ?_, ?_, by norm_num, by norm_num, by norm_num, by linarith,
    by linarith, ?_, ?_, ?_⟩, by linarith⟩
  · rw [hpt, script_across]
    have : ‖(⟨-h, (0 - z) / 2, (z - 0) / 2⟩ : V3 ℝ).toE‖ ^ 2 = 2 ^ 2 := by
      rw [normE_sq]; dsimp only; linarith [h2, (by ring : (-h) ^ 2 + ((0 - z) / 2) ^ 2 + ((z - 0) / 2) ^ 2 = h ^ 2 + z ^ 2 / 2)]
    exact (pow_left_inj₀ (_root_.norm_nonneg _) (by norm_num) two_ne_zero).mp this
  · rw [hpt, script_across, inner_toE]; simp [dot]
  · rw [script_across, normE_sq]; norm_num
  · exact le _ _ (by norm_num) (by dsimp only; norm_num; linarith)
  · rw [← toE_sub]
    exact le _ _ (by norm_num) (by simp only [sub_x, sub_y, sub_z]; norm_num; linarith)
  · rw [hpt]
    exact le _ _ (by norm_num) (by dsimp only; norm_num; linarith)
  · rw [hu]
    have : (1 : ℝ) ≤ (1 + 1 / Real.sqrt 2) * 1 * h ^ 2 := by nlinarith
    refine le_trans ?_ this; norm_num
  · rw [hu]
    have : (1 : ℝ) ≤ (1 + 1 / Real.sqrt 2) * 1 * h * (6 - h) := by
      have e1 : 1 ≤ h * (6 - h) := by nlinarith
      nlinarith
    refine le_trans ?_ this; norm_num
  · rw [hu]; norm_num; linarith

end Optics
