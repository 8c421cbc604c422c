import Verif.Lemmas.RoundedRotation
import Verif.Props.Rotations
/-!
C109: `rotation_matrix_axis_angle` with rounded arithmetic.
-/

namespace Optics
open V3

variable {R : Rounding}

theorem unitVector_dirE (v : V3 ℝ) : (unitVector v).toE = v.dirE := by
  unfold unitVector V3.dirE
  rw [norm_toE]
  ext i; fin_cases i <;> simp [toE] <;> ring

theorem sane_unit {v : V3 ℝ} (hv : SaneLength v) : ‖(unitVector v).toE‖ = 1 := by
  rw [unitVector_dirE]
  exact dirE_norm (lt_of_lt_of_le (by positivity) hv.1)

/-- **C109: multiplying a vector by the computed matrix turns it about the axis by the angle**, right-handed, with an
error of at most `625u` of its length (of 1, for vectors shorter than 1); for every axis whose squared length neither
underflows nor overflows and every angle up to 5 radians, which covers all turns. -/
theorem C109_turn (axis v : V3 ℝ) (θ X : ℝ) (ha : SaneLength axis) (hθ : |θ| ≤ 5) (hX : 1 ≤ X) (hX' : X ≤ 10 ^ 100)
    (hv : ‖v.toE‖ ≤ X) :
    ∃ w : V3 ℝ, M3.mulVec (rotationMatrixAxisAngle (axis.fl : V3 (Fl R)) (Fl.fin θ)) v.fl = w.fl ∧
      ‖w.toE - (rodrigues (unitVector axis) θ v).toE‖ ≤ 625 * R.u * X := by
  have hu := R.u_pos
  obtain ⟨t, ht, dt⟩ := unitVector_near (R := R) ha
  rw [← unitVector_dirE] at dt
  exact turn_axis_scaled (sane_unit ha) ht (by linarith) hθ (by linarith) hX (hX'.trans (by norm_num))

/-- **C109: lengths are kept** to the same accuracy. -/
theorem C109_length (axis v : V3 ℝ) (θ X : ℝ) (ha : SaneLength axis) (hθ : |θ| ≤ 5) (hX : 1 ≤ X) (hX' : X ≤ 10 ^ 100)
    (hv : ‖v.toE‖ ≤ X) :
    ∃ w : V3 ℝ, M3.mulVec (rotationMatrixAxisAngle (axis.fl : V3 (Fl R)) (Fl.fin θ)) v.fl = w.fl ∧
      |‖w.toE‖ - ‖v.toE‖| ≤ 625 * R.u * X := by
  obtain ⟨w, hw, dw⟩ := C109_turn (R := R) axis v θ X ha hθ hX hX' hv
  refine ⟨w, hw, ?_⟩
  have := abs_norm_sub_norm_le w.toE (rodrigues (unitVector axis) θ v).toE
  rw [rodrigues_norm (sane_unit ha)] at this
  linarith

/-- **C109: the axis stays** where it is, to the same accuracy. -/
theorem C109_axis (axis : V3 ℝ) (θ : ℝ) (ha : SaneLength axis) (hθ : |θ| ≤ 5) :
    ∃ w : V3 ℝ, M3.mulVec (rotationMatrixAxisAngle (axis.fl : V3 (Fl R)) (Fl.fin θ)) axis.fl = w.fl ∧
      ‖w.toE - axis.toE‖ ≤ 625 * R.u * max 1 ‖axis.toE‖ := by
  obtain ⟨w, hw, dw⟩ := C109_turn (R := R) axis axis θ (max 1 ‖axis.toE‖) ha hθ (le_max_left _ _)
    (max_le (by norm_num) ha.2) (le_max_right _ _)
  refine ⟨w, hw, ?_⟩
  have h0 : axis ≠ ⟨0, 0, 0⟩ := by
    intro h
    have h1 := ha.1
    rw [h, norm_toE] at h1
    simp [V3.norm, dot] at h1
    norm_num at h1
  obtain ⟨-, h1, h2, -⟩ := C06_axis_angle axis h0 θ 0
  rw [h2] at h1
  rwa [h1] at dw

/-- **C109: two turns about the same axis add up**, to twice the accuracy of one. -/
theorem C109_compose (axis v : V3 ℝ) (α β X : ℝ) (ha : SaneLength axis) (hα : |α| ≤ 5) (hβ : |β| ≤ 5) (hX : 1 ≤ X)
    (hX' : X ≤ 10 ^ 100) (hv : ‖v.toE‖ ≤ X) :
    ∃ w : V3 ℝ, M3.mulVec (rotationMatrixAxisAngle (axis.fl : V3 (Fl R)) (Fl.fin β))
        (M3.mulVec (rotationMatrixAxisAngle (axis.fl : V3 (Fl R)) (Fl.fin α)) v.fl) = w.fl ∧
      ‖w.toE - (rodrigues (unitVector axis) (β + α) v).toE‖ ≤ 1250 * R.u * X := by
  have hu := R.u_pos
  obtain ⟨h5, h6⟩ := five_u (R := R)
  obtain ⟨x, hx, dx⟩ := C109_turn (R := R) axis v α X ha hα hX hX' hv
  have nx : ‖x.toE‖ ≤ X * (1 + 1 / 1000) := by
    have := norm_add_le (x.toE - (rodrigues (unitVector axis) α v).toE) (rodrigues (unitVector axis) α v).toE
    rw [sub_add_cancel, rodrigues_norm (sane_unit ha)] at this
    have h7 : 625 * R.u * X ≤ 1 / 1000 * X := mul_le_mul_of_nonneg_right (by linarith) (by linarith)
    linarith
  obtain ⟨t, ht, dt⟩ := unitVector_near (R := R) ha
  rw [← unitVector_dirE] at dt
  obtain ⟨w, hw, dw⟩ := turn_axis_scaled (R := R) (sane_unit ha) ht (by linarith) hβ nx hX (hX'.trans (by norm_num))
  refine ⟨w, by rw [hx, hw], ?_⟩
  have e : rodrigues (unitVector axis) β (rodrigues (unitVector axis) α v) = rodrigues (unitVector axis) (β + α) v := by
    have hT := sane_unit ha
    have h1 := axisAngle_rodrigues (unit_ne_zero hT) β (rodrigues (unitVector axis) α v)
    have h2 := axisAngle_rodrigues (unit_ne_zero hT) α v
    have h3 := axisAngle_rodrigues (unit_ne_zero hT) (β + α) v
    rw [unit_unitVector hT] at h1 h2 h3
    rw [← h1, ← h2, ← h3, ← (C06_axis_angle _ (unit_ne_zero hT) β α).2.2.2.1, mulVec_mul]
  have h1 := rodrigues_isom (sane_unit ha) β x (rodrigues (unitVector axis) α v)
  rw [e] at h1
  have h2 := norm_add_le (w.toE - (rodrigues (unitVector axis) β x).toE)
    ((rodrigues (unitVector axis) β x).toE - (rodrigues (unitVector axis) (β + α) v).toE)
  rw [sub_add_sub_cancel, h1] at h2
  linarith

/-- **C109: turning back** by the opposite angle undoes a turn, to twice the accuracy of one. -/
theorem C109_back (axis v : V3 ℝ) (θ X : ℝ) (ha : SaneLength axis) (hθ : |θ| ≤ 5) (hX : 1 ≤ X)
    (hX' : X ≤ 10 ^ 100) (hv : ‖v.toE‖ ≤ X) :
    ∃ w : V3 ℝ, M3.mulVec (rotationMatrixAxisAngle (axis.fl : V3 (Fl R)) (-Fl.fin θ))
        (M3.mulVec (rotationMatrixAxisAngle (axis.fl : V3 (Fl R)) (Fl.fin θ)) v.fl) = w.fl ∧
      ‖w.toE - v.toE‖ ≤ 1250 * R.u * X := by
  obtain ⟨w, hw, dw⟩ := C109_compose (R := R) axis v θ (-θ) X ha hθ (by rwa [abs_neg]) hX hX' hv
  refine ⟨w, hw, ?_⟩
  have e : rodrigues (unitVector axis) (-θ + θ) v = v := by
    rw [neg_add_cancel]; unfold rodrigues; ext <;> simp
  rwa [e] at dw

/-- **C109: the angle 0 gives exactly the identity matrix**, whatever the axis, if 1 is a number of the arithmetic. -/
theorem C109_zero (axis : V3 ℝ) (ha : SaneLength axis) (hone : R.rnd 1 = .fin 1) :
    rotationMatrixAxisAngle (axis.fl : V3 (Fl R)) (Fl.fin 0) = (M3.eye : M3 ℝ).fl := by
  obtain ⟨t, ht, dt⟩ := unitVector_near (R := R) ha
  obtain ⟨l, hl, el⟩ := two_near (R := R)
  obtain ⟨h5, h6⟩ := five_u (R := R)
  have hl0 : l ≠ 0 := by intro h; rw [h] at el; norm_num at el; linarith
  have z : R.rnd 0 = .fin 0 := R.zero
  have one : (⟨.fin 1⟩ : Fl R) = Fl.fin 1 := rfl
  have zero : (⟨.fin 0⟩ : Fl R) = Fl.fin 0 := rfl
  have hw' : (axis.fl : V3 (Fl R)) / PyNum.sqrt (dot (axis.fl : V3 (Fl R)) axis.fl) = t.fl := ht
  unfold rotationMatrixAxisAngle
  simp only [hw', hl, fl_div _ _ hl0, zero_div, z, zero, fl_cos, fl_sin, Real.cos_zero, Real.sin_zero, hone, one]
  simp only [V3.fl, fl_neg, fl_mul, mul_zero, z, zero, fl_add, fl_sub, zero_mul, sub_zero, add_zero, zero_add, mul_one, hone, one]
  norm_num [M3.fl, M3.eye, V3.fl]

/-- **C109: the project's own unit test of this function passes with doubles**, and any other arithmetic as accurate:
for the axis `(1, 0, 0)`, any angle within `1e-9` of `±π/2` or `±π/4` and the vector `(0, 1, 0)` the result is within
`1e-8` of `(0, cos θ, sin θ)`, `np.isclose`'s tolerance. -/
theorem C109_unit_test (hu : R.u ≤ 1 / 10 ^ 12) (θ₀ θ : ℝ) (h0 : |θ₀| ≤ Real.pi / 2) (hθ : |θ - θ₀| ≤ 1 / 10 ^ 9) :
    ∃ w : V3 ℝ, M3.mulVec (rotationMatrixAxisAngle (V3.fl ⟨1, 0, 0⟩ : V3 (Fl R)) (Fl.fin θ)) (V3.fl ⟨0, 1, 0⟩) = w.fl ∧
      |w.x| ≤ 1 / 10 ^ 8 ∧ |w.y - Real.cos θ₀| ≤ 1 / 10 ^ 8 ∧ |w.z - Real.sin θ₀| ≤ 1 / 10 ^ 8 := by
  have n1 : ‖(⟨1, 0, 0⟩ : V3 ℝ).toE‖ = 1 := by rw [norm_toE]; simp [V3.norm, dot]
  have n2 : ‖(⟨0, 1, 0⟩ : V3 ℝ).toE‖ = 1 := by rw [norm_toE]; simp [V3.norm, dot]
  have hθ5 : |θ| ≤ 5 := by
    have := abs_add_le (θ - θ₀) θ₀
    rw [sub_add_cancel] at this
    have := Real.pi_le_four
    have : (1 : ℝ) / 10 ^ 9 ≤ 1 := by norm_num
    linarith
  obtain ⟨w, hw, dw⟩ := C109_turn (R := R) ⟨1, 0, 0⟩ ⟨0, 1, 0⟩ θ 1 (sane_of_near (by rw [n1]; norm_num)) hθ5 le_rfl
    (by norm_num) n2.le
  refine ⟨w, hw, ?_⟩
  rw [unit_unitVector n1] at dw
  have e := rodrigues_angle n1 θ θ₀ ⟨0, 1, 0⟩
  rw [n2, mul_one] at e
  have h := norm_add_le (w.toE - (rodrigues ⟨1, 0, 0⟩ θ ⟨0, 1, 0⟩).toE)
    ((rodrigues ⟨1, 0, 0⟩ θ ⟨0, 1, 0⟩).toE - (rodrigues ⟨1, 0, 0⟩ θ₀ ⟨0, 1, 0⟩).toE)
  rw [sub_add_sub_cancel, ← toE_sub w] at h
  have hb : ‖(w - rodrigues ⟨1, 0, 0⟩ θ₀ ⟨0, 1, 0⟩).toE‖ ≤ 1 / 10 ^ 8 := by
    refine h.trans ?_
    have : (625 : ℝ) * (1 / 10 ^ 12) * 1 + 1 / 10 ^ 9 ≤ 1 / 10 ^ 8 := by norm_num
    linarith
  have er : rodrigues ⟨1, 0, 0⟩ θ₀ ⟨0, 1, 0⟩ = ⟨0, Real.cos θ₀, Real.sin θ₀⟩ := by
    unfold rodrigues; ext <;> simp [cross, dot]
  rw [er] at hb
  obtain ⟨a, b, c⟩ := comp_le_norm (w - ⟨0, Real.cos θ₀, Real.sin θ₀⟩)
  simp only [sub_x, sub_y, sub_z, sub_zero] at a b c
  exact ⟨a.trans hb, b.trans hb, c.trans hb⟩

/-- The hypotheses can be met with doubles: the unit test's second case. -/
example : ∃ w : V3 ℝ, M3.mulVec (rotationMatrixAxisAngle (V3.fl ⟨1, 0, 0⟩ : V3 D64) (Fl.fin (-(Real.pi / 2)))) (V3.fl ⟨0, 1, 0⟩) = w.fl ∧
    |w.x| ≤ 1 / 10 ^ 8 ∧ |w.y - 0| ≤ 1 / 10 ^ 8 ∧ |w.z - (-1)| ≤ 1 / 10 ^ 8 := by
  have h := C109_unit_test (R := binary64) (by show (1 : ℝ) / 2 ^ 53 ≤ _; norm_num) (-(Real.pi / 2)) (-(Real.pi / 2))
    (by rw [abs_neg, abs_of_pos (by positivity)]) (by rw [sub_self, abs_zero]; norm_num)
  rwa [Real.cos_neg, Real.cos_pi_div_two, Real.sin_neg, Real.sin_pi_div_two] at h

/-- And a long vector turned about a long axis. -/
example : ∃ w : V3 ℝ, M3.mulVec (rotationMatrixAxisAngle (V3.fl ⟨0, 0, 7⟩ : V3 D64) (Fl.fin 2)) (V3.fl ⟨300, 0, 0⟩) = w.fl ∧
    |‖w.toE‖ - 300| ≤ 625 * (1 / 2 ^ 53) * 300 := by
  have n1 : ‖(⟨0, 0, 7⟩ : V3 ℝ).toE‖ = 7 := by
    rw [norm_toE]; simp [V3.norm, dot]
  have n2 : ‖(⟨300, 0, 0⟩ : V3 ℝ).toE‖ = 300 := by
    rw [norm_toE]; simp [V3.norm, dot]
  have h := C109_length (R := binary64) ⟨0, 0, 7⟩ ⟨300, 0, 0⟩ 2 300 ⟨by rw [n1]; norm_num, by rw [n1]; norm_num⟩ (by norm_num) (by norm_num) (by norm_num) n2.le
  rwa [n2] at h

end Optics
