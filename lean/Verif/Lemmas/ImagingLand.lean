import Verif.Lemmas.ImagingRun
import Verif.Spec.RoundedImaging

/-! # Where a ray from an ideal lens meets a parallel plane -/

namespace Optics
open V3
variable {R : Rounding}

/-- The direction behind the lens leads away from it, not too obliquely. -/
theorem turned_slope {f B c κ a κ' σ : ℝ} {M w d P P' q : E3} (hs : ThinSizes R f B c) (hM : ‖M‖ = 1) (hw1 : ‖w‖ ≤ 1 + 1 / 100000)
    (hσ : σ ^ 2 = 1) (hσw : inner ℝ M w = σ * c) (hκ0 : 0 < κ) (hκ : κ ≤ c)
    (k2 : |inner ℝ M (P' - P)| ≤ 70 * (R.u * B)) (k3 : ‖P' - q‖ ≤ 22 * (R.u * B)) (ha : ‖P' - P‖ + 22 * (R.u * B) ≤ a)
    (k4 : ‖‖(f / c) • w - (q - P)‖ • d - ((f / c) • w - (q - P))‖ ≤ 50 * (R.u * (B / c ^ 2)) ∨
      ‖‖(f / c) • w - (P' - P)‖ • d - ((f / c) • w - (P' - P))‖ ≤ 62 * (R.u * (B / c ^ 2)) + 8 / 10 ^ 8 * f)
    (hfine : 16000 * (R.u * (B / c ^ 2)) ≤ f)
    (hκ' : κ' * (101 / 100 * (f / κ + a)) ≤ 99 / 100 * f) : κ' ≤ σ * inner ℝ M d := by
  have hu := R.u_pos
  obtain ⟨hX, hBX, hGX, hXb, huX, huBX, huX1⟩ := hs.facts
  have hB := hs.one_le
  have hf := hs.f_pos
  have hcp : 0 < c := hκ0.trans_le hκ
  have huB0 : 0 < R.u * B := by positivity
  have huX0 : 0 < R.u * (B / c ^ 2) := by positivity
  have huBX' : R.u * B ≤ 1001 / 1000 * (R.u * (B / c ^ 2)) := by
    have hc2 : c ^ 2 ≤ 1001 / 1000 := by nlinarith [hs.hi]
    have e : R.u * B = c ^ 2 * (R.u * (B / c ^ 2)) := by field_simp
    rw [e]
    exact mul_le_mul_of_nonneg_right hc2 huX0.le
  obtain ⟨y, hy1, hy2, hy3⟩ : ∃ y : E3, |inner ℝ M (y - P)| ≤ 92 * (R.u * B) ∧ ‖y - P‖ ≤ a ∧
      ‖‖(f / c) • w - (y - P)‖ • d - ((f / c) • w - (y - P))‖ ≤ 62 * (R.u * (B / c ^ 2)) + 8 / 10 ^ 8 * f := by
    rcases k4 with k4 | k4
    · refine ⟨q, ?_, ?_, by linarith [show (0:ℝ) < 8 / 10 ^ 8 * f by positivity]⟩
      · have e : inner ℝ M (q - P) = inner ℝ M (P' - P) - inner ℝ M (P' - q) := by rw [← inner_sub_right]; congr 1; abel
        have := abs_real_inner_le_norm M (P' - q)
        rw [hM, one_mul] at this
        rw [e]
        have := abs_sub (inner ℝ M (P' - P)) (inner ℝ M (P' - q))
        linarith
      · have e : q - P = (P' - P) - (P' - q) := by abel
        rw [e]
        have := norm_sub_le (P' - P) (P' - q)
        linarith
    · exact ⟨P', by linarith, by linarith, k4⟩
  obtain ⟨ℓ, hℓ⟩ : ∃ ℓ, ℓ = ‖(f / c) • w - (y - P)‖ := ⟨_, rfl⟩
  have hℓ0 : 0 ≤ ℓ := by rw [hℓ]; exact _root_.norm_nonneg _
  have hℓ1 : ℓ ≤ 101 / 100 * (f / κ + a) := by
    have g1 := norm_sub_le ((f / c) • w) (y - P)
    rw [_root_.norm_smul, Real.norm_of_nonneg (by positivity), ← hℓ] at g1
    have g2 : f / c * ‖w‖ ≤ f / κ * (1 + 1 / 100000) :=
      mul_le_mul (div_le_div_of_nonneg_left hf.le hκ0 hκ) hw1 (_root_.norm_nonneg _) (by positivity)
    have g3 : 0 < f / κ := by positivity
    have := _root_.norm_nonneg (y - P)
    linarith
  rw [← hℓ] at hy3
  have g1 := abs_real_inner_le_norm M (ℓ • d - ((f / c) • w - (y - P)))
  rw [hM, one_mul] at g1
  have e : inner ℝ M (ℓ • d - ((f / c) • w - (y - P))) = ℓ * inner ℝ M d - (f / c) * inner ℝ M w + inner ℝ M (y - P) := by
    rw [inner_sub_right, inner_sub_right, inner_smul_right, inner_smul_right]; ring
  have e2 : (f / c) * inner ℝ M w = σ * f := by rw [hσw]; field_simp
  rw [e, e2] at g1
  have g2 : |σ * (ℓ * inner ℝ M d - σ * f + inner ℝ M (y - P))| ≤ 62 * (R.u * (B / c ^ 2)) + 8 / 10 ^ 8 * f := by
    have : |σ| = 1 := by rw [← sq_eq_sq₀ (abs_nonneg _) zero_le_one, sq_abs, hσ, one_pow]
    rw [abs_mul, this, one_mul]
    exact g1.trans hy3
  have g3 : |σ * inner ℝ M (y - P)| ≤ 92 * (R.u * B) := by
    have : |σ| = 1 := by rw [← sq_eq_sq₀ (abs_nonneg _) zero_le_one, sq_abs, hσ, one_pow]
    rw [abs_mul, this, one_mul]
    exact hy1
  have e3 : σ * (ℓ * inner ℝ M d - σ * f + inner ℝ M (y - P)) = ℓ * (σ * inner ℝ M d) - f + σ * inner ℝ M (y - P) := by
    have : σ * (σ * f) = f := by rw [← mul_assoc, ← sq, hσ, one_mul]
    linear_combination -this
  rw [e3] at g2
  have g4 := (abs_le.mp g2).1
  have g5 := (abs_le.mp g3).2
  have g6 : 99 / 100 * f ≤ ℓ * (σ * inner ℝ M d) := by
    have : (8 : ℝ) / 10 ^ 8 * f ≤ 1 / 10000 * f := mul_le_mul_of_nonneg_right (by norm_num) hf.le
    linarith
  by_contra hlt
  push Not at hlt
  rcases hℓ0.eq_or_lt with h0 | h0
  · rw [← h0, zero_mul] at g6; linarith
  · rcases le_or_gt κ' 0 with hk | hk
    · nlinarith
    · have a1 : ℓ * κ' ≤ 101 / 100 * (f / κ + a) * κ' := mul_le_mul_of_nonneg_right hℓ1 hk.le
      have a2 : ℓ * (σ * inner ℝ M d) < ℓ * κ' := mul_lt_mul_of_pos_left hlt h0
      linarith

/-- Near the image: where the ray meets a plane in which, or almost in which, the image lies. -/
theorem land_near {M d P' I C : E3} (hM : ‖M‖ = 1) {σ κ' ε η t τ : ℝ} (hκ' : 0 < κ') (hd1 : ‖d‖ ≤ 1 + 1 / 100000) (hσ : σ ^ 2 = 1)
    (hk : κ' ≤ σ * inner ℝ M d) (ht : ‖P' + t • d - I‖ ≤ ε) (hη : |inner ℝ M (I - C)| ≤ η) (hτ : τ * inner ℝ M d = inner ℝ M (C - P')) :
    ‖P' + τ • d - I‖ ≤ ε + 101 / 100 * ((ε + η) / κ') := by
  have h1 := abs_real_inner_le_norm M (P' + t • d - I)
  rw [hM, one_mul] at h1
  have e : (t - τ) * inner ℝ M d = inner ℝ M (P' + t • d - I) + inner ℝ M (I - C) := by
    rw [sub_mul, hτ, inner_sub_right, inner_sub_right, inner_add_right, inner_smul_right, inner_sub_right]; ring
  have h2 : |t - τ| * κ' ≤ ε + η := by
    have hσ1 : |σ| = 1 := by rw [← sq_eq_sq₀ (abs_nonneg _) zero_le_one, sq_abs, hσ, one_pow]
    have h3 : κ' ≤ |inner ℝ M d| := by
      have := (le_abs_self (σ * inner ℝ M d))
      rw [abs_mul, hσ1, one_mul] at this
      linarith
    refine (mul_le_mul_of_nonneg_left h3 (abs_nonneg _)).trans ?_
    rw [← abs_mul, e]
    refine (abs_add_le _ _).trans ?_
    linarith
  have h4 : |t - τ| ≤ (ε + η) / κ' := by rw [le_div_iff₀ hκ']; exact h2
  have e2 : P' + τ • d - I = (P' + t • d - I) - (t - τ) • d := by rw [sub_smul]; abel
  rw [e2]
  refine (norm_sub_le _ _).trans ?_
  rw [_root_.norm_smul, Real.norm_eq_abs]
  have h5 : |t - τ| * ‖d‖ ≤ (ε + η) / κ' * (1 + 1 / 100000) := mul_le_mul h4 hd1 (_root_.norm_nonneg _) ((abs_nonneg _).trans h4)
  have h6 : 0 ≤ (ε + η) / κ' := (abs_nonneg _).trans h4
  linarith

end Optics
