import Verif.Spec.SnellLength
import Verif.Lemmas.RoundedSnell

/-! # A direction that nearly obeys Snell's law is near the one that does -/

namespace Optics

theorem split_sq {M : E3} (hM1 : ‖M‖ = 1) (v : E3) : ‖v‖ ^ 2 = ‖v - inner ℝ v M • M‖ ^ 2 + inner ℝ v M ^ 2 := by
  rw [norm_sub_sq_real, inner_smul_right, _root_.norm_smul, hM1, Real.norm_eq_abs, mul_one, sq_abs]
  ring

theorem split_perp {M : E3} (hM1 : ‖M‖ = 1) (v : E3) : inner ℝ M (v - inner ℝ v M • M) = 0 := by
  rw [inner_sub_right, inner_smul_right, real_inner_self_eq_norm_sq, hM1, real_inner_comm]
  ring

theorem SnellExact.cosine {η₁ η₂ : ℝ} {M d e : E3} (h : SnellExact η₁ η₂ M d e) (hM1 : ‖M‖ = 1) :
    η₂ ^ 2 * (1 - inner ℝ e M ^ 2) = η₁ ^ 2 * (1 - inner ℝ d M ^ 2) := by
  obtain ⟨hT, hL, -⟩ := h
  have hz : η₂ • (e - inner ℝ e M • M) = η₁ • (d - inner ℝ d M • M) := by
    rw [← sub_eq_zero]
    obtain ⟨z, hz⟩ : ∃ z, z = η₂ • (e - inner ℝ e M • M) - η₁ • (d - inner ℝ d M • M) := ⟨_, rfl⟩
    rw [← hz]
    have hzM : inner ℝ M z = 0 := by
      rw [hz, inner_sub_right, inner_smul_right, inner_smul_right, split_perp hM1, split_perp hM1]; ring
    have h2 : inner ℝ z z = (0 : ℝ) := by
      have h := hT z hzM
      have h1 : inner ℝ z z = inner ℝ (η₂ • (e - inner ℝ e M • M) - η₁ • (d - inner ℝ d M • M)) z := by rw [← hz]
      rw [h1, inner_sub_left, inner_smul_left, inner_smul_left, inner_sub_left, inner_sub_left, inner_smul_left,
        inner_smul_left, hzM]
      simp only [conj_trivial]
      linarith
    exact inner_self_eq_zero.mp h2
  have hTe := congrArg (fun v => ‖v‖ ^ 2) hz
  simp only [_root_.norm_smul, mul_pow, Real.norm_eq_abs, sq_abs] at hTe
  rw [split_sq hM1 e, split_sq hM1 d] at hL
  linarith

theorem snell_close {w e M : E3} {u κ : ℝ} (hu : 0 < u) (hM1 : ‖M‖ = 1) (he1 : ‖e‖ ≤ 102 / 100)
    (ht : ∀ T : E3, inner ℝ M T = 0 → |inner ℝ (w - e) T| ≤ 36 * ‖T‖ * u) (hx : -(111 * u) ≤ -inner ℝ w M)
    (hl : |‖w‖ ^ 2 - ‖e‖ ^ 2| ≤ 591 * u) (hκe : κ = -inner ℝ e M) (hκbig : 20000 * u ≤ κ) :
    ‖w - e‖ * κ ≤ 720 * u := by
  have hκ0 : 0 ≤ κ := by linarith
  have hκ1 : κ ≤ 102 / 100 := by
    have := abs_real_inner_le_norm e M
    rw [hM1, mul_one] at this
    have := neg_abs_le (inner ℝ e M)
    linarith
  obtain ⟨v, hv⟩ : ∃ v, v = w - e := ⟨_, rfl⟩
  obtain ⟨T, hTd⟩ : ∃ T, T = v - inner ℝ v M • M := ⟨_, rfl⟩
  have hTM : inner ℝ M T = 0 := by rw [hTd]; exact split_perp hM1 v
  have hTn : ‖T‖ ≤ 36 * u := by
    have a := ht T hTM
    have b : inner ℝ v T = ‖T‖ ^ 2 := by
      have h1 : v = T + inner ℝ v M • M := by rw [hTd]; abel
      have h2 : inner ℝ v T = inner ℝ (T + inner ℝ v M • M) T := by rw [← h1]
      rw [h2, inner_add_left, inner_smul_left, hTM, mul_zero, add_zero, real_inner_self_eq_norm_sq]
    rw [← hv, b, abs_of_nonneg (sq_nonneg _)] at a
    by_contra hlt'
    push Not at hlt'
    have c : 0 < ‖T‖ := lt_trans (by positivity) hlt'
    have : ‖T‖ * (36 * u) < ‖T‖ * ‖T‖ := mul_lt_mul_of_pos_left hlt' c
    linarith
  obtain ⟨a, ha⟩ : ∃ a, a = -inner ℝ w M := ⟨_, rfl⟩
  rw [← ha] at hx
  have hwT : |‖w - inner ℝ w M • M‖ ^ 2 - ‖e - inner ℝ e M • M‖ ^ 2| ≤ 74 * u := by
    have k1 : ‖e - inner ℝ e M • M‖ ≤ 102 / 100 := by
      apply le_of_pow_le_pow_left₀ two_ne_zero (by norm_num)
      have h1 := split_sq hM1 e
      have h2 := sq_nonneg (inner ℝ e M)
      have h3 : ‖e‖ ^ 2 ≤ (102 / 100) ^ 2 := pow_le_pow_left₀ (_root_.norm_nonneg _) he1 2
      linarith
    have k2 : (w - inner ℝ w M • M) - (e - inner ℝ e M • M) = T := by
      rw [hTd, hv, inner_sub_left]; module
    have k3 := abs_norm_sub_norm_le (w - inner ℝ w M • M) (e - inner ℝ e M • M)
    rw [k2] at k3
    have k4 := k3.trans hTn
    have k5 := abs_le.mp k4
    rw [show ‖w - inner ℝ w M • M‖ ^ 2 - ‖e - inner ℝ e M • M‖ ^ 2 =
      (‖w - inner ℝ w M • M‖ - ‖e - inner ℝ e M • M‖) *
        (‖w - inner ℝ w M • M‖ + ‖e - inner ℝ e M • M‖) by ring]
    refine (abs_mul_le' (B := 2042 / 1000) k4 ?_).trans (by linarith)
    rw [abs_of_nonneg (add_nonneg (_root_.norm_nonneg _) (_root_.norm_nonneg _))]
    linarith [k5.2]
  have hsq : |a ^ 2 - κ ^ 2| ≤ 665 * u := by
    have q1 := split_sq hM1 w
    have q2 := split_sq hM1 e
    rw [show a ^ 2 - κ ^ 2 = (‖w‖ ^ 2 - ‖e‖ ^ 2) -
      (‖w - inner ℝ w M • M‖ ^ 2 - ‖e - inner ℝ e M • M‖ ^ 2) by rw [ha, hκe]; linarith]
    refine (abs_sub _ _).trans ?_
    linarith
  have hak : |a - κ| * κ ≤ 672 * u := by
    have h3 : 99 / 100 * κ ≤ a + κ := by linarith
    have h4 : |a - κ| * (99 / 100 * κ) ≤ |a - κ| * (a + κ) := mul_le_mul_of_nonneg_left h3 (abs_nonneg _)
    have h5 : |a - κ| * (a + κ) = |a ^ 2 - κ ^ 2| := by
      rw [show a ^ 2 - κ ^ 2 = (a - κ) * (a + κ) by ring, abs_mul, abs_of_nonneg (show 0 ≤ a + κ by linarith)]
    linarith
  rw [← hv]
  have hvT : ‖v‖ ≤ ‖T‖ + |a - κ| := by
    have h1 : v = T + inner ℝ v M • M := by rw [hTd]; abel
    have k := norm_add_le T (inner ℝ v M • M)
    rw [← h1, _root_.norm_smul, hM1, mul_one, Real.norm_eq_abs] at k
    have e2 : inner ℝ v M = -(a - κ) := by rw [hv, inner_sub_left, ha, hκe]; ring
    rw [e2, abs_neg] at k
    exact k
  have h6 : ‖v‖ * κ ≤ (‖T‖ + |a - κ|) * κ := mul_le_mul_of_nonneg_right hvT hκ0
  have h7 : ‖T‖ * κ ≤ 36 * u * (102 / 100) := mul_le_mul hTn hκ1 hκ0 (by positivity)
  linarith

theorem SnellExact.size {η₁ η₂ : ℝ} {M d e : E3} (h : SnellExact η₁ η₂ M d e) (h1 : η₁ ≤ 4) (h2 : 1 ≤ η₂)
    (hd : |‖d‖ - 1| ≤ 1 / 1000) (h0 : 0 < η₁ := by positivity) : ‖e‖ ≤ 102 / 100 := by
  have hd' := abs_le.mp hd
  have a : ‖d‖ ^ 2 - 1 ≤ 21 / 10000 := by nlinarith
  have b : η₁ ^ 2 * (‖d‖ ^ 2 - 1) ≤ 16 * (21 / 10000) := by
    rcases le_or_gt 0 (‖d‖ ^ 2 - 1) with h | h
    · exact mul_le_mul (by nlinarith) a h (by norm_num)
    · have := mul_neg_of_pos_of_neg (show 0 < η₁ ^ 2 by positivity) h
      linarith
  apply le_of_pow_le_pow_left₀ two_ne_zero (by norm_num)
  by_contra hn
  push Not at hn
  have : 1 * ((102 / 100) ^ 2 - 1) ≤ η₂ ^ 2 * (‖e‖ ^ 2 - 1) := by
    apply mul_le_mul (by nlinarith) (by linarith) (by norm_num) (by positivity)
  linarith [h.length]

theorem big_cos {u κ : ℝ} (hu : 0 < u) (hu' : u ≤ 1 / 1000000) (hκ0 : 0 ≤ κ) (hκ : 420 * u < κ ^ 2) : 20000 * u ≤ κ := by
  by_contra h
  push Not at h
  have : κ ^ 2 < (20000 * u) ^ 2 := pow_lt_pow_left₀ h hκ0 two_ne_zero
  nlinarith

theorem below_critical {u κ η₁ η₂ N : ℝ} {M d : E3} (hu : 0 < u) (hu' : u ≤ 1 / 1000000) (h0 : 0 ≤ η₁) (h1 : η₁ ≤ 4)
    (h2 : 1 ≤ η₂) (hM1 : ‖M‖ = 1) (hd : |‖d‖ - 1| ≤ 1 / 1000) (hN : |N - 1| ≤ 5 * u)
    (hcosine : η₂ ^ 2 * (1 - κ ^ 2) = η₁ ^ 2 * (1 - inner ℝ d M ^ 2))
    (hs : η₂ ^ 2 * (1 - 240 * u) ≤ η₁ ^ 2 * (1 - N ^ 2 * inner ℝ d M ^ 2)) : κ ^ 2 ≤ 420 * u := by
  have hη2 : 0 < η₂ ^ 2 := by positivity
  have hd' := abs_le.mp hd
  have b1 : |N ^ 2 - 1| ≤ 101 / 10 * u := by
    have hm' := abs_le.mp hN
    rw [show N ^ 2 - 1 = (N - 1) * (N + 1) by ring]
    refine (abs_mul_le' (B := 2001 / 1000) hN ?_).trans (by linarith)
    rw [abs_le]; constructor <;> linarith
  have b2 : |inner ℝ d M| ≤ 1001 / 1000 := by
    have := abs_real_inner_le_norm d M
    rw [hM1, mul_one] at this
    linarith
  have b3 : |inner ℝ d M * inner ℝ d M| ≤ 1003 / 1000 := (abs_mul_le' b2 b2).trans (by norm_num)
  have b4 := (abs_le.mp (abs_mul_le' b1 b3)).1
  have b5 : η₁ ^ 2 * (1 - N ^ 2 * inner ℝ d M ^ 2) ≤ η₁ ^ 2 * (1 - inner ℝ d M ^ 2) + η₁ ^ 2 * (1014 / 100 * u) := by
    rw [← mul_add]
    apply mul_le_mul_of_nonneg_left _ (by positivity)
    linarith
  have b6 : η₁ ^ 2 * (1014 / 100 * u) ≤ η₂ ^ 2 * (163 * u) := by
    have e1 : η₁ ^ 2 ≤ 16 := by nlinarith
    have e2 : 1 ≤ η₂ ^ 2 := by nlinarith
    have e3 := mul_le_mul_of_nonneg_right e1 (show 0 ≤ 1014 / 100 * u by positivity)
    have e4 := mul_le_mul_of_nonneg_right e2 (show 0 ≤ 163 * u by positivity)
    linarith
  rw [← hcosine] at b5
  have b7 : η₂ ^ 2 * (1 - 240 * u) ≤ η₂ ^ 2 * (1 - κ ^ 2 + 163 * u) := by linarith
  have := le_of_mul_le_mul_left b7 hη2
  linarith

end Optics
