import Verif.Lemmas.SnellClose
import Verif.Lemmas.RoundedSnell

/-! # Refraction depends continuously on the direction and the normal -/

namespace Optics

theorem SnellExact.parts {η₁ η₂ : ℝ} {M d e : E3} (h : SnellExact η₁ η₂ M d e) (hM1 : ‖M‖ = 1) :
    η₂ • (e - inner ℝ e M • M) = η₁ • (d - inner ℝ d M • M) := by
  obtain ⟨hT, hL, -⟩ := h
  rw [← sub_eq_zero]
  obtain ⟨z, hz⟩ : ∃ z, z = η₂ • (e - inner ℝ e M • M) - η₁ • (d - inner ℝ d M • M) := ⟨_, rfl⟩
  rw [← hz]
  have hzM : inner ℝ M z = 0 := by
    rw [hz, inner_sub_right, inner_smul_right, inner_smul_right, split_perp hM1, split_perp hM1]; ring
  have h2 : inner ℝ z z = (0 : ℝ) := by
    have h := hT z hzM
    nth_rewrite 1 [hz]
    rw [inner_sub_left, inner_smul_left, inner_smul_left, inner_sub_left, inner_sub_left, inner_smul_left, inner_smul_left, hzM]
    simp only [conj_trivial]
    linarith
  exact inner_self_eq_zero.mp h2

theorem SnellExact.form {η₁ η₂ : ℝ} {M d e : E3} (h : SnellExact η₁ η₂ M d e) (hM1 : ‖M‖ = 1) (h2 : 0 < η₂) :
    e = (η₁ / η₂) • (d - inner ℝ d M • M) + inner ℝ e M • M := by
  have hp := h.parts hM1
  have : e - inner ℝ e M • M = (η₁ / η₂) • (d - inner ℝ d M • M) := by
    rw [div_eq_inv_mul, mul_smul, ← hp, smul_smul, inv_mul_cancel₀ h2.ne', one_smul]
  rw [← this]; abel

/-- Below the critical angle there is a refracted direction. -/
theorem snellExact_exists {η₁ η₂ : ℝ} {M d : E3} (h2 : 0 < η₂) (hM1 : ‖M‖ = 1)
    (hc : η₁ ^ 2 * (1 - inner ℝ d M ^ 2) ≤ η₂ ^ 2) : ∃ e, SnellExact η₁ η₂ M d e := by
  obtain ⟨κ, hκ⟩ : ∃ κ, κ = Real.sqrt (1 - (η₁ / η₂) ^ 2 * (1 - inner ℝ d M ^ 2)) := ⟨_, rfl⟩
  have hκ0 : 0 ≤ κ := by rw [hκ]; exact Real.sqrt_nonneg _
  have hκ2 : κ ^ 2 = 1 - (η₁ / η₂) ^ 2 * (1 - inner ℝ d M ^ 2) := by
    rw [hκ, Real.sq_sqrt]
    rw [div_pow, div_mul_eq_mul_div, sub_nonneg, div_le_one (by positivity)]
    exact hc
  obtain ⟨T, hT⟩ : ∃ T, T = d - inner ℝ d M • M := ⟨_, rfl⟩
  have hMT : inner ℝ M T = 0 := by rw [hT]; exact split_perp hM1 d
  have hTT : ‖d‖ ^ 2 = ‖T‖ ^ 2 + inner ℝ d M ^ 2 := by rw [hT]; exact split_sq hM1 d
  have hMM : inner ℝ M M = (1 : ℝ) := by rw [real_inner_self_eq_norm_sq, hM1]; norm_num
  refine ⟨(η₁ / η₂) • T - κ • M, ?_, ?_, ?_⟩
  · intro S hS
    rw [inner_sub_left, inner_smul_left, inner_smul_left, hS, hT, inner_sub_left, inner_smul_left, hS]
    simp only [conj_trivial]
    field_simp
    ring
  · rw [norm_sub_sq_real, inner_smul_left, inner_smul_right, real_inner_comm, hMT, _root_.norm_smul, _root_.norm_smul, mul_pow,
      mul_pow, Real.norm_eq_abs, Real.norm_eq_abs, sq_abs, sq_abs, hM1, hκ2, hTT]
    field_simp
    ring
  · rw [inner_sub_left, inner_smul_left, inner_smul_left, real_inner_comm, hMT, hMM]
    simp only [conj_trivial]
    linarith

theorem SnellExact.refracted {η₁ η₂ : ℝ} {M d e : E3} (h : SnellExact η₁ η₂ M d e) (hM1 : ‖M‖ = 1) (h2 : 0 < η₂)
    (hd : ‖d‖ = 1) (hlt : inner ℝ d M ≤ 0) : Refracted η₁ η₂ M d e where
  unit := by
    have := h.length
    rw [hd] at this
    have h3 : ‖e‖ ^ 2 = 1 := by
      have : η₂ ^ 2 * (‖e‖ ^ 2 - 1) = 0 := by rw [this]; ring
      rcases mul_eq_zero.mp this with h | h
      · exact absurd h (by positivity)
      · linarith
    exact (pow_eq_one_iff_of_nonneg (_root_.norm_nonneg _) two_ne_zero).mp h3
  surface := (h.parts hM1).symm
  farSide := mul_nonneg_of_nonpos_of_nonpos hlt h.across

/-- Two refractions with nearby directions and normals. -/
theorem snell_perturb {η₁ η₂ : ℝ} {M M' d d' e e' : E3} (h1 : 0 < η₁) (h1' : η₁ ≤ 4) (h2 : 1 ≤ η₂) (hM : ‖M‖ = 1)
    (hM' : ‖M'‖ = 1) (H : SnellExact η₁ η₂ M d e) (H' : SnellExact η₁ η₂ M' d' e') (hd : |‖d‖ - 1| ≤ 1 / 1000)
    (hd' : |‖d'‖ - 1| ≤ 1 / 1000) {a b r κ : ℝ} (ha : ‖d - d'‖ ≤ a) (hb : ‖M - M'‖ ≤ b) (hr : r = η₁ / η₂)
    (hκ : κ = -inner ℝ e M) :
    κ * ‖e - e'‖ ≤ 102 / 100 * (2 * (r * a) + 202 / 100 * (r * b) + 102 / 100 * b) + r ^ 2 * (202 / 100 * a + 205 / 100 * b) := by
  have p2 : 0 < η₂ := by linarith
  have r0 : 0 < r := by rw [hr]; positivity
  have s := H.size h1' h2 hd
  have s' := H'.size h1' h2 hd'
  have f := H.form hM p2
  have f' := H'.form hM' p2
  have c := H.cosine hM
  have c' := H'.cosine hM'
  have hκ0 : 0 ≤ κ := by rw [hκ]; linarith [H.across]
  obtain ⟨κ', hκ'⟩ : ∃ κ', κ' = -inner ℝ e' M' := ⟨_, rfl⟩
  have hκ'0 : 0 ≤ κ' := by rw [hκ']; linarith [H'.across]
  have hκ1 : κ ≤ 102 / 100 := by
    have := abs_real_inner_le_norm e M
    rw [hM, mul_one] at this
    have := neg_abs_le (inner ℝ e M)
    linarith
  have hκ'1 : κ' ≤ 102 / 100 := by
    have := abs_real_inner_le_norm e' M'
    rw [hM', mul_one] at this
    have := neg_abs_le (inner ℝ e' M')
    linarith
  have dn : ‖d‖ ≤ 1001 / 1000 := by linarith [(abs_le.mp hd).2]
  have dn' : ‖d'‖ ≤ 1001 / 1000 := by linarith [(abs_le.mp hd').2]
  obtain ⟨x, hx⟩ : ∃ x, x = inner ℝ d M := ⟨_, rfl⟩
  obtain ⟨x', hx'⟩ : ∃ x, x = inner ℝ d' M' := ⟨_, rfl⟩
  have xb : |x| ≤ 1001 / 1000 := by
    have := abs_real_inner_le_norm d M
    rw [hM, mul_one] at this
    rw [hx]; linarith
  have xb' : |x'| ≤ 1001 / 1000 := by
    have := abs_real_inner_le_norm d' M'
    rw [hM', mul_one] at this
    rw [hx']; linarith
  have a0 : 0 ≤ a := (_root_.norm_nonneg _).trans ha
  have b0 : 0 ≤ b := (_root_.norm_nonneg _).trans hb
  have xx : |x - x'| ≤ a + 101 / 100 * b := by
    have e1 : x - x' = inner ℝ (d - d') M + inner ℝ d' (M - M') := by
      rw [hx, hx', inner_sub_left, inner_sub_right]; ring
    rw [e1]
    have i1 := abs_add_le (inner ℝ (d - d') M) (inner ℝ d' (M - M'))
    have i2 := abs_real_inner_le_norm (d - d') M
    have i3 := abs_real_inner_le_norm d' (M - M')
    rw [hM, mul_one] at i2
    have i4 : ‖d'‖ * ‖M - M'‖ ≤ 101 / 100 * b := mul_le_mul (by linarith) hb (_root_.norm_nonneg _) (by norm_num)
    linarith
  have kk : κ * |κ - κ'| ≤ r ^ 2 * (202 / 100 * a + 205 / 100 * b) := by
    have e1 : (κ - κ') * (κ + κ') = r ^ 2 * ((x - x') * (x + x')) := by
      have k1 : κ ^ 2 = 1 - r ^ 2 * (1 - x ^ 2) := by
        rw [show inner ℝ e M ^ 2 = κ ^ 2 by rw [hκ, neg_sq], ← hx] at c
        rw [hr, div_pow]; field_simp; linarith
      have k2 : κ' ^ 2 = 1 - r ^ 2 * (1 - x' ^ 2) := by
        rw [show inner ℝ e' M' ^ 2 = κ' ^ 2 by rw [hκ', neg_sq], ← hx'] at c'
        rw [hr, div_pow]; field_simp; linarith
      linear_combination k1 - k2
    have e2 : |κ - κ'| * (κ + κ') ≤ r ^ 2 * (202 / 100 * a + 205 / 100 * b) := by
      rw [← abs_of_nonneg (show 0 ≤ κ + κ' by linarith), ← abs_mul, e1, abs_mul, abs_of_nonneg (sq_nonneg r)]
      apply mul_le_mul_of_nonneg_left _ (sq_nonneg r)
      refine (abs_mul_le' xx (B := 2002 / 1000) ?_).trans (by linarith)
      linarith [abs_add_le x x']
    refine le_trans ?_ e2
    rw [mul_comm]
    exact mul_le_mul_of_nonneg_left (by linarith) (abs_nonneg _)
  have nn : ‖e - e'‖ ≤ 2 * (r * a) + 202 / 100 * (r * b) + 102 / 100 * b + |κ - κ'| := by
    have e1 : e - e' = r • (d - d') - r • (x • (M - M') + (x - x') • M') - ((κ - κ') • M + κ' • (M - M')) := by
      rw [f, f', ← hx, ← hx', ← hr, show inner ℝ e M = -κ by rw [hκ]; ring, show inner ℝ e' M' = -κ' by rw [hκ']; ring]
      module
    rw [e1]
    have n1 := norm_sub_le (r • (d - d') - r • (x • (M - M') + (x - x') • M')) ((κ - κ') • M + κ' • (M - M'))
    have n2 := norm_sub_le (r • (d - d')) (r • (x • (M - M') + (x - x') • M'))
    have n3 := norm_add_le ((κ - κ') • M) (κ' • (M - M'))
    have n4 := norm_add_le (x • (M - M')) ((x - x') • M')
    rw [_root_.norm_smul, _root_.norm_smul, Real.norm_of_nonneg r0.le] at n2
    rw [_root_.norm_smul, _root_.norm_smul, Real.norm_of_nonneg hκ'0, hM, mul_one, Real.norm_eq_abs] at n3
    rw [_root_.norm_smul, _root_.norm_smul, hM', mul_one, Real.norm_eq_abs, Real.norm_eq_abs] at n4
    have m1 := mul_le_mul_of_nonneg_left ha r0.le
    have m2 : κ' * ‖M - M'‖ ≤ 102 / 100 * b := mul_le_mul hκ'1 hb (_root_.norm_nonneg _) (by norm_num)
    have m3 : |x| * ‖M - M'‖ ≤ 101 / 100 * b := mul_le_mul (by linarith) hb (_root_.norm_nonneg _) (by norm_num)
    have m4 := mul_le_mul_of_nonneg_left (show ‖x • (M - M') + (x - x') • M'‖ ≤ a + 202 / 100 * b by linarith) r0.le
    linarith
  have m := mul_le_mul_of_nonneg_left nn hκ0
  have m' : κ * (2 * (r * a) + 202 / 100 * (r * b) + 102 / 100 * b) ≤ 102 / 100 * (2 * (r * a) + 202 / 100 * (r * b) + 102 / 100 * b) :=
    mul_le_mul_of_nonneg_right hκ1 (by positivity)
  linarith

end Optics
