import Verif.Lemmas.CylinderGram
/-!
The equation solved by `InfiniteCylinder.test_intersect` for a ray that meets the cylinder. Used by `Props/RoundedCylinders.lean`.
-/

namespace Optics
open V3

variable {R : Rounding} {C P : V3 ℝ} {e a : E3} {ρ t h A L q : ℝ}

/-- The exact equation. -/
theorem CylinderAhead.exact (H : CylinderAhead R C P e a ρ t h A L q) :
    inner ℝ (across a (P.toE - C.toE)) e = -(h + t * A) ∧
    inner ℝ (across a (P.toE - C.toE)) (P.toE - C.toE) = ρ ^ 2 + 2 * t * h + t ^ 2 * A ∧
    0 < A ∧ A ≤ 1 ∧ h ^ 2 ≤ ρ ^ 2 * A ∧ ρ ≤ L ∧ h ≤ ρ ∧ ρ ^ 2 + 2 * t * h + t ^ 2 * A ≤ L ^ 2 ∧ inner ℝ (across a e) e = A ∧ h + t * A ≤ L := by
  have ht := H.ahead
  have hh := H.steep
  have hρ : 0 < ρ := lt_of_lt_of_le (by norm_num) H.thick
  obtain ⟨V, hV⟩ : ∃ V, V = P.toE - C.toE := ⟨_, rfl⟩
  have e1 : P.toE + t • e - C.toE = V + t • e := by rw [hV]; abel
  have hee : inner ℝ (across a e) e = A := by rw [← across_norm H.axis, H.slant]
  have hco := H.cosine
  rw [e1, across_add, across_smul, inner_add_right, real_inner_smul_right, real_inner_comm, real_inner_comm (across a e) e, hee] at hco
  have hon := H.on
  rw [e1] at hon
  have hon2 : ‖across a (V + t • e)‖ ^ 2 = ρ ^ 2 := by rw [hon]
  rw [across_norm H.axis, across_add, across_smul, inner_add_left, inner_add_right, inner_add_right, real_inner_smul_left,
    real_inner_smul_left, real_inner_smul_right, real_inner_smul_right, hee] at hon2
  have sym : inner ℝ (across a e) V = inner ℝ (across a V) e := by
    rw [across_inner, across_inner, real_inner_comm]; ring
  rw [sym] at hon2
  have g1 : inner ℝ (across a V) e = -(h + t * A) := by linarith
  rw [g1] at hon2
  have g2 : inner ℝ (across a V) V = ρ ^ 2 + 2 * t * h + t ^ 2 * A := by linarith
  have A0 : 0 ≤ A := by rw [← H.slant]; positivity
  have A1 : A ≤ 1 := by
    have := across_le H.axis e
    rw [H.unit] at this
    rw [← H.slant]
    exact pow_le_one₀ (_root_.norm_nonneg _) this
  have hcs : h ^ 2 ≤ ρ ^ 2 * A := by
    have h1 := abs_real_inner_le_norm (across a (V + t • e)) (across a e)
    rw [across_both H.axis, hon, across_add, across_smul, inner_add_left, real_inner_smul_left, g1, hee,
      show -(h + t * A) + t * A = -h by ring, abs_neg, abs_of_pos hh] at h1
    have h2 := pow_le_pow_left₀ hh.le h1 2
    rw [mul_pow, H.slant] at h2
    exact h2
  have Apos : 0 < A := by
    rcases A0.lt_or_eq with h1 | h1
    · exact h1
    · rw [← h1, mul_zero] at hcs
      have := pow_pos hh 2
      linarith
  have VV : inner ℝ (across a V) V ≤ L ^ 2 := by
    have h1 := (le_abs_self _).trans (across_abs H.axis V V)
    have h2 := H.dist
    rw [← hV] at h2
    have h3 := mul_le_mul h2 h2 (_root_.norm_nonneg _) (by linarith [H.one])
    linarith [sq L]
  rw [g2] at VV
  have t0 : 0 < t := by linarith
  have hth : 0 < t * h := by positivity
  have htA : 0 < t ^ 2 * A := by positivity
  have ρL : ρ ≤ L := le_of_sq_le_sq (by linarith) (by linarith [H.one])
  have hρ' : h ≤ ρ := by
    refine le_of_sq_le_sq ?_ hρ.le
    have := mul_le_mul_of_nonneg_left A1 (sq_nonneg ρ)
    linarith
  rw [← hV]
  refine ⟨g1, g2, Apos, A1, hcs, ρL, hρ', VV, hee, ?_⟩
  have h1 := across_abs H.axis V e
  rw [g1, H.unit, abs_neg, mul_one] at h1
  have h2 := H.dist
  rw [← hV] at h2
  linarith [le_abs_self (h + t * A)]

/-- The numbers the proofs are about. -/
theorem CylinderAhead.scale (H : CylinderAhead R C P e a ρ t h A L q) {ω : ℝ} (hω : ω = 1000 * R.u / q) :
    500 * R.u ≤ ω ∧ 2 * 10 ^ 4 * (ω * L ^ 2) ≤ A * h ^ 2 ∧ 10 * (ω * L ^ 2) ≤ A * h * t ∧ ω ≤ 1 / 20000 ∧ 0 < ω ∧ 2 * 10 ^ 7 * R.u ≤ q ∧
      10 ^ 7 * R.u ≤ A := by
  obtain ⟨-, -, A0, A1, -, ρL, hρ, -, -, -⟩ := H.exact
  have hq := H.qpos
  have hu := R.u_pos
  have hL := H.one
  have e : ω * q = 1000 * R.u := by rw [hω]; field_simp
  have L2 : 0 < L ^ 2 := by positivity
  have h1 : 2 * 10 ^ 4 * (ω * L ^ 2) * q ≤ A * h ^ 2 * q := by
    have := H.tilt
    have e2 : 2 * 10 ^ 4 * (ω * L ^ 2) * q = 2 * 10 ^ 4 * (ω * q) * L ^ 2 := by ring
    rw [e2, e]; norm_num at this ⊢; linarith
  have h1' := le_of_mul_le_mul_right h1 hq
  have h2 : 10 * (ω * L ^ 2) * q ≤ A * h * t * q := by
    have := H.away
    have e2 : 10 * (ω * L ^ 2) * q = 10 * (ω * q) * L ^ 2 := by ring
    rw [e2, e]; norm_num at this ⊢; linarith
  have h0 := H.steep
  have hLL : A * h ^ 2 ≤ A * L ^ 2 := mul_le_mul_of_nonneg_left (pow_le_pow_left₀ h0.le (hρ.trans ρL) 2) A0.le
  have AL : A * L ^ 2 ≤ 1 * L ^ 2 := mul_le_mul_of_nonneg_right A1 L2.le
  have h3 : ω * L ^ 2 ≤ 1 / 20000 * L ^ 2 := by norm_num at h1'; linarith
  have h4 : 0 < ω := by rw [hω]; positivity
  refine ⟨?_, h1', le_of_mul_le_mul_right h2 hq, le_of_mul_le_mul_right h3 L2, h4, ?_, ?_⟩
  · have := mul_le_mul_of_nonneg_left H.qtop h4.le
    linarith
  · have h5 := mul_le_mul_of_nonneg_left (hLL.trans AL) hq.le
    have h6 : 2 * 10 ^ 7 * R.u * L ^ 2 ≤ q * L ^ 2 := by have := H.tilt; linarith
    exact le_of_mul_le_mul_right h6 L2
  · have h5 := mul_le_mul_of_nonneg_right H.qtop (by positivity : 0 ≤ A * h ^ 2)
    have h7 := mul_le_mul_of_nonneg_left (pow_le_pow_left₀ h0.le (hρ.trans ρL) 2) A0.le
    have h8 : 10 ^ 7 * R.u * L ^ 2 ≤ A * L ^ 2 := by have := H.tilt; norm_num at this ⊢; linarith
    exact le_of_mul_le_mul_right h8 L2

variable {σ ω N : ℝ} {M : M3 ℝ} {d : V3 ℝ}

/-- How the equation measured by the computed matrix differs from the exact one. -/
theorem CylinderAhead.coefs (H : CylinderAhead R C P e a ρ t h A L q) (hω : ω = 1000 * R.u / q)
    (G : ∀ v w : V3 ℝ, |gram M v w - inner ℝ (across a v.toE) w.toE| ≤ ω * (‖v.toE‖ * ‖w.toE‖))
    (hσ : |σ * ρ - 1| ≤ 1001 / 1000 * R.u) (hd : ‖d.toE - e‖ ≤ 5 * R.u) :
    |gram M d d - A| ≤ 104 / 100 * ω ∧ |σ * ρ * gram M (P - C) d + (h + t * A)| ≤ 1015 / 1000 * (ω * L) ∧
      |(σ * ρ) ^ 2 * gram M (P - C) (P - C) - (ρ ^ 2 + 2 * t * h + t ^ 2 * A)| ≤ 101 / 100 * (ω * L ^ 2) := by
  obtain ⟨g1, g2, A0, A1, hcs, ρL, hρ', VV, hee, hL⟩ := H.exact
  obtain ⟨uω, s1, s2, ω1, ω0, -, -⟩ := H.scale hω
  have hu := R.u_pos
  have hus := (five_u (R := R)).2
  have L1 := H.one
  have hh := H.steep
  have ht := H.ahead
  obtain ⟨τ, hτ⟩ : ∃ τ, τ = σ * ρ := ⟨_, rfl⟩
  rw [← hτ] at hσ ⊢
  have τ' := abs_le.mp hσ
  have τ0 : 0 ≤ τ := by linarith
  have nd : ‖d.toE‖ ≤ 1 + 5 * R.u := by
    have := norm_add_le (d.toE - e) e
    rw [sub_add_cancel, H.unit] at this
    linarith
  have dd : |inner ℝ (across a d.toE) d.toE - A| ≤ 101 / 10 * R.u := by
    rw [← hee, show inner ℝ (across a d.toE) d.toE - inner ℝ (across a e) e =
      inner ℝ (across a (d.toE - e)) d.toE + inner ℝ (across a e) (d.toE - e) by
        rw [across_sub, inner_sub_left, inner_sub_right]; ring]
    refine (abs_add_le _ _).trans ?_
    have h1 := across_abs H.axis (d.toE - e) d.toE
    have h2 := across_abs H.axis e (d.toE - e)
    rw [H.unit, one_mul] at h2
    have h3 := mul_le_mul hd nd (_root_.norm_nonneg _) (by positivity)
    nlinarith only [h1, h2, h3, hd, hu, hus]
  refine ⟨?_, ?_, ?_⟩
  · have h1 := G d d
    have h2 := abs_add_le (gram M d d - inner ℝ (across a d.toE) d.toE) (inner ℝ (across a d.toE) d.toE - A)
    rw [sub_add_sub_cancel] at h2
    have h3 := mul_le_mul nd nd (_root_.norm_nonneg _) (by positivity)
    have h4 : (1 + 5 * R.u) * (1 + 5 * R.u) ≤ 10001 / 10000 := by nlinarith only [hu, hus]
    have h5 : ω * (‖d.toE‖ * ‖d.toE‖) ≤ ω * (10001 / 10000) := mul_le_mul_of_nonneg_left (h3.trans h4) ω0.le
    linarith
  · have h1 := G (P - C) d
    rw [toE_sub] at h1
    have h2 : |inner ℝ (across a (P.toE - C.toE)) d.toE - inner ℝ (across a (P.toE - C.toE)) e| ≤ L * (5 * R.u) := by
      rw [← inner_sub_right]
      exact (across_abs H.axis _ _).trans (mul_le_mul H.dist hd (_root_.norm_nonneg _) (by linarith))
    rw [g1] at h2
    have h3 := mul_le_mul H.dist nd (_root_.norm_nonneg _) (by linarith)
    have h4 : L * (1 + 5 * R.u) ≤ L * (10001 / 10000) := mul_le_mul_of_nonneg_left (by linarith) (by linarith)
    have h5 : ω * (‖P.toE - C.toE‖ * ‖d.toE‖) ≤ ω * (L * (10001 / 10000)) := mul_le_mul_of_nonneg_left (h3.trans h4) ω0.le
    have h6 := abs_add_le (gram M (P - C) d - inner ℝ (across a (P.toE - C.toE)) d.toE)
      (inner ℝ (across a (P.toE - C.toE)) d.toE - -(h + t * A))
    rw [sub_add_sub_cancel] at h6
    have ωL : 500 * (R.u * L) ≤ ω * L := by
      have := mul_le_mul_of_nonneg_right uω (show 0 ≤ L by linarith)
      linarith
    have uL : 0 < R.u * L := by positivity
    have h7 : |gram M (P - C) d - -(h + t * A)| ≤ 10102 / 10000 * (ω * L) := by linarith
    have h8 := abs_add_le (τ * (gram M (P - C) d - -(h + t * A))) (-((τ - 1) * (h + t * A)))
    rw [show τ * (gram M (P - C) d - -(h + t * A)) + -((τ - 1) * (h + t * A)) = τ * gram M (P - C) d + (h + t * A) by ring, abs_neg,
      abs_mul, abs_mul, abs_of_nonneg τ0, abs_of_pos (show 0 < h + t * A by positivity)] at h8
    have h9 := mul_le_mul (show τ ≤ 10001 / 10000 by linarith) h7 (abs_nonneg _) (by norm_num)
    have h10 := mul_le_mul hσ hL (by positivity) (by positivity)
    have h11 : 0 < ω * L := by positivity
    linarith
  · have h1 := G (P - C) (P - C)
    rw [toE_sub, g2] at h1
    have h3 := mul_le_mul H.dist H.dist (_root_.norm_nonneg _) (by linarith)
    have h5 : ω * (‖P.toE - C.toE‖ * ‖P.toE - C.toE‖) ≤ ω * L ^ 2 := by
      rw [sq]; exact mul_le_mul_of_nonneg_left h3 ω0.le
    obtain ⟨g, hg⟩ : ∃ g, g = ρ ^ 2 + 2 * t * h + t ^ 2 * A := ⟨_, rfl⟩
    rw [← hg] at h1 VV ⊢
    have g0 : 0 ≤ g := by rw [hg]; positivity
    have h8 := abs_add_le (τ ^ 2 * (gram M (P - C) (P - C) - g)) ((τ ^ 2 - 1) * g)
    rw [show τ ^ 2 * (gram M (P - C) (P - C) - g) + (τ ^ 2 - 1) * g = τ ^ 2 * gram M (P - C) (P - C) - g by ring,
      abs_mul, abs_mul, abs_of_nonneg g0, abs_of_nonneg (sq_nonneg τ)] at h8
    have τ2 : |τ ^ 2 - 1| ≤ 201 / 100 * R.u := by
      rw [show τ ^ 2 - 1 = (τ - 1) * (τ + 1) by ring, abs_mul, abs_of_nonneg (show 0 ≤ τ + 1 by linarith)]
      have := mul_le_mul hσ (show τ + 1 ≤ 20001 / 10000 by linarith) (by linarith) (by positivity)
      linarith
    have τ3 : τ ^ 2 ≤ 10001 / 10000 := by linarith [(abs_le.mp τ2).2]
    have h9 := mul_le_mul τ3 (h1.trans h5) (abs_nonneg _) (by norm_num)
    have h10 := mul_le_mul τ2 VV g0 (by positivity)
    have ωL : 500 * (R.u * L ^ 2) ≤ ω * L ^ 2 := by
      have := mul_le_mul_of_nonneg_right uω (show 0 ≤ L ^ 2 by positivity)
      linarith
    have h11 : 0 < R.u * L ^ 2 := by positivity
    linarith

/-- The exact equation satisfies the hypotheses of `Approach.roots`, and so does the one measured by the computed matrix. -/
theorem CylinderAhead.approach (H : CylinderAhead R C P e a ρ t h A L q) (hω : ω = 1000 * R.u / q) (hN : N = 1001 / 1000 * (L / ρ))
    (G : ∀ v w : V3 ℝ, |gram M v w - inner ℝ (across a v.toE) w.toE| ≤ ω * (‖v.toE‖ * ‖w.toE‖))
    (hσ : |σ * ρ - 1| ≤ 1001 / 1000 * R.u) (hd : ‖d.toE - e‖ ≤ 5 * R.u) :
    Approach R A (-(2 * (h + t * A) / ρ)) ((2 * t * h + t ^ 2 * A) / ρ ^ 2) (2 * h / ρ) (ω / 2) N ∧
    (|gram M d d - A| ≤ 106 / 100 * ω ∧ |2 * σ * gram M (P - C) d - -(2 * (h + t * A) / ρ)| ≤ 203 / 100 * (ω * N) ∧
      |σ ^ 2 * gram M (P - C) (P - C) - 1 - (2 * t * h + t ^ 2 * A) / ρ ^ 2| ≤ 101 / 100 * (ω * N ^ 2)) ∧
    (σ ^ 2 * gram M (P - C) (P - C) ≤ N ^ 2 ∧ gram M d d ≤ 1 + 1 / 10000) ∧
    ∃ s₀, Approach R (gram M d d) (2 * σ * gram M (P - C) d) (σ ^ 2 * gram M (P - C) (P - C) - 1) s₀ (28 / 5 * R.u) N ∧
      |s₀ - 2 * h / ρ| ≤ 2 * h / ρ / 1000 ∧ 999 / 1000 * A ≤ gram M d d := by
  obtain ⟨g1, g2, A0, A1, hcs, ρL, hρ', VV, hee, hL⟩ := H.exact
  obtain ⟨uω, s1, s2, ω1, ω0, -, -⟩ := H.scale hω
  obtain ⟨cA, cB, cC⟩ := H.coefs hω G hσ hd
  have hu := R.u_pos
  have hus := (five_u (R := R)).2
  have L1 := H.one
  have hh := H.steep
  have ht := H.ahead
  have t0 : 0 < t := by linarith
  have hρ : 0 < ρ := lt_of_lt_of_le (by norm_num) H.thick
  obtain ⟨X, hX⟩ : ∃ X, X = L / ρ := ⟨_, rfl⟩
  rw [← hX] at hN
  have X1 : 1 ≤ X := by rw [hX, le_div_iff₀ hρ]; linarith
  have eX : X * ρ = L := by rw [hX]; field_simp
  have N1 : 1 ≤ N := by rw [hN]; linarith
  have Ntop : N ≤ 10 ^ 50 := by
    have h1 : X ≤ 10 ^ 40 := by
      rw [hX, div_le_iff₀ hρ]
      have := H.range
      have := mul_le_mul_of_nonneg_left H.thick (show (0 : ℝ) ≤ 10 ^ 40 by positivity)
      norm_num at *; linarith
    rw [hN]; norm_num at h1 ⊢; linarith
  have XN : X ^ 2 ≤ N ^ 2 := by rw [hN, mul_pow]; nlinarith only [sq_nonneg X]
  have XN' : 1002 / 1000 * X ^ 2 ≤ N ^ 2 := by rw [hN, mul_pow]; nlinarith only [sq_nonneg X]
  obtain ⟨B, hB⟩ : ∃ B, B = -(2 * (h + t * A) / ρ) := ⟨_, rfl⟩
  obtain ⟨K, hK⟩ : ∃ K, K = (2 * t * h + t ^ 2 * A) / ρ ^ 2 := ⟨_, rfl⟩
  obtain ⟨s, hs⟩ : ∃ s, s = 2 * h / ρ := ⟨_, rfl⟩
  have eB : B * ρ = -(2 * (h + t * A)) := by rw [hB]; field_simp
  have eK : K * ρ ^ 2 = 2 * t * h + t ^ 2 * A := by rw [hK]; field_simp
  have es : s * ρ = 2 * h := by rw [hs]; field_simp
  rw [← hB, ← hK, ← hs]
  have ρ2 : 0 < ρ ^ 2 := by positivity
  have s0 : 0 < s := by rw [hs]; positivity
  have B0 : B < 0 := by rw [hB]; have : 0 < 2 * (h + t * A) / ρ := by positivity
                        linarith
  have K0 : 0 ≤ K := by rw [hK]; positivity
  have sA : s ^ 2 ≤ 4 * A := by
    refine le_of_mul_le_mul_right ?_ ρ2
    rw [← mul_pow, es]; linarith
  have disc : s ^ 2 = B ^ 2 - 4 * A * K := by
    refine mul_right_cancel₀ ρ2.ne' ?_
    have e1 : (B ^ 2 - 4 * A * K) * ρ ^ 2 = (B * ρ) ^ 2 - 4 * A * (K * ρ ^ 2) := by ring
    rw [e1, ← mul_pow, es, eB, eK]; ring
  have Btop : |B| ≤ 2 * X := by
    refine le_of_mul_le_mul_right ?_ hρ
    rw [← abs_of_pos hρ, ← abs_mul, abs_of_pos hρ, eB, abs_neg, abs_of_pos (by positivity), mul_assoc, eX]; linarith
  have Ktop : K ≤ X ^ 2 := by
    refine le_of_mul_le_mul_right ?_ ρ2
    rw [eK, ← mul_pow, eX]; linarith
  have KX : K + 1 ≤ X ^ 2 := by
    refine le_of_mul_le_mul_right ?_ ρ2
    rw [add_mul, eK, ← mul_pow, eX]; linarith
  have steep : 2 * 10 ^ 4 * (ω * X ^ 2) * 4 ≤ A * s ^ 2 := by
    refine le_of_mul_le_mul_right ?_ ρ2
    have e1 : 2 * 10 ^ 4 * (ω * X ^ 2) * 4 * ρ ^ 2 = 4 * (2 * 10 ^ 4 * (ω * (X * ρ) ^ 2)) := by ring
    have e2 : A * s ^ 2 * ρ ^ 2 = A * (s * ρ) ^ 2 := by ring
    rw [e1, e2, eX, es]
    have e3 : A * (2 * h) ^ 2 = 4 * (A * h ^ 2) := by ring
    rw [e3]; linarith
  have kN : ω * N ^ 2 ≤ 1003 / 1000 * (ω * X ^ 2) := by
    rw [hN, mul_pow]
    have : 0 < ω * X ^ 2 := by positivity
    linarith
  have kX : 0 < ω * X ^ 2 := by positivity
  have bB : |2 * σ * gram M (P - C) d - B| ≤ 203 / 100 * (ω * X) := by
    refine le_of_mul_le_mul_right ?_ hρ
    rw [← abs_of_pos hρ, ← abs_mul, abs_of_pos hρ, sub_mul, eB,
      show 2 * σ * gram M (P - C) d * ρ - -(2 * (h + t * A)) = 2 * (σ * ρ * gram M (P - C) d + (h + t * A)) by ring, abs_mul, abs_two,
      show 203 / 100 * (ω * X) * ρ = 203 / 100 * (ω * (X * ρ)) by ring, eX]
    linarith
  have bK : |σ ^ 2 * gram M (P - C) (P - C) - 1 - K| ≤ 101 / 100 * (ω * X ^ 2) := by
    refine le_of_mul_le_mul_right ?_ ρ2
    rw [← abs_of_pos ρ2, ← abs_mul, abs_of_pos ρ2, sub_mul, eK,
      show (σ ^ 2 * gram M (P - C) (P - C) - 1) * ρ ^ 2 - (2 * t * h + t ^ 2 * A) = (σ * ρ) ^ 2 * gram M (P - C) (P - C) -
        (ρ ^ 2 + 2 * t * h + t ^ 2 * A) by ring,
      show 101 / 100 * (ω * X ^ 2) * ρ ^ 2 = 101 / 100 * (ω * (X * ρ) ^ 2) by ring, eX]
    exact cC
  have XleN : X ≤ N := by rw [hN]; linarith
  have bB' : 203 / 100 * (ω * X) ≤ 203 / 100 * (ω * N) := by
    have := mul_le_mul_of_nonneg_left XleN ω0.le
    linarith
  have bK' : 101 / 100 * (ω * X ^ 2) ≤ 101 / 100 * (ω * N ^ 2) := by
    have := mul_le_mul_of_nonneg_left XN ω0.le
    linarith
  have X2 : 1 ≤ X ^ 2 := one_le_pow₀ X1
  have ωX : ω * X ^ 2 ≤ 1 / 20000 * X ^ 2 := mul_le_mul_of_nonneg_right ω1 (by positivity)
  refine ⟨⟨A0, by linarith, s0, disc, sA, B0, K0, Ktop.trans XN, by linarith, N1, Ntop, by linarith, by linarith, ?_⟩, ⟨by linarith, bB.trans bB', bK.trans bK'⟩,
    ⟨by linarith [(abs_le.mp bK).2], by linarith [(abs_le.mp cA).2]⟩, ?_⟩
  · norm_num at steep ⊢; linarith
  · have dA := abs_le.mp cA
    refine approach_perturbed (ω := ω) (by linarith) (by linarith) (bB.trans bB') (bK.trans bK') A0 A1 B0 (by linarith) K0 (Ktop.trans XN) s0 disc sA
      N1 Ntop ?_ (by linarith) ?_ ?_ ?_ ?_
    · norm_num at steep ⊢; linarith
    · have h1 := abs_add_le (2 * σ * gram M (P - C) d - B) B
      rw [sub_add_cancel] at h1
      have h2 : ω * X ≤ 1 / 20000 * X := mul_le_mul_of_nonneg_right ω1 (by linarith)
      linarith
    · have h1 : 2 * (ω * X ^ 2) ≤ K := by
        refine le_of_mul_le_mul_right ?_ ρ2
        rw [eK, show 2 * (ω * X ^ 2) * ρ ^ 2 = 2 * (ω * (X * ρ) ^ 2) by ring, eX]
        have : 0 < t ^ 2 * A := by positivity
        have := mul_le_mul_of_nonneg_right A1 (show 0 ≤ h * t by positivity)
        have : 0 < ω * L ^ 2 := by positivity
        linarith
      linarith [(abs_le.mp bK).1]
    · linarith [(abs_le.mp bK).2]
    · have h1 := gram_cs M (P - C) d
      have h2 := mul_le_mul_of_nonneg_left h1 (show 0 ≤ 4 * σ ^ 2 by positivity)
      nlinarith only [h2]

end Optics
