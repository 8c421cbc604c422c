import Verif.Lemmas.ImagingLand

/-! # The two legs of a ray through an ideal lens to a detector -/

namespace Optics
open V3
variable {R : Rounding}

/-- The lens, the detector and the stored direction of the ray lie to the same side. -/
theorem imaging_sides {O P N C w : V3 ℝ} {e : E3} {f B κ a b m κ' g p c : ℝ} (hN : SaneLength N) (H : LensAhead R O e P N f B κ a m)
    (HD : DetectorBehind R O e P N C f B κ b κ' g m) (ew : ‖w.toE - e‖ ≤ 5 * R.u) (hc : |inner ℝ (axisOf N) w.toE| = c)
    (hp : |inner ℝ (O.toE - P.toE) (axisOf N)| = p) :
    ∃ σ : ℝ, σ ^ 2 = 1 ∧ inner ℝ (axisOf N) w.toE = σ * c ∧ inner ℝ (axisOf N) (P.toE - O.toE) = σ * p ∧
      inner ℝ (axisOf N) (C.toE - P.toE) = σ * g ∧ κ ≤ c ∧ 1 / 1000 ≤ p := by
  have hM : ‖axisOf N‖ = 1 := dirE_norm hN.pos
  have h1 := abs_real_inner_le_norm (axisOf N) (w.toE - e)
  rw [hM, one_mul, inner_sub_right] at h1
  have h1 := h1.trans ew
  have hκ : 0 < κ := by linarith [H.sizes.lo]
  have hu := R.u_pos
  have e1 : inner ℝ (O.toE - P.toE) (axisOf N) = -inner ℝ (axisOf N) (P.toE - O.toE) := by
    rw [real_inner_comm, ← inner_neg_right]; congr 1; abel
  have hp' : |inner ℝ (axisOf N) (P.toE - O.toE)| = p := by rw [← hp, e1, abs_neg]
  have hcos := H.cos
  have ha := H.ahead
  have hs := HD.side
  have hg := HD.gap
  have hd := H.dist
  rw [hp] at hd
  obtain ⟨W, hW⟩ : ∃ W : ℝ, W = inner ℝ (axisOf N) w.toE := ⟨_, rfl⟩
  obtain ⟨E, hE⟩ : ∃ E : ℝ, E = inner ℝ (axisOf N) e := ⟨_, rfl⟩
  obtain ⟨A, hA⟩ : ∃ A : ℝ, A = inner ℝ (axisOf N) (P.toE - O.toE) := ⟨_, rfl⟩
  obtain ⟨G, hG⟩ : ∃ G : ℝ, G = inner ℝ (axisOf N) (C.toE - P.toE) := ⟨_, rfl⟩
  rw [← hW] at h1 hc ⊢
  rw [← hE] at h1 hcos ha hs
  rw [← hA] at ha hp' ⊢
  rw [← hG] at hs hg ⊢
  have h2 := abs_le.mp h1
  rcases lt_trichotomy E 0 with hE0 | hE0 | hE0
  · have hA0 : A < 0 := by
      by_contra h; push Not at h
      linarith [mul_nonpos_of_nonneg_of_nonpos h hE0.le]
    have hG0 : G < 0 := by
      by_contra h; push Not at h
      linarith [mul_nonpos_of_nonneg_of_nonpos h hE0.le]
    rw [abs_of_neg hE0] at hcos
    have hW0 : W < 0 := by linarith
    rw [abs_of_neg hA0] at hp'
    rw [abs_of_neg hG0] at hg
    rw [abs_of_neg hW0] at hc
    exact ⟨-1, by norm_num, by linarith, by linarith, by linarith, by linarith, hd⟩
  · rw [hE0, mul_zero] at ha; linarith
  · have hA0 : 0 < A := pos_of_mul_pos_left ha hE0.le
    have hG0 : 0 < G := pos_of_mul_pos_left hs hE0.le
    rw [abs_of_pos hE0] at hcos
    have hW0 : 0 < W := by linarith
    rw [abs_of_pos hA0] at hp'
    rw [abs_of_pos hG0] at hg
    rw [abs_of_pos hW0] at hc
    exact ⟨1, by norm_num, by linarith, by linarith, by linarith, by linarith, hd⟩

/-- How far the ray is taken to the lens. -/
theorem first_length {M w P P' O : E3} {σ c p x B : ℝ} (hM : ‖M‖ = 1) (hσ : σ ^ 2 = 1) (hc : 0 < c) (hσw : inner ℝ M w = σ * c)
    (hσp : inner ℝ M (P - O) = σ * p) (k1 : ‖P' - (O + x • w)‖ ≤ 32 / 10 * (R.u * B)) (k2 : |inner ℝ M (P' - P)| ≤ 70 * (R.u * B)) :
    x ≤ (p + 74 * (R.u * B)) / c := by
  have h1 := (abs_real_inner_le_norm M (P' - (O + x • w)))
  rw [hM, one_mul] at h1
  have h1 := h1.trans k1
  have hσ1 : |σ| = 1 := by rw [← sq_eq_sq₀ (abs_nonneg _) zero_le_one, sq_abs, hσ, one_pow]
  have e : x * c - p = σ * (inner ℝ M (P' - P) - inner ℝ M (P' - (O + x • w))) := by
    have : inner ℝ M (P' - P) - inner ℝ M (P' - (O + x • w)) = x * inner ℝ M w - inner ℝ M (P - O) := by
      rw [← inner_smul_right, ← inner_sub_right, ← inner_sub_right]; congr 1; abel
    rw [this, hσw, hσp]
    linear_combination -(x * c - p) * hσ
  have h2 : |x * c - p| ≤ 74 * (R.u * B) := by
    rw [e, abs_mul, hσ1, one_mul]
    refine (abs_sub _ _).trans ?_
    have : 0 ≤ R.u * B := by
      by_contra h; push Not at h
      have := _root_.norm_nonneg (P' - (O + x • w))
      linarith
    linarith
  rw [le_div_iff₀ hc]
  linarith [(abs_le.mp h2).2]

/-- On its way to the lens the ray does not find the detector nearer than the lens. -/
theorem first_leg {O P N C w t₀ : V3 ℝ} {B c p g x σ : ℝ} (hN : SaneLength N) (hw : NearUnit R w) (hc0 : 1 / 1000 ≤ c)
    (hc : |inner ℝ (axisOf N) w.toE| = c) (hσ : σ ^ 2 = 1) (hσw : inner ℝ (axisOf N) w.toE = σ * c)
    (hσp : inner ℝ (axisOf N) (P.toE - O.toE) = σ * p) (hσg : inner ℝ (axisOf N) (C.toE - P.toE) = σ * g) (hp : 1 / 1000 ≤ p) (hg : 1 / 100 ≤ g)
    (hroom : ‖O.toE‖ + (p + g) / c + ‖C.toE‖ ≤ 9 / 10 * B) (hB : 1 ≤ B) (hB' : B ≤ 10 ^ 50) (huB : R.u * B ≤ 1 / 10 ^ 10)
    (hx : x ≤ (p + 74 * (R.u * B)) / c) {h wd : Fl R} {r : Rectangle (Fl R)}
    (hr : Rectangle.new C.fl N.fl t₀.fl (some h) (some wd) = .ok r) {ray : Ray (Fl R)} (hrp : ray.position = O.fl) (hrd : ray.direction = w.fl) :
    (r.testIntersect ray).hit = false ∨ ∃ (q : V3 (Fl R)) (nn : Option (V3 (Fl R))) (z : ℝ), r.testIntersect ray = ⟨true, some q, nn⟩ ∧
      distanceBetween (O.fl : V3 (Fl R)) q = Fl.fin z ∧ x ≤ z := by
  have hcp : 0 < c := by linarith
  have hu := R.u_pos
  have huB0 : 0 < R.u * B := by positivity
  have X : Crossing R C N O w B c ((p + g) / c) := by
    refine ⟨hN, hw, hc0, le_of_eq hc.symm, by positivity, ?_, hroom, hB, hB', huB⟩
    show (p + g) / c * inner ℝ (axisOf N) w.toE = inner ℝ (axisOf N) (C.toE - O.toE)
    have e : C.toE - O.toE = (C.toE - P.toE) + (P.toE - O.toE) := by abel
    rw [e, inner_add_right, hσw, hσp, hσg]
    field_simp
    ring
  have hc1 := slope_le_one (C := C) (P := O) hN hw (le_of_eq hc.symm)
  have hτ : 1 / 1000 ≤ (p + g) / c := by rw [le_div_iff₀ hcp]; linarith
  obtain ⟨hO, hC, hτB, -, -⟩ := X.sizes
  unfold Rectangle.testIntersect
  rw [(rectangle_built hr).1]
  cases hz : (Plane.new (C.fl : V3 (Fl R)) N.fl).testIntersect ray with
  | mk zh zp zn =>
  cases zh with
  | false => exact .inl rfl
  | true =>
  cases zp with
  | none => exact .inl rfl
  | some pt =>
    obtain ⟨-, q, hq, eq⟩ := plane_point hN hw hc0 (le_of_eq hc.symm) hτB X.meets hO hC hB hB' hrp hrd hz
    obtain ⟨z, hz1, hz2, -⟩ := X.distance hτ eq
    have hxz : x ≤ z := by
      have a1 : (p + 74 * (R.u * B)) / c ≤ (p + g) / c - 69 * (R.u * B / c) := by
        rw [← sub_nonneg]
        have : (p + g) / c - 69 * (R.u * B / c) - (p + 74 * (R.u * B)) / c = (g - 143 * (R.u * B)) / c := by ring
        rw [this]
        apply div_nonneg _ hcp.le
        linarith
      linarith [(abs_le.mp hz2).1]
    subst hq
    dsimp only
    split_ifs
    · exact .inr ⟨_, _, z, rfl, hz1, hxz⟩
    all_goals exact .inl rfl

/-- Behind the lens the ray crosses the plane of the detector. -/
theorem second_leg {P N C P' d' : V3 ℝ} {f B κ b m κ' g σ : ℝ} {O : V3 ℝ} {e : E3} (hN : SaneLength N)
    (HD : DetectorBehind R O e P N C f B κ b κ' g m) (hd : NearUnit R d') (hσ : σ ^ 2 = 1) (hσg : inner ℝ (axisOf N) (C.toE - P.toE) = σ * g)
    (hk : κ' ≤ σ * inner ℝ (axisOf N) d'.toE) (k2 : |inner ℝ (axisOf N) (P'.toE - P.toE)| ≤ 70 * (R.u * B)) (ha : ‖P'.toE - P.toE‖ ≤ b)
    (hB : 1 ≤ B) (hB' : B ≤ 10 ^ 50) (huB : R.u * B ≤ 1 / 10 ^ 10) :
    ∃ τ, Crossing R C N P' d' B κ' τ ∧ 1 / 1000 ≤ τ ∧ τ ≤ (g + 1 / 100) / κ' ∧ 1 / 10 ^ 6 ≤ τ * κ' := by
  have hM : ‖axisOf N‖ = 1 := dirE_norm hN.pos
  have hs := HD.slope
  have hg := HD.gap_lo
  have hκ' : 0 < κ' := by linarith
  have hσ1 : |σ| = 1 := by rw [← sq_eq_sq₀ (abs_nonneg _) zero_le_one, sq_abs, hσ, one_pow]
  obtain ⟨k, hkd⟩ : ∃ k : ℝ, k = σ * inner ℝ (axisOf N) d'.toE := ⟨_, rfl⟩
  rw [← hkd] at hk
  have hk0 : 0 < k := by linarith
  have hkin : inner ℝ (axisOf N) d'.toE = σ * k := by rw [hkd, ← mul_assoc, ← sq, hσ, one_mul]
  have hk1 : k ≤ 1 + 1 / 100000 := by
    have := abs_real_inner_le_norm (axisOf N) d'.toE
    rw [hM, one_mul, hkin, abs_mul, hσ1, one_mul] at this
    linarith [le_abs_self k, hd.bounds.1]
  obtain ⟨δ, hδ⟩ : ∃ δ : ℝ, δ = σ * inner ℝ (axisOf N) (P'.toE - P.toE) := ⟨_, rfl⟩
  have hδ1 : |δ| ≤ 70 * (R.u * B) := by rw [hδ, abs_mul, hσ1, one_mul]; exact k2
  have hδ2 := abs_le.mp hδ1
  have hin : inner ℝ (axisOf N) (C.toE - P'.toE) = σ * (g - δ) := by
    have e1 : C.toE - P'.toE = (C.toE - P.toE) - (P'.toE - P.toE) := by abel
    rw [e1, inner_sub_right, hσg, hδ, mul_sub, ← mul_assoc, ← sq, hσ, one_mul]
  have hlo : 9 / 1000 ≤ (g - δ) / k := by
    rw [le_div_iff₀ hk0]; nlinarith
  have hhi : (g - δ) / k ≤ (g + 1 / 100) / κ' := by
    apply div_le_div₀ (by linarith) (by linarith) hκ' hk
  refine ⟨(g - δ) / k, ⟨hN, hd, hs, ?_, by linarith, ?_, ?_, hB, hB', huB⟩, by linarith, hhi, by nlinarith⟩
  · show κ' ≤ |inner ℝ (axisOf N) d'.toE|
    rw [hkin, abs_mul, hσ1, one_mul]
    exact hk.trans (le_abs_self k)
  · show (g - δ) / k * inner ℝ (axisOf N) d'.toE = inner ℝ (axisOf N) (C.toE - P'.toE)
    rw [hkin, hin]; field_simp
  · have := HD.room₂
    have e1 : P'.toE = P.toE + (P'.toE - P.toE) := by abel
    have := norm_add_le P.toE (P'.toE - P.toE)
    rw [← e1] at this
    linarith

end Optics
