import Verif.Lemmas.CylinderPass
import Verif.Lemmas.NearBall
/-!
The first pass of `InfiniteCylinder.test_intersect`. Used by `Props/RoundedCylinders.lean`.
-/

namespace Optics
open V3

variable {R : Rounding} {c : InfiniteCylinder (Fl R)} {C a' P : V3 ℝ} {e a : E3} {ρ σ η t h A L q ω N : ℝ} {M W : M3 ℝ} {d : V3 ℝ}

/-- What `test_intersect` makes of the roots. -/
noncomputable def InfiniteCylinder.answer (c : InfiniteCylinder (Fl R)) (ray : Ray (Fl R)) : Option (Fl R) × Option (Fl R) → Py (Hit6 (Fl R))
  | (some t0o, some t1o) =>
      let t0 := t0o / (1.0 / c.R)
      let t1 := t1o / (1.0 / c.R)
      let pt0 := ray.position + t0 * ray.direction
      let pt1 := ray.position + t1 * ray.direction
      if t0 > clippingFloor ∧ t1 > clippingFloor then
        if t0 < t1 then .ok (Hit6.two pt0 pt1 (c.normal pt0) (c.normal pt1) 2)
        else .ok (Hit6.two pt1 pt0 (c.normal pt1) (c.normal pt0) 2)
      else if t1 > clippingFloor then .ok (Hit6.one pt1 (c.normal pt1) 1)
      else if t0 > clippingFloor then .ok (Hit6.one pt0 (c.normal pt0) 1)
      else .ok (Hit6.miss 0)
  | (some t0o, none) =>
      let pt0 := ray.position + t0o / (1.0 / c.R) * ray.direction
      .ok (Hit6.one pt0 (c.normal pt0) 2)
  | (none, _) => .ok (Hit6.miss 0)

/-- The coefficients computed. -/
theorem CylinderFrame.answer (F : CylinderFrame R c C a' ρ σ M W η) (hR : Proper R) {p d : V3 ℝ} (hp : Rep R p) {X : ℝ}
    (hX : ‖p.toE - C.toE‖ ≤ X) (h1 : 1 ≤ X) (hX' : X ≤ 10 ^ 50) (hN : σ * X ≤ N) (N1 : 1 ≤ N) (Ntop : N ≤ 10 ^ 50)
    (hpos : σ ^ 2 * gram M (p - C) (p - C) ≤ N ^ 2) (hdir : gram M d d ≤ 1 + 1 / 10000) (hd : ‖d.toE‖ ≤ 1 + 1 / 100000)
    {ray : Ray (Fl R)} (hrp : ray.position = p.fl) (hrd : ray.direction = d.fl) :
    ∃ A B K : ℝ, |A - gram M d d| ≤ 33 / 10 * (28 / 5 * R.u) ∧ |B - 2 * σ * gram M (p - C) d| ≤ 15 / 2 * (28 / 5 * R.u * N) ∧
      |K - (σ ^ 2 * gram M (p - C) (p - C) - 1)| ≤ 7 / 2 * (28 / 5 * R.u * N ^ 2) ∧
      c.testIntersect ray = c.answer ray (cylinderRoots (Fl.fin A) (Fl.fin B) (Fl.fin K)) := by
  have hu := R.u_pos
  have hus := (five_u (R := R)).2
  obtain ⟨x, y, hx, hy, ex, ey⟩ := F.point hR hp hX h1 hX'
  obtain ⟨v, w, hv, hw, ev, ew⟩ := F.dir hR hd
  have hX2 := mul_le_mul_of_nonneg_left hN (show 0 ≤ 28 / 5 * R.u by positivity)
  have D : PlaneRay R (σ * dot M.r0 (p - C)) (σ * dot M.r1 (p - C)) (dot M.r0 d) (dot M.r1 d) x y v w (28 / 5 * R.u) N :=
    { dir := by
        have : dot M.r0 d ^ 2 + dot M.r1 d ^ 2 = gram M d d := by unfold gram; ring
        rw [this]; norm_num at hdir ⊢; linarith
      pos := by
        have : (σ * dot M.r0 (p - C)) ^ 2 + (σ * dot M.r1 (p - C)) ^ 2 = σ ^ 2 * gram M (p - C) (p - C) := by unfold gram; ring
        rw [this]; exact hpos
      size := N1
      range := Ntop
      unit := by linarith
      small := by norm_num at hus ⊢; linarith
      ex := ex.trans hX2
      ey := ey.trans hX2
      ep := ev
      eq := ew }
  obtain ⟨A, eA, dA⟩ := D.coefA
  obtain ⟨B, eB, dB⟩ := D.coefB hR
  obtain ⟨K, eK, dK⟩ := D.coefC hR
  refine ⟨A, B, K, ?_, ?_, ?_, ?_⟩
  · have : gram M d d = dot M.r0 d ^ 2 + dot M.r1 d ^ 2 := by unfold gram; ring
    rw [this]; exact dA
  · have : 2 * σ * gram M (p - C) d = 2 * (σ * dot M.r0 (p - C) * dot M.r0 d + σ * dot M.r1 (p - C) * dot M.r1 d) := by unfold gram; ring
    rw [this]; exact dB
  · have : σ ^ 2 * gram M (p - C) (p - C) - 1 = (σ * dot M.r0 (p - C)) ^ 2 + (σ * dot M.r1 (p - C)) ^ 2 - 1 := by unfold gram; ring
    rw [this]; exact dK
  · have h0 : ¬ (PyNum.eqb c.R 0.0 = true) := by
      rw [F.radius, fl_lit0, fl_eqb]
      simpa using F.rpos.ne'
    rw [← eA, ← eB, ← eK, ← hx, ← hy, ← hv, ← hw, ← hrp, ← hrd]
    unfold InfiniteCylinder.testIntersect
    rw [if_neg h0]
    dsimp only
    generalize (cylinderRoots _ _ _ : Option (Fl R) × Option (Fl R)) = r
    rcases r with ⟨_ | r0, _ | r1⟩ <;> rfl

/-- How well a computed root solves the equation. -/
theorem Approach.residual {A₀ B₀ C₀ s ε t₀ t₁ y δ : ℝ} (H : Approach R A₀ B₀ C₀ s ε N) (ht₀ : t₀ * (s - B₀) = 2 * C₀)
    (ht₁ : t₁ * (2 * A₀) = s - B₀) (hd : A₀ * (t₁ - t₀) = s) (hy : s * |y - t₀| ≤ δ / A₀) (hδ : δ ≤ A₀ * s ^ 2 / 300) :
    A₀ * |A₀ * y ^ 2 + B₀ * y + C₀| ≤ 1004 / 1000 * δ := by
  have ha := H.apos
  have hs := H.spos
  have ht := H.atop
  have e : A₀ * (A₀ * y ^ 2 + B₀ * y + C₀) = A₀ * (y - t₀) * (A₀ * (y - t₁)) := by
    have h1 : A₀ * (t₀ + t₁) = -B₀ := by linarith
    have h2 : A₀ * (t₀ * t₁) = C₀ := by
      have h3 : t₀ * (t₁ * (2 * A₀)) = 2 * C₀ := by rw [ht₁, ht₀]
      linarith
    rw [← h2, show B₀ = -(A₀ * (t₀ + t₁)) by linarith]; ring
  have h1 : A₀ * |y - t₀| * s ≤ δ := by
    have := mul_le_mul_of_nonneg_left hy ha.le
    rw [mul_div_cancel₀ _ ha.ne'] at this
    linarith
  have h2 : |A₀ * (y - t₁)| ≤ 1004 / 1000 * s := by
    have h3 : A₀ * (y - t₁) = A₀ * (y - t₀) - s := by rw [← hd]; ring
    rw [h3]
    have h4 := abs_sub (A₀ * (y - t₀)) s
    rw [abs_mul, abs_of_pos ha, abs_of_pos hs] at h4
    have h5 : A₀ * |y - t₀| * s ≤ 1 / 250 * s * s := by
      have := mul_le_mul_of_nonneg_right ht (sq_nonneg s)
      nlinarith only [h1, hδ, this, sq_nonneg s]
    have h6 := le_of_mul_le_mul_right h5 hs
    linarith
  rw [← abs_of_pos ha, ← abs_mul, abs_of_pos ha, e, abs_mul, abs_mul, abs_of_pos ha]
  have h3 := mul_le_mul_of_nonneg_left h2 (show 0 ≤ A₀ * |y - t₀| by positivity)
  linarith

/-- The division by the scale factor. -/
theorem CylinderFrame.unscale (F : CylinderFrame R c C a' ρ σ M W η) (hR : Proper R) {y Y : ℝ} (hy : |y| ≤ Y) (hY : Y ≤ 10 ^ 200) :
    ∃ x : ℝ, (Fl.fin y : Fl R) / Fl.fin σ = Fl.fin x ∧ |x - y * ρ| ≤ R.u * (21 / 10 * (Y * ρ) + 1 / 10 ^ 250) ∧
      |σ * x - y| ≤ R.u * (Y + 1 / 10 ^ 209) := by
  obtain ⟨hτ, slo, shi⟩ := F.sigma hR
  have hσ : 0 < σ := lt_of_lt_of_le (by positivity) slo
  have hu := R.u_pos
  have hus := (five_u (R := R)).2
  have hρ := F.rpos
  have hY0 : 0 ≤ Y := (abs_nonneg y).trans hy
  have hi : |y / σ| ≤ Y / σ := by
    rw [abs_div, abs_of_pos hσ]; exact div_le_div_of_nonneg_right hy hσ.le
  have h2 : Y / σ ≤ 10 ^ 250 := by
    rw [div_le_iff₀ hσ]
    have h3 : (10 : ℝ) ^ 250 * (1 / 10 ^ 41) ≤ 10 ^ 250 * σ := mul_le_mul_of_nonneg_left slo (by positivity)
    have h4 : (10 : ℝ) ^ 200 ≤ 10 ^ 250 * (1 / 10 ^ 41) := by norm_num
    linarith
  obtain ⟨x, hx, ex⟩ := rnd_near (R := R) hi h2
  have τ' := abs_le.mp hτ
  refine ⟨x, by rw [fl_div _ _ hσ.ne', hx], ?_, ?_⟩
  · have e1 : y / σ - y * ρ = -((y / σ) * (σ * ρ - 1)) := by field_simp; ring
    have h3 := abs_add_le (x - y / σ) (y / σ - y * ρ)
    rw [sub_add_sub_cancel, e1, abs_neg, abs_mul] at h3
    have h4 := mul_le_mul hi hτ (abs_nonneg _) (by positivity)
    have h5 : Y / σ ≤ 1001 / 1000 * (Y * ρ) := by
      rw [div_le_iff₀ hσ]
      have := mul_le_mul_of_nonneg_left (show 1 ≤ 1001 / 1000 * (σ * ρ) by linarith) hY0
      linarith
    have h6 := mul_le_mul_of_nonneg_left h5 hu.le
    have h7 : 0 ≤ R.u * (Y * ρ) := by positivity
    linarith
  · have e1 : σ * x - y = σ * (x - y / σ) := by field_simp
    rw [e1, abs_mul, abs_of_pos hσ]
    have h3 := mul_le_mul_of_nonneg_left ex hσ.le
    have h4 : σ * (R.u * (Y / σ + 1 / 10 ^ 250)) = R.u * (Y + σ * (1 / 10 ^ 250)) := by field_simp
    have h5 : σ * (1 / 10 ^ 250) ≤ 10 ^ 41 * (1 / 10 ^ 250) := mul_le_mul_of_nonneg_right shi (by positivity)
    have h6 : (10 : ℝ) ^ 41 * (1 / 10 ^ 250) = 1 / 10 ^ 209 := by norm_num
    have h7 : R.u * (Y + σ * (1 / 10 ^ 250)) ≤ R.u * (Y + 1 / 10 ^ 209) := mul_le_mul_of_nonneg_left (by linarith) hu.le
    linarith

/-- Both computed roots, from the exact equation and from the one measured by the computed matrix. -/
theorem CylinderFrame.both (F : CylinderFrame R c C a' ρ σ M W η) (hR : Proper R) (H : CylinderAhead R C P e a ρ t h A L q) (hω : ω = 1000 * R.u / q)
    (hN : N = 1001 / 1000 * (L / ρ)) (G : ∀ v w : V3 ℝ, |gram M v w - inner ℝ (across a v.toE) w.toE| ≤ ω * (‖v.toE‖ * ‖w.toE‖))
    (hd : ‖d.toE - e‖ ≤ 5 * R.u) (hP : Rep R P) {ray : Ray (Fl R)} (hrp : ray.position = P.fl) (hrd : ray.direction = d.fl) :
    ∃ y₀ y₁ s₀ t₀ t₁ : ℝ, c.testIntersect ray = c.answer ray (some (Fl.fin y₀), some (Fl.fin y₁)) ∧
      Approach R (gram M d d) (2 * σ * gram M (P - C) d) (σ ^ 2 * gram M (P - C) (P - C) - 1) s₀ (28 / 5 * R.u) N ∧
      t₀ * (s₀ - 2 * σ * gram M (P - C) d) = 2 * (σ ^ 2 * gram M (P - C) (P - C) - 1) ∧
      t₁ * (2 * gram M d d) = s₀ - 2 * σ * gram M (P - C) d ∧ gram M d d * (t₁ - t₀) = s₀ ∧
      s₀ * |y₀ - t₀| ≤ 30 * (28 / 5 * R.u * N ^ 2 / gram M d d) ∧ s₀ * t₀ ≤ N ^ 2 ∧ 10 ^ 6 * R.u ≤ gram M d d ∧
      |y₀ * ρ - t| ≤ 76 / 10 * (ω * L ^ 2 / (A * h)) ∧ A * |y₁ * ρ - (t + 2 * h / A)| ≤ h / 100 := by
  obtain ⟨H₁, ⟨cA, cB, cK⟩, ⟨hpos, hdir⟩, s₀, H₂, -, Alo⟩ := H.approach hω hN G (F.sigma hR).1 hd
  obtain ⟨uω, -, -, ω1, ω0, -, uA⟩ := H.scale hω
  obtain ⟨-, -, A0, A1, -, ρL, hρ', -, -, -⟩ := H.exact
  obtain ⟨hτ, slo, shi⟩ := F.sigma hR
  have hσ : 0 < σ := lt_of_lt_of_le (by positivity) slo
  have hu := R.u_pos
  have hus := (five_u (R := R)).2
  have hρ := F.rpos
  have L1 := H.one
  have hh := H.steep
  have N1 := H₁.size
  have eN : N * ρ = 1001 / 1000 * L := by rw [hN]; field_simp
  have σL : σ * L ≤ N := by
    refine le_of_mul_le_mul_right ?_ hρ
    rw [eN, show σ * L * ρ = σ * ρ * L by ring]
    exact mul_le_mul_of_nonneg_right (by linarith [(abs_le.mp hτ).2]) (by linarith)
  have nd : ‖d.toE‖ ≤ 1 + 1 / 100000 := by
    have := norm_add_le (d.toE - e) e
    rw [sub_add_cancel, H.unit] at this
    linarith
  obtain ⟨Â, B, K, dA, dB, dK, ans⟩ := F.answer hR hP H.dist L1 (H.range.trans (by norm_num)) σL N1 H₁.range hpos hdir nd hrp hrd
  have uN : 500 * (R.u * N) ≤ ω * N := by
    have := mul_le_mul_of_nonneg_right uω (show 0 ≤ N by linarith)
    linarith
  have uN2 : 500 * (R.u * N ^ 2) ≤ ω * N ^ 2 := by
    have := mul_le_mul_of_nonneg_right uω (show 0 ≤ N ^ 2 by positivity)
    linarith
  have pN : 0 < R.u * N := by positivity
  have pN2 : 0 < R.u * N ^ 2 := by positivity
  have e1 : |Â - A| ≤ 33 / 10 * (ω / 2) := by
    have := abs_add_le (Â - gram M d d) (gram M d d - A)
    rw [sub_add_sub_cancel] at this
    linarith
  have e2 : |B - -(2 * (h + t * A) / ρ)| ≤ 15 / 2 * (ω / 2 * N) := by
    have := abs_add_le (B - 2 * σ * gram M (P - C) d) (2 * σ * gram M (P - C) d - -(2 * (h + t * A) / ρ))
    rw [sub_add_sub_cancel] at this
    linarith
  have e3 : |K - (2 * t * h + t ^ 2 * A) / ρ ^ 2| ≤ 7 / 2 * (ω / 2 * N ^ 2) := by
    have := abs_add_le (K - (σ ^ 2 * gram M (P - C) (P - C) - 1)) (σ ^ 2 * gram M (P - C) (P - C) - 1 - (2 * t * h + t ^ 2 * A) / ρ ^ 2)
    rw [sub_add_sub_cancel] at this
    linarith
  obtain ⟨y₀, y₁, ey, d0, d1, -, -, -, -⟩ := H₁.roots hR e1 e2 e3 (t₀ := t / ρ) (t₁ := (t + 2 * h / A) / ρ)
    (by field_simp; ring) (by field_simp; ring)
  have g0 := H₂.apos
  have q0 : 0 < s₀ - 2 * σ * gram M (P - C) d := by linarith [H₂.spos, H₂.toward]
  obtain ⟨z₀, z₁, ez, f0, -, -, f1, f2, -⟩ := H₂.roots hR dA dB dK (t₀ := 2 * (σ ^ 2 * gram M (P - C) (P - C) - 1) / (s₀ - 2 * σ * gram M (P - C) d))
    (t₁ := (s₀ - 2 * σ * gram M (P - C) d) / (2 * gram M d d)) (div_mul_cancel₀ _ q0.ne') (div_mul_cancel₀ _ (by positivity))
  rw [ey] at ez
  have zy : y₀ = z₀ := by
    have := congrArg Prod.fst ez
    exact XR.fin.inj (congrArg Fl.val (Option.some.inj this))
  rw [← zy] at f0
  refine ⟨y₀, y₁, s₀, _, _, by rw [ans, ey], H₂, div_mul_cancel₀ _ q0.ne', div_mul_cancel₀ _ (by positivity), f1, f0, f2, ?_, ?_, ?_⟩
  · norm_num at uA Alo ⊢; linarith
  · have h1 : |y₀ * ρ - t| = |y₀ - t / ρ| * ρ := by
      rw [← abs_of_pos hρ, ← abs_mul, abs_of_pos hρ]; congr 1; field_simp
    rw [h1]
    have h2 : 2 * h * |y₀ - t / ρ| ≤ 15 * (ω * N ^ 2 / A) * ρ := by
      have h3 : 2 * h / ρ * |y₀ - t / ρ| * ρ ≤ 30 * (ω / 2 * N ^ 2 / A) * ρ := mul_le_mul_of_nonneg_right d0 hρ.le
      have h4 : 2 * h / ρ * |y₀ - t / ρ| * ρ = 2 * h * |y₀ - t / ρ| := by field_simp
      have h5 : 30 * (ω / 2 * N ^ 2 / A) * ρ = 15 * (ω * N ^ 2 / A) * ρ := by ring
      rw [h4, h5] at h3; exact h3
    have h3 : 2 * h * (|y₀ - t / ρ| * ρ) ≤ 15 * (ω * (N * ρ) ^ 2 / A) := by
      have := mul_le_mul_of_nonneg_right h2 hρ.le
      have e4 : 15 * (ω * N ^ 2 / A) * ρ * ρ = 15 * (ω * (N * ρ) ^ 2 / A) := by ring
      rw [e4] at this; linarith
    rw [eN] at h3
    have h4 : 76 / 10 * (ω * L ^ 2 / (A * h)) * (2 * h) = 152 / 10 * (ω * L ^ 2 / A) := by field_simp; ring
    refine le_of_mul_le_mul_right ?_ (show 0 < 2 * h by linarith)
    rw [h4]
    have h5 : 15 * (ω * (1001 / 1000 * L) ^ 2 / A) = 15 * (1001 / 1000) ^ 2 * (ω * L ^ 2 / A) := by ring
    rw [h5] at h3
    have h6 : 0 ≤ ω * L ^ 2 / A := by positivity
    linarith
  · have h1 : |y₁ * ρ - (t + 2 * h / A)| = |y₁ - (t + 2 * h / A) / ρ| * ρ := by
      rw [← abs_of_pos hρ, ← abs_mul, abs_of_pos hρ]; congr 1; field_simp
    rw [h1]
    have h2 := mul_le_mul_of_nonneg_right d1 hρ.le
    have h3 : 2 * h / ρ / 200 * ρ = h / 100 := by field_simp; norm_num
    rw [h3] at h2; linarith

/-- **The first pass** finds two points ahead; the nearer one is where the ray meets the cylinder. -/
theorem CylinderFrame.first (F : CylinderFrame R c C a' ρ σ M W η) (hR : Proper R) (H : CylinderAhead R C P e a ρ t h A L q) (hω : ω = 1000 * R.u / q)
    (hN : N = 1001 / 1000 * (L / ρ)) (G : ∀ v w : V3 ℝ, |gram M v w - inner ℝ (across a v.toE) w.toE| ≤ ω * (‖v.toE‖ * ‖w.toE‖))
    (hd : ‖d.toE - e‖ ≤ 5 * R.u) (hP : Rep R P) {ray : Ray (Fl R)} (hrp : ray.position = P.fl) (hrd : ray.direction = d.fl) :
    ∃ x₀ x₁ : ℝ, c.testIntersect ray = .ok (Hit6.two (ray.position + (Fl.fin x₀ : Fl R) * ray.direction) (ray.position + (Fl.fin x₁ : Fl R) * ray.direction)
        (c.normal (ray.position + (Fl.fin x₀ : Fl R) * ray.direction)) (c.normal (ray.position + (Fl.fin x₁ : Fl R) * ray.direction)) 2) ∧
      |x₀ - t| ≤ 8 * (ω * L ^ 2 / (A * h)) ∧ t / 5 ≤ x₀ ∧ x₀ ≤ 9 / 5 * t ∧
      gram M d d * |σ ^ 2 * gram M (P - C + x₀ * d) (P - C + x₀ * d) - 1| ≤ 172 * (R.u * N ^ 2) := by
  obtain ⟨y₀, y₁, s₀, t₀, t₁, ans, H₂, ht₀, ht₁, hs₀, f0, f2, g1, d0, d1⟩ := F.both hR H hω hN G hd hP hrp hrd
  obtain ⟨uω, s1, s2, ω1, ω0, -, uA⟩ := H.scale hω
  obtain ⟨-, -, A0, A1, -, ρL, hρ', -, -, -⟩ := H.exact
  have hu := R.u_pos
  have hus := (five_u (R := R)).2
  have hρ := F.rpos
  have L1 := H.one
  have hh := H.steep
  have ht := H.ahead
  have tL := H.reach
  have t0 : 0 < t := by linarith
  have g0 := H₂.apos
  have gt := H₂.atop
  have N1 := H₂.size
  have hs := H₂.spos
  obtain ⟨E, hE⟩ : ∃ E, E = ω * L ^ 2 / (A * h) := ⟨_, rfl⟩
  rw [← hE] at d0 ⊢
  have eE : E * (A * h) = ω * L ^ 2 := by rw [hE]; field_simp
  have Et : 10 * E ≤ t := by
    refine le_of_mul_le_mul_right ?_ (show 0 < A * h by positivity)
    rw [show 10 * E * (A * h) = 10 * (E * (A * h)) by ring, eE]; linarith
  have E0 : 0 ≤ E := by rw [hE]; positivity
  have Eh : 20000 * E ≤ h := by
    refine le_of_mul_le_mul_right ?_ (show 0 < A * h by positivity)
    rw [show 20000 * E * (A * h) = 20000 * (E * (A * h)) by ring, eE]; norm_num at s1; linarith
  have uE : 500 * (R.u * L) ≤ E := by
    refine le_of_mul_le_mul_right ?_ (show 0 < A * h by positivity)
    rw [eE]
    have h1 : A * h ≤ 1 * L := mul_le_mul A1 (hρ'.trans ρL) hh.le (by norm_num)
    have h2 := mul_le_mul_of_nonneg_left h1 (show 0 ≤ R.u * L by positivity)
    have h3 := mul_le_mul_of_nonneg_right uω (show 0 ≤ L ^ 2 by positivity)
    nlinarith only [h2, h3]
  have d0' := abs_le.mp d0
  have y0lo : 24 / 100 * t ≤ y₀ * ρ := by linarith
  have y0hi : y₀ * ρ ≤ 176 / 100 * t := by linarith
  have y0pos : 0 < y₀ := by
    by_contra h0
    have := mul_nonpos_of_nonpos_of_nonneg (not_lt.mp h0) hρ.le
    linarith
  have y1b : |y₁ * ρ - (t + 2 * h / A)| ≤ h / A / 100 := by
    rw [div_div, le_div_iff₀ (by positivity)]
    linarith
  have y1b' := abs_le.mp y1b
  have hA : h ≤ h / A := by rw [le_div_iff₀ A0]; nlinarith only [A1, hh]
  have e2 : 2 * h / A = 2 * (h / A) := by ring
  rw [e2] at y1b'
  have y1lo : y₀ * ρ + 19 / 10 * (h / A) ≤ y₁ * ρ := by linarith
  have y1pos : 0 < y₁ := by
    by_contra h0
    have := mul_nonpos_of_nonpos_of_nonneg (not_lt.mp h0) hρ.le
    linarith
  have y0top : y₀ ≤ 10 ^ 200 := by
    refine le_of_mul_le_mul_right ?_ hρ
    have h1 := mul_le_mul_of_nonneg_left H.thick (show (0 : ℝ) ≤ 10 ^ 200 by positivity)
    have h2 : (2 : ℝ) * 10 ^ 30 ≤ 10 ^ 200 * (1 / 10 ^ 10) := by norm_num
    linarith [H.range]
  have hAtop : h / A ≤ 10 ^ 130 := by
    rw [div_le_iff₀ A0]
    have h1 : (10 : ℝ) ^ 130 * (10 ^ 7 * (1 / 10 ^ 100)) ≤ 10 ^ 130 * A := mul_le_mul_of_nonneg_left
      ((mul_le_mul_of_nonneg_left hR.fine (by positivity)).trans uA) (by positivity)
    have h2 : (10 : ℝ) ^ 30 ≤ 10 ^ 130 * (10 ^ 7 * (1 / 10 ^ 100)) := by norm_num
    linarith [H.range]
  have y1top : y₁ ≤ 10 ^ 200 := by
    refine le_of_mul_le_mul_right ?_ hρ
    have h1 := mul_le_mul_of_nonneg_left H.thick (show (0 : ℝ) ≤ 10 ^ 200 by positivity)
    have h2 : (10 : ℝ) ^ 30 + 3 * 10 ^ 130 ≤ 10 ^ 200 * (1 / 10 ^ 10) := by norm_num
    linarith [H.range]
  obtain ⟨x₀, hx₀, ex₀, fx₀⟩ := F.unscale hR (y := y₀) (Y := y₀) (by rw [abs_of_pos y0pos]) y0top
  obtain ⟨x₁, hx₁, ex₁, -⟩ := F.unscale hR (y := y₁) (Y := y₁) (by rw [abs_of_pos y1pos]) y1top
  have tiny : (1 : ℝ) / 10 ^ 250 ≤ 1 / 1000 * t := by
    have : (1 : ℝ) / 10 ^ 250 ≤ 1 / 1000 * (1 / 1000) := by norm_num
    linarith
  have b0 : |x₀ - y₀ * ρ| ≤ 4 * (R.u * t) := by
    have := mul_le_mul_of_nonneg_left (show 21 / 10 * (y₀ * ρ) + 1 / 10 ^ 250 ≤ 4 * t by linarith) hu.le
    linarith
  have utL : R.u * t ≤ R.u * L := mul_le_mul_of_nonneg_left tL hu.le
  have ut : R.u * t ≤ 1 / 1000000 * t := mul_le_mul_of_nonneg_right hus t0.le
  have b0' := abs_le.mp b0
  have hx0lo : t / 5 ≤ x₀ := by linarith
  have b1 : |x₁ - y₁ * ρ| ≤ 3 * (R.u * (t + 3 * (h / A))) := by
    have := mul_le_mul_of_nonneg_left (show 21 / 10 * (y₁ * ρ) + 1 / 10 ^ 250 ≤ 3 * (t + 3 * (h / A)) by linarith) hu.le
    linarith
  have b1' := abs_le.mp b1
  have u2 : R.u * (t + 3 * (h / A)) ≤ R.u * L + 3 / 1000000 * (h / A) := by
    have := mul_le_mul_of_nonneg_right hus (show 0 ≤ h / A by positivity)
    linarith
  have hlt : x₀ < x₁ := by linarith
  obtain ⟨f, -, fhi, hf, -⟩ := fl_floor (R := R)
  have ff : f < t / 5 := by norm_num at fhi; linarith
  refine ⟨x₀, x₁, ?_, ?_, hx0lo, by linarith, ?_⟩
  · rw [ans]
    unfold InfiniteCylinder.answer
    simp only [F.radius, F.scale, hx₀, hx₁, hf]
    rw [if_pos ⟨by exact (fl_lt _ _).mpr (by linarith), by exact (fl_lt _ _).mpr (by linarith)⟩, if_pos ((fl_lt _ _).mpr hlt)]
  · have := abs_add_le (x₀ - y₀ * ρ) (y₀ * ρ - t)
    rw [sub_add_sub_cancel] at this
    linarith
  · obtain ⟨g, hg⟩ : ∃ g, g = gram M d d := ⟨_, rfl⟩
    have eq : σ ^ 2 * gram M (P - C + x₀ * d) (P - C + x₀ * d) - 1 = gram M d d * (σ * x₀) ^ 2 + 2 * σ * gram M (P - C) d * (σ * x₀) +
        (σ ^ 2 * gram M (P - C) (P - C) - 1) := by
      rw [gram_add, gram_comm M (P - C), gram_comm M (x₀ * d) (P - C + x₀ * d), gram_add, gram_add, gram_smul, gram_smul,
        gram_comm M (P - C) (x₀ * d), gram_smul, gram_comm M d (x₀ * d), gram_smul, gram_comm M d (P - C)]; ring
    rw [eq]
    have pos : 0 < R.u * N ^ 2 := by positivity
    have gN : R.u * N ^ 2 ≤ 1 / 10 ^ 6 * (gram M d d * N ^ 2) := by
      have := mul_le_mul_of_nonneg_right g1 (show 0 ≤ N ^ 2 by positivity)
      norm_num at this ⊢; linarith
    have sy : s₀ * y₀ ≤ 1001 / 1000 * N ^ 2 := by
      have h1 : s₀ * (y₀ - t₀) ≤ s₀ * |y₀ - t₀| := mul_le_mul_of_nonneg_left (le_abs_self _) hs.le
      have h2 : 28 / 5 * R.u * N ^ 2 / gram M d d ≤ 28 / 5 * (1 / 10 ^ 6 * N ^ 2) := by
        rw [div_le_iff₀ g0]; linarith
      have : 0 < N ^ 2 := by positivity
      norm_num at h2; linarith
    have y0tiny : (1 : ℝ) / 10 ^ 209 ≤ 1 / 1000 * y₀ := by
      refine le_of_mul_le_mul_right ?_ hρ
      have h1 := mul_le_mul_of_nonneg_left (ρL.trans H.range) (show (0 : ℝ) ≤ 1 / 10 ^ 209 by positivity)
      have h2 : (1 : ℝ) / 10 ^ 209 * 10 ^ 30 ≤ 1 / 1000 * (24 / 100 * (1 / 1000)) := by norm_num
      linarith
    have dist : s₀ * |σ * x₀ - t₀| ≤ 171 * (R.u * N ^ 2) / gram M d d := by
      have h1 := abs_add_le (σ * x₀ - y₀) (y₀ - t₀)
      rw [sub_add_sub_cancel] at h1
      have h2 := mul_le_mul_of_nonneg_left h1 hs.le
      have h3 : |σ * x₀ - y₀| ≤ R.u * (1001 / 1000 * y₀) := fx₀.trans (mul_le_mul_of_nonneg_left (by linarith) hu.le)
      have h4 := mul_le_mul_of_nonneg_left h3 hs.le
      have h5 : s₀ * (R.u * (1001 / 1000 * y₀)) ≤ 1003 / 1000 * (R.u * N ^ 2) := by
        have := mul_le_mul_of_nonneg_left sy hu.le
        linarith
      have h6 : R.u * N ^ 2 ≤ 1001 / 1000 * (R.u * N ^ 2 / gram M d d) := by
        rw [← mul_div_assoc, le_div_iff₀ g0]
        nlinarith only [gt, pos]
      have h7 : 30 * (28 / 5 * R.u * N ^ 2 / gram M d d) = 168 * (R.u * N ^ 2 / gram M d d) := by ring
      have h8 : 171 * (R.u * N ^ 2) / gram M d d = 171 * (R.u * N ^ 2 / gram M d d) := by ring
      have h9 : 0 < R.u * N ^ 2 / gram M d d := by positivity
      rw [h7] at f0
      rw [h8]; linarith
    have st := H₂.steep
    have := H₂.residual ht₀ ht₁ hs₀ dist (by norm_num at st; linarith)
    linarith

end Optics
