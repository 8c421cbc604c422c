import Verif.Lemmas.CylinderLeave
/-!
A ray reflected by a cylinder does not find it again. Used by `Props/RoundedCylinderRuns.lean`.
-/

namespace Optics
open V3

variable {R : Rounding} {c : InfiniteCylinder (Fl R)} {C P a' a'' : V3 ℝ} {e a : E3} {ρ σ η t h A L q ω N E : ℝ} {M W : M3 ℝ} {d : V3 ℝ}

/-- The size of the roundoff compared with the cosine `g` of the angle of incidence across the axis. -/
theorem CylinderAhead.grain (H : CylinderAhead R C P e a ρ t h A L q) (hR : Proper R) (hN : N = 1001 / 1000 * (L / ρ)) {T g : ℝ} (hT : T = R.u * N ^ 2)
    (hg : g = h / ρ) :
    0 < g ∧ g ≤ 1 ∧ 10 ^ 7 * T ≤ 1003 / 1000 * (A * g ^ 2) ∧ R.u ≤ T ∧ R.u * N ≤ T ∧ 1 ≤ N ∧ N ≤ 10 ^ 50 ∧ 1 / 10 ^ 94 ≤ g ^ 2 ∧
      T * ρ / (A * g) ≤ 1003 / 1000 / 150 / 10 ^ 12 := by
  obtain ⟨-, -, A0, A1, -, ρL, hρ', -, -, -⟩ := H.exact
  have hu := R.u_pos
  have hρ : 0 < ρ := lt_of_lt_of_le (by norm_num) H.thick
  have hh := H.steep
  have L1 := H.one
  have g0 : 0 < g := by rw [hg]; positivity
  have g1 : g ≤ 1 := by rw [hg, div_le_one hρ]; exact hρ'
  have N1 : 1 ≤ N := by
    have : 1 ≤ L / ρ := by rw [le_div_iff₀ hρ]; linarith
    linarith
  have N2 : N ≤ 10 ^ 50 := by
    have h1 : L / ρ ≤ 10 ^ 30 / (1 / 10 ^ 10) := div_le_div₀ (by positivity) H.range (by positivity) H.thick
    have h2 : (1001 / 1000 : ℝ) * (10 ^ 30 / (1 / 10 ^ 10)) ≤ 10 ^ 50 := by norm_num
    linarith
  have Tρ : T * ρ ^ 2 = 1002001 / 1000000 * (R.u * L ^ 2) := by rw [hT, hN]; field_simp; norm_num
  have T1 : 10 ^ 7 * T ≤ 1003 / 1000 * (A * g ^ 2) := by
    refine le_of_mul_le_mul_right ?_ (show 0 < ρ ^ 2 by positivity)
    have e1 : 1003 / 1000 * (A * g ^ 2) * ρ ^ 2 = 1003 / 1000 * (A * h ^ 2) := by rw [hg]; field_simp
    have h1 := H.tilt
    have h2 : q * (A * h ^ 2) ≤ 2 * (A * h ^ 2) := mul_le_mul_of_nonneg_right H.qtop (by positivity)
    have h3 : 0 < A * h ^ 2 := by positivity
    rw [e1, mul_assoc, Tρ]
    norm_num at h1 ⊢; linarith
  have NN : N ≤ N ^ 2 := by nlinarith only [N1]
  have uT : R.u ≤ T := by
    have := mul_le_mul_of_nonneg_left (show 1 ≤ N ^ 2 by linarith) hu.le
    rw [hT]; linarith
  have uN : R.u * N ≤ T := by rw [hT]; exact mul_le_mul_of_nonneg_left NN hu.le
  refine ⟨g0, g1, T1, uT, uN, N1, N2, ?_, ?_⟩
  · have h1 : A * g ^ 2 ≤ 1 * g ^ 2 := mul_le_mul_of_nonneg_right A1 (sq_nonneg g)
    have h2 := hR.fine
    have h3 : (1 : ℝ) / 10 ^ 94 * 2 ≤ 10 ^ 7 * (1 / 10 ^ 100) := by norm_num
    have h4 : (10 : ℝ) ^ 7 * (1 / 10 ^ 100) ≤ 10 ^ 7 * R.u := mul_le_mul_of_nonneg_left h2 (by norm_num)
    have h5 : (10 : ℝ) ^ 7 * R.u ≤ 10 ^ 7 * T := mul_le_mul_of_nonneg_left uT (by norm_num)
    have h6 : (0 : ℝ) < 1 / 10 ^ 94 := by norm_num
    have h7 := sq_nonneg g
    linarith
  · have e1 : T * ρ / (A * g) = T * ρ ^ 2 / (A * h) := by rw [hg]; field_simp
    rw [e1, Tρ, div_le_iff₀ (by positivity)]
    have := H.near
    have h3 : 0 < A * h := by positivity
    norm_num at this ⊢; linarith

/-- The coefficients computed for a ray that starts near the cylinder and goes outwards. -/
theorem CylinderFrame.outside (F : CylinderFrame R c C a' ρ σ M W η) (hR : Proper R) (H : CylinderAhead R C P e a ρ t h A L q)
    (hω : ω = 1000 * R.u / q) (hN : N = 1001 / 1000 * (L / ρ))
    (G : ∀ v w : V3 ℝ, |gram M v w - inner ℝ (across a v.toE) w.toE| ≤ ω * (‖v.toE‖ * ‖w.toE‖))
    {P' w : V3 ℝ} (hP' : Rep R P') (hV : ‖(P' - C).toE‖ ≤ 10005 / 10000 * L) (hw : NearUnit R w)
    (res : |σ ^ 2 * gram M (P' - C) (P' - C) - 1| * A ≤ 2052 / 10 * (R.u * N ^ 2)) (out : 99 / 100 * h ≤ gram M (P' - C) w)
    {ray : Ray (Fl R)} (hrp : ray.position = P'.fl) (hrd : ray.direction = w.fl) {T g : ℝ} (hT : T = R.u * N ^ 2) (hg : g = h / ρ) :
    ∃ Â B K : ℝ, c.testIntersect ray = c.answer ray (cylinderRoots (Fl.fin Â) (Fl.fin B) (Fl.fin K)) ∧ 97 / 100 * g ^ 2 ≤ Â ∧ Â ≤ 1001 / 1000 ∧
      1979 / 1000 * g ≤ B ∧ B ≤ 2001 / 1000 * N ∧ |K| * A ≤ 225 * T ∧ 1002 / 1000 ≤ N ^ 2 := by
  obtain ⟨uω, s1, s2, ω1, ω0, -, uA⟩ := H.scale hω
  obtain ⟨-, -, A0, A1, -, ρL, hρ', -, -, -⟩ := H.exact
  obtain ⟨g0, g1, T1, uT, uN, N1, N2, gg, last⟩ := H.grain hR hN hT hg
  obtain ⟨hτ, slo, shi⟩ := F.sigma hR
  have hu := R.u_pos
  have hus := (five_u (R := R)).2
  have hρ := F.rpos
  have hh := H.steep
  have L1 := H.one
  have wn := hw.bounds.1
  have hσ : 0 < σ := lt_of_lt_of_le (by positivity) slo
  have hτ' := abs_le.mp hτ
  have T0 : 0 < T := by linarith
  have g2 : 0 < g ^ 2 := by positivity
  have gg1 : g ^ 2 ≤ g := by nlinarith only [g0, g1]
  have Ag : A * g ^ 2 ≤ 1 * g ^ 2 := mul_le_mul_of_nonneg_right A1 g2.le
  have Tg : 10 ^ 7 * T ≤ 1003 / 1000 * g ^ 2 := by linarith
  norm_num at Tg
  have σL : σ * L ≤ 1000002 / 1000000 * (N / (1001 / 1000)) := by
    have e1 : σ * L = (σ * ρ) * (L / ρ) := by field_simp
    have e2 : N / (1001 / 1000) = L / ρ := by rw [hN]; field_simp
    rw [e1, e2]
    exact mul_le_mul_of_nonneg_right (by linarith) (by positivity)
  have σX : σ * (10005 / 10000 * L) ≤ N := by linarith
  -- sizes
  have b1 := gram_abs H.axis ω1 G (P' - C) (P' - C)
  have b2 := gram_abs H.axis ω1 G (P' - C) w
  have b3 := gram_abs H.axis ω1 G w w
  have m3 := mul_le_mul wn wn (_root_.norm_nonneg _) (by norm_num)
  have ww : gram M w w ≤ 1 + 1 / 10000 := by
    have := le_abs_self (gram M w w); norm_num at m3; linarith
  have VV : σ ^ 2 * gram M (P' - C) (P' - C) ≤ 1001 / 1000 := by
    have h1 := le_abs_self (σ ^ 2 * gram M (P' - C) (P' - C) - 1)
    have h2 : (σ ^ 2 * gram M (P' - C) (P' - C) - 1) * A ≤ 1 / 1000 * A := by
      have h3 := mul_le_mul_of_nonneg_right h1 A0.le
      rw [← hT] at res
      have h4 : A * g ^ 2 ≤ A * 1 := mul_le_mul_of_nonneg_left (by linarith) A0.le
      norm_num at T1; linarith
    have := le_of_mul_le_mul_right h2 A0
    linarith
  have N2' : 1002 / 1000 ≤ N ^ 2 := by
    have : 1001 / 1000 ≤ N := by
      have : 1 ≤ L / ρ := by rw [le_div_iff₀ hρ]; linarith
      linarith
    calc (1002 / 1000 : ℝ) ≤ (1001 / 1000) ^ 2 := by norm_num
      _ ≤ N ^ 2 := pow_le_pow_left₀ (by norm_num) this 2
  have nV : ‖P'.toE - C.toE‖ ≤ 10005 / 10000 * L := by rw [← toE_sub]; exact hV
  obtain ⟨Â, B, K, eA, eB, eK, ans⟩ := F.answer (X := 10005 / 10000 * L) hR hP' nV (by linarith) (by
    have := H.range
    have : 10005 / 10000 * (10 : ℝ) ^ 30 ≤ 10 ^ 50 := by norm_num
    linarith) σX N1 N2 (by linarith) ww wn hrp hrd
  have eA' := abs_le.mp eA
  have eB' := abs_le.mp eB
  -- B
  have Blo : 1979 / 1000 * g ≤ B := by
    have h1 : 2 * σ * (99 / 100 * h) ≤ 2 * σ * gram M (P' - C) w := mul_le_mul_of_nonneg_left out (by positivity)
    have e1 : 2 * σ * (99 / 100 * h) = 198 / 100 * ((σ * ρ) * g) := by rw [hg]; field_simp; norm_num
    have h2 : 999998 / 1000000 * g ≤ (σ * ρ) * g := mul_le_mul_of_nonneg_right (by linarith) g0.le
    have h3 : 15 / 2 * (28 / 5 * R.u * N) = 42 * (R.u * N) := by ring
    rw [h3] at eB'
    linarith
  have Bhi : B ≤ 2001 / 1000 * N := by
    have h1 := mul_le_mul hV wn (_root_.norm_nonneg _) (by positivity)
    have h2 := le_abs_self (gram M (P' - C) w)
    have h3 : 2 * σ * gram M (P' - C) w ≤ 2 * σ * ((1 + 1 / 20000) * (10005 / 10000 * L * (1 + 1 / 100000))) :=
      mul_le_mul_of_nonneg_left (by linarith) (by positivity)
    have h4 : 15 / 2 * (28 / 5 * R.u * N) = 42 * (R.u * N) := by ring
    have h5 : R.u * N ≤ 1 / 1000000 * N := mul_le_mul_of_nonneg_right hus (by linarith)
    rw [h4] at eB'
    have h6 : 2 * σ * ((1 + 1 / 20000) * (10005 / 10000 * L * (1 + 1 / 100000))) =
      2 * ((1 + 1 / 20000) * (10005 / 10000 * (1 + 1 / 100000))) * (σ * L) := by ring
    rw [h6] at h3
    norm_num at h3 σL
    linarith
  -- A
  have Alo : 97 / 100 * g ^ 2 ≤ Â := by
    have cs := gram_cs M (P' - C) w
    have h1 : (9899 / 10000 * g) ^ 2 ≤ (σ * gram M (P' - C) w) ^ 2 := by
      apply pow_le_pow_left₀ (by positivity)
      have h2 : σ * (99 / 100 * h) ≤ σ * gram M (P' - C) w := mul_le_mul_of_nonneg_left out hσ.le
      have e1 : σ * (99 / 100 * h) = 99 / 100 * ((σ * ρ) * g) := by rw [hg]; field_simp
      have h3 : 999998 / 1000000 * g ≤ (σ * ρ) * g := mul_le_mul_of_nonneg_right (by linarith) g0.le
      linarith
    have h2 : (σ * gram M (P' - C) w) ^ 2 ≤ 1001 / 1000 * gram M w w := by
      have h3 := mul_le_mul_of_nonneg_left cs (sq_nonneg σ)
      have h4 := mul_le_mul_of_nonneg_right VV (gram_nonneg M w)
      linarith [(by ring : (σ * gram M (P' - C) w) ^ 2 = σ ^ 2 * gram M (P' - C) w ^ 2),
        (by ring : σ ^ 2 * (gram M (P' - C) (P' - C) * gram M w w) = σ ^ 2 * gram M (P' - C) (P' - C) * gram M w w)]
    have h3 : (9899 / 10000 * g) ^ 2 = 97990201 / 100000000 * g ^ 2 := by ring
    linarith
  have Ahi : Â ≤ 1001 / 1000 := by linarith
  -- K
  have KA : |K| * A ≤ 225 * T := by
    have h1 := abs_add_le (K - (σ ^ 2 * gram M (P' - C) (P' - C) - 1)) (σ ^ 2 * gram M (P' - C) (P' - C) - 1)
    rw [sub_add_cancel] at h1
    have h2 := mul_le_mul_of_nonneg_right h1 A0.le
    have h3 : 7 / 2 * (28 / 5 * R.u * N ^ 2) = 196 / 10 * T := by rw [hT]; ring
    rw [h3] at eK
    have h4 := mul_le_mul eK A1 A0.le (by positivity)
    rw [← hT] at res
    linarith
  exact ⟨Â, B, K, ans, Alo, Ahi, Blo, Bhi, KA, N2'⟩

/-- **Gone**: a ray that starts near the cylinder and goes outwards does not meet it. -/
theorem CylinderFrame.leaves (F : CylinderFrame R c C a' ρ σ M W η) (hR : Proper R) (H : CylinderAhead R C P e a ρ t h A L q)
    (hω : ω = 1000 * R.u / q) (hN : N = 1001 / 1000 * (L / ρ))
    (G : ∀ v w : V3 ℝ, |gram M v w - inner ℝ (across a v.toE) w.toE| ≤ ω * (‖v.toE‖ * ‖w.toE‖))
    {P' w : V3 ℝ} (hP' : Rep R P') (hV : ‖(P' - C).toE‖ ≤ 10005 / 10000 * L) (hw : NearUnit R w)
    (res : |σ ^ 2 * gram M (P' - C) (P' - C) - 1| * A ≤ 2052 / 10 * (R.u * N ^ 2)) (out : 99 / 100 * h ≤ gram M (P' - C) w)
    {ray : Ray (Fl R)} (hrp : ray.position = P'.fl) (hrd : ray.direction = w.fl) : c.testIntersect ray = .ok (Hit6.miss 0) := by
  obtain ⟨-, -, A0, A1, -, ρL, hρ', -, -, -⟩ := H.exact
  obtain ⟨T, hT⟩ : ∃ T, T = R.u * N ^ 2 := ⟨_, rfl⟩
  obtain ⟨g, hg⟩ : ∃ g, g = h / ρ := ⟨_, rfl⟩
  obtain ⟨g0, g1, T1, uT, uN, N1, N2, gg, last⟩ := H.grain hR hN hT hg
  obtain ⟨Â, B, K, ans, Alo, Ahi, Blo, Bhi, KA, N2'⟩ := F.outside hR H hω hN G hP' hV hw res out hrp hrd hT hg
  obtain ⟨hτ, slo, shi⟩ := F.sigma hR
  have hu := R.u_pos
  have hus := (five_u (R := R)).2
  have hρ := F.rpos
  have hσ : 0 < σ := lt_of_lt_of_le (by positivity) slo
  have T0 : 0 < T := by linarith
  have g2 : 0 < g ^ 2 := by positivity
  have gg1 : g ^ 2 ≤ g := by nlinarith only [g0, g1]
  have Ag : A * g ^ 2 ≤ 1 * g ^ 2 := mul_le_mul_of_nonneg_right A1 g2.le
  have Tg : 10 ^ 7 * T ≤ 1003 / 1000 * g ^ 2 := by linarith
  norm_num at Tg
  have Kg : |K| ≤ 226 / 10 ^ 7 * g ^ 2 := by
    refine le_of_mul_le_mul_right ?_ A0
    norm_num at T1 ⊢; linarith
  norm_num at Kg
  have B60 : 1 / 10 ^ 60 ≤ B := by
    have : 1 / 10 ^ 60 ≤ g := le_of_sq_le_sq (le_trans (by norm_num) gg) g0.le
    linarith
  have B0 : 0 < B := by linarith
  have BB : (1979 / 1000 * g) ^ 2 ≤ B ^ 2 := pow_le_pow_left₀ (by positivity) Blo 2
  rw [mul_pow] at BB
  norm_num at BB
  obtain ⟨y₀, y₁, hroots, y00, y0b, y1b⟩ := cylinderRoots_leaving (R := R) (A := Â) (B := B) (K := K) (N := N) hR N1 N2
    (by
      have : (1 : ℝ) / 10 ^ 95 ≤ 97 / 100 * (1 / 10 ^ 94) := by norm_num
      linarith) Ahi B60 Bhi (by linarith) (by rw [← hT]; linarith)
  rw [hroots] at ans
  -- the lengths
  obtain ⟨f, f1, f2, hf, -⟩ := fl_floor (R := R)
  obtain ⟨x₀, hx₀, -, -⟩ := F.unscale hR y0b le_rfl
  have x0 : x₀ ≤ 0 := by
    rw [fl_div _ _ hσ.ne'] at hx₀
    exact rnd_nonpos (div_nonpos_of_nonpos_of_nonneg y00 hσ.le) (congrArg Fl.val hx₀)
  obtain ⟨Y, hY⟩ : ∃ Y, Y = 1002 / 1000 * (|K| / B) + 1 / 10 ^ 180 := ⟨_, rfl⟩
  rw [← hY] at y1b
  have KB : |K| * ρ / B ≤ 762 / 1000 / 10 ^ 12 := by
    have h1 : |K| * ρ / B ≤ (225 * T / A) * ρ / (1979 / 1000 * g) := by
      apply div_le_div₀ (by positivity) _ (by positivity) Blo
      apply mul_le_mul_of_nonneg_right _ hρ.le
      rw [le_div_iff₀ A0]; exact KA
    have h2 : (225 * T / A) * ρ / (1979 / 1000 * g) = 225 * 1000 / 1979 * (T * ρ / (A * g)) := by field_simp
    rw [h2] at h1
    norm_num at last h1 ⊢; linarith
  have Yρ : Y * ρ ≤ 765 / 1000 / 10 ^ 12 := by
    have e1 : Y * ρ = 1002 / 1000 * (|K| * ρ / B) + 1 / 10 ^ 180 * ρ := by rw [hY]; field_simp
    have h1 : (1 : ℝ) / 10 ^ 180 * ρ ≤ 1 / 10 ^ 180 * 10 ^ 40 := mul_le_mul_of_nonneg_left F.rtop (by positivity)
    have h2 : (1 : ℝ) / 10 ^ 180 * 10 ^ 40 ≤ 1 / 10 ^ 20 := by norm_num
    rw [e1]
    norm_num at KB h2 ⊢; linarith
  have Yρ0 : 0 ≤ Y * ρ := by rw [hY]; positivity
  have Ytop : Y ≤ 10 ^ 200 := by
    have h1 : Y * ρ ≤ 10 ^ 200 * ρ := by
      have h2 : (10 : ℝ) ^ 200 * (1 / 10 ^ 40) ≤ 10 ^ 200 * ρ := mul_le_mul_of_nonneg_left F.rlow (by positivity)
      have h3 : (765 / 1000 / 10 ^ 12 : ℝ) ≤ 10 ^ 200 * (1 / 10 ^ 40) := by norm_num
      linarith
    exact le_of_mul_le_mul_right h1 hρ
  obtain ⟨x₁, hx₁, ex₁, -⟩ := F.unscale hR y1b Ytop
  have x1 : x₁ ≤ f := by
    have h1 := (abs_le.mp ex₁).2
    have h2 : y₁ * ρ ≤ Y * ρ := mul_le_mul_of_nonneg_right ((le_abs_self _).trans y1b) hρ.le
    have h3 : R.u * (21 / 10 * (Y * ρ) + 1 / 10 ^ 250) ≤ 1 / 1000000 * (21 / 10 * (Y * ρ) + 1 / 10 ^ 250) :=
      mul_le_mul_of_nonneg_right hus (by positivity)
    have h4 : (1 : ℝ) / 10 ^ 250 ≤ 1 / 10 ^ 20 := by norm_num
    norm_num at f1 Yρ h4 ⊢
    norm_num at h3
    linarith
  rw [ans]
  unfold InfiniteCylinder.answer
  simp only [F.radius, F.scale, hx₀, hx₁]
  have k0 : ¬ (Fl.fin x₀ : Fl R) > clippingFloor := by
    rw [hf]; exact not_lt.mpr (show x₀ ≤ f by
      have : (0 : ℝ) < 9 / 10 ^ 13 := by norm_num
      linarith)
  have k1 : ¬ (Fl.fin x₁ : Fl R) > clippingFloor := by rw [hf]; exact not_lt.mpr x1
  rw [if_neg (fun x => k0 x.1), if_neg k1, if_neg k0]

end Optics
