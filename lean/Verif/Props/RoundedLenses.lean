import Verif.Lemmas.ThinScene

/-!
# C107: how sharply an ideal lens images a point, with rounding

With real arithmetic an ideal lens takes every ray from a point exactly through the image of that point (C06).  With rounding the
rays pass near it.
-/

namespace Optics
open V3
variable {R : Rounding} {md : Fl R} {optics : List (Optic (Fl R))} {s s' : RunState (Fl R)} {O w P N : V3 ℝ} {f B c r : ℝ}

/-- C107: with rounding, rays that are parallel to one another, but not to the axis, still meet in the focal plane: a ray with the
direction `w` leaves the lens towards a point no further than `73 u B / c²` from the point `P + (f/c) w`, which is the same for
all of them.  Here `u` is the relative error of one operation, `B` bounds the positions and `c` is the cosine of the angle to the
axis. -/
theorem C107_focus (h : LensPass md optics s s' O w P N f B c r) (ho : OffAxis R N w) :
    ∃ (P' d' : V3 ℝ) (t : ℝ), s'.ray.position = P'.fl ∧ s'.ray.direction = d'.fl ∧ |‖d'.toE‖ - 1| ≤ 5 * R.u ∧
      |inner ℝ (axisOf N) (P'.toE - P.toE)| ≤ 70 * (R.u * B) ∧ 0 < t ∧
      ‖P'.toE + t • d'.toE - (P.toE + (f / c) • w.toE)‖ ≤ 73 * (R.u * (B / c ^ 2)) := by
  obtain ⟨sel, hsel, hlens⟩ := h.lens
  obtain ⟨hX, hBX, hGX, hXb, huX, huBX, huX1⟩ := h.sizes.facts
  have hu := R.u_pos
  have huX0 : 0 < R.u * (B / c ^ 2) := by positivity
  obtain ⟨P', d', q, x, h1, h2, h3, h4, h5, h6, h7, h8, h9⟩ := lens_pass h.sizes h.grid h.pos h.dir h.unit h.rem h.rem_nonneg h.room h.cos
    h.kind h.step h.hit hsel hlens
  have h9' := h9.resolve_right (fun hh => by
    rcases hh.1 with hh | hh
    · exact absurd ho.1 (not_lt.mpr hh)
    · exact absurd ho.2 (not_lt.mpr hh))
  refine ⟨P', d', _, h1, h2, h3, h7, thin_length_pos h.sizes (hlens.axis_norm) h.cos h7 h8, ?_⟩
  have e : P'.toE + ‖(f / c) • w.toE - (q.toE - P.toE)‖ • d'.toE - (P.toE + (f / c) • w.toE) = (P'.toE - q.toE) +
      (‖(f / c) • w.toE - (q.toE - P.toE)‖ • d'.toE - ((f / c) • w.toE - (q.toE - P.toE))) := by abel
  rw [e]
  refine (norm_add_le _ _).trans ?_
  linarith

/-- C107: with rounding, a ray from `O` through an ideal lens still passes close to the image `I` of `O` that the thin lens
equation gives: no further away than `(73 + 150 f / |p - f|) u B / c²`, with `p` the distance of `O` from the lens plane.  It
passes there after the lens if the image is real, and comes from there if it is virtual.  This is for rays the code does not take
for axial ones. -/
theorem C107_image (h : LensPass md optics s s' O w P N f B c r) (ho : OffAxis R N w)
    (hp : 100 * (R.u * (B / c ^ 2)) ≤ |inner ℝ (O.toE - P.toE) (axisOf N)|) {I : E3} (hI : ImageOf f P.toE (axisOf N) O.toE I) :
    ∃ (P' d' : V3 ℝ) (t : ℝ), s'.ray.position = P'.fl ∧ s'.ray.direction = d'.fl ∧ |‖d'.toE‖ - 1| ≤ 5 * R.u ∧
      |inner ℝ (axisOf N) (P'.toE - P.toE)| ≤ 70 * (R.u * B) ∧ (0 < t ↔ f < |inner ℝ (O.toE - P.toE) (axisOf N)|) ∧
      ‖P'.toE + t • d'.toE - I‖ ≤
        (73 + 150 * (f / |(|inner ℝ (O.toE - P.toE) (axisOf N)| - f)|)) * (R.u * (B / c ^ 2)) := by
  obtain ⟨sel, hsel, hlens⟩ := h.lens
  obtain ⟨P', d', q, x, h1, h2, h3, h4, h5, h6, h7, h8, h9⟩ := lens_pass h.sizes h.grid h.pos h.dir h.unit h.rem h.rem_nonneg h.room h.cos
    h.kind h.step h.hit hsel hlens
  have h9' := h9.resolve_right (fun hh => by
    rcases hh.1 with hh | hh
    · exact absurd ho.1 (not_lt.mpr hh)
    · exact absurd ho.2 (not_lt.mpr hh))
  obtain ⟨t, t1, t2⟩ := thin_image_off h.sizes hlens.axis_norm (NearUnit.bounds h.unit).1 h.cos h4 hp h6 h7 h8 h9' hI
  exact ⟨P', d', t, h1, h2, h3, h7, t1, t2⟩

/-- C107: for every ray, also one that the code takes for a ray along the axis, the same holds with a further error of
`8e-8 f (1 + f / |p - f|)`: that is what the tolerance of `np.allclose` costs. -/
theorem C107_image_any (h : LensPass md optics s s' O w P N f B c r)
    (hp : 100 * (R.u * (B / c ^ 2)) ≤ |inner ℝ (O.toE - P.toE) (axisOf N)|) {I : E3} (hI : ImageOf f P.toE (axisOf N) O.toE I) :
    ∃ (P' d' : V3 ℝ) (t : ℝ), s'.ray.position = P'.fl ∧ s'.ray.direction = d'.fl ∧ |‖d'.toE‖ - 1| ≤ 5 * R.u ∧
      |inner ℝ (axisOf N) (P'.toE - P.toE)| ≤ 70 * (R.u * B) ∧ (0 < t ↔ f < |inner ℝ (O.toE - P.toE) (axisOf N)|) ∧
      ‖P'.toE + t • d'.toE - I‖ ≤
        (73 + 150 * (f / |(|inner ℝ (O.toE - P.toE) (axisOf N)| - f)|)) * (R.u * (B / c ^ 2)) +
          8 / 10 ^ 8 * f * (1 + f / |(|inner ℝ (O.toE - P.toE) (axisOf N)| - f)|) := by
  obtain ⟨sel, hsel, hlens⟩ := h.lens
  obtain ⟨P', d', q, x, h1, h2, h3, h4, h5, h6, h7, h8, h9⟩ := lens_pass h.sizes h.grid h.pos h.dir h.unit h.rem h.rem_nonneg h.room h.cos
    h.kind h.step h.hit hsel hlens
  have hf := h.sizes.f_pos
  rcases h9 with h9 | ⟨-, h9⟩
  · obtain ⟨t, t1, t2⟩ := thin_image_off h.sizes hlens.axis_norm (NearUnit.bounds h.unit).1 h.cos h4 hp h6 h7 h8 h9 hI
    refine ⟨P', d', t, h1, h2, h3, h7, t1, t2.trans (le_add_of_nonneg_right (by positivity))⟩
  · obtain ⟨t, t1, t2⟩ := thin_image_on h.sizes hlens.axis_norm (NearUnit.bounds h.unit).1 h.cos h4 hp h6 h7 h9 hI
    exact ⟨P', d', t, h1, h2, h3, h7, t1, t2⟩

/-- C107: passes as in the theorems above exist: for a lens ahead, the first pass of the run is one. -/
theorem C107_first_pass {D : V3 ℝ} (hD : SaneLength D) (hN : SaneLength N) {κ a m : ℝ} (H : LensAhead R O D.dirE P N f B κ a m)
    {Dia : Fl R} (hDia : Dia / 2.0 = Fl.fin a) {ww hh : Option (Fl R)} {index : Fl R} {l : Lens (Fl R)}
    (hl : Lens.new P.fl (some N.fl) "spherical_biconvex" (some Dia) ww hh (some (Fl.fin f)) "ideal" index = .ok l)
    {wavelength order : Fl R} {type : String} (htype : type ≠ "faerie_fire") :
    ∃ (w : V3 ℝ) (c : ℝ) (s' : RunState (Fl R)), ‖w.toE - D.dirE‖ ≤ 5 * R.u ∧
      LensPass (Fl.fin m) [.lens l] (RunState.init (Ray.new O.fl D.fl wavelength order type) (Fl.fin m)) s' O w P N f B c m := by
  have hu := R.u_pos
  have hs := H.sizes
  obtain ⟨w, q, n, P', d', x, c, hw, ew, hwu, hc, hsc, hXc, hit, hx, hx0, hxm, fly, turn, hd', k1, k2, k3, hland, hin, hgone, k4⟩ :=
    H.turned hD hN hDia wavelength order type rfl
  obtain ⟨g, g1, g2, hg, -⟩ := fl_floor (R := R)
  obtain ⟨b1, b2, -, b3, b4, -⟩ := biconvex_built hl
  have hm0 : 0 ≤ m := by linarith
  have step := ideal_enter (md := Fl.fin m) (s := RunState.init (Ray.new O.fl D.fl wavelength order type) (Fl.fin m)) (w := d'.fl) b4 b2
    (biconvex_reports hl hit hin (by
      show PyNum.ltInf (distanceBetween (O.fl : V3 (Fl R)) q.fl) = true
      rw [hx]; rfl)) htype
    (by
      show ¬ distanceBetween (O.fl : V3 (Fl R)) q.fl > Fl.fin m
      rw [hx]; exact not_lt.mpr (show x ≤ m by linarith))
    (by
      show distanceBetween (O.fl : V3 (Fl R)) q.fl > clippingFloor
      rw [hx, hg]; exact (fl_lt _ _).mpr (by linarith))
    (by
      show PyNum.ltInf (distanceBetween (O.fl : V3 (Fl R)) q.fl) = true
      rw [hx]; rfl)
    (by
      show thinLensDirection ((O.fl : V3 (Fl R)) + distanceBetween (O.fl : V3 (Fl R)) q.fl * unitVector (D.fl : V3 (Fl R)))
        (unitVector (D.fl : V3 (Fl R))) _ _ _ _ = _
      rw [hw, fly, b1, b3]; exact turn)
  exact ⟨w, c, _, ew, hsc, H.grid, rfl, hw, hwu, rfl, hm0, H.room, hc, htype, step, rfl, _, rfl, .mk hN hl⟩

/-- C107: the whole run, with rounding, of a ray towards one ideal lens.  The ray starts at `O` in the direction `D`, and
`LensAhead` says that the exact ray meets the lens ahead inside its rim.  Then the run ends after exactly one interaction: the ray
is turned at a point close to the exact crossing of the lens plane, the lens is not met again, and the final direction leads close
to the image `I` of `O`, towards it when the image is real and away from it when it is virtual. -/
theorem C107_one_lens {D : V3 ℝ} (hD : SaneLength D) (hN : SaneLength N) {κ a m : ℝ} (H : LensAhead R O D.dirE P N f B κ a m)
    {Dia : Fl R} (hDia : Dia / 2.0 = Fl.fin a) {ww hh : Option (Fl R)} {index : Fl R} {l : Lens (Fl R)}
    (hl : Lens.new P.fl (some N.fl) "spherical_biconvex" (some Dia) ww hh (some (Fl.fin f)) "ideal" index = .ok l)
    {wavelength order : Fl R} {type : String} (htype : type ≠ "faerie_fire") (hm : R.rnd m = .fin m) {mi : Option Int}
    (hmi : ∀ k, mi = some k → 1 < k) (fuel : Nat) {I : E3} (hI : ImageOf f P.toE (axisOf N) O.toE I) {p μ : ℝ}
    (hp : |inner ℝ (O.toE - P.toE) (axisOf N)| = p) (hμ : f / |p - f| = μ) :
    ∃ (s : RunState (Fl R)) (P' d' : V3 ℝ) (t : ℝ) (last : V3 (Fl R)),
      (Ray.new O.fl D.fl wavelength order type).run (Fl.fin m) [.lens l] mi (fuel + 3) = .finished s ∧
      s.interactions = 1 ∧ s.ray.blocked = false ∧ s.ray.pointHistory = [O.fl, P'.fl, last] ∧ s.ray.direction = d'.fl ∧
      |‖d'.toE‖ - 1| ≤ 5 * R.u ∧
      ‖P'.toE - (O.toE + (p / |inner ℝ (axisOf N) D.dirE|) • D.dirE)‖ ≤ 90 * (R.u * (B / κ ^ 2)) ∧
      (0 < t ↔ f < p) ∧
      ‖P'.toE + t • d'.toE - I‖ ≤ (73 + 150 * μ) * (R.u * (B / κ ^ 2)) + 8 / 10 ^ 8 * f * (1 + μ) ∧
      (2 / 10 ^ 8 + 10 * R.u < ‖D.dirE - axisOf N‖ → 2 / 10 ^ 8 + 10 * R.u < ‖D.dirE + axisOf N‖ →
        ‖P'.toE + t • d'.toE - I‖ ≤ (73 + 150 * μ) * (R.u * (B / κ ^ 2))) := by
  have hu := R.u_pos
  have hs := H.sizes
  have hB := hs.one_le
  have hf := hs.f_pos
  have hM : ‖axisOf N‖ = 1 := dirE_norm hN.pos
  have hroom := H.room
  have hnear := H.near
  have hO0 := _root_.norm_nonneg O.toE
  have hP0 := _root_.norm_nonneg P.toE
  obtain ⟨w, q, n, P', d', x, c, hw, ew, hwu, hc, hsc, hXc, hit, hx, hx0, hxm, fly, turn, hd', k1, k2, k3, hland, hin, hgone, k4⟩ :=
    H.turned hD hN hDia wavelength order type hp
  have hm50 : m ≤ 10 ^ 50 := by linarith [hs.le_big]
  obtain ⟨y, hy, hym, hyl⟩ := left_over (R := R) (a := m) (x := x) hm hm50 le_rfl (by linarith) (by linarith)
  obtain ⟨z, hz, -⟩ := rnd_big (R := R) (x := y - m) (e := m) (by rw [abs_le]; constructor <;> linarith)
    (hm50.trans (by norm_num))
  have hz0 : z ≤ 0 := rnd_nonpos (by linarith) (congrArg Fl.val hz)
  obtain ⟨s, last, r1, r2, r3, r4, r5⟩ := ideal_passes hl (ray := Ray.new O.fl D.fl wavelength order type) (mi := mi) htype rfl hw rfl
    hit hin hx hx0 (by linarith) (by
      show (O.fl : V3 (Fl R)) + distanceBetween (O.fl : V3 (Fl R)) q.fl * unitVector (D.fl : V3 (Fl R)) = _
      rw [hw]; exact fly) turn hy (by linarith) hgone (by rw [fl_sub, hz]) hz0 hmi fuel
  have hμ0 : 0 ≤ μ := by rw [← hμ]; positivity
  have hgrow : (73 + 150 * μ) * (R.u * (B / c ^ 2)) ≤ (73 + 150 * μ) * (R.u * (B / κ ^ 2)) :=
    mul_le_mul_of_nonneg_left hXc (by positivity)
  have hextra : 0 ≤ 8 / 10 ^ 8 * f * (1 + μ) := by positivity
  have hpn : 100 * (R.u * (B / c ^ 2)) ≤ |inner ℝ (O.toE - P.toE) (axisOf N)| := by linarith
  rcases k4 with k4 | ⟨hax, k4⟩
  · obtain ⟨t, t1, t2⟩ := thin_image_off hsc hM hwu.bounds.1 hc (show 0 < x by linarith) hpn k1 k2 k3 k4 hI
    rw [hp] at t1 t2
    rw [hμ] at t2
    exact ⟨s, P', d', t, last, r1, r2, r3, r4, r5, hd', hland, t1, by linarith, fun _ _ => t2.trans hgrow⟩
  · obtain ⟨t, t1, t2⟩ := thin_image_on hsc hM hwu.bounds.1 hc (show 0 < x by linarith) hpn k1 k2 k4 hI
    rw [hp] at t1 t2
    rw [hμ] at t2
    refine ⟨s, P', d', t, last, r1, r2, r3, r4, r5, hd', hland, t1, by linarith, fun o1 o2 => ?_⟩
    exfalso
    rcases hax with hax | hax
    · have := norm_sub_le_norm_sub_add_norm_sub D.dirE w.toE (axisOf N)
      rw [norm_sub_rev D.dirE w.toE] at this
      linarith
    · have e : D.dirE + axisOf N = (w.toE + axisOf N) - (w.toE - D.dirE) := by abel
      have := norm_sub_le (w.toE + axisOf N) (w.toE - D.dirE)
      rw [← e] at this
      linarith

/-- The hypotheses can be met with doubles: a lens of focal length 100 and diameter 100 at the origin, and a ray that leaves the
axis at the distance 200 before it, at an angle of 11 degrees.  It is turned once and then passes no further than 1e-10 from the
image point, at the distance 200 behind the lens. -/
example : ∃ (l : Lens D64) (s : RunState D64) (P' d' : V3 ℝ) (t : ℝ) (last : V3 D64),
    Lens.new (V3.fl ⟨0, 0, 0⟩) (some (V3.fl ⟨0, 0, 1⟩)) "spherical_biconvex" (some (Fl.fin 100)) none none (some (Fl.fin 100)) "ideal"
      1.5 = .ok l ∧
    (Ray.new (V3.fl ⟨0, 0, -200⟩) (V3.fl ⟨20, 0, 99⟩) 532.0 0.0 "normal").run (Fl.fin 600) [.lens l] none 3 = .finished s ∧
    s.interactions = 1 ∧ s.ray.pointHistory = [V3.fl ⟨0, 0, -200⟩, P'.fl, last] ∧ s.ray.direction = d'.fl ∧ 0 < t ∧
    ‖P'.toE + t • d'.toE - (⟨0, 0, 200⟩ : V3 ℝ).toE‖ ≤ 1 / 10 ^ 10 := by
  have hu : binary64.u = 1 / 2 ^ 53 := rfl
  have nz : ‖(⟨0, 0, 1⟩ : V3 ℝ).toE‖ = 1 := by rw [norm_toE]; simp [V3.norm, dot]
  have n0 : ‖(⟨0, 0, 0⟩ : V3 ℝ).toE‖ = 0 := by rw [norm_toE]; simp [V3.norm, dot]
  have nO : ‖(⟨0, 0, -200⟩ : V3 ℝ).toE‖ = 200 := by
    rw [norm_toE]; simp only [V3.norm, dot, real_sqrt]
    rw [show (0 * 0 + 0 * 0 + -200 * -200 : ℝ) = 200 ^ 2 by norm_num, Real.sqrt_sq (by norm_num)]
  have nD : ‖(⟨20, 0, 99⟩ : V3 ℝ).toE‖ = 101 := by
    rw [norm_toE]; simp only [V3.norm, dot, real_sqrt]
    rw [show (20 * 20 + 0 * 0 + 99 * 99 : ℝ) = 101 ^ 2 by norm_num, Real.sqrt_sq (by norm_num)]
  have hax : axisOf ⟨0, 0, 1⟩ = (⟨0, 0, 1⟩ : V3 ℝ).toE := by
    unfold axisOf; rw [nz, div_one, one_smul]
  have hdir : (⟨20, 0, 99⟩ : V3 ℝ).dirE = (⟨20 / 101, 0, 99 / 101⟩ : V3 ℝ).toE := by
    unfold V3.dirE; rw [nD, ← toE_smul]; congr 1; apply V3.ext <;> simp <;> norm_num
  have hp : |inner ℝ ((⟨0, 0, -200⟩ : V3 ℝ).toE - (⟨0, 0, 0⟩ : V3 ℝ).toE) (axisOf ⟨0, 0, 1⟩)| = 200 := by
    rw [hax, ← toE_sub, inner_toE]; simp [dot]
  have hc : inner ℝ (axisOf ⟨0, 0, 1⟩) (⟨20, 0, 99⟩ : V3 ℝ).dirE = 99 / 101 := by
    rw [hax, hdir, inner_toE]; simp [dot]
  have hsizes : ThinSizes binary64 100 1000 (9 / 10) :=
    ⟨by norm_num, by norm_num, by norm_num, by norm_num, by norm_num, by norm_num, by rw [hu]; norm_num⟩
  have H : LensAhead binary64 ⟨0, 0, -200⟩ (⟨20, 0, 99⟩ : V3 ℝ).dirE ⟨0, 0, 0⟩ ⟨0, 0, 1⟩ 100 1000 (9 / 10) 50 600 := by
    refine ⟨hsizes, by rw [hu]; norm_num, by rw [nO, n0]; norm_num, ?_, ?_, by rw [hp]; norm_num, by rw [hp, hu]; norm_num,
      by norm_num, ?_, by rw [hp, hu]; norm_num, by rw [hu]; norm_num⟩
    · rw [hc, hu]; norm_num
    · rw [hc, hax, ← toE_sub, inner_toE]; simp [dot]
    · rw [hp, hc, hdir, hu, abs_of_pos (by norm_num), ← toE_smul, ← toE_add, ← toE_sub, norm_toE]
      have : V3.norm (((⟨0, 0, -200⟩ : V3 ℝ) + (200 / (99 / 101) : ℝ) * (⟨20 / 101, 0, 99 / 101⟩ : V3 ℝ)) - ⟨0, 0, 0⟩) ≤ 41 := by
        simp only [V3.norm, dot, real_sqrt, sub_x, sub_y, sub_z, add_x, add_y, add_z, smul_x, smul_y, smul_z]
        rw [Real.sqrt_le_left (by norm_num)]; norm_num
      refine le_trans (add_le_add_left this _) ?_
      norm_num
  have h50 : (Fl.fin 100 : D64) / 2.0 = Fl.fin 50 := by
    have h2 : binary64.rnd 2 = .fin 2 := by
      have := rnd64_dyE (x := 2) (m := 2) (e := 0) (by norm_num) (by norm_num) (by norm_num) (by norm_num)
      show rnd64 2 = _
      rw [this]; norm_num
    have h3 : binary64.rnd (100 / 2) = .fin 50 := by
      have := rnd64_dyE (x := 100 / 2) (m := 50) (e := 0) (by norm_num) (by norm_num) (by norm_num) (by norm_num)
      show rnd64 (100 / 2) = _
      rw [this]; norm_num
    rw [fl_lit, show (OfScientific.ofScientific 20 true 1 : ℝ) = 2 by norm_num, h2]
    show (Fl.fin 100 : D64) / Fl.fin 2 = _
    rw [fl_div _ _ (by norm_num), h3]; rfl
  have h600 : binary64.rnd 600 = .fin 600 := by
    have := rnd64_dyE (x := 600) (m := 600) (e := 0) (by norm_num) (by norm_num) (by norm_num) (by norm_num)
    show rnd64 600 = _
    rw [this]; norm_num
  have hI : ImageOf 100 (⟨0, 0, 0⟩ : V3 ℝ).toE (axisOf ⟨0, 0, 1⟩) (⟨0, 0, -200⟩ : V3 ℝ).toE (⟨0, 0, 200⟩ : V3 ℝ).toE := by
    refine ⟨200, by norm_num, by rw [hp]; norm_num, ?_⟩
    rw [hp, ← toE_sub, ← toE_sub, ← toE_smul]; congr 1; apply V3.ext <;> simp
  obtain ⟨l, hl⟩ : ∃ l, Lens.new (V3.fl ⟨0, 0, 0⟩ : V3 D64) (some (V3.fl ⟨0, 0, 1⟩)) "spherical_biconvex" (some (Fl.fin 100)) none none
      (some (Fl.fin 100)) "ideal" 1.5 = .ok l := ⟨_, rfl⟩
  obtain ⟨s, P', d', t, last, r1, r2, -, r4, r5, -, -, r6, -, r7⟩ := C107_one_lens (R := binary64) (D := ⟨20, 0, 99⟩)
    (by unfold SaneLength; rw [nD]; norm_num) (by unfold SaneLength; rw [nz]; norm_num) H h50 hl (wavelength := 532.0) (order := 0.0)
    (type := "normal") (by decide) h600 (mi := none) (by intro k hk; cases hk) 0 hI hp (μ := 1) (by norm_num)
  have o1 : 2 / 10 ^ 8 + 10 * binary64.u < ‖(⟨20, 0, 99⟩ : V3 ℝ).dirE - axisOf ⟨0, 0, 1⟩‖ := by
    rw [hdir, hax, ← toE_sub, norm_toE, hu]
    simp only [V3.norm, dot, real_sqrt, sub_x, sub_y, sub_z]
    rw [Real.lt_sqrt (by norm_num)]; norm_num
  have o2 : 2 / 10 ^ 8 + 10 * binary64.u < ‖(⟨20, 0, 99⟩ : V3 ℝ).dirE + axisOf ⟨0, 0, 1⟩‖ := by
    rw [hdir, hax, ← toE_add, norm_toE, hu]
    simp only [V3.norm, dot, real_sqrt, add_x, add_y, add_z]
    rw [Real.lt_sqrt (by norm_num)]; norm_num
  refine ⟨l, s, P', d', t, last, hl, r1, r2, r4, r5, r6.mpr (by norm_num), (r7 o1 o2).trans ?_⟩
  rw [hu]; norm_num

end Optics
