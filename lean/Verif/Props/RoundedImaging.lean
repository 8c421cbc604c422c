import Verif.Lemmas.ImagingLegs

/-!
# C119: an ideal lens images onto a detector, with rounding

C107 follows a ray through an ideal lens and says where it heads.  Here a detector stands behind the lens, parallel to it, and the theorem
is about what the detector records.
-/

namespace Optics
open V3
variable {R : Rounding}

/-- **C119: what a detector behind an ideal lens records, with rounded arithmetic.**  A ray from `O` in the direction `D` meets an ideal lens ahead
(`LensAhead`) with a rectangular detector behind it (`DetectorBehind`), whose centre is `C` and which would catch the image `I` of `O` with the margin
`E`.  The run ends after exactly two interactions, with the ray blocked and one record in the log.  The recorded point is within `E` and one last
rounding of the image, where `ε` is what the lens costs and `η` is how far the plane of the detector is from the image. -/
theorem C119_recorded {O P N C t₀ D : V3 ℝ} {f B κ a b κ' g m wd h : ℝ} (hD : SaneLength D) (hN : SaneLength N) (ht₀ : SaneLength t₀)
    (H : LensAhead R O D.dirE P N f B κ a m) (HD : DetectorBehind R O D.dirE P N C f B κ b κ' g m) {Dia : Fl R} (hDia : Dia / 2.0 = Fl.fin a)
    {ww hh : Option (Fl R)} {index : Fl R} {l : Lens (Fl R)}
    (hl : Lens.new P.fl (some N.fl) "spherical_biconvex" (some Dia) ww hh (some (Fl.fin f)) "ideal" index = .ok l)
    {id : ℕ} {d : Detector (Fl R)} (hd : Detector.new id C.fl N.fl t₀.fl "rectangular_flat" (some (Fl.fin wd)) (some (Fl.fin h)) = .ok d)
    (hperp : dot (unitVector N) t₀ = 0) (hwd : 0 ≤ wd) (hwdB : wd ≤ B) (hh0 : 0 ≤ h) (hhB : h ≤ B)
    {wavelength order : Fl R} {type : String} (htype : type ≠ "faerie_fire") (hm : R.rnd m = .fin m) {mi : Option Int}
    (hmi : ∀ k, mi = some k → 1 < k) (fuel : Nat) {I : E3} (hI : ImageOf f P.toE (axisOf N) O.toE I) {p μ η ε E : ℝ}
    (hp : |inner ℝ (O.toE - P.toE) (axisOf N)| = p) (hμ : f / |p - f| = μ) (hη : |inner ℝ (axisOf N) (I - C.toE)| ≤ η)
    (hε : (73 + 150 * μ) * (R.u * (B / κ ^ 2)) + 8 / 10 ^ 8 * f * (1 + μ) ≤ ε ∨
      2 / 10 ^ 8 + 10 * R.u < ‖D.dirE - axisOf N‖ ∧ 2 / 10 ^ 8 + 10 * R.u < ‖D.dirE + axisOf N‖ ∧ (73 + 150 * μ) * (R.u * (B / κ ^ 2)) ≤ ε)
    (hE : ε + 101 / 100 * ((ε + η) / κ') ≤ E)
    (hin₁ : wd * (|inner ℝ (cross (unitVector N) (unitVector t₀)).toE (I - C.toE)| + E) ≤ wd ^ 2 / 2 - 650 * (R.u * B ^ 2 / κ'))
    (hin₂ : h * (|inner ℝ (unitVector t₀).toE (I - C.toE)| + E) ≤ h ^ 2 / 2 - 650 * (R.u * B ^ 2 / κ')) :
    ∃ (s : RunState (Fl R)) (P' q : V3 ℝ) (last : V3 (Fl R)),
      (Ray.new O.fl D.fl wavelength order type).run (Fl.fin m) [.lens l, .detector d] mi (fuel + 3) = .finished s ∧
      s.interactions = 2 ∧ s.ray.blocked = true ∧ s.ray.pointHistory = [O.fl, P'.fl, last] ∧ s.log = [⟨id, q.fl, wavelength⟩] ∧
      ‖P'.toE - (O.toE + (p / |inner ℝ (axisOf N) D.dirE|) • D.dirE)‖ ≤ 90 * (R.u * (B / κ ^ 2)) ∧
      ‖q.toE - I‖ ≤ E + 58 * (R.u * B / κ') := by
  have hu := R.u_pos
  have hs := H.sizes
  have hB := hs.one_le
  have hf := hs.f_pos
  have hκp : 0 < κ := by linarith [hs.lo]
  have hκ'p : 0 < κ' := by linarith [HD.slope]
  have hM : ‖axisOf N‖ = 1 := dirE_norm hN.pos
  obtain ⟨-, -, -, -, -, huBX, -⟩ := hs.facts
  obtain ⟨w, pt, n, P', d', x, c, hw, ew, hwu, hc, hsc, hXc, hit, hx, hx0, hxm, fly, turn, hd', k1, k2, k3, hland, hin, hgone, k4⟩ :=
    H.turned hD hN hDia wavelength order type hp
  obtain ⟨σ, hσ, hσw, hσp, hσg, hκc, hp0⟩ := imaging_sides hN H HD ew hc hp
  have hcp : 0 < c := hκp.trans_le hκc
  have huB0 : 0 < R.u * B := by positivity
  have huX0 : 0 < R.u * (B / κ ^ 2) := by positivity
  have haP : ‖P'.toE - P.toE‖ + 22 * (R.u * B) ≤ b := by
    have h1 := HD.cross
    rw [hp] at h1
    have h2 := norm_sub_le_norm_sub_add_norm_sub P'.toE (O.toE + (p / |inner ℝ (axisOf N) D.dirE|) • D.dirE) P.toE
    linarith
  have hk : κ' ≤ σ * inner ℝ (axisOf N) d'.toE :=
    turned_slope hsc hM hwu.bounds.1 hσ hσw hκp hκc k2 k3 haP (k4.imp_right (·.2)) (by linarith [HD.fine]) HD.slope_le
  have hx1 := first_length (R := R) hM hσ hcp hσw hσp k1 k2
  obtain ⟨hid, r, hr, rep, noRep⟩ := detector_reports hd
  -- the first leg
  have hroom₁ := HD.room₁
  rw [hp] at hroom₁
  have hfirst := first_leg hN hwu hsc.lo hc hσ hσw hσp hσg hp0 HD.gap_lo (x := x) (by
      have : (p + g) / c ≤ (p + g) / κ := div_le_div_of_nonneg_left (by linarith [HD.gap_lo]) hκp hκc
      linarith) hB hs.le_big H.grid hx1 hr (ray := Ray.new O.fl D.fl wavelength order type) rfl hw
  have hdet₁ : (∃ nn, d.testIntersect (Ray.new O.fl D.fl wavelength order type) = .ok ⟨false, none, nn, .none⟩) ∨
      ∃ q nn, d.testIntersect (Ray.new O.fl D.fl wavelength order type) = .ok ⟨true, some q, nn, .none⟩ ∧
        ¬ distanceBetween (O.fl : V3 (Fl R)) q < distanceBetween (O.fl : V3 (Fl R)) pt.fl := by
    rcases hfirst with hf0 | ⟨q, nn, z, e1, e2, e3⟩
    · exact .inl (noRep _ hf0)
    · refine .inr ⟨q, nn, rep _ q nn e1 ?_, ?_⟩
      · show PyNum.ltInf (distanceBetween (O.fl : V3 (Fl R)) q) = true
        rw [e2]; rfl
      · rw [e2, hx, fl_lt]; exact not_lt.mpr e3
  -- the second leg
  obtain ⟨τ, X, hτ1, hτ2, hτ3⟩ := second_leg hN HD hd' hσ hσg hk k2 (by linarith) hB hs.le_big H.grid
  have hμ0 : 0 ≤ μ := by rw [← hμ]; positivity
  have hgrow : (73 + 150 * μ) * (R.u * (B / c ^ 2)) ≤ (73 + 150 * μ) * (R.u * (B / κ ^ 2)) :=
    mul_le_mul_of_nonneg_left hXc (by positivity)
  have hextra : 0 ≤ 8 / 10 ^ 8 * f * (1 + μ) := by positivity
  have hnear := H.near
  have hpn : 100 * (R.u * (B / c ^ 2)) ≤ |inner ℝ (O.toE - P.toE) (axisOf N)| := by linarith
  obtain ⟨t, ht⟩ : ∃ t : ℝ, ‖P'.toE + t • d'.toE - I‖ ≤ ε := by
    rcases k4 with k4 | ⟨hax, k4⟩
    · obtain ⟨t, -, t2⟩ := thin_image_off hsc hM hwu.bounds.1 hc (show 0 < x by linarith) hpn k1 k2 k3 k4 hI
      rw [hp, hμ] at t2
      refine ⟨t, ?_⟩
      rcases hε with hε | ⟨-, -, hε⟩ <;> linarith
    · obtain ⟨t, -, t2⟩ := thin_image_on hsc hM hwu.bounds.1 hc (show 0 < x by linarith) hpn k1 k2 k4 hI
      rw [hp, hμ] at t2
      refine ⟨t, ?_⟩
      rcases hε with hε | ⟨o1, o2, -⟩
      · linarith
      · exfalso
        rcases hax with hax | hax
        · have := norm_sub_le_norm_sub_add_norm_sub D.dirE w.toE (axisOf N)
          rw [norm_sub_rev D.dirE w.toE] at this
          linarith
        · have e : D.dirE + axisOf N = (w.toE + axisOf N) - (w.toE - D.dirE) := by abel
          have := norm_sub_le (w.toE + axisOf N) (w.toE - D.dirE)
          rw [← e] at this
          linarith
  have hXI : ‖P'.toE + τ • d'.toE - I‖ ≤ E :=
    (land_near hM hκ'p hd'.bounds.1 hσ hk ht hη X.meets).trans hE
  have hBR : BuiltRectangle R C N t₀ (unitVector N) h wd B (10 * R.u) r := by
    refine ⟨hr, ht₀, sane_unit hN, hperp, ?_, by linarith [(five_u (R := R)).2], hh0, hhB, hwd, hwdB⟩
    rw [unitVector_dirE, sub_self, _root_.norm_zero]; linarith
  have hside : ∀ v : E3, ‖v‖ = 1 → |inner ℝ v (P'.toE + τ • d'.toE - C.toE)| ≤ |inner ℝ v (I - C.toE)| + E := by
    intro v hv
    have e : P'.toE + τ • d'.toE - C.toE = (I - C.toE) + (P'.toE + τ • d'.toE - I) := by abel
    rw [e, inner_add_right]
    refine (abs_add_le _ _).trans ?_
    have := abs_real_inner_le_norm v (P'.toE + τ • d'.toE - I)
    rw [hv, one_mul] at this
    linarith
  have hTu : ‖(unitVector t₀).toE‖ = 1 := sane_unit ht₀
  obtain ⟨n₁, t₁, hn₁, ht₁, S⟩ := hBR.frame hN
  have hCu : ‖(cross (unitVector N) (unitVector t₀)).toE‖ = 1 := (cross_unit S).1
  have hm65 : 65 * (10 * R.u * B ^ 2 / κ') = 650 * (R.u * B ^ 2 / κ') := by ring
  have hsecond : ∃ q : V3 ℝ, ‖q.toE - (P'.toE + τ • d'.toE)‖ ≤ 58 * (R.u * B / κ') ∧
      ∀ ray : Ray (Fl R), ray.position = P'.fl → ray.direction = d'.fl → ∃ nn, r.testIntersect ray = ⟨true, some q.fl, nn⟩ := by
    have hq : ∀ ray : Ray (Fl R), ray.position = P'.fl → ray.direction = d'.fl → ∃ q n : V3 ℝ, unitVector (N.fl : V3 (Fl R)) = n.fl ∧
        r.testIntersect ray = ⟨true, some q.fl, some n.fl⟩ ∧ ‖q.toE - (P'.toE + τ • d'.toE)‖ ≤ 58 * (R.u * B / κ') := fun ray e1 e2 =>
      C111_rectangle_hit hBR X hτ3 (by rw [hm65]; exact (mul_le_mul_of_nonneg_left (hside _ hCu) hwd).trans hin₁)
        (by rw [hm65]; exact (mul_le_mul_of_nonneg_left (hside _ hTu) hh0).trans hin₂) e1 e2
    have hsame : ∀ ray ray' : Ray (Fl R), ray.position = ray'.position → ray.direction = ray'.direction →
        r.testIntersect ray = r.testIntersect ray' := by
      intro ray ray' e1 e2
      unfold Rectangle.testIntersect Plane.testIntersect
      rw [e1, e2]
    obtain ⟨q, n, -, e, eq⟩ := hq { Ray.new O.fl D.fl wavelength order type with position := P'.fl, direction := d'.fl } rfl rfl
    exact ⟨q, eq, fun ray e1 e2 => ⟨some n.fl, (hsame _ _ e1 e2).trans e⟩⟩
  obtain ⟨q, eq, hq⟩ := hsecond
  obtain ⟨x₂, hx₂, ex₂, hx₂l, -, -, hsm⟩ := X.distance hτ1 eq
  have hm50 : m ≤ 10 ^ 50 := by
    have := H.room
    have hO0 := _root_.norm_nonneg O.toE
    have hP0 := _root_.norm_nonneg P.toE
    linarith [hs.le_big]
  obtain ⟨y, hy, hym, hyl⟩ := left_over (R := R) (a := m) (x := x) hm hm50 le_rfl (by linarith) (by linarith)
  have hreach := HD.reach
  rw [hp] at hreach
  have hx2 : x ≤ p / κ + 1 / 1000 := by
    have a1 : (p + 74 * (R.u * B)) / c ≤ (p + 74 * (R.u * B)) / κ := div_le_div_of_nonneg_left (by linarith) hκp hκc
    have a2 : 74 * (R.u * B) / κ ≤ 1 / 1000 := by
      rw [div_le_iff₀ hκp]; linarith [H.grid, hs.lo]
    rw [add_div p _ κ] at a1
    linarith
  have hx₂y : x₂ ≤ y := by linarith [(abs_le.mp ex₂).2]
  obtain ⟨s, last, r1, r2, r3, r4, -, r6, -⟩ := imaging_passes hl (d := d) (ray := Ray.new O.fl D.fl wavelength order type) (mi := mi) htype hw rfl
    hit hin hx hx0 (by linarith) (by
      show (O.fl : V3 (Fl R)) + distanceBetween (O.fl : V3 (Fl R)) pt.fl * unitVector (D.fl : V3 (Fl R)) = _
      rw [hw]; exact fly) turn hy (by linarith) hdet₁ hgone (fun ray e1 e2 => by
        obtain ⟨nn, hnn⟩ := hq ray e1 e2
        refine ⟨nn, rep ray _ nn hnn ?_⟩
        rw [e1, hx₂]; rfl) hx₂ (by linarith) hx₂y hmi fuel
  refine ⟨s, P', q, last, r1, r2, r3, r4, ?_, hland, ?_⟩
  · rw [r6, hid]; rfl
  · have e : q.toE - I = (q.toE - (P'.toE + τ • d'.toE)) + (P'.toE + τ • d'.toE - I) := by abel
    rw [e]
    refine (norm_add_le _ _).trans ?_
    linarith

end Optics
