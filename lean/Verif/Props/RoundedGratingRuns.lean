import Verif.Lemmas.RoundedGratingRun
import Verif.Lemmas.Resonator64
import Verif.Spec.ScriptResults
import Verif.Model.Scripts
/-!
C112: a ray that meets a rectangular grating, with rounded arithmetic: where it meets it, where it goes, and what the script that
tests gratings shows with doubles.
-/

namespace Optics
open V3

variable {R : Rounding}

/-- A rectangular grating and a ray with a budget of `L` that meets it, well inside its outline, after a way of `τ`. -/
structure GratingAhead (R : Rounding) (C n₀ t₀ N P w : V3 ℝ) (h wd B ν c τ L G : ℝ) (g : Grating (Fl R)) : Prop where
  built : Grating.new C.fl n₀.fl t₀.fl "rectangular_flat" (some (Fl.fin wd)) (some (Fl.fin h)) (some (Fl.fin G)) = .ok g
  tangent : SaneLength t₀
  normal : ‖N.toE‖ = 1
  perp : dot N t₀ = 0
  close : ‖n₀.dirE - N.toE‖ ≤ ν - 5 * R.u
  fine : ν ≤ 1 / 100000
  height : 0 ≤ h
  height_le : h ≤ B
  width : 0 ≤ wd
  width_le : wd ≤ B
  crossing : Crossing R C n₀ P w B c τ
  far : 1 / 1000 ≤ τ
  inside_width : wd * |inner ℝ (cross N (unitVector t₀)).toE (P.toE + τ • w.toE - C.toE)| ≤ wd ^ 2 / 2 - 65 * (ν * B ^ 2 / c)
  inside_height : h * |inner ℝ (unitVector t₀).toE (P.toE + τ • w.toE - C.toE)| ≤ h ^ 2 / 2 - 65 * (ν * B ^ 2 / c)
  budget : τ + 1 / 1000 ≤ L
  budget_le : L ≤ B

theorem GratingAhead.rectangle {C n₀ t₀ N P w : V3 ℝ} {h wd B ν c τ L G : ℝ} {g : Grating (Fl R)}
    (H : GratingAhead R C n₀ t₀ N P w h wd B ν c τ L G g) :
    ∃ r, g.shape = "rectangular_flat" ∧ g.surfaces = [.rectangle r] ∧ BuiltRectangle R C n₀ t₀ N h wd B ν r := by
  obtain ⟨r, h1, h2, h3⟩ := grating_new H.built
  exact ⟨r, h2, h3, h1, H.tangent, H.normal, H.perp, H.close, H.fine.trans (by norm_num), H.height, H.height_le, H.width, H.width_le⟩

/-- **C112: a ray of an order other than zero** that meets a rectangular grating ends, with rounded arithmetic, where it ends exactly,
to within the error of the direction (see `C110_direction`) times the length of the second leg, and 165 roundoffs of the size of the
scene. -/
theorem C112_diffracted (hone : R.rnd 1 = .fin 1) {C n₀ t₀ N P w : V3 ℝ} {h wd B ν c τ L G m wl E : ℝ} {g : Grating (Fl R)}
    (H : GratingAhead R C n₀ t₀ N P w h wd B ν c τ L G g) (hm : m ≠ 0)
    (hnum : GratingNumbers G m wl (planeLength (unitVector w) (unitVector t₀)))
    (hs1 : |askedSine N (unitVector t₀) (unitVector w) G m wl| ≤ 1)
    (hs : 1000 * ν ≤ planeLength (unitVector w) (unitVector t₀) * (1 - askedSine N (unitVector t₀) (unitVector w) G m wl ^ 2))
    (hE : E = 2500 * ν / (planeLength (unitVector w) (unitVector t₀) * Real.sqrt (1 - askedSine N (unitVector t₀) (unitVector w) G m wl ^ 2)))
    (hleave : 11 * 10 ^ 10 * (R.u * B) + 2 * ν + E ≤ |inner ℝ N.toE (gratingDirection (unitVector w) N (unitVector t₀) G m wl).toE|)
    {ray : Ray (Fl R)} (hp : ray.position = P.fl) (hd : ray.direction = w.fl) (hrm : ray.order = Fl.fin m) (hrw : ray.wavelength = Fl.fin wl)
    (htype : ray.type ≠ "faerie_fire") (hblocked : ray.blocked = false) {fuel : Nat} (hfuel : 3 ≤ fuel) :
    ∃ (s : RunState (Fl R)) (p e v : V3 ℝ), ray.run (Fl.fin L) [.grating g] none fuel = .finished s ∧
      s.ray = { ray with position := e.fl, direction := v.fl, pointHistory := ray.pointHistory ++ [p.fl] ++ [e.fl] } ∧
      ‖p.toE - (P.toE + τ • w.toE)‖ ≤ 81 * (R.u * B / c) ∧
      ‖v.toE - (gratingDirection (unitVector w) N (unitVector t₀) G m wl).toE‖ ≤ E ∧
      ‖e.toE - (P.toE + τ • w.toE + (L - τ) • (gratingDirection (unitVector w) N (unitVector t₀) G m wl).toE)‖ ≤
        165 * (R.u * B / c) + (L - τ) * E := by
  have hu := R.u_pos
  obtain ⟨r, h1, h2, HR⟩ := H.rectangle
  have X := H.crossing
  obtain ⟨n, t, en, et, S⟩ := HR.frame X.sane
  obtain ⟨v, hv, vu, dv⟩ := C110_direction hone S H.fine X.unit.sane G m wl hnum hs1 hs
  rw [← hE] at dv
  obtain ⟨D, hD⟩ : ∃ D, D = (gratingDirection (unitVector w) N (unitVector t₀) G m wl).toE := ⟨_, rfl⟩
  rw [← hD] at dv hleave ⊢
  have hG : g.G = some (Fl.fin G) ∧ g.tangent = unitVector t₀.fl := by
    have hb := H.built
    unfold Grating.new at hb
    simp only [if_true, bind, Except.bind, pure, Except.pure] at hb
    cases hr : Rectangle.new (C.fl : V3 (Fl R)) (n₀.fl : V3 (Fl R)) t₀.fl (some (Fl.fin h)) (some (Fl.fin wd)) with
    | error e => rw [hr] at hb; cases hb
    | ok r => rw [hr] at hb; cases hb; exact ⟨rfl, rfl⟩
  have hang : 11 * 10 ^ 10 * (R.u * B) ≤ |inner ℝ n₀.dirE v.toE| := by
    have i1 := abs_real_inner_le_norm (n₀.dirE - N.toE) v.toE
    have i2 := abs_real_inner_le_norm N.toE (v.toE - D)
    rw [H.normal, one_mul] at i2
    have e1 : inner ℝ n₀.dirE v.toE - inner ℝ N.toE D = inner ℝ (n₀.dirE - N.toE) v.toE + inner ℝ N.toE (v.toE - D) := by
      rw [inner_sub_left, inner_sub_right]; ring
    have i3 := abs_add_le (inner ℝ (n₀.dirE - N.toE) v.toE) (inner ℝ N.toE (v.toE - D))
    rw [← e1] at i3
    have i4 := abs_le.mp ((abs_abs_sub_abs_le _ _).trans i3)
    have i5 := mul_le_mul H.close vu.bounds.1 (_root_.norm_nonneg _) (by linarith [_root_.norm_nonneg (n₀.dirE - N.toE), H.close])
    have i6 := _root_.norm_nonneg (n₀.dirE - N.toE)
    linarith [i4.1, H.close]
  obtain ⟨s, p, e, k1, k2, k3, k4⟩ := grating_legs (m := Fl.fin m) (wl := Fl.fin wl) h1 h2 HR X H.far H.inside_width H.inside_height
    H.budget H.budget_le vu hang (by
      intro n' hn' ray' pt hd' hm' hwl'
      rw [en] at hn'
      rw [← hn']
      unfold Grating.doIntersect Ray.reflect
      rw [hm', fl_lit0, fl_eqb, decide_eq_false hm]
      rw [← hv]
      simp [hG.1, hG.2, et, hd', hm', hwl', need, bind, Except.bind, pure, Except.pure]) hp hd hrm hrw htype hblocked hfuel
  refine ⟨s, p, e, v, k1, k2, k3, dv, ?_⟩
  have e1 : e.toE - (P.toE + τ • w.toE + (L - τ) • D) = (e.toE - (P.toE + τ • w.toE + (L - τ) • v.toE)) + (L - τ) • (v.toE - D) := by
    rw [smul_sub]; abel
  rw [e1]
  have h5 : 0 ≤ L - τ := by linarith [H.budget]
  have a1 := norm_add_le (e.toE - (P.toE + τ • w.toE + (L - τ) • v.toE)) ((L - τ) • (v.toE - D))
  rw [_root_.norm_smul, Real.norm_of_nonneg h5] at a1
  have a2 := mul_le_mul_of_nonneg_left dv h5
  linarith

/-- **C112: a ray of order zero** is reflected as by a mirror. -/
theorem C112_reflected {C n₀ t₀ N P w : V3 ℝ} {h wd B ν c τ L G : ℝ} {g : Grating (Fl R)}
    (H : GratingAhead R C n₀ t₀ N P w h wd B ν c τ L G g) (hleave : 12 * 10 ^ 10 * (R.u * B) ≤ c)
    {ray : Ray (Fl R)} (hp : ray.position = P.fl) (hd : ray.direction = w.fl) (hrm : ray.order = Fl.fin 0)
    (htype : ray.type ≠ "faerie_fire") (hblocked : ray.blocked = false) {fuel : Nat} (hfuel : 3 ≤ fuel) :
    ∃ (s : RunState (Fl R)) (p e v : V3 ℝ), ray.run (Fl.fin L) [.grating g] none fuel = .finished s ∧
      s.ray = { ray with position := e.fl, direction := v.fl, pointHistory := ray.pointHistory ++ [p.fl] ++ [e.fl] } ∧
      ‖p.toE - (P.toE + τ • w.toE)‖ ≤ 81 * (R.u * B / c) ∧
      ‖v.toE - mirrorImage N w.toE‖ ≤ 60 * ν ∧
      ‖e.toE - (P.toE + τ • w.toE + (L - τ) • mirrorImage N w.toE)‖ ≤ 165 * (R.u * B / c) + (L - τ) * (60 * ν) := by
  have hu := R.u_pos
  obtain ⟨h5u, h6u⟩ := five_u (R := R)
  obtain ⟨r, h1, h2, HR⟩ := H.rectangle
  have X := H.crossing
  have hB := X.one_le
  have huB : R.u ≤ R.u * B := le_mul_of_one_le_right hu.le hB
  have hν5 : 5 * R.u ≤ ν := by linarith [H.close, _root_.norm_nonneg (n₀.dirE - N.toE)]
  obtain ⟨n, en, dn⟩ := unitVector_near (R := R) X.sane
  obtain ⟨v, hv, vu, dv⟩ := specular_near (R := R) X.unit X.sane dn
  have hN0 : 0 < ‖N.toE‖ := by rw [H.normal]; norm_num
  have hNd : N.dirE = N.toE := by rw [V3.dirE, H.normal]; simp
  have hwb := X.unit.bounds.1
  have hn1 := dirE_norm X.sane.pos
  have eM : mirrorImage n₀ w.toE - mirrorImage N w.toE =
      -((2 * inner ℝ w.toE (n₀.dirE - N.toE)) • n₀.dirE + (2 * inner ℝ w.toE N.toE) • (n₀.dirE - N.toE)) := by
    rw [mirrorImage_apply X.sane.pos, mirrorImage_apply hN0, hNd, inner_sub_right]
    module
  have dM : ‖mirrorImage n₀ w.toE - mirrorImage N w.toE‖ ≤ 5 * (ν - 5 * R.u) + 0 := by
    rw [eM, _root_.norm_neg]
    have a0 := norm_add_le ((2 * inner ℝ w.toE (n₀.dirE - N.toE)) • n₀.dirE) ((2 * inner ℝ w.toE N.toE) • (n₀.dirE - N.toE))
    rw [_root_.norm_smul, _root_.norm_smul, hn1, mul_one, Real.norm_eq_abs, Real.norm_eq_abs, abs_mul, abs_mul, abs_two] at a0
    have a1 := abs_real_inner_le_norm w.toE (n₀.dirE - N.toE)
    have a2 := abs_real_inner_le_norm w.toE N.toE
    rw [H.normal, mul_one] at a2
    have a3 := mul_le_mul hwb H.close (_root_.norm_nonneg _) (by norm_num)
    have a4 : 2 * |inner ℝ w.toE N.toE| * ‖n₀.dirE - N.toE‖ ≤ 2 * (1 + 1 / 100000) * (ν - 5 * R.u) :=
      mul_le_mul (by linarith) H.close (_root_.norm_nonneg _) (by norm_num)
    linarith [_root_.norm_nonneg (n₀.dirE - N.toE), H.close]
  have dv' : ‖v.toE - mirrorImage N w.toE‖ ≤ 60 * ν := by
    have := norm_sub_le_norm_sub_add_norm_sub v.toE (mirrorImage n₀ w.toE) (mirrorImage N w.toE)
    linarith
  have hang : 11 * 10 ^ 10 * (R.u * B) ≤ |inner ℝ n₀.dirE v.toE| := by
    have e1 : inner ℝ n₀.dirE (mirrorImage n₀ w.toE) = -inner ℝ n₀.dirE w.toE := by
      rw [mirrorImage_apply X.sane.pos, inner_sub_right, inner_smul_right, real_inner_self_eq_norm_sq, hn1, real_inner_comm]
      ring
    have i2 := abs_real_inner_le_norm n₀.dirE (v.toE - mirrorImage n₀ w.toE)
    rw [hn1, one_mul, inner_sub_right, e1] at i2
    have i3 := abs_abs_sub_abs_le (inner ℝ n₀.dirE v.toE) (-inner ℝ n₀.dirE w.toE)
    rw [abs_neg] at i3
    have i4 := abs_le.mp (i3.trans i2)
    linarith [i4.1, X.slope_le]
  obtain ⟨s, p, e, k1, k2, k3, k4⟩ := grating_legs (m := Fl.fin 0) (wl := ray.wavelength) h1 h2 HR X H.far H.inside_width H.inside_height
    H.budget H.budget_le vu hang (by
      intro n' hn' ray' pt hd' hm' hwl'
      rw [en] at hn'
      rw [← hn']
      unfold Grating.doIntersect Ray.reflect
      rw [hm', fl_lit0, fl_eqb, decide_eq_true rfl, ← hv]
      simp [hd', need, bind, Except.bind, pure, Except.pure]) hp hd hrm rfl htype hblocked hfuel
  refine ⟨s, p, e, v, k1, k2, k3, dv', ?_⟩
  obtain ⟨D, hD⟩ : ∃ D, D = mirrorImage N w.toE := ⟨_, rfl⟩
  rw [← hD] at dv' ⊢
  have e1 : e.toE - (P.toE + τ • w.toE + (L - τ) • D) = (e.toE - (P.toE + τ • w.toE + (L - τ) • v.toE)) + (L - τ) • (v.toE - D) := by
    rw [smul_sub]; abel
  rw [e1]
  have h5 : 0 ≤ L - τ := by linarith [H.budget]
  have a1 := norm_add_le (e.toE - (P.toE + τ • w.toE + (L - τ) • v.toE)) ((L - τ) • (v.toE - D))
  rw [_root_.norm_smul, Real.norm_of_nonneg h5] at a1
  have a2 := mul_le_mul_of_nonneg_left dv' h5
  linarith

/-! ### The script that tests gratings, with doubles -/

/-- Whole numbers are doubles. -/
theorem lit64 {k : ℕ} (hk : k ≤ 2 ^ 52) : (⟨binary64.rnd (k : ℝ)⟩ : D64) = Fl.fin (k : ℝ) := by
  have h := rnd64_int (k := (k : ℤ)) (by rw [Nat.abs_cast]; exact_mod_cast hk)
  show (⟨rnd64 (k : ℝ)⟩ : D64) = _
  have e : ((k : ℤ) : ℝ) = (k : ℝ) := by push_cast; rfl
  rw [e] at h
  rw [h]; rfl

/-- The normal of the grating in the script, exactly. -/
noncomputable def littrowNormal : V3 ℝ := ⟨littrowSine, -√(1 - littrowSine ^ 2), 0⟩

theorem littrow_unit : ‖littrowNormal.toE‖ = 1 ∧ dot littrowNormal ⟨0, 0, 1⟩ = 0 ∧ 97 / 100 ≤ √(1 - littrowSine ^ 2) ∧
    √(1 - littrowSine ^ 2) ^ 2 = 1 - littrowSine ^ 2 := by
  have h0 : (0 : ℝ) ≤ 1 - littrowSine ^ 2 := by norm_num [littrowSine]
  have h1 := Real.sq_sqrt h0
  refine ⟨?_, by simp [dot, littrowNormal], Real.le_sqrt_of_sq_le (by norm_num [littrowSine]), h1⟩
  rw [norm_toE, norm_eq_one_iff]
  simp only [dot, littrowNormal]
  linarith

/-- The angle of the script with doubles. -/
theorem littrow_angle64 : ∃ θ : ℝ, PyNum.arcsin ((600.0 : D64) / 1e6 * 1.0 * 700.0 / 2.0) = Fl.fin θ ∧ |θ| ≤ 2 ∧
    |θ - Real.arcsin littrowSine| ≤ 6 * binary64.u := by
  have hu : binary64.u = 1 / 2 ^ 53 := rfl
  have l600 : (600.0 : D64) = Fl.fin 600 := by
    rw [fl_lit, show (OfScientific.ofScientific 6000 true 1 : ℝ) = ((600 : ℕ) : ℝ) by norm_num, lit64 (by norm_num)]; norm_num
  have l1e6 : (1e6 : D64) = Fl.fin 1000000 := by
    rw [fl_lit, show (OfScientific.ofScientific 1 false 6 : ℝ) = ((1000000 : ℕ) : ℝ) by norm_num, lit64 (by norm_num)]; norm_num
  have l700 : (700.0 : D64) = Fl.fin 700 := by
    rw [fl_lit, show (OfScientific.ofScientific 7000 true 1 : ℝ) = ((700 : ℕ) : ℝ) by norm_num, lit64 (by norm_num)]; norm_num
  obtain ⟨a, ha, ea⟩ := rnd_near (R := binary64) (x := 600 / 1000000) (e := 600 / 1000000) (by norm_num [abs_of_pos]) (by norm_num)
  have ea' : |a - 600 / 1000000| ≤ 601 / 1000000 * binary64.u := ea.trans (by rw [hu]; norm_num)
  rw [hu, abs_le] at ea'
  norm_num at ea'
  obtain ⟨b, hb, eb⟩ := rnd_near (R := binary64) (x := a * 1) (e := 6001 / 10000000) (by rw [abs_le]; constructor <;> linarith) (by norm_num)
  have eb' : |b - a * 1| ≤ 601 / 1000000 * binary64.u := eb.trans (by rw [hu]; norm_num)
  rw [hu, abs_le] at eb'
  norm_num at eb'
  obtain ⟨c, hc, ec⟩ := rnd_near (R := binary64) (x := b * 700) (e := 4201 / 10000) (by rw [abs_le]; constructor <;> linarith) (by norm_num)
  have ec' : |c - b * 700| ≤ 4202 / 10000 * binary64.u := ec.trans (by rw [hu]; norm_num)
  rw [hu, abs_le] at ec'
  norm_num at ec'
  obtain ⟨d, hd, ed⟩ := rnd_near (R := binary64) (x := c / 2) (e := 2101 / 10000) (by rw [abs_le]; constructor <;> linarith) (by norm_num)
  have ed' : |d - c / 2| ≤ 2102 / 10000 * binary64.u := ed.trans (by rw [hu]; norm_num)
  rw [hu, abs_le] at ed'
  norm_num at ed'
  have e : (600.0 : D64) / 1e6 * 1.0 * 700.0 / 2.0 = Fl.fin d := by
    rw [l600, l1e6, l700, d_lit2, fl_lit1 binary64_one, fl_div _ _ (by norm_num), ha, fl_mul, hb, fl_mul, hc, fl_div _ _ (by norm_num), hd]
  obtain ⟨-, -, hc97, -⟩ := littrow_unit
  have hcos : Real.cos (Real.arcsin littrowSine) = √(1 - littrowSine ^ 2) := Real.cos_arcsin _
  obtain ⟨θ, h1, h2, h3⟩ := arcsin_near (R := binary64) (y := d) (B := littrowSine) (η := 85 / 100 * binary64.u)
    (by norm_num [littrowSine, abs_of_pos]) (by rw [hu, littrowSine, abs_le]; constructor <;> norm_num <;> linarith)
    (by rw [hcos, hu]; nlinarith) (by rw [hcos]; linarith)
  refine ⟨θ, by rw [e]; exact h1, h2, h3.trans ?_⟩
  rw [hcos]
  have hp : Real.pi * (85 / 100 * binary64.u) / √(1 - littrowSine ^ 2) ≤ 4 * binary64.u := by
    rw [div_le_iff₀ (by linarith)]
    have := Real.pi_lt_d2
    have hu0 := binary64.u_pos
    nlinarith
  linarith

/-- The normal that the script hands to the grating, with doubles. -/
theorem littrow_normal64 {θ : ℝ} (h2 : |θ| ≤ 2) (h : |θ - Real.arcsin littrowSine| ≤ 6 * binary64.u) :
    ∃ n : V3 ℝ, (rotationMatrixAxisAngle (⟨0.0, 0.0, 1.0⟩ : V3 D64) (Fl.fin θ)).mulVec ⟨0.0, -1.0, 0.0⟩ = n.fl ∧ SaneLength n ∧
      ‖n.dirE - littrowNormal.toE‖ ≤ 1270 * binary64.u := by
  have hu : binary64.u = 1 / 2 ^ 53 := rfl
  have hu0 := binary64.u_pos
  have e2 : ‖(⟨0, 0, 1⟩ : V3 ℝ).toE‖ = 1 := by rw [norm_toE]; simp [V3.norm, dot]
  have e1 : ‖(⟨0, -1, 0⟩ : V3 ℝ).toE‖ = 1 := by rw [norm_toE]; simp [V3.norm, dot]
  obtain ⟨n, hn, dn⟩ := C109_turn (R := binary64) ⟨0, 0, 1⟩ ⟨0, -1, 0⟩ θ 1 (sane_of_near (by rw [e2]; norm_num)) (by linarith) le_rfl
    (by norm_num) e1.le
  have er : rodrigues (unitVector ⟨0, 0, 1⟩) θ ⟨0, -1, 0⟩ = ⟨Real.sin θ, -Real.cos θ, 0⟩ := by
    rw [frame64.1]
    ext <;> simp [rodrigues, cross, dot]
  rw [er, mul_one] at dn
  obtain ⟨-, -, hc97, -⟩ := littrow_unit
  have hcos : Real.cos (Real.arcsin littrowSine) = √(1 - littrowSine ^ 2) := Real.cos_arcsin _
  have hsin : Real.sin (Real.arcsin littrowSine) = littrowSine := Real.sin_arcsin (by norm_num [littrowSine]) (by norm_num [littrowSine])
  have d2 : ‖(⟨Real.sin θ, -Real.cos θ, 0⟩ : V3 ℝ).toE - littrowNormal.toE‖ ≤ 9 * binary64.u := by
    rw [← toE_sub]
    apply le_of_sq_le_sq _ (by linarith)
    rw [normE_sq]
    have s1 : |Real.sin θ - littrowSine| ≤ 6 * binary64.u := by
      have := Real.abs_sin_sub_sin_le θ (Real.arcsin littrowSine)
      rw [hsin] at this; linarith
    have s2 : |Real.cos θ - √(1 - littrowSine ^ 2)| ≤ 6 * binary64.u := by
      have := Real.abs_cos_sub_cos_le θ (Real.arcsin littrowSine)
      rw [hcos] at this; linarith
    have q1 := sq_le_sq' (abs_le.mp s1).1 (abs_le.mp s1).2
    have q2 := sq_le_sq' (abs_le.mp s2).1 (abs_le.mp s2).2
    simp only [littrowNormal, sub_x, sub_y, sub_z]
    nlinarith
  have d3 : ‖n.toE - littrowNormal.toE‖ ≤ 634 * binary64.u := by
    have := norm_sub_le_norm_sub_add_norm_sub n.toE (⟨Real.sin θ, -Real.cos θ, 0⟩ : V3 ℝ).toE littrowNormal.toE
    linarith
  have d4 : |‖n.toE‖ - 1| ≤ 634 * binary64.u := by
    have := abs_norm_sub_norm_le n.toE littrowNormal.toE
    rw [littrow_unit.1] at this; linarith
  have sn : SaneLength n := sane_of_near (d4.trans (by rw [hu]; norm_num))
  refine ⟨n, ?_, sn, ?_⟩
  · rw [← hn, fl_lit0, fl_lit1 binary64_one, fl_neg]; rfl
  · have a1 := norm_sub_le_norm_sub_add_norm_sub n.dirE n.toE littrowNormal.toE
    rw [dirE_dist sn.pos] at a1
    linarith

/-- What the exact formulas give for the rays of the script. -/
theorem littrow_exact (m wl : ℝ) (hb : |exitSine wl m| ≤ 1) :
    unitVector (⟨0, 1, 0⟩ : V3 ℝ) = ⟨0, 1, 0⟩ ∧ planeLength ⟨0, 1, 0⟩ ⟨0, 0, 1⟩ = 1 ∧
    askedSine littrowNormal ⟨0, 0, 1⟩ ⟨0, 1, 0⟩ 600 m wl = exitSine wl m ∧
    gratingDirection ⟨0, 1, 0⟩ littrowNormal ⟨0, 0, 1⟩ 600 m wl = littrowExit (exitSine wl m) ∧
    inner ℝ littrowNormal.toE (littrowExit (exitSine wl m)).toE = √(1 - exitSine wl m ^ 2) := by
  obtain ⟨p1, p2, p3, -⟩ := plain_ray
  obtain ⟨n1, n2, n3, n4⟩ := littrow_unit
  have hsine : inPlaneSine littrowNormal ⟨0, 0, 1⟩ ⟨0, 1, 0⟩ = littrowSine := by
    unfold inPlaneSine
    rw [inner_toE, inner_toE]
    simp [dot, cross, littrowNormal]
    rw [norm_toE]
    simp [V3.norm, dot, littrowSine, abs_of_pos]
  have hasked : askedSine littrowNormal ⟨0, 0, 1⟩ ⟨0, 1, 0⟩ 600 m wl = exitSine wl m := by
    unfold askedSine exitSine
    rw [hsine]; norm_num
  refine ⟨p2, p3, hasked, ?_, ?_⟩
  · have e1 : ‖(⟨0, 1, 0⟩ : V3 ℝ).toE‖ = 1 := by rw [norm_toE]; simp [V3.norm, dot]
    have e2 : ‖(⟨0, 0, 1⟩ : V3 ℝ).toE‖ = 1 := by rw [norm_toE]; simp [V3.norm, dot]
    have M : MeetsGrating ⟨0, 1, 0⟩ littrowNormal ⟨0, 0, 1⟩ := ⟨e1, n1, e2, by rw [inner_toE]; exact n2, by
      rw [inner_toE]
      simp only [dot, littrowNormal]
      linarith⟩
    have hN := unit_dot_self n1
    have hT := unit_dot_self e2
    have p0 := project_ne_zero (D := ⟨0, 1, 0⟩) (T := ⟨0, 0, 1⟩) (by rw [p3]; norm_num)
    obtain ⟨he, -⟩ := grating_eq (unit_dot_self e1) hN hT n2 p0 600 m wl
    obtain ⟨-, hlo, hhi, hbb⟩ := M.angle
    have hs : Real.sin (gratingAlpha ⟨0, 1, 0⟩ littrowNormal ⟨0, 0, 1⟩) = -littrowSine := by
      rw [p3, one_mul] at hbb
      have : dot (⟨0, 1, 0⟩ : V3 ℝ) (cross ⟨0, 0, 1⟩ littrowNormal) = littrowSine := by simp [dot, cross, littrowNormal]
      linarith
    have hα : gratingAlpha ⟨0, 1, 0⟩ littrowNormal ⟨0, 0, 1⟩ ≤ 0 := by
      by_contra hcon
      have := Real.sin_pos_of_pos_of_lt_pi (not_le.mp hcon) (by linarith [Real.pi_pos])
      rw [hs] at this
      norm_num [littrowSine] at this
    have hβ : gratingBeta ⟨0, 1, 0⟩ littrowNormal ⟨0, 0, 1⟩ (600 / 1e6 * m * wl) = Real.arcsin (exitSine wl m) := by
      unfold gratingBeta exitSine
      rw [abs_of_nonpos hα, Real.sin_neg, hs]; norm_num
    rw [he, p3, abs_of_nonpos hα, hβ]
    have e3 : ∀ a b : ℝ, -a - -a - b = -b := by intro a b; ring
    rw [e3]
    unfold polar littrowExit
    rw [Real.cos_neg, Real.sin_neg, Real.cos_arcsin, Real.sin_arcsin (abs_le.mp hb).1 (abs_le.mp hb).2]
    ext <;> simp [cross, dot, littrowNormal] <;> ring
  · rw [inner_toE]
    simp only [dot, littrowNormal, littrowExit, sub_x, sub_y, sub_z, smul_x, smul_y, smul_z]
    linear_combination √(1 - exitSine wl m ^ 2) * n4

/-- The mirror image in the grating of the script, for the ray of order zero. -/
theorem littrow_mirror (wl : ℝ) : mirrorImage littrowNormal (⟨0, 1, 0⟩ : V3 ℝ).toE = (littrowExit (exitSine wl 0)).toE := by
  obtain ⟨n1, n2, n3, n4⟩ := littrow_unit
  have hNd : littrowNormal.dirE = littrowNormal.toE := by rw [V3.dirE, n1]; simp
  rw [mirrorImage_apply (by rw [n1]; norm_num), hNd, inner_toE, ← toE_smul, ← toE_sub]
  have e : √(1 - exitSine wl 0 ^ 2) = √(1 - littrowSine ^ 2) := by rw [exitSine]; ring_nf
  congr 1
  unfold littrowExit
  rw [e]
  ext <;> simp [dot, littrowNormal, exitSine]
  · ring
  · linear_combination -n4

/-- The rays of the script with doubles. -/
theorem scriptRay64 : unitVector (⟨0.0, 1.0, 0.0⟩ : V3 D64) = V3.fl ⟨0, 1, 0⟩ := by
  rw [fl_lit0, fl_lit1 binary64_one]
  unfold unitVector V3.norm dot
  simp only [fl_mul]
  norm_num [fl_add, fl_mk, d0, d1, fl_sqrt]
  ext <;> simp only [sdiv_x, sdiv_y, sdiv_z] <;> rw [fl_div _ _ (by norm_num)] <;> norm_num [d0, d1, fl_mk, V3.fl]

/-- **C112: the grating script with doubles.** It builds its grating, and every ray along `y` from the origin whose exit angle has a
sine of at most 0.9 meets the grating within `1e-11` of `(0, 100, 0)` and ends, 200 further, within `2e-7` of the exact point. -/
theorem C112_scene : ∃ optics, gratingScene (α := D64) = .ok optics ∧ ∀ wl m : ℝ, |m| ≤ 10 ^ 20 → |wl| ≤ 10 ^ 20 → |exitSine wl m| ≤ 9 / 10 →
    ∀ fuel, 3 ≤ fuel → ∃ (s : RunState D64) (p e : V3 ℝ),
      (Ray.new (⟨0.0, 0.0, 0.0⟩ : V3 D64) ⟨0.0, 1.0, 0.0⟩ (Fl.fin wl) (Fl.fin m) "normal").run 300.0 optics none fuel = .finished s ∧
      s.ray.pointHistory = [⟨0.0, 0.0, 0.0⟩, p.fl, e.fl] ∧ ‖p.toE - (⟨0, 100, 0⟩ : V3 ℝ).toE‖ ≤ 1 / 10 ^ 11 ∧
      ‖e.toE - ((⟨0, 100, 0⟩ : V3 ℝ) + (200 : ℝ) * littrowExit (exitSine wl m)).toE‖ ≤ 2 / 10 ^ 7 := by
  have hu : binary64.u = 1 / 2 ^ 53 := rfl
  obtain ⟨n1, n2, n3, n4⟩ := littrow_unit
  obtain ⟨θ, hθ, hθ2, dθ⟩ := littrow_angle64
  obtain ⟨n₀, hn, sn, dn⟩ := littrow_normal64 hθ2 dθ
  have l100 : (100.0 : D64) = Fl.fin 100 := by
    rw [fl_lit, show (OfScientific.ofScientific 1000 true 1 : ℝ) = ((100 : ℕ) : ℝ) by norm_num, lit64 (by norm_num)]; norm_num
  have l50 : (50.0 : D64) = Fl.fin 50 := by
    rw [fl_lit, show (OfScientific.ofScientific 500 true 1 : ℝ) = ((50 : ℕ) : ℝ) by norm_num, lit64 (by norm_num)]; norm_num
  have l600 : (600.0 : D64) = Fl.fin 600 := by
    rw [fl_lit, show (OfScientific.ofScientific 6000 true 1 : ℝ) = ((600 : ℕ) : ℝ) by norm_num, lit64 (by norm_num)]; norm_num
  have l300 : (300.0 : D64) = Fl.fin 300 := by
    rw [fl_lit, show (OfScientific.ofScientific 3000 true 1 : ℝ) = ((300 : ℕ) : ℝ) by norm_num, lit64 (by norm_num)]; norm_num
  have e2 : ‖(⟨0, 0, 1⟩ : V3 ℝ).toE‖ = 1 := by rw [norm_toE]; simp [V3.norm, dot]
  have s2 : SaneLength ⟨0, 0, 1⟩ := sane_of_near (by rw [e2]; norm_num)
  obtain ⟨r, hr⟩ := C111_builds (R := binary64) (C := V3.fl ⟨0, 100, 0⟩) (h := 50) (w := 50) sn s2 n1 n2 dn
    (by rw [hu]; norm_num) (by rw [hu]; norm_num) (by norm_num) (by norm_num)
  obtain ⟨g, hg⟩ : ∃ g, Grating.new (V3.fl ⟨0, 100, 0⟩ : V3 D64) n₀.fl (V3.fl ⟨0, 0, 1⟩) "rectangular_flat" (some (Fl.fin 50)) (some (Fl.fin 50))
      (some (Fl.fin 600)) = .ok g := by
    unfold Grating.new
    simp only [if_true, bind, Except.bind, pure, Except.pure, hr]
    exact ⟨_, rfl⟩
  refine ⟨[.grating g], ?_, ?_⟩
  · unfold gratingScene
    simp only [hθ, hn]
    have : Grating.new (⟨0.0, 100.0, 0.0⟩ : V3 D64) n₀.fl ⟨0.0, 0.0, 1.0⟩ "rectangular_flat" (some 50.0) (some 50.0) (some 600.0) = .ok g := by
      rw [← hg, fl_lit0, fl_lit1 binary64_one, l100, l50, l600]; rfl
    rw [this]; rfl
  intro wl m hm hwl hb fuel hfuel
  obtain ⟨x1, x2, x3, x4, x5⟩ := littrow_exact m wl (hb.trans (by norm_num))
  have hu0 := binary64.u_pos
  obtain ⟨y1, y2, -, -⟩ := plain_ray
  have d1n : ‖(⟨0, 1, 0⟩ : V3 ℝ).toE‖ = 1 := by rw [norm_toE]; simp [V3.norm, dot]
  have d100 : ‖(⟨0, 100, 0⟩ : V3 ℝ).toE‖ = 100 := by rw [norm_toE]; simp [V3.norm, dot]
  have d00 : (⟨0, 0, 0⟩ : V3 ℝ).toE = 0 := by rw [← _root_.norm_eq_zero, norm_toE]; simp [V3.norm, dot]
  have ec : 96 / 100 ≤ |inner ℝ n₀.dirE (⟨0, 1, 0⟩ : V3 ℝ).toE| := by
    have i1 := abs_real_inner_le_norm (n₀.dirE - littrowNormal.toE) (⟨0, 1, 0⟩ : V3 ℝ).toE
    rw [d1n, mul_one, inner_sub_left] at i1
    have i2 : inner ℝ littrowNormal.toE (⟨0, 1, 0⟩ : V3 ℝ).toE = -√(1 - littrowSine ^ 2) := by
      rw [inner_toE]; simp [dot, littrowNormal]
    rw [i2] at i1
    have i3 := abs_le.mp (i1.trans dn)
    rw [hu] at i3
    have i4 := neg_le_abs (inner ℝ n₀.dirE (⟨0, 1, 0⟩ : V3 ℝ).toE)
    norm_num at i3 ⊢
    linarith [i3.2]
  have ey : (⟨0, 100, 0⟩ : V3 ℝ).toE = (100 : ℝ) • (⟨0, 1, 0⟩ : V3 ℝ).toE := by
    rw [← toE_smul]; congr 1; ext <;> norm_num
  have X : Crossing binary64 ⟨0, 100, 0⟩ n₀ ⟨0, 0, 0⟩ ⟨0, 1, 0⟩ 300 (96 / 100) 100 := by
    refine ⟨sn, ?_, by norm_num, ec, by norm_num, ?_, ?_, by norm_num, by norm_num, by rw [hu]; norm_num⟩
    · show |_ - 1| ≤ _
      rw [d1n, hu]; norm_num
    · rw [d00, sub_zero, ey, inner_smul_right]
    · rw [d00, d100]; norm_num
  have eP : (⟨0, 0, 0⟩ : V3 ℝ).toE + (100 : ℝ) • (⟨0, 1, 0⟩ : V3 ℝ).toE - (⟨0, 100, 0⟩ : V3 ℝ).toE = 0 := by rw [d00, ey]; simp
  have H : GratingAhead binary64 ⟨0, 100, 0⟩ n₀ ⟨0, 0, 1⟩ littrowNormal ⟨0, 0, 0⟩ ⟨0, 1, 0⟩ 50 50 300 (1275 * binary64.u) (96 / 100) 100 300 600 g := by
    refine ⟨hg, s2, n1, n2, by linarith, by rw [hu]; norm_num, by norm_num, by norm_num, by norm_num, by norm_num, X, by norm_num, ?_, ?_,
      by norm_num, by norm_num⟩
    · rw [eP, inner_zero_right, hu]; norm_num
    · rw [eP, inner_zero_right, hu]; norm_num
  have eT : unitVector (⟨0, 0, 1⟩ : V3 ℝ) = ⟨0, 0, 1⟩ := frame64.1
  have hq : 43 / 100 ≤ √(1 - exitSine wl m ^ 2) := by
    refine Real.le_sqrt_of_sq_le ?_
    have := sq_le_sq' (abs_le.mp hb).1 (abs_le.mp hb).2
    norm_num at this ⊢
    linarith
  have hq2 : 19 / 100 ≤ 1 - exitSine wl m ^ 2 := by
    have := sq_le_sq' (abs_le.mp hb).1 (abs_le.mp hb).2
    norm_num at this ⊢
    linarith
  have epos : (⟨0.0, 0.0, 0.0⟩ : V3 D64) = V3.fl ⟨0, 0, 0⟩ := by rw [fl_lit0]; rfl
  have eend : ((⟨0, 100, 0⟩ : V3 ℝ) + (200 : ℝ) * littrowExit (exitSine wl m)).toE =
      (⟨0, 0, 0⟩ : V3 ℝ).toE + (100 : ℝ) • (⟨0, 1, 0⟩ : V3 ℝ).toE + (300 - 100 : ℝ) • (littrowExit (exitSine wl m)).toE := by
    rw [toE_add, toE_smul, d00, ey, zero_add]; norm_num
  have emid : (⟨0, 100, 0⟩ : V3 ℝ).toE = (⟨0, 0, 0⟩ : V3 ℝ).toE + (100 : ℝ) • (⟨0, 1, 0⟩ : V3 ℝ).toE := by rw [d00, ey, zero_add]
  rw [l300, eend, emid]
  by_cases h0 : m = 0
  · subst h0
    obtain ⟨s, p, e, v, k1, k2, k3, k4, k5⟩ := C112_reflected H (by rw [hu]; norm_num)
      (ray := Ray.new (⟨0.0, 0.0, 0.0⟩ : V3 D64) ⟨0.0, 1.0, 0.0⟩ (Fl.fin wl) (Fl.fin 0) "normal") epos scriptRay64 rfl (by simp [Ray.new]) rfl hfuel
    rw [littrow_mirror wl] at k5
    refine ⟨s, p, e, k1, by rw [k2]; rfl, k3.trans (by rw [hu]; norm_num), k5.trans (by rw [hu]; norm_num)⟩
  · have hE : 2500 * (1275 * binary64.u) / (1 * √(1 - exitSine wl m ^ 2)) ≤ 9 / 10 ^ 10 := by
      rw [one_mul, div_le_iff₀ (by linarith), hu]
      norm_num
      linarith
    obtain ⟨s, p, e, v, k1, k2, k3, k4, k5⟩ := C112_diffracted (m := m) (wl := wl) binary64_one H h0
      (by rw [x1, eT, x2]; exact ⟨by norm_num [abs_of_pos], hm, hwl, by norm_num⟩) (by rw [x1, eT, x3]; linarith) (by rw [x1, eT, x2, x3, hu]; norm_num; linarith) rfl
      (by rw [x1, eT, x2, x3, x4, x5, abs_of_nonneg (Real.sqrt_nonneg _)]; rw [hu] at hE ⊢; norm_num at hE ⊢; linarith)
      (ray := Ray.new (⟨0.0, 0.0, 0.0⟩ : V3 D64) ⟨0.0, 1.0, 0.0⟩ (Fl.fin wl) (Fl.fin m) "normal") epos scriptRay64 rfl rfl (by simp [Ray.new]) rfl hfuel
    rw [x1, eT, x2, x3, x4] at k5
    refine ⟨s, p, e, k1, by rw [k2]; rfl, k3.trans (by rw [hu]; norm_num), k5.trans ?_⟩
    rw [hu] at hE ⊢
    norm_num at hE ⊢
    linarith

/-- **C112: what the script draws with doubles.** Each of its fifteen rays meets the grating within `1e-11` of `(0, 100, 0)` and ends
within `2e-7` of the point the grating equation asks for. -/
theorem C112_script : ∃ optics, gratingScene (α := D64) = .ok optics ∧ ∀ ray ∈ gratingRays (α := D64), ∃ wl m : ℝ,
    ray = Ray.new ⟨0.0, 0.0, 0.0⟩ ⟨0.0, 1.0, 0.0⟩ (Fl.fin wl) (Fl.fin m) "normal" ∧ ∀ fuel, 3 ≤ fuel → ∃ (s : RunState D64) (p e : V3 ℝ),
      ray.run 300.0 optics none fuel = .finished s ∧ s.ray.pointHistory = [⟨0.0, 0.0, 0.0⟩, p.fl, e.fl] ∧
      ‖p.toE - (⟨0, 100, 0⟩ : V3 ℝ).toE‖ ≤ 1 / 10 ^ 11 ∧
      ‖e.toE - ((⟨0, 100, 0⟩ : V3 ℝ) + (200 : ℝ) * littrowExit (exitSine wl m)).toE‖ ≤ 2 / 10 ^ 7 := by
  obtain ⟨optics, h1, h2⟩ := C112_scene
  refine ⟨optics, h1, ?_⟩
  have key : ∀ (a b : D64) (k : ℕ) (m : ℝ), a = Fl.fin (k : ℝ) → b = Fl.fin m → k ≤ 700 → |m| ≤ 1 →
      ∃ wl m : ℝ, Ray.new ⟨0.0, 0.0, 0.0⟩ ⟨0.0, 1.0, 0.0⟩ a b "normal" = Ray.new (⟨0.0, 0.0, 0.0⟩ : V3 D64) ⟨0.0, 1.0, 0.0⟩ (Fl.fin wl) (Fl.fin m) "normal" ∧
      ∀ fuel, 3 ≤ fuel → ∃ (s : RunState D64) (p e : V3 ℝ),
      (Ray.new (⟨0.0, 0.0, 0.0⟩ : V3 D64) ⟨0.0, 1.0, 0.0⟩ a b "normal").run 300.0 optics none fuel = .finished s ∧
      s.ray.pointHistory = [⟨0.0, 0.0, 0.0⟩, p.fl, e.fl] ∧ ‖p.toE - (⟨0, 100, 0⟩ : V3 ℝ).toE‖ ≤ 1 / 10 ^ 11 ∧
      ‖e.toE - ((⟨0, 100, 0⟩ : V3 ℝ) + (200 : ℝ) * littrowExit (exitSine wl m)).toE‖ ≤ 2 / 10 ^ 7 := by
    intro a b k m ha hb hk hm
    subst ha hb
    have hk' : (k : ℝ) ≤ 700 := by exact_mod_cast hk
    have hk0 : (0 : ℝ) ≤ k := Nat.cast_nonneg k
    have hx : |m * k| ≤ 700 := by
      rw [abs_mul, abs_of_nonneg hk0]
      calc |m| * k ≤ 1 * 700 := mul_le_mul hm hk' hk0 (by norm_num)
        _ = 700 := by norm_num
    refine ⟨k, m, rfl, h2 k m (hm.trans (by norm_num)) (by rw [abs_of_nonneg hk0]; exact hk'.trans (by norm_num)) ?_⟩
    rw [exitSine, littrowSine, abs_le]
    obtain ⟨x1, x2⟩ := abs_le.mp hx
    constructor <;> linarith
  have w : ∀ k : ℕ, k ≤ 700 → ∀ x : ℝ, x = k → (⟨binary64.rnd x⟩ : D64) = Fl.fin (k : ℝ) := by
    intro k hk x hx
    rw [hx]; exact lit64 (hk.trans (by norm_num))
  have one : (1.0 : D64) = Fl.fin 1 := fl_lit1 binary64_one
  have mone : (-1.0 : D64) = Fl.fin (-1) := by rw [one]; rfl
  intro ray hray
  simp only [gratingRays, List.map_cons, List.map_nil, List.mem_cons, List.not_mem_nil, or_false] at hray
  have k400 : (400.0 : D64) = Fl.fin ((400 : ℕ) : ℝ) := by rw [fl_lit]; exact w 400 (by norm_num) _ (by norm_num)
  have k450 : (450.0 : D64) = Fl.fin ((450 : ℕ) : ℝ) := by rw [fl_lit]; exact w 450 (by norm_num) _ (by norm_num)
  have k500 : (500.0 : D64) = Fl.fin ((500 : ℕ) : ℝ) := by rw [fl_lit]; exact w 500 (by norm_num) _ (by norm_num)
  have k550 : (550.0 : D64) = Fl.fin ((550 : ℕ) : ℝ) := by rw [fl_lit]; exact w 550 (by norm_num) _ (by norm_num)
  have k600 : (600.0 : D64) = Fl.fin ((600 : ℕ) : ℝ) := by rw [fl_lit]; exact w 600 (by norm_num) _ (by norm_num)
  have k650 : (650.0 : D64) = Fl.fin ((650 : ℕ) : ℝ) := by rw [fl_lit]; exact w 650 (by norm_num) _ (by norm_num)
  have k700 : (700.0 : D64) = Fl.fin ((700 : ℕ) : ℝ) := by rw [fl_lit]; exact w 700 (by norm_num) _ (by norm_num)
  rcases hray with h | h | h | h | h | h | h | h | h | h | h | h | h | h | h <;> rw [h]
  · exact key _ _ _ _ k400 one (by norm_num) (by norm_num)
  · exact key _ _ _ _ k450 one (by norm_num) (by norm_num)
  · exact key _ _ _ _ k500 one (by norm_num) (by norm_num)
  · exact key _ _ _ _ k550 one (by norm_num) (by norm_num)
  · exact key _ _ _ _ k600 one (by norm_num) (by norm_num)
  · exact key _ _ _ _ k650 one (by norm_num) (by norm_num)
  · exact key _ _ _ _ k700 one (by norm_num) (by norm_num)
  · exact key _ _ _ _ k400 mone (by norm_num) (by norm_num)
  · exact key _ _ _ _ k450 mone (by norm_num) (by norm_num)
  · exact key _ _ _ _ k500 mone (by norm_num) (by norm_num)
  · exact key _ _ _ _ k550 mone (by norm_num) (by norm_num)
  · exact key _ _ _ _ k600 mone (by norm_num) (by norm_num)
  · exact key _ _ _ _ k650 mone (by norm_num) (by norm_num)
  · exact key _ _ _ _ k700 mone (by norm_num) (by norm_num)
  · exact key _ _ _ _ k700 fl_lit0 (by norm_num) (by norm_num)

end Optics
