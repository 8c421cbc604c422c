import Verif.Lemmas.Printing
import Verif.Props.SoundnessCases
import Verif.Props.Precision
import Verif.Props.Gratings

/-!
# C85: `print_trajectory` and `__repr__`
-/

namespace Optics
open V3

/-! ## `__repr__` -/

/-- A decimal numeral that denotes `x` to five significant digits. -/
def Denotes (t : List Char) (x : ℝ) : Prop :=
  ∃ N : Numeral, N.Valid ∧ t = N.text ∧ |N.value - x| ≤ |x| * 5e-5

theorem toPrecision_denotes (x : ℝ) : ∃ t, toPrecision (.fin x) 5 = .ok t ∧ Denotes t x := by
  by_cases hx : x = 0
  · subst hx
    obtain ⟨N, h1, h2, h3, -⟩ := C61_zero 5
    exact ⟨_, h2, N, h1, rfl, by rw [h3]; simp⟩
  · have h0 := abs_pos.mpr hx
    obtain ⟨N, h1, h2, -, -, h3, -⟩ := C61_to_precision x hx 5 (by norm_num) (Int.log 10 |x|)
      (by exact_mod_cast Int.zpow_log_le_self (b := 10) (by norm_num) h0)
      (by exact_mod_cast Int.lt_zpow_succ_log_self (b := 10) (by norm_num) |x|)
    refine ⟨_, h2, N, h1, rfl, h3.trans ?_⟩
    have h4 : (10 : ℝ) ^ (Int.log 10 |x|) ≤ |x| := by exact_mod_cast Int.zpow_log_le_self (b := 10) (by norm_num) h0
    have h5 : (10 : ℝ) ^ (Int.log 10 |x| - (5 : ℕ) + 1) = (10 : ℝ) ^ (Int.log 10 |x|) * 1e-4 := by
      rw [show Int.log 10 |x| - ((5 : ℕ) : ℤ) + 1 = Int.log 10 |x| + (-4) by push_cast; ring, zpow_add₀ (by norm_num)]
      norm_num
    rw [h5]
    linarith

/-- C85, the text of a ray: "Ray (x, y, z),  (u, v, w)", where the six words are decimal numerals for the components
of the position and the direction, right to five digits. -/
theorem C85_text (r : Ray ℝ) : ∃ x y z u v w, r.lift.repr = .ok ("Ray (".toList ++ x ++ ", ".toList ++ y ++ ", ".toList ++ z
      ++ "),  (".toList ++ u ++ ", ".toList ++ v ++ ", ".toList ++ w ++ ")".toList) ∧
    Denotes x r.position.x ∧ Denotes y r.position.y ∧ Denotes z r.position.z ∧
    Denotes u r.direction.x ∧ Denotes v r.direction.y ∧ Denotes w r.direction.z := by
  obtain ⟨x, hx, dx⟩ := toPrecision_denotes r.position.x
  obtain ⟨y, hy, dy⟩ := toPrecision_denotes r.position.y
  obtain ⟨z, hz, dz⟩ := toPrecision_denotes r.position.z
  obtain ⟨u, hu, du⟩ := toPrecision_denotes r.direction.x
  obtain ⟨v, hv, dv⟩ := toPrecision_denotes r.direction.y
  obtain ⟨w, hw, dw⟩ := toPrecision_denotes r.direction.z
  refine ⟨x, y, z, u, v, w, ?_, dx, dy, dz, du, dv, dw⟩
  simp [Ray.repr, reprText, V3.text, Ray.lift, V3.lift, hx, hy, hz, hu, hv, hw, bind, Except.bind, pure, Except.pure]

/-- C85: `repr` of a ray raises only an `OverflowError`, exactly when a component is infinite (NaN is printed). -/
theorem C85_repr_raises (r : Ray XR) (e : PyErr) : r.repr = .error e ↔ e = .overflowError ∧ r.Infinite := by
  rcases repr_cases r with ⟨⟨t, h⟩, hn⟩ | ⟨h, hi⟩
  · rw [h]; simp [hn]
  · rw [h]
    constructor
    · intro h; cases h; exact ⟨rfl, hi⟩
    · rintro ⟨rfl, -⟩; rfl

/-- C85: a ray that prints raises an `OverflowError` on construction exactly when a component is infinite, and prints its
text otherwise. -/
theorem C85_new (p d : V3 XR) (w o : XR) (type : String) :
    (Ray.newP p d w o type).ray = Ray.new p d w o type ∧
    ((Ray.newP p d w o type).err = none ∧ Shown (Ray.newP p d w o type).out [Ray.new p d w o type] ∨
      (Ray.newP p d w o type).err = some .overflowError ∧ (Ray.new p d w o type).Infinite) := by
  unfold Ray.newP Ray.say
  rcases repr_cases (Ray.new p d w o type) with ⟨⟨t, h⟩, hn⟩ | ⟨h, hi⟩
  · simp only [h]
    exact ⟨trivial, .inl ⟨trivial, by simp [Shown, rayLines, h]⟩⟩
  · simp only [h]
    exact ⟨trivial, .inr ⟨trivial, hi⟩⟩

/-! ## Runs -/

/-- C85: a ray that prints does what one that does not print does, or `repr` meets an infinite component and an
`OverflowError` comes out of `run`. -/
theorem C85_same_or_overflow (ray : Ray XR) (md : XR) (optics : List (Optic XR)) (mi : Option Int) (fuel : Nat) :
    (ray.runP md optics mi fuel).2 = ray.run md optics mi fuel ∨
    ∃ s, (ray.runP md optics mi fuel).2 = .raised .overflowError s ∧ s.ray.Infinite :=
  runLoop_matches md optics mi fuel _

/-- C85: with finite numbers in the scene and a unit direction, printing changes nothing: the run ends the same way, in
the same state, with the same rows in the detectors. -/
theorem C85_same {optics : List (Optic ℝ)} (hw : ∀ o ∈ optics, o.WellFormed) (ray : Ray ℝ) (md : ℝ)
    (hd : ‖ray.direction.toE‖ = 1) (mi : Option Int) (fuel : Nat) :
    (ray.lift.runP (.fin md) (optics.map Optic.lift) mi fuel).2 = ray.lift.run (.fin md) (optics.map Optic.lift) mi fuel := by
  rw [norm_toE, norm_eq_one_iff] at hd
  exact fate_matches hw hd fuel 0 _ (.zero _)

/-- C85, what a finished run prints: "--- run begin ---", what `Tells` says of each pass, "--- run complete ---". -/
theorem C85_narrates {ray : Ray XR} {md : XR} {optics : List (Optic XR)} {mi : Option Int} {fuel : Nat} {out : List Line}
    {s : RunState XR} (h : ray.runP md optics mi fuel = (out, .finished s)) :
    ∃ mid, out = .runBegin :: mid ++ [.runComplete] ∧ Narrates md optics (RunState.init ray md) s mid := by
  unfold Ray.runP at h
  simp only [Prod.mk.injEq] at h
  obtain ⟨h1, h2⟩ := h
  obtain ⟨mid, e, hL⟩ := runLoop_narrates fuel (RunState.init ray md) (Prod.ext rfl h2)
  exact ⟨mid, h1.symm.trans (congrArg (Line.runBegin :: ·) e), hL⟩

/-- C85, the lines of a finished run: "--- run begin ---" first, "--- run complete ---" last and neither in between; as
many "intersected" as interactions; with "not intersected" as many as points added to the history; and the rays printed
visit those points in that order, none other, and each once if no optic refracts. -/
theorem C85_lines {ray : Ray XR} {md : XR} {optics : List (Optic XR)} {mi : Option Int} {fuel : Nat} {out : List Line}
    {s : RunState XR} (h : ray.runP md optics mi fuel = (out, .finished s)) :
    ∃ mid L new, out = .runBegin :: mid ++ [.runComplete] ∧ (∀ l ∈ mid, l ≠ .runBegin ∧ l ≠ .runComplete) ∧
      hitLines mid = s.interactions ∧ freeLines mid + hitLines mid = new.length ∧
      s.ray.pointHistory = ray.pointHistory ++ new ∧ Shown mid L ∧ new.Sublist (L.map (·.position)) ∧
      (∀ r ∈ L, r.position ∈ new) ∧ ((∀ o ∈ optics, ¬ o.Refracts) → L.map (·.position) = new) := by
  obtain ⟨mid, e, hn⟩ := C85_narrates h
  obtain ⟨L, new, hL⟩ := narrates_lines hn (by rintro _ ⟨⟩)
  exact ⟨mid, L, new, e, hL.inner, hL.hits, hL.count, hL.history, hL.shown, hL.sub, hL.mem, hL.bare⟩

/-- The run of `down_run`, printed: two "intersected", and the ray at `(0, 0, 0)` and at `(0, 0, 20)`. -/
example : ∃ out s mid L, downRay.lift.runP (.fin 100) (mirrorAndDetector.map Optic.lift) none 3 = (out, .finished s) ∧
    out = .runBegin :: mid ++ [.runComplete] ∧ Shown mid L ∧ L.map (·.position) = [V3.lift ⟨0, 0, 0⟩, V3.lift ⟨0, 0, 20⟩] ∧
    freeLines mid + hitLines mid = 2 := by
  have hd : ‖downRay.direction.toE‖ = 1 := by rw [norm_toE, norm_eq_one_iff]; norm_num [dot, downRay]
  obtain ⟨s, h, hr, -⟩ := down_run
  have hP := (C85_same mirrorAndDetector_wf downRay 100 hd none 3).trans h
  obtain ⟨mid, L, new, e, -, -, h2, h3, h4, -, -, h5⟩ := C85_lines (Prod.ext rfl hP)
  have hno : ∀ o ∈ mirrorAndDetector.map Optic.lift, ¬ o.Refracts := by
    intro o ho
    obtain ⟨o', ho', rfl⟩ := List.mem_map.mp ho
    rcases List.mem_cons.mp ho' with rfl | ho'
    · exact id
    · rw [List.mem_singleton.mp ho']; exact id
  have hnew : new = [V3.lift ⟨0, 0, 0⟩, V3.lift ⟨0, 0, 20⟩] := by
    rw [hr] at h3
    exact (List.cons.inj h3).2.symm
  refine ⟨_, s, mid, L, Prod.ext rfl hP, e, h4, (h5 hno).trans hnew, ?_⟩
  rw [h2, hnew]; rfl

/-- Printing does matter for infinite distances: `run(np.inf)` without optics ends normally, at a point at infinity;
with `print_trajectory=True` it ends with an `OverflowError`. -/
theorem C85_infinite_distance (ray : Ray ℝ) (hb : ray.blocked = false) (hd : ray.direction ≠ ⟨0, 0, 0⟩) (fuel : Nat) :
    (∃ s, ray.lift.run .inf [] none (fuel + 2) = .finished s) ∧
    ∃ s, (ray.lift.runP .inf [] none (fuel + 2)).2 = .raised .overflowError s := by
  have hc : (RunState.init ray.lift (.inf : XR)).continues none = true := by
    have h : ((.inf : XR) > 0.0) := trivial
    simp only [RunState.continues, RunState.init, Ray.lift, hb, decide_eq_true h]
    rfl
  set r := ray.lift.movedTo (ray.lift.position + (.inf : XR) * ray.lift.direction) with hr
  have hs : runStep (.inf : XR) [] (RunState.init ray.lift .inf) = .next
      { RunState.init ray.lift (.inf : XR) with remaining := (.inf : XR) - .inf, ray := r } := rfl
  have hc' : RunState.continues { RunState.init ray.lift (.inf : XR) with
        remaining := (.inf : XR) - .inf, ray := r } none = false := by
    have h : ¬ ((.inf : XR) - .inf > 0.0) := id
    simp only [RunState.continues, decide_eq_false h]
    rfl
  refine ⟨⟨_, by unfold Ray.run; rw [runLoop_next _ hc hs, runLoop_stop _ hc']⟩, ?_⟩
  have hinf : r.Infinite := by
    have key : ∀ a b : ℝ, b ≠ 0 → XR.fin a + (.inf : XR) * XR.fin b = .inf ∨ XR.fin a + (.inf : XR) * XR.fin b = .ninf := by
      intro a b hb
      change XR.add _ (XR.infSign b) = _ ∨ XR.add _ (XR.infSign b) = _
      rcases lt_or_gt_of_ne hb with h | h
      · right; simp [XR.infSign, h, h.not_gt, XR.add]
      · left; simp [XR.infSign, h, XR.add]
    refine .inl ?_
    by_cases hx : ray.direction.x = 0
    · by_cases hy : ray.direction.y = 0
      · have hz : ray.direction.z ≠ 0 := fun hz => hd (by
          have e : ray.direction = ⟨ray.direction.x, ray.direction.y, ray.direction.z⟩ := rfl
          rw [e, hx, hy, hz])
        exact .inr (.inr (key _ _ hz))
      · exact .inr (.inl (key _ _ hy))
    · exact .inl (key _ _ hx)
  have hrep : r.repr = .error .overflowError := (C85_repr_raises r _).mpr ⟨rfl, hinf⟩
  have hf : (RunState.init ray.lift (.inf : XR)).ray.flyP (some (RunState.init ray.lift (.inf : XR)).remaining)
      = ⟨r, [], some .overflowError⟩ := by
    change Ray.say r = _
    rw [Ray.say, hrep]
  have hP : runStepP (.inf : XR) [] (RunState.init ray.lift .inf) = ([.notIntersected],
      .raised .overflowError { RunState.init ray.lift (.inf : XR) with ray := r }) := by
    unfold runStepP
    simp only [List.foldlM_nil, pure, Except.pure, Bool.not_false, if_true]
    simp only [hf]
  refine ⟨{ RunState.init ray.lift (.inf : XR) with ray := r }, ?_⟩
  unfold Ray.runP runLoopP
  simp only [hc, if_true, hP]

/-- The ray from the origin along `x`, which meets the hypotheses of `C85_infinite_distance`. -/
example : ∃ s, ((⟨⟨0, 0, 0⟩, ⟨1, 0, 0⟩, 532, 0, [⟨0, 0, 0⟩], false, "normal"⟩ : Ray ℝ).lift.runP .inf [] none 2).2
    = .raised .overflowError s :=
  (C85_infinite_distance _ rfl (by simp) 0).2

/-! ## The line about gratings -/

/-- The angle printed, in polar terms. -/
theorem lift_gratingTurn {d n t : V3 ℝ} (hd : dot d d = 1) (hn : dot n n = 1) (ht : dot t t = 1) (h : dot n t = 0)
    (hp : projectOntoPlane d t ≠ ⟨0, 0, 0⟩) (G m wl : ℝ) :
    gratingTurn d.lift n.lift t.lift (.fin G) (.fin m) (.fin wl) =
      XR.fin (gratingAlpha d n t) + PyNum.arcsin (XR.fin (G / 1e6 * m * wl - Real.sin |gratingAlpha d n t|)) := by
  have ht0 := ne_zero_of_dot_one ht
  have hd0 := ne_zero_of_dot_one hd
  have hn0 := ne_zero_of_dot_one hn
  have hpn : projectOntoPlane n t = n := by rw [project_unit n ht, h]; ext <;> simp
  have hi : -unitVector (projectOntoPlane d t) ≠ ⟨0, 0, 0⟩ :=
    ne_zero_of_dot_one (by rw [dot_neg_left, dot_neg_right, neg_neg]; exact unit_dot hp)
  unfold gratingTurn
  simp only [lift_unitVector hn0, lift_unitVector hd0, unitVector_of_unit hd, unitVector_of_unit hn,
    lift_projectOntoPlane _ ht0, hpn, lift_unitVector hp, lift_neg, lift_angle_signed hi hn0]
  have ha : angleBetween (-unitVector (projectOntoPlane d t)) n (some t) = gratingAlpha d n t := rfl
  rw [ha]
  have hs : (if XR.fin (gratingAlpha d n t) < 0.0 then (-1.0 : XR) else 1.0) = XR.fin (gratingSign d n t) := by
    unfold gratingSign
    simp only [xlit0, xlit1, XR.fin_lt, XR.fin_neg]
    split_ifs <;> rfl
  rw [hs, xlit6]
  simp only [XR.fin_div _ _ (show (1e6 : ℝ) ≠ 0 by norm_num), XR.fin_mul, XR.fin_sin, XR.fin_sub, gratingSign_mul]

/-- C85, "turned {} by grating": where the code obeys the grating equation (C37), the angle printed is the one from the
outgoing ray to where the light came from, in the dispersion plane. -/
theorem C85_turned (ray : Ray ℝ) (n t : V3 ℝ) (G : ℝ) (optic : OpticAttrs XR) (ht : optic.tangent = some t.lift)
    (hG : optic.G = some (.fin G)) (h : MeetsGrating ray.direction n t)
    (hside : 0 ≤ inner ℝ ray.direction.toE (cross t n).toE)
    (hsol : |G / 1e6 * ray.order * ray.wavelength - inPlaneSine n t ray.direction| ≤ 1) :
    ∃ d' θi θo, ray.lift.reflectP "grating" (some n.lift) optic
        = ⟨{ ray.lift with direction := d'.lift }, [.turned (.fin ray.wavelength) (.fin (θi - θo))], none⟩ ∧
      HasAngle n t (-ray.direction) θi ∧ HasAngle n t d' θo ∧ |θi| < Real.pi / 2 ∧ |θo| ≤ Real.pi / 2 := by
  obtain ⟨hd, hn, ht1, hp, hf, h0⟩ := h.facts
  obtain ⟨hc, hlo, hhi, hb⟩ := h.angle
  obtain ⟨hpol, -, -⟩ := direction_polar hn ht1 hp h0
  have hN : 0 < planeLength ray.direction t := norm_pos h0
  obtain ⟨he, -⟩ := grating_eq hd hn ht1 hp h0 G ray.order ray.wavelength
  have hpar : ∀ c : ℝ, ray.direction ≠ c * t := by
    intro c e
    apply h0
    rw [project_unit _ ht1, e, dot_smul_left, ht1, mul_one]
    ext <;> simp
  have hdir := (C38_nan_iff ray.direction n t h.1 h.2 h.3 h.4 hpar G ray.order ray.wavelength).1 hsol
  rw [inPlaneSine_eq hn ht1 hp h0] at hsol
  rw [inner_toE, hb] at hside
  have hα : gratingAlpha ray.direction n t ≤ 0 := by
    by_contra hpos
    have := Real.sin_pos_of_pos_of_lt_pi (not_le.mp hpos) (by linarith [Real.pi_pos])
    nlinarith
  have hturn := lift_gratingTurn hd hn ht1 hp h0 G ray.order ray.wavelength
  rw [XR.fin_arcsin _ (abs_le.mp hsol), XR.fin_add] at hturn
  refine ⟨gratingDirection ray.direction n t G ray.order ray.wavelength, gratingAlpha ray.direction n t,
    -gratingBeta ray.direction n t (G / 1e6 * ray.order * ray.wavelength), ?_, ⟨_, _, hN, hpol⟩, ?_,
    abs_lt.mpr ⟨hlo, hhi⟩, ?_⟩
  · unfold Ray.reflectP Ray.reflect
    rw [if_neg (by decide), if_pos rfl, ht, hG]
    show Act.mk _ _ _ = _
    rw [show gratingTurn ray.lift.direction n.lift t.lift (.fin G) ray.lift.order ray.lift.wavelength = _ from hturn]
    rw [show gratingDirection ray.lift.direction n.lift t.lift (.fin G) ray.lift.order ray.lift.wavelength = _ from hdir]
    rw [sub_neg_eq_add]
    rfl
  · refine ⟨dot ray.direction t, planeLength ray.direction t, hN, ?_⟩
    rw [he, abs_of_nonpos hα]; congr 1; ring
  · rw [abs_neg, abs_le]; exact ⟨Real.neg_pi_div_two_le_arcsin _, Real.arcsin_le_pi_div_two _⟩

/-- C85: where there is no such order, `nan` is printed for the angle. -/
theorem C85_turned_nan (ray : Ray ℝ) (n t : V3 ℝ) (G : ℝ) (optic : OpticAttrs XR) (ht : optic.tangent = some t.lift)
    (hG : optic.G = some (.fin G)) (h : MeetsGrating ray.direction n t)
    (hsol : 1 < |G / 1e6 * ray.order * ray.wavelength - inPlaneSine n t ray.direction|) :
    ray.lift.reflectP "grating" (some n.lift) optic
        = ⟨{ ray.lift with direction := V3.nan }, [.turned (.fin ray.wavelength) .nan], none⟩ := by
  obtain ⟨hd, hn, ht1, hp, hf, h0⟩ := h.facts
  have hpar : ∀ c : ℝ, ray.direction ≠ c * t := by
    intro c e
    apply h0
    rw [project_unit _ ht1, e, dot_smul_left, ht1, mul_one]
    ext <;> simp
  have hdir := (C38_nan_iff ray.direction n t h.1 h.2 h.3 h.4 hpar G ray.order ray.wavelength).2 hsol
  rw [inPlaneSine_eq hn ht1 hp h0] at hsol
  have hturn := lift_gratingTurn hd hn ht1 hp h0 G ray.order ray.wavelength
  rw [XR.arcsin_out _ (fun hh => absurd (abs_le.mpr hh) (not_le.mpr hsol))] at hturn
  unfold Ray.reflectP Ray.reflect
  rw [if_neg (by decide), if_pos rfl, ht, hG]
  show Act.mk _ _ _ = _
  rw [show gratingTurn ray.lift.direction n.lift t.lift (.fin G) ray.lift.order ray.lift.wavelength = _ from hturn]
  rw [show gratingDirection ray.lift.direction n.lift t.lift (.fin G) ray.lift.order ray.lift.wavelength = _ from hdir]
  rfl

/-- Normal incidence on 600 lines/mm (first order at 500 nm exists) and on 2400 lines/mm (it does not). -/
example : let d : V3 ℝ := ⟨0, 0, -1⟩
    let n : V3 ℝ := ⟨0, 0, 1⟩
    let t : V3 ℝ := ⟨0, 1, 0⟩
    MeetsGrating d n t ∧ (0 : ℝ) ≤ inner ℝ d.toE (cross t n).toE ∧ |(600 : ℝ) / 1e6 * 1 * 500 - inPlaneSine n t d| ≤ 1 ∧
      1 < |(2400 : ℝ) / 1e6 * 1 * 500 - inPlaneSine n t d| := by
  intro d n t
  have hs : inPlaneSine n t d = 0 := by
    unfold inPlaneSine
    rw [inner_toE, show dot d (cross t n) = 0 by norm_num [dot, cross, d, t, n], abs_zero, zero_div]
  refine ⟨⟨?_, ?_, ?_, ?_, ?_⟩, ?_, by rw [hs]; norm_num, by rw [hs]; norm_num⟩
  · rw [norm_toE, norm_eq_one_iff]; norm_num [dot, d]
  · rw [norm_toE, norm_eq_one_iff]; norm_num [dot, n]
  · rw [norm_toE, norm_eq_one_iff]; norm_num [dot, t]
  · rw [inner_toE]; norm_num [dot, n, t]
  · rw [inner_toE]; norm_num [dot, d, n]
  · rw [inner_toE]; norm_num [dot, cross, d, n, t]

/-! ## `__repr__` of optics -/

/-- The class has a `__repr__` that can work: not the one of the base class. -/
def Optic.HasRepr : Optic XR → Prop
  | .base | .annotation | .filter | .window | .block => False
  | _ => True

/-- C85: `repr` of every optic that inherits the base class's `__repr__` raises. -/
theorem C85_base_repr (o : Optic XR) (h : ¬ o.HasRepr) : o.repr = .error .attributeError := by
  cases o <;> first | rfl | exact absurd trivial h

example : (Optic.block : Optic XR).repr = .error .attributeError := C85_base_repr _ (by simp [Optic.HasRepr])

theorem text_ok {v : V3 XR} (h : ¬ v.Infinite) : ∃ t, v.text = .ok t := by
  rcases v.text_cases with h' | h'
  · exact h'.1
  · exact absurd h'.2 h

/-- C85: of the mirrors `__init__` makes, `repr` raises for the convex ones, which have no normal, and no others (if no
component is infinite). -/
theorem C85_mirror_repr {p : V3 XR} {shape : String} {n : Option (V3 XR)} {D w h f : Option XR} {t : Option (V3 XR)}
    {type : String} {dmd : Option (V3 XR)} {m : Mirror XR} (hm : Mirror.new p shape n D w h f t type dmd = .ok m)
    (hp : ¬ p.Infinite) (hn : ∀ v, n = some v → ¬ (unitVector v).Infinite) :
    ((Optic.mirror m).repr = .error .attributeError ↔ shape = "circular_convex_spherical") ∧
    (shape ≠ "circular_convex_spherical" → ∃ s, (Optic.mirror m).repr = .ok s) := by
  have key : m.position = p ∧ (shape = "circular_convex_spherical" ∧ m.normal = none ∨
      shape ≠ "circular_convex_spherical" ∧ ∃ v, n = some v ∧ m.normal = some (unitVector v)) := by
    unfold Mirror.new at hm
    cases dmd with
    | none => cases hm
    | some dmd =>
      simp only [bind, Except.bind, pure, Except.pure, need] at hm
      split_ifs at hm with h1 h2 h3 h4
      · cases n with
        | none => cases hm
        | some n =>
          simp only at hm
          cases hc : Circle.new p (some n) none D with
          | error e => rw [hc] at hm; cases hm
          | ok c => rw [hc] at hm; cases hm; exact ⟨rfl, .inr ⟨by rw [h1]; decide, n, rfl, rfl⟩⟩
      · cases n with
        | none => cases hm
        | some n =>
          cases t with
          | none => cases hm
          | some t =>
            simp only at hm
            cases hc : Rectangle.new p n t h w with
            | error e => rw [hc] at hm; cases hm
            | ok c => rw [hc] at hm; cases hm; exact ⟨rfl, .inr ⟨by rw [h2]; decide, n, rfl, rfl⟩⟩
      · cases n with
        | none => cases hm
        | some n =>
          cases f with
          | none => cases hm
          | some f =>
            simp only at hm
            cases hc : Circle.new p (some n) none D with
            | error e => rw [hc] at hm; cases hm
            | ok c =>
              rw [hc] at hm
              simp only at hm
              cases hs : Sphere.new (p + f * 2.0 * unitVector n) (some (f * 2.0)) none with
              | error e => rw [hs] at hm; cases hm
              | ok c => rw [hs] at hm; cases hm; exact ⟨rfl, .inr ⟨by rw [h3]; decide, n, rfl, rfl⟩⟩
      · cases hs : Sphere.new p none D with
        | error e => rw [hs] at hm; cases hm
        | ok c => rw [hs] at hm; cases hm; exact ⟨rfl, .inl ⟨h4, rfl⟩⟩
  obtain ⟨t, ht⟩ := text_ok hp
  rcases key with ⟨e, ⟨h1, h2⟩ | ⟨h1, v, h2, h3⟩⟩
  · refine ⟨⟨fun _ => h1, fun _ => ?_⟩, fun h => absurd h1 h⟩
    simp only [Optic.repr, e, ht, h2, bind, Except.bind]
  · obtain ⟨u, hu⟩ := text_ok (hn v h2)
    have hok : (Optic.mirror m).repr = .ok ("Mirror".toList ++ [' '] ++ t ++ [',', ' ', ' '] ++ u) := by
      simp only [Optic.repr, e, ht, h3, hu, bind, Except.bind, pure, Except.pure]
    refine ⟨⟨fun h => ?_, fun h => absurd h h1⟩, fun _ => ⟨_, hok⟩⟩
    rw [hok] at h; cases h

/-- C85: of the lenses `__init__` makes, `repr` raises exactly for those made without a normal (if no component is
infinite). -/
theorem C85_lens_repr {p : V3 XR} {n : Option (V3 XR)} {shape : String} {D w h f : Option XR} {type : String} {index : XR}
    {l : Lens XR} (hl : Lens.new p n shape D w h f type index = .ok l) (hp : ¬ p.Infinite)
    (hn : ∀ v, n = some v → ¬ (unitVector v).Infinite) :
    ((Optic.lens l).repr = .error .typeError ↔ n = none) ∧ (n ≠ none → ∃ s, (Optic.lens l).repr = .ok s) := by
  have key : l.position = p ∧ l.normal = n.map unitVector := by
    unfold Lens.new at hl
    simp only [bind, Except.bind, pure, Except.pure] at hl
    split_ifs at hl
    · cases hc : Circle.new p n none D with
      | error e => rw [hc] at hl; cases hl
      | ok c => rw [hc] at hl; cases hl; exact ⟨rfl, rfl⟩
    · cases hc : Sphere.new p none D with
      | error e => rw [hc] at hl; cases hl
      | ok c => rw [hc] at hl; cases hl; exact ⟨rfl, rfl⟩
  obtain ⟨e1, e2⟩ := key
  obtain ⟨t, ht⟩ := text_ok hp
  cases n with
  | none =>
    refine ⟨⟨fun _ => rfl, fun _ => ?_⟩, fun h => absurd rfl h⟩
    simp only [Optic.repr, e1, e2, ht, need, Option.map_none, bind, Except.bind]
  | some v =>
    obtain ⟨u, hu⟩ := text_ok (hn v rfl)
    have hok : (Optic.lens l).repr = .ok ("Lens".toList ++ [' '] ++ t ++ [',', ' ', ' '] ++ u) := by
      simp only [Optic.repr, e1, e2, ht, need, Option.map_some, hu, bind, Except.bind, pure, Except.pure]
    refine ⟨⟨fun h => ?_, fun h => by cases h⟩, fun _ => ⟨_, hok⟩⟩
    rw [hok] at h; cases h

/-- A ball mirror and a ball lens: `repr` raises for both. -/
example : (∃ m, Mirror.new (⟨.fin 0, .fin 0, .fin 0⟩ : V3 XR) "circular_convex_spherical" none (some (.fin 2)) none none none
      none "normal" (some ⟨.fin 1, .fin 0, .fin 0⟩) = .ok m ∧ (Optic.mirror m).repr = .error .attributeError) ∧
    ∃ l, Lens.new (⟨.fin 0, .fin 0, .fin 0⟩ : V3 XR) none "spherical" (some (.fin 2)) none none none "normal" (.fin 1.5)
      = .ok l ∧ (Optic.lens l).repr = .error .typeError := by
  have hp : ¬ (⟨.fin 0, .fin 0, .fin 0⟩ : V3 XR).Infinite := by simp [V3.Infinite]
  constructor
  · have h : ∃ m, Mirror.new (⟨.fin 0, .fin 0, .fin 0⟩ : V3 XR) "circular_convex_spherical" none (some (.fin 2)) none none
        none none "normal" (some ⟨.fin 1, .fin 0, .fin 0⟩) = .ok m := ⟨_, rfl⟩
    obtain ⟨m, hm⟩ := h
    exact ⟨m, hm, (C85_mirror_repr hm hp (by rintro _ ⟨⟩)).1.mpr rfl⟩
  · have h : ∃ l, Lens.new (⟨.fin 0, .fin 0, .fin 0⟩ : V3 XR) none "spherical" (some (.fin 2)) none none none "normal"
        (.fin 1.5) = .ok l := ⟨_, rfl⟩
    obtain ⟨l, hl⟩ := h
    exact ⟨l, hl, (C85_lens_repr hl hp (by rintro _ ⟨⟩)).1.mpr rfl⟩

end Optics
