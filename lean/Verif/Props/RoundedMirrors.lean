import Verif.Lemmas.RoundedRun
import Verif.Props.RoundedTermination

/-!
# C98: reflection with rounded arithmetic

A reflected direction is computed with a few roundings, and the result is normalised.  So however often a ray bounces
between plane mirrors, its direction keeps length 1 up to `5u`, and it differs from the exact direction by at most
`300u` per bounce: errors add up, they do not multiply.
-/

namespace Optics
variable {R : Rounding}
open V3

/-- C98: `unit_vector` of a vector whose length is between `1e-100` and `1e100` is finite and within `5u` of the exact
unit vector. -/
theorem C98_unit_vector {v : V3 ℝ} (hv : SaneLength v) :
    ∃ w : V3 ℝ, unitVector (v.fl : V3 (Fl R)) = w.fl ∧ ‖w.toE - (1 / ‖v.toE‖) • v.toE‖ ≤ 5 * R.u :=
  unitVector_near hv

/-- C98: one reflection.  For every direction `d` of length 1 up to `5u` and every normal `N`, normalised as the
constructor does it, the new direction is finite, has length 1 up to `5u`, and is within `300u` of the exact mirror image
of `d`. -/
theorem C98_reflection {d N : V3 ℝ} (hd : |‖d.toE‖ - 1| ≤ 5 * R.u) (hN : SaneLength N) :
    ∃ w : V3 ℝ, specular (d.fl : V3 (Fl R)) (unitVector N.fl) = w.fl ∧ |‖w.toE‖ - 1| ≤ 5 * R.u ∧
      ‖w.toE - mirrorImage N d.toE‖ ≤ 300 * R.u := by
  obtain ⟨n, h1, h2⟩ := unitVector_near (R := R) hN
  rw [h1]
  exact specular_near hd hN h2

theorem bounces_of_passes {md : Fl R} {optics : List (Optic (Fl R))} (hsc : PlainScene optics) {mi : Option Int}
    {ray : Ray (Fl R)} {w₀ : V3 ℝ} (hr : ray.direction = w₀.fl) (hw₀ : NearUnit R w₀) (d₀ : E3) {n : Nat}
    {s : RunState (Fl R)} (h : Passes md optics mi n (RunState.init ray md) s) :
    ∃ ns w, Bounces md optics mi (RunState.init ray md) ns s ∧ s.ray.direction = w.fl ∧ NearUnit R w ∧
      ns.length ≤ s.interactions ∧
      ‖w.toE - mirrorImages ns d₀‖ ≤ ‖w₀.toE - d₀‖ + ns.length * (300 * R.u) ∧
      ∀ sel, s.selected = some sel → SelOk optics sel := by
  generalize hs0 : RunState.init ray md = s0 at h
  induction h with
  | zero s =>
    subst hs0
    refine ⟨[], w₀, .start, hr, hw₀, Nat.zero_le _, by simp [mirrorImages], ?_⟩
    intro sel hsel; cases hsel
  | @succ n s s' s'' h hc hst ih =>
    obtain ⟨ns, w, hb, hw, hu, hlen, herr, hsel⟩ := ih hs0
    obtain ⟨v, hv, hs'⟩ := runStep_next hst
    have hselv := scan_selOk hsc hsel hv
    rcases hs' with ⟨_, rfl⟩ | ⟨sel, hi, hse, ht, rfl⟩ | ⟨sel, sfo, ray', hits, hi, hse, _, ht, ha, rfl⟩
    · exact ⟨ns, w, .free hb hc hst rfl, hw, hu, hlen, herr, hselv⟩
    · exact ⟨ns, w, .stop hb hc hst rfl hse (hselv sel hse).1 (.inr ht), hw, hu, hlen.trans (Nat.le_succ _), herr, hselv⟩
    · rcases act_near (hselv sel hse) (ray := s'.flown sel.pt) hw hu ha with ⟨hp, hd⟩ | ⟨N, w', hp, hd, hu', he⟩
      · exact ⟨ns, w, .stop hb hc hst rfl hse (hselv sel hse).1 (.inl hp), hd, hu, hlen.trans (Nat.le_succ _), herr, hselv⟩
      · refine ⟨ns ++ [N], w', .bounce hb hc hst rfl hse (hselv sel hse).1 ht hp, hd, hu', ?_, ?_, hselv⟩
        · rw [List.length_append]; exact Nat.add_le_add_right hlen 1
        · have e : mirrorImages (ns ++ [N]) d₀ = mirrorImage N (mirrorImages ns d₀) := by
            unfold mirrorImages; rw [List.foldl_append]; rfl
          rw [e, List.length_append]
          have h1 := norm_sub_le_norm_sub_add_norm_sub w'.toE (mirrorImage N w.toE) (mirrorImage N (mirrorImages ns d₀))
          have h2 : ‖mirrorImage N w.toE - mirrorImage N (mirrorImages ns d₀)‖ = ‖w.toE - mirrorImages ns d₀‖ := by
            unfold mirrorImage; rw [← map_sub, LinearIsometryEquiv.norm_map]
          rw [h2] at h1
          push_cast [List.length_singleton]
          linarith

/-- C98: no drift.  In a scene of plane mirrors, micromirror arrays and detectors, at every moment of a run, after any
number of passes and whatever the positions have become, the direction is finite and has length 1 up to `5u`. -/
theorem C98_length {md : Fl R} {optics : List (Optic (Fl R))} (hsc : PlainScene optics) {mi : Option Int}
    {position : V3 (Fl R)} {D : V3 ℝ} (hD : SaneLength D) {wavelength order : Fl R} {type : String} {n : Nat} {s : RunState (Fl R)}
    (h : Passes md optics mi n (RunState.init (Ray.new position D.fl wavelength order type) md) s) :
    ∃ w : V3 ℝ, s.ray.direction = w.fl ∧ |‖w.toE‖ - 1| ≤ 5 * R.u := by
  obtain ⟨w₀, h1, h2⟩ := unitVector_near (R := R) hD
  obtain ⟨ns, w, -, hw, hu, -⟩ := bounces_of_passes hsc (ray := Ray.new position D.fl wavelength order type) h1
    (nearUnit_of (dirE_norm hD.pos) h2) D.dirE h
  exact ⟨w, hw, hu⟩

/-- C98: errors add up.  After any number of passes there is the list of the mirrors met so far, and the computed
direction is within `(300 b + 5) u` of the exact initial direction reflected exactly in these mirrors, `b` being their
number. -/
theorem C98_direction {md : Fl R} {optics : List (Optic (Fl R))} (hsc : PlainScene optics) {mi : Option Int}
    {position : V3 (Fl R)} {D : V3 ℝ} (hD : SaneLength D) {wavelength order : Fl R} {type : String} {n : Nat} {s : RunState (Fl R)}
    (h : Passes md optics mi n (RunState.init (Ray.new position D.fl wavelength order type) md) s) :
    ∃ (ns : List (V3 ℝ)) (w : V3 ℝ),
      Bounces md optics mi (RunState.init (Ray.new position D.fl wavelength order type) md) ns s ∧
      ns.length ≤ s.interactions ∧ s.ray.direction = w.fl ∧
      ‖w.toE - mirrorImages ns ((1 / ‖D.toE‖) • D.toE)‖ ≤ (300 * ns.length + 5) * R.u := by
  obtain ⟨w₀, h1, h2⟩ := unitVector_near (R := R) hD
  obtain ⟨ns, w, hb, hw, -, hlen, herr, -⟩ := bounces_of_passes hsc (ray := Ray.new position D.fl wavelength order type) h1
    (nearUnit_of (dirE_norm hD.pos) h2) D.dirE h
  refine ⟨ns, w, hb, hlen, hw, herr.trans ?_⟩
  linarith

/-- C98 for doubles: the error is below `1e-9` for the first ten thousand bounces. -/
theorem C98_double {md : Fl binary64} {optics : List (Optic (Fl binary64))} (hsc : PlainScene optics) {mi : Option Int}
    {position : V3 (Fl binary64)} {D : V3 ℝ} (hD : SaneLength D) {wavelength order : Fl binary64} {type : String} {n : Nat}
    {s : RunState (Fl binary64)}
    (h : Passes md optics mi n (RunState.init (Ray.new position D.fl wavelength order type) md) s)
    (hn : s.interactions ≤ 10000) :
    ∃ (ns : List (V3 ℝ)) (w : V3 ℝ),
      Bounces md optics mi (RunState.init (Ray.new position D.fl wavelength order type) md) ns s ∧
      s.ray.direction = w.fl ∧ ‖w.toE - mirrorImages ns ((1 / ‖D.toE‖) • D.toE)‖ ≤ 1 / 10 ^ 9 := by
  obtain ⟨ns, w, hb, hlen, hw, herr⟩ := C98_direction hsc hD h
  refine ⟨ns, w, hb, hw, herr.trans ?_⟩
  have h1 : (ns.length : ℝ) ≤ 10000 := by exact_mod_cast hlen.trans hn
  have : binary64.u = 1 / 2 ^ 53 := rfl
  rw [this]
  calc (300 * (ns.length : ℝ) + 5) * (1 / 2 ^ 53) ≤ (300 * 10000 + 5) * (1 / 2 ^ 53) := by
        apply mul_le_mul_of_nonneg_right _ (by positivity); linarith
    _ ≤ 1 / 10 ^ 9 := by norm_num

/-- The two mirrors of C97 are such a scene. -/
example : PlainScene [Optic.mirror (flatMirror 0), .mirror (flatMirror 1)] := by
  have hz : SaneLength ⟨0, 0, 1⟩ := by
    have : ‖(⟨0, 0, 1⟩ : V3 ℝ).toE‖ = 1 := by rw [norm_toE]; simp [V3.norm, dot]
    unfold SaneLength
    rw [this]; constructor <;> norm_num
  intro o ho
  simp only [List.mem_cons, List.not_mem_nil, or_false] at ho
  rcases ho with rfl | rfl
  · exact ⟨_, .mirror hz (.inl rfl) (flatMirror_new 0)⟩
  · exact ⟨_, .mirror hz (.inl rfl) (flatMirror_new 1)⟩

/-- A ray between them makes any number of passes, so the theorems above speak about runs with any number of bounces. -/
example (wavelength order : Fl binary64) (n : Nat) :
    ∃ s, Passes (Fl.fin (2 ^ 54)) [.mirror (flatMirror 0), .mirror (flatMirror 1)] none n
      (RunState.init (Ray.new (dvec 0 0 0) (V3.fl ⟨0, 0, 1⟩) wavelength order "normal") (Fl.fin (2 ^ 54))) s := by
  suffices h : ∃ s, Passes (Fl.fin (2 ^ 54)) [.mirror (flatMirror 0), .mirror (flatMirror 1)] none n
      (RunState.init (Ray.new (dvec 0 0 0) (dvec 0 0 1) wavelength order "normal") (Fl.fin (2 ^ 54))) s ∧ Bouncing (2 ^ 54) s by
    obtain ⟨s, h, -⟩ := h
    exact ⟨s, h⟩
  induction n with
  | zero => exact ⟨_, .zero _, 0, 1, .inl ⟨rfl, rfl⟩, rfl, d_unit (.inl rfl), rfl, rfl, rfl⟩
  | succ n ih =>
    obtain ⟨s, h, hb⟩ := ih
    obtain ⟨s', hs', hb', -⟩ := bouncing_step (by norm_num) budget_lost hb
    refine ⟨s', .succ h ?_ hs', hb'⟩
    obtain ⟨p, d, -, -, -, hb, -, hr⟩ := hb
    have : (Fl.fin (2 ^ 54) : Fl binary64) > 0.0 := by rw [fl_lit0]; show (0 : ℝ) < 2 ^ 54; positivity
    simp [RunState.continues, hr, hb, this]

end Optics
