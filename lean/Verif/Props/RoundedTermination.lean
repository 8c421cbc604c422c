import Verif.Lemmas.RoundedClock
import Verif.Lemmas.Resonator64

/-!
# C97: termination with rounding

C41 says that `run` ends if numbers are exact.  With rounding it still ends, after at most `max_distance / 4e-13 + 1`
passes, as long as the rounding error of the budget stays below half the clipping floor: for doubles, up to a
`max_distance` of 4500.  For a `max_distance` of `2^54` it is false: between two mirrors one unit apart a ray bounces
for ever, because `2^54 - 1` rounds to `2^54`.
-/

namespace Optics
open V3

/-- C97: with any rounding, for every ray, scene and cap (well-formed or not, whatever `nan`s, infinities and
overflows occur on the way), the loop ends. -/
theorem C97_terminates (R : Rounding) (ray : Ray (Fl R)) (M : ℝ) (hM : M ≤ 10 ^ 300)
    (hu : R.u * (M + 1) ≤ 5 / 10 ^ 13) (optics : List (Optic (Fl R))) (mi : Option Int) (fuel : Nat)
    (hf : max M 0 / (4 / 10 ^ 13) + 1 ≤ fuel) (s : RunState (Fl R)) :
    ray.run (Fl.fin M) optics mi fuel ≠ .outOfFuel s :=
  clock_terminates (by positivity) (clock_rounded R hM hu) optics mi ray fuel hf s

/-- C97 for doubles. -/
theorem C97_terminates_double (ray : Ray (Fl binary64)) (M : ℝ) (hM : M ≤ 4500)
    (optics : List (Optic (Fl binary64))) (mi : Option Int) (fuel : Nat)
    (hf : max M 0 / (4 / 10 ^ 13) + 1 ≤ fuel) (s : RunState (Fl binary64)) :
    ray.run (Fl.fin M) optics mi fuel ≠ .outOfFuel s := by
  apply C97_terminates _ _ _ _ _ _ _ _ hf
  · exact hM.trans (le_trans (by norm_num) huge_ge)
  · have : binary64.u = 1 / 2 ^ 53 := rfl
    rw [this]
    have : (M + 1) ≤ 4501 := by linarith
    calc 1 / 2 ^ 53 * (M + 1) ≤ 1 / 2 ^ 53 * 4501 := by apply mul_le_mul_of_nonneg_left this (by positivity)
      _ ≤ 5 / 10 ^ 13 := by norm_num

/-- The state of the ray between the two mirrors, with the budget `M`. -/
def Bouncing (M : ℝ) (s : RunState (Fl binary64)) : Prop :=
  ∃ p d, OnAxis p d ∧ s.ray.position = dvec 0 0 p ∧ s.ray.direction = dvec 0 0 d ∧ s.ray.blocked = false ∧
    s.ray.type = "normal" ∧ s.remaining = Fl.fin M

theorem bouncing_step {md : Fl binary64} {M M' : ℝ} (hM : 1 ≤ M) (hrem : (Fl.fin M : Fl binary64) - Fl.fin 1 = Fl.fin M')
    {s : RunState (Fl binary64)} (h : Bouncing M s) :
    ∃ s', runStep md [.mirror (flatMirror 0), .mirror (flatMirror 1)] s = .next s' ∧ Bouncing M' s' ∧
      s'.interactions = s.interactions + 1 ∧ ∃ sel c, s'.selected = some sel ∧ sel.optic = .mirror (flatMirror c) ∧
        (c = 0 ∨ c = 1) := by
  obtain ⟨p, d, hax, hp, hd, hb, ht, hr⟩ := h
  obtain ⟨f, f0, f1, hf⟩ := d_floor
  have hfar : ¬ ((Fl.fin 1 : Fl binary64) > Fl.fin M) := by
    show ¬ (M < 1); exact not_lt.mpr hM
  have hnear : (Fl.fin 1 : Fl binary64) > clippingFloor := by rw [hf]; exact f1
  obtain ⟨n, hmiss⟩ := d_mirror_miss hax s.ray hp hd
  have hhit := d_mirror_hit hax s.ray hp hd
  have hdist := d_dist hax
  have hfly : dvec 0 0 p + (Fl.fin 1 : Fl binary64) * dvec 0 0 d = dvec 0 0 (p + d) := by
    rcases hax with ⟨rfl, rfl⟩ | ⟨rfl, rfl⟩ <;> unfold dvec <;>
    · ext <;> simp only [add_x, add_y, add_z, smul_x, smul_y, smul_z, fl_mul] <;>
        norm_num [fl_add, fl_mk, d0, d1, dm1]
  have hspec : specular (dvec 0 0 d) (dvec 0 0 1) = dvec 0 0 (-d) :=
    d_specular (hax.elim (fun h => .inl h.2) (fun h => .inr h.2))
  have hax' : OnAxis (p + d) (-d) := by
    rcases hax with ⟨rfl, rfl⟩ | ⟨rfl, rfl⟩
    · exact .inr ⟨by norm_num, rfl⟩
    · exact .inl ⟨by norm_num, by norm_num⟩
  have hscan : ∃ sfo, [Optic.mirror (flatMirror 0), .mirror (flatMirror 1)].foldlM (scanStep s.ray s.remaining)
      ⟨false, none, s.selected, s.sfo⟩ = .ok ⟨true, some (Fl.fin 1), some ⟨.mirror (flatMirror (p + d)),
        dvec 0 0 (p + d), some (dvec 0 0 1)⟩, some sfo⟩ := by
    refine ⟨.none, ?_⟩
    rcases hax with ⟨rfl, rfl⟩ | ⟨rfl, rfl⟩
    · have e : (0 : ℝ) + 1 = 1 := by norm_num
      rw [e] at hhit hdist ⊢
      simp [List.foldlM, scanStep, Optic.skipped, hmiss, hhit, bind, Except.bind, pure, Except.pure, need, hp, hdist, hr,
        hfar, hnear, ltMin, fl_ltInf]
    · have e : (1 : ℝ) + -1 = 0 := by norm_num
      rw [e] at hhit hdist ⊢
      simp [List.foldlM, scanStep, Optic.skipped, hmiss, hhit, bind, Except.bind, pure, Except.pure, need, hp, hdist, hr,
        hfar, hnear, ltMin, fl_ltInf]
  obtain ⟨sfo, hscan⟩ := hscan
  unfold runStep
  rw [hscan]
  simp only [Bool.not_true, Bool.false_eq_true, if_false, hp, hdist, Ray.fly, hd, hfly, hr, hrem, ht,
    show ¬ ("normal" = "faerie_fire") by decide, Optic.doIntersect, Mirror.doIntersect, flatMirror, if_true, Ray.reflect,
    need, bind, Except.bind, pure, Except.pure, hspec]
  refine ⟨_, rfl, ⟨_, _, hax', rfl, rfl, hb, rfl, rfl⟩, rfl, _, p + d, rfl, rfl, ?_⟩
  rcases hax with ⟨rfl, rfl⟩ | ⟨rfl, rfl⟩
  · exact .inr (by norm_num)
  · exact .inl (by norm_num)

theorem budget_lost : (Fl.fin (2 ^ 54) : Fl binary64) - Fl.fin 1 = Fl.fin (2 ^ 54) := by
  rw [fl_sub]; show (⟨rnd64 (2 ^ 54 - 1)⟩ : Fl binary64) = _; rw [rnd64_lost]; rfl

/-- C97: the bound on `max_distance` is needed.  Two disk mirrors face each other at distance 1, a ray starts on the
first one along the axis, and `max_distance` is the double `2^54`: the loop never ends. -/
theorem C97_endless :
    ∃ m0 m1 : Mirror (Fl binary64),
      Mirror.new (dvec 0 0 0) "circular_flat" (some (dvec 0 0 1)) (some (Fl.fin 2)) none none none none "normal"
        (some (dvec 0 0 1)) = .ok m0 ∧
      Mirror.new (dvec 0 0 1) "circular_flat" (some (dvec 0 0 1)) (some (Fl.fin 2)) none none none none "normal"
        (some (dvec 0 0 1)) = .ok m1 ∧
      ∀ (wavelength order : Fl binary64) (fuel : Nat), ∃ s,
        (Ray.new (dvec 0 0 0) (dvec 0 0 1) wavelength order "normal").run (Fl.fin (2 ^ 54)) [.mirror m0, .mirror m1] none
          fuel = .outOfFuel s := by
  refine ⟨flatMirror 0, flatMirror 1, flatMirror_new 0, flatMirror_new 1, fun wavelength order fuel => ?_⟩
  have key : ∀ (fuel : Nat) (s : RunState (Fl binary64)), Bouncing (2 ^ 54) s → ∃ t,
      runLoop (Fl.fin (2 ^ 54)) [.mirror (flatMirror 0), .mirror (flatMirror 1)] none fuel s = .outOfFuel t := by
    intro fuel
    induction fuel with
    | zero => exact fun s _ => ⟨s, rfl⟩
    | succ n ih =>
      intro s hs
      have hc : s.continues none = true := by
        obtain ⟨p, d, -, -, -, hb, -, hr⟩ := hs
        have : (Fl.fin (2 ^ 54) : Fl binary64) > 0.0 := by rw [fl_lit0]; show (0 : ℝ) < 2 ^ 54; positivity
        simp [RunState.continues, hr, hb, this]
      obtain ⟨s', hs', hb', -⟩ := bouncing_step (by norm_num) budget_lost hs
      obtain ⟨t, ht⟩ := ih s' hb'
      refine ⟨t, ?_⟩
      unfold runLoop
      rw [if_pos hc, hs']
      exact ht
  exact key fuel _ ⟨0, 1, .inl ⟨rfl, rfl⟩, rfl, d_unit (.inl rfl), rfl, rfl, rfl⟩

/-- With `max_distance = 200`, as in the scripts, the same ray does end. -/
example (wavelength order : Fl binary64) (s : RunState (Fl binary64)) :
    (Ray.new (dvec 0 0 0) (dvec 0 0 1) wavelength order "normal").run (Fl.fin 200)
      [.mirror (flatMirror 0), .mirror (flatMirror 1)] none (5 * 10 ^ 14 + 1) ≠ .outOfFuel s :=
  C97_terminates_double _ _ (by norm_num) _ _ _ (by norm_num) s

end Optics
