import Verif.Lemmas.RunBudget

/-!
# C41: `run` terminates

Over `ℝ` and over `XR` (exact reals with `nan` and infinities), for every ray and every scene, well-formed or
not.  With rounding the argument needs `distance_remaining` to change when a distance above 1e-12 is subtracted,
which fails for doubles above about 1e4: see C97.
-/

namespace Optics
variable {α : Type} [PyNum α]
open V3

/-- Numbers with a finite real value, and what the loop does with them. -/
structure ClockLaws (α : Type) [PyNum α] (Fin : α → ℝ → Prop) : Prop where
  pos : ∀ a r, Fin a r → a > 0.0 → 0 < r
  sel : ∀ a r d, Fin a r → ¬ d > a → d > clippingFloor → PyNum.ltInf d = true ∧ ∃ x, Fin d x ∧ 1e-12 < x
  sub : ∀ a r d x, Fin a r → Fin d x → Fin (a - d) (r - x)

theorem clock_real : ClockLaws ℝ (fun a r => a = r) where
  pos a r h h' := by rw [lit0, gt_iff_lt] at h'; rw [← h]; exact h'
  sel a r d h h1 h2 := ⟨rfl, d, rfl, by rw [clippingFloor_eq] at h2; exact h2⟩
  sub a r d x h h' := by rw [h, h']

theorem clock_xr : ClockLaws XR (fun a r => a = .fin r) where
  pos a r h h' := by rw [xlit0] at h'; subst h; exact h'
  sel a r d h h1 h2 := by
    subst h
    have hf : (clippingFloor : XR) = .fin (1e-12) := rfl
    rw [hf] at h2
    cases d with
    | nan => exact absurd h2 (fun h => h)
    | inf => exact absurd trivial h1
    | ninf => exact absurd h2 (fun h => h)
    | fin d => exact ⟨rfl, d, rfl, h2⟩
  sub a r d x h h' := by rw [h, h']; rfl

/-- Each pass uses up more than 1e-12 of the budget, or the run is over. -/
theorem passes_bound {Fin : α → ℝ → Prop} (laws : ClockLaws α Fin) {md : α} {M : ℝ} (hM : Fin md M)
    {optics : List (Optic α)} {mi : Option Int} {ray : Ray α} {n : Nat} {s : RunState α}
    (h : Passes md optics mi n (RunState.init ray md) s) :
    (∃ r, Fin s.remaining r ∧ r ≤ M - n * 1e-12 ∧ (n = 0 ∨ (n : ℝ) < M / 1e-12 + 1)) ∨
    (∃ r, Fin s.remaining r ∧ r ≤ 0 ∧ (n : ℝ) < M / 1e-12 + 1) := by
  generalize hs0 : RunState.init ray md = s0 at h
  induction h with
  | zero s => subst hs0; exact .inl ⟨M, hM, by simp, .inl rfl⟩
  | @succ n s s' s'' h hc hs ih =>
    have hc : s'.remaining > 0.0 := by
      simp only [RunState.continues, Bool.and_eq_true, decide_eq_true_eq] at hc; exact hc.1.1
    obtain ⟨r, hr, hle⟩ : ∃ r, Fin s'.remaining r ∧ r ≤ M - n * 1e-12 := by
      rcases ih hs0 with ⟨r, hr, h1, -⟩ | ⟨r, hr, h1, -⟩
      · exact ⟨r, hr, h1⟩
      · exact absurd (laws.pos _ _ hr hc) (not_lt.mpr h1)
    have hpos := laws.pos _ _ hr hc
    have hcount : ((n + 1 : Nat) : ℝ) < M / 1e-12 + 1 := by
      push_cast
      have : (n : ℝ) * 1e-12 < M := by linarith
      have : (n : ℝ) < M / 1e-12 := by rw [lt_div_iff₀ (by norm_num)]; exact this
      linarith
    have hn : (0 : ℝ) ≤ n := Nat.cast_nonneg n
    have hit : ∀ v, scan optics s' = .ok v → v.intersected = true → ∀ sel, v.selected = some sel →
        ∃ x, Fin (s'.remaining - distanceBetween s'.ray.position sel.pt) x ∧ x ≤ M - ((n + 1 : Nat) : ℝ) * 1e-12 := by
      intro v hv hi sel hsel
      obtain ⟨sel', e1, e2, e3, -⟩ := scan_selected (fun d h1 h2 => (laws.sel _ _ _ hr h1 h2).1) hv hi
      rw [hsel] at e1; cases e1
      obtain ⟨-, x, hx, hlt⟩ := laws.sel _ _ _ hr e2 e3
      exact ⟨r - x, laws.sub _ _ _ _ hr hx, by push_cast; linarith⟩
    obtain ⟨v, hv, hs'⟩ := runStep_next hs
    rcases hs' with ⟨_, rfl⟩ | ⟨sel, hi, hsel, _, rfl⟩ | ⟨sel, sfo, ray', hits, hi, hsel, _, _, ha, rfl⟩
    · refine .inr ⟨r - M, laws.sub _ _ _ _ hr hM, ?_, hcount⟩
      have : (0 : ℝ) ≤ n * 1e-12 := by positivity
      linarith
    · obtain ⟨x, h1, h2⟩ := hit v hv hi sel hsel
      exact .inl ⟨x, h1, h2, .inr hcount⟩
    · obtain ⟨x, h1, h2⟩ := hit v hv hi sel hsel
      exact .inl ⟨x, h1, h2, .inr hcount⟩

theorem terminates_of_laws {Fin : α → ℝ → Prop} (laws : ClockLaws α Fin) {md : α} {M : ℝ} (hM : Fin md M)
    (optics : List (Optic α)) (mi : Option Int) (ray : Ray α) (fuel : Nat) (hf : max M 0 / 1e-12 + 1 ≤ fuel)
    (s : RunState α) : ray.run md optics mi fuel ≠ .outOfFuel s := by
  intro h
  obtain ⟨n, s', h1, h2⟩ := runLoop_passes (md := md) (optics := optics) (mi := mi) fuel (RunState.init ray md)
  rw [show runLoop md optics mi fuel (RunState.init ray md) = _ from h] at h2
  obtain ⟨-, h3⟩ := h2
  have hpos : (0 : ℝ) ≤ max M 0 / 1e-12 := div_nonneg (le_max_right _ _) (by norm_num)
  have hle : M / 1e-12 ≤ max M 0 / 1e-12 := div_le_div_of_nonneg_right (le_max_left _ _) (by norm_num)
  have hn : n = 0 ∨ (n : ℝ) < M / 1e-12 + 1 := by
    rcases passes_bound laws hM h1 with ⟨_, -, -, h⟩ | ⟨_, -, -, h⟩
    · exact h
    · exact .inr h
  rw [h3] at hn
  rcases hn with hn | hn
  · rw [hn] at hf; push_cast at hf; linarith
  · linarith

/-- C41: with a finite `max_distance` the loop of `run` ends (normally or with an exception) after at most
`max_distance / 1e-12 + 1` passes: for every ray, scene and cap, `max_interactions = inf` included, and whatever
`nan`s and infinities occur on the way. -/
theorem C41_terminates (ray : Ray XR) (M : ℝ) (optics : List (Optic XR)) (mi : Option Int) (fuel : Nat)
    (hf : max M 0 / 1e-12 + 1 ≤ fuel) (s : RunState XR) : ray.run (.fin M) optics mi fuel ≠ .outOfFuel s :=
  terminates_of_laws clock_xr rfl optics mi ray fuel hf s

/-- C41 over the real numbers. -/
theorem C41_terminates_real (ray : Ray ℝ) (M : ℝ) (optics : List (Optic ℝ)) (mi : Option Int) (fuel : Nat)
    (hf : max M 0 / 1e-12 + 1 ≤ fuel) (s : RunState ℝ) : ray.run M optics mi fuel ≠ .outOfFuel s :=
  terminates_of_laws clock_real rfl optics mi ray fuel hf s

/-- C41: the bound in terms of passes: `n` complete passes need `n < M / 1e-12 + 1`. -/
theorem C41_pass_bound (ray : Ray XR) (M : ℝ) (optics : List (Optic XR)) (mi : Option Int) {n : Nat}
    {s : RunState XR} (h : Passes (.fin M) optics mi n (RunState.init ray (.fin M)) s) :
    n = 0 ∨ (n : ℝ) < M / 1e-12 + 1 := by
  rcases passes_bound clock_xr rfl h with ⟨_, -, -, h⟩ | ⟨_, -, -, h⟩
  · exact h
  · exact .inr h

/-- C41: once it ends, more fuel does not change how it ends: the result does not depend on the bound. -/
theorem C41_fuel_irrelevant (ray : Ray α) (md : α) (optics : List (Optic α)) (mi : Option Int) (fuel k : Nat)
    (h : ∀ s, ray.run md optics mi fuel ≠ .outOfFuel s) :
    ray.run md optics mi (fuel + k) = ray.run md optics mi fuel := by
  have key : ∀ fuel s, (∀ t, runLoop md optics mi fuel s ≠ .outOfFuel t) →
      runLoop md optics mi (fuel + k) s = runLoop md optics mi fuel s := by
    intro fuel
    induction fuel with
    | zero => intro s h; exact absurd rfl (h s)
    | succ n ih =>
      intro s h
      rw [Nat.add_right_comm]
      unfold runLoop at h ⊢
      split_ifs at h ⊢
      · cases hs : runStep md optics s with
        | raised e s' => rfl
        | next s' => rw [hs] at h; exact ih s' h
      · rfl
  exact key fuel _ h

end Optics
