import Verif.Lemmas.Rounded

/-! # The distance budget with rounding -/

namespace Optics
variable {α : Type} [PyNum α]
open V3

/-- What the loop does with its budget: `Fin a r` says that the number `a` has the finite value `r`; a hit takes
at least `step` off a budget of at most `M`. -/
structure BudgetClock (α : Type) [PyNum α] (Fin : α → ℝ → Prop) (md : α) (M step : ℝ) : Prop where
  start : Fin md M
  pos : ∀ a r, Fin a r → a > 0.0 → 0 < r
  hit : ∀ a r d, Fin a r → 0 < r → r ≤ M → ¬ d > a → d > clippingFloor →
    PyNum.ltInf d = true ∧ ∃ y, Fin (a - d) y ∧ y ≤ r - step
  free : ∀ a r, Fin a r → 0 < r → r ≤ M → ∃ y, Fin (a - md) y ∧ y ≤ 0

theorem clock_passes {Fin : α → ℝ → Prop} {md : α} {M step : ℝ} (hs : 0 < step) (laws : BudgetClock α Fin md M step)
    {optics : List (Optic α)} {mi : Option Int} {ray : Ray α} {n : Nat} {s : RunState α}
    (h : Passes md optics mi n (RunState.init ray md) s) :
    ∃ r, Fin s.remaining r ∧ (r ≤ M - n * step ∨ r ≤ 0) ∧ (n = 0 ∨ (n : ℝ) < M / step + 1) := by
  generalize hs0 : RunState.init ray md = s0 at h
  induction h with
  | zero s => subst hs0; exact ⟨M, laws.start, .inl (by simp), .inl rfl⟩
  | @succ n s s' s'' h hc hst ih =>
    have hc : s'.remaining > 0.0 := by
      simp only [RunState.continues, Bool.and_eq_true, decide_eq_true_eq] at hc; exact hc.1.1
    obtain ⟨r, hr, hle, -⟩ := ih hs0
    have hpos := laws.pos _ _ hr hc
    have hle : r ≤ M - n * step := hle.resolve_right (not_le.mpr hpos)
    have hn : (0 : ℝ) ≤ n := Nat.cast_nonneg n
    have hns : 0 ≤ n * step := by positivity
    have hcount : ((n + 1 : Nat) : ℝ) < M / step + 1 := by
      push_cast
      have : (n : ℝ) < M / step := by rw [lt_div_iff₀ hs]; linarith
      linarith
    have hit : ∀ v, scan optics s' = .ok v → v.intersected = true → ∀ sel, v.selected = some sel →
        ∃ x, Fin (s'.remaining - distanceBetween s'.ray.position sel.pt) x ∧ x ≤ M - ((n + 1 : Nat) : ℝ) * step := by
      intro v hv hi sel hsel
      obtain ⟨sel', e1, e2, e3, -⟩ :=
        scan_selected (fun d h1 h2 => (laws.hit _ _ _ hr hpos (by linarith) h1 h2).1) hv hi
      rw [hsel] at e1; cases e1
      obtain ⟨-, y, hy, hlt⟩ := laws.hit _ _ _ hr hpos (by linarith) e2 e3
      exact ⟨y, hy, by push_cast; linarith⟩
    obtain ⟨v, hv, hs'⟩ := runStep_next hst
    rcases hs' with ⟨_, rfl⟩ | ⟨sel, hi, hsel, _, rfl⟩ | ⟨sel, sfo, ray', hits, hi, hsel, _, _, ha, rfl⟩
    · obtain ⟨y, h1, h2⟩ := laws.free _ _ hr hpos (by linarith)
      exact ⟨y, h1, .inr h2, .inr hcount⟩
    · obtain ⟨x, h1, h2⟩ := hit v hv hi sel hsel
      exact ⟨x, h1, .inl h2, .inr hcount⟩
    · obtain ⟨x, h1, h2⟩ := hit v hv hi sel hsel
      exact ⟨x, h1, .inl h2, .inr hcount⟩

theorem clock_terminates {Fin : α → ℝ → Prop} {md : α} {M step : ℝ} (hs : 0 < step)
    (laws : BudgetClock α Fin md M step) (optics : List (Optic α)) (mi : Option Int) (ray : Ray α) (fuel : Nat)
    (hf : max M 0 / step + 1 ≤ fuel) (s : RunState α) : ray.run md optics mi fuel ≠ .outOfFuel s := by
  intro h
  obtain ⟨n, s', h1, h2⟩ := runLoop_passes (md := md) (optics := optics) (mi := mi) fuel (RunState.init ray md)
  rw [show runLoop md optics mi fuel (RunState.init ray md) = _ from h] at h2
  obtain ⟨-, h3⟩ := h2
  have hpos : (0 : ℝ) ≤ max M 0 / step := div_nonneg (le_max_right _ _) hs.le
  have hle : M / step ≤ max M 0 / step := div_le_div_of_nonneg_right (le_max_left _ _) hs.le
  obtain ⟨-, -, -, hn⟩ := clock_passes hs laws h1
  rw [h3] at hn
  rcases hn with hn | hn
  · rw [hn] at hf; push_cast at hf; linarith
  · linarith

/-- With rounding: subtracting a distance above the clipping floor lowers the budget, if the budget is so small that
its own rounding error is at most half that floor. -/
theorem clock_rounded (R : Rounding) {M : ℝ} (hM : M ≤ 10 ^ 300) (hu : R.u * (M + 1) ≤ 5 / 10 ^ 13) :
    BudgetClock (Fl R) (fun a r => a = Fl.fin r) (Fl.fin M) M (4 / 10 ^ 13) where
  start := rfl
  pos a r h h' := by rw [fl_lit0] at h'; subst h; exact h'
  hit a r d h hr hrM h1 h2 := by
    subst h
    have hu0 := R.u_pos
    have hus := R.u_small
    obtain ⟨f, hf, hfe⟩ := R.near (1 / 10 ^ 12) (by
      rw [abs_of_pos (by positivity)]; exact le_trans (by norm_num) huge_ge)
    have hcf : (clippingFloor : Fl R) = Fl.fin f := by
      unfold clippingFloor
      rw [fl_lit, show (OfScientific.ofScientific 1 true 12 : ℝ) = 1 / 10 ^ 12 by norm_num, hf]; rfl
    rw [hcf] at h2
    obtain ⟨d⟩ := d
    cases d with
    | nan => exact absurd h2 (fun h => h)
    | inf => exact absurd trivial h1
    | ninf => exact absurd h2 (fun h => h)
    | fin d =>
      have h2 : f < d := h2
      have h1 : ¬ r < d := h1
      push_neg at h1
      have hf0 : 0 ≤ f := rnd_nonneg (by positivity) hf
      have hrd : |r - d| ≤ M := by rw [abs_of_nonneg (by linarith)]; linarith
      obtain ⟨y, hy, hye⟩ := R.near (r - d) (hrd.trans hM)
      refine ⟨rfl, y, ?_, ?_⟩
      · show (Fl.fin r : Fl R) - Fl.fin d = _
        rw [fl_sub, hy]; rfl
      · rw [abs_le] at hye hfe
        have ht := tiny_le
        have ht0 : (0 : ℝ) < 1 / 10 ^ 300 := by positivity
        have hM0 : 0 < M := by linarith
        generalize (1 : ℝ) / 10 ^ 300 = t at *
        have e1 : R.u * (|r - d| + t) ≤ R.u * (M + 1) := by
          apply mul_le_mul_of_nonneg_left _ hu0.le
          have : (1 : ℝ) / 10 ^ 30 ≤ 1 := by norm_num
          linarith
        have e2 : R.u * (|1 / 10 ^ 12| + t) ≤ 1 / 2 ^ 20 * (|1 / 10 ^ 12| + t) := by
          apply mul_le_mul_of_nonneg_right hus (by positivity)
        have e3 : (1 : ℝ) / 2 ^ 20 * (|1 / 10 ^ 12| + t) ≤ 1 / 2 ^ 20 * (1 / 10 ^ 12 + 1 / 10 ^ 30) := by
          apply mul_le_mul_of_nonneg_left _ (by positivity)
          rw [abs_of_pos (by positivity)]; linarith
        have e4 : (1 : ℝ) / 2 ^ 20 * (1 / 10 ^ 12 + 1 / 10 ^ 30) ≤ 1 / 10 ^ 13 := by norm_num
        have e5 : (1 : ℝ) / 10 ^ 12 - 1 / 10 ^ 13 - 5 / 10 ^ 13 = 4 / 10 ^ 13 := by norm_num
        linarith [hye.2, hfe.1]
  free a r h hr hrM := by
    subst h
    obtain ⟨y, hy, -⟩ := R.near (r - M) (by rw [abs_of_nonpos (by linarith)]; linarith)
    refine ⟨y, ?_, rnd_nonpos (by linarith) hy⟩
    rw [fl_sub, hy]; rfl

end Optics
