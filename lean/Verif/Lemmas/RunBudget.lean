import Verif.Lemmas.Run
import Verif.Lemmas.Lift

/-!
# The distance budget of the run loop, over ℝ and over numpy's floats
-/

namespace Optics
variable {α : Type} [PyNum α]
open V3

/-- The arithmetic facts about `distance_remaining` the loop relies on.  They hold for real numbers and
for numbers with `nan` and infinities. -/
structure BudgetLaws (α : Type) [PyNum α] : Prop where
  /-- after `remaining -= max_distance` nothing is left -/
  stops : ∀ r m : α, ¬ m < r → ¬ r - m > 0.0
  /-- `remaining` never exceeds `max_distance` -/
  shrinks : ∀ (r m : α) (p q : V3 α), ¬ m < r → ¬ m < r - distanceBetween p q
  start : ∀ m : α, ¬ m < m

theorem budget_real : BudgetLaws ℝ where
  stops r m h := by rw [lit0]; simp only [not_lt, gt_iff_lt] at *; linarith
  shrinks r m p q h := by
    have : 0 ≤ distanceBetween p q := norm_nonneg _
    simp only [not_lt] at *; linarith
  start m := lt_irrefl m

theorem XR.mul_self_cases (x : XR) : x * x = .nan ∨ x * x = .inf ∨ ∃ r, 0 ≤ r ∧ x * x = .fin r := by
  cases x with
  | nan => exact .inl rfl
  | inf => exact .inr (.inl rfl)
  | ninf => exact .inr (.inl rfl)
  | fin x => exact .inr (.inr ⟨x * x, mul_self_nonneg x, rfl⟩)

theorem XR.add_cases {a b : XR} (ha : a = .nan ∨ a = .inf ∨ ∃ r, 0 ≤ r ∧ a = .fin r)
    (hb : b = .nan ∨ b = .inf ∨ ∃ r, 0 ≤ r ∧ b = .fin r) :
    a + b = .nan ∨ a + b = .inf ∨ ∃ r, 0 ≤ r ∧ a + b = .fin r := by
  rcases ha with rfl | rfl | ⟨r, hr, rfl⟩ <;> rcases hb with rfl | rfl | ⟨q, hq, rfl⟩
  any_goals exact .inl rfl
  any_goals exact .inr (.inl rfl)
  exact .inr (.inr ⟨r + q, by linarith, rfl⟩)

theorem XR.norm_cases (v : V3 XR) : norm v = .nan ∨ norm v = .inf ∨ ∃ r, 0 ≤ r ∧ norm v = .fin r := by
  have h := XR.add_cases (XR.add_cases (XR.mul_self_cases v.x) (XR.mul_self_cases v.y)) (XR.mul_self_cases v.z)
  unfold V3.norm dot
  rcases h with h | h | ⟨r, hr, h⟩ <;> rw [h]
  · exact .inl rfl
  · exact .inr (.inl rfl)
  · exact .inr (.inr ⟨_, Real.sqrt_nonneg r, XR.fin_sqrt _ hr⟩)

theorem budget_xr : BudgetLaws XR where
  stops r m h := by
    rw [xlit0]
    cases r <;> cases m <;> first
      | exact fun h => h
      | exact absurd trivial h
      | skip
    rename_i r m
    have h : ¬ m < r := h
    show ¬ (0 : ℝ) < r + -m
    linarith
  shrinks r m p q h := by
    unfold distanceBetween
    rcases XR.norm_cases (p - q) with e | e | ⟨d, hd, e⟩
    · rw [e]; cases r <;> cases m <;> exact fun h => h
    · rw [e]; cases r <;> cases m <;> exact fun h => h
    · rw [e]
      cases r <;> cases m <;> first
        | exact fun h => h
        | exact absurd trivial h
        | skip
      rename_i r m
      have h : ¬ m < r := h
      show ¬ (m : ℝ) < r + -d
      linarith
  start m := by
    cases m <;> first
      | exact fun h => h
      | exact lt_irrefl (α := ℝ) _

/-! ## What the scan selects -/

theorem foldlM_invariant {σ β : Type} (f : σ → β → Py σ) (P : σ → Prop)
    (h : ∀ s b s', P s → f s b = .ok s' → P s') : ∀ (l : List β) (s s' : σ), P s → l.foldlM f s = .ok s' → P s'
  | [], s, s', h0, e => by cases e; exact h0
  | b :: l, s, s', h0, e => by
    rw [List.foldlM_cons] at e
    cases hb : f s b with
    | error e' => rw [hb] at e; cases e
    | ok t => rw [hb] at e; exact foldlM_invariant f P h l t s' (h s b t h0 hb) e

/-- What one optic does to the scan's variables. -/
inductive ScanCase (ray : Ray α) (rem : α) (o : Optic α) (v v' : ScanVars α) : Prop
  | skip (h : o.skipped = true) (e : v' = v)
  | miss (r : Hit4 α) (hk : o.skipped = false) (h : o.testIntersect ray = .ok r) (hh : r.hit = false)
      (e : v' = { v with sfo := some r.sfo })
  | far (r : Hit4 α) (pt : V3 α) (hk : o.skipped = false) (h : o.testIntersect ray = .ok r) (hh : r.hit = true)
      (hp : r.pt = some pt)
      (hd : distanceBetween ray.position pt > rem ∨ ¬ distanceBetween ray.position pt > clippingFloor)
      (e : v' = { v with sfo := some r.sfo })
  | behind (r : Hit4 α) (pt : V3 α) (hk : o.skipped = false) (h : o.testIntersect ray = .ok r) (hh : r.hit = true)
      (hp : r.pt = some pt)
      (hd : ¬ distanceBetween ray.position pt > rem ∧ distanceBetween ray.position pt > clippingFloor)
      (hm : ltMin (distanceBetween ray.position pt) v.minDistance = false)
      (e : v' = { v with sfo := some r.sfo, intersected := true })
  | new (r : Hit4 α) (pt : V3 α) (hk : o.skipped = false) (h : o.testIntersect ray = .ok r) (hh : r.hit = true)
      (hp : r.pt = some pt)
      (hd : ¬ distanceBetween ray.position pt > rem ∧ distanceBetween ray.position pt > clippingFloor)
      (hm : ltMin (distanceBetween ray.position pt) v.minDistance = true)
      (e : v' = ⟨true, some (distanceBetween ray.position pt), some ⟨o, pt, r.normal⟩, some r.sfo⟩)

theorem scanStep_ok {ray : Ray α} {rem : α} {o : Optic α} {v v' : ScanVars α}
    (h : scanStep ray rem v o = .ok v') : ScanCase ray rem o v v' := by
  unfold scanStep at h
  cases hk : o.skipped with
  | true => simp only [hk, if_true] at h; cases h; exact .skip hk rfl
  | false =>
    simp only [hk, Bool.false_eq_true, if_false, bind, Except.bind, pure, Except.pure] at h
    cases ht : o.testIntersect ray with
    | error e => simp only [ht] at h; cases h
    | ok r =>
      simp only [ht] at h
      cases hh : r.hit with
      | false => simp only [hh, Bool.false_eq_true, if_false] at h; cases h; exact .miss r hk ht hh rfl
      | true =>
        simp only [hh, if_true] at h
        cases hp : r.pt with
        | none => simp only [hp, need] at h; cases h
        | some pt =>
          simp only [hp, need] at h
          split_ifs at h with h1 h2 h3
          · cases h; exact .far r pt hk ht hh hp (.inl h1) rfl
          · cases h; exact .new r pt hk ht hh hp ⟨h1, h2⟩ h3 rfl
          · cases h; exact .behind r pt hk ht hh hp ⟨h1, h2⟩ (by simpa using h3) rfl
          · cases h; exact .far r pt hk ht hh hp (.inr h2) rfl

/-- Whether an optic's step raises does not depend on what the scan found before. -/
theorem scanStep_error {ray : Ray α} {rem : α} {o : Optic α} {v w : ScanVars α} {e : PyErr}
    (h : scanStep ray rem v o = .error e) : scanStep ray rem w o = .error e := by
  unfold scanStep at h ⊢
  cases hk : o.skipped with
  | true => simp only [hk, if_true] at h; cases h
  | false =>
    simp only [hk, Bool.false_eq_true, if_false, bind, Except.bind, pure, Except.pure] at h ⊢
    cases ht : o.testIntersect ray with
    | error e => simp only [ht] at h ⊢; exact h
    | ok r =>
      simp only [ht] at h ⊢
      cases hh : r.hit with
      | false => simp only [hh, Bool.false_eq_true, if_false] at h; cases h
      | true =>
        simp only [hh, if_true] at h ⊢
        cases hp : r.pt with
        | none => simp only [hp, need] at h ⊢; exact h
        | some pt =>
          simp only [hp, need] at h
          split_ifs at h

/-- In a scan that hits something within a finite reach, the selected point was found in this very scan, at
an admissible distance. -/
theorem scan_selected {optics : List (Optic α)} {s : RunState α} {v : ScanVars α}
    (hfin : ∀ d : α, ¬ d > s.remaining → d > clippingFloor → PyNum.ltInf d = true)
    (h : scan optics s = .ok v) (hi : v.intersected = true) :
    ∃ sel, v.selected = some sel ∧ ¬ distanceBetween s.ray.position sel.pt > s.remaining ∧
      distanceBetween s.ray.position sel.pt > clippingFloor ∧
      v.minDistance = some (distanceBetween s.ray.position sel.pt) ∧ v.sfo ≠ none := by
  have key := foldlM_invariant (scanStep s.ray s.remaining)
    (fun v => (v.minDistance = none ∧ v.intersected = false) ∨
      (v.sfo ≠ none ∧ ∃ sel, v.selected = some sel ∧ ¬ distanceBetween s.ray.position sel.pt > s.remaining ∧
        distanceBetween s.ray.position sel.pt > clippingFloor ∧
        v.minDistance = some (distanceBetween s.ray.position sel.pt))) ?_ optics _ v
    (.inl ⟨rfl, rfl⟩) h
  · rcases key with ⟨_, hf⟩ | ⟨hs, sel, h1, h2, h3, h4⟩
    · rw [hf] at hi; cases hi
    · exact ⟨sel, h1, h2, h3, h4, hs⟩
  · intro v o v' hv hstep
    rcases scanStep_ok hstep with ⟨_, rfl⟩ | ⟨r, _, _, _, rfl⟩ | ⟨r, pt, _, _, _, _, _, rfl⟩ |
      ⟨r, pt, _, _, _, _, hd, hm, rfl⟩ | ⟨r, pt, _, _, _, _, hd, hm, rfl⟩
    · exact hv
    · rcases hv with hv | ⟨_, hv⟩
      · exact .inl hv
      · exact .inr ⟨by simp, hv⟩
    · rcases hv with hv | ⟨_, hv⟩
      · exact .inl hv
      · exact .inr ⟨by simp, hv⟩
    · rcases hv with hv | ⟨_, hv⟩
      · rw [hv.1, ltMin, hfin _ hd.1 hd.2] at hm; cases hm
      · exact .inr ⟨by simp, hv⟩
    · exact .inr ⟨by simp, _, rfl, hd.1, hd.2, rfl⟩

end Optics
