import Verif.Lemmas.RunBudget

/-!
# C45, C52: the nearest optic acts; free flight
-/

namespace Optics
open V3

/-- Every optic that `run` would test returns normally for this ray. -/
def TestsReturn (ray : Ray ℝ) (optics : List (Optic ℝ)) : Prop :=
  ∀ o ∈ optics, o.skipped = false → ∃ r, o.testIntersect ray = .ok r ∧ (r.hit = true → r.pt ≠ none)

theorem real_distance (p q : V3 ℝ) : distanceBetween p q = dist p.toE q.toE := (dist_toE_eq p q).symm

theorem hit4_eta {r : Hit4 ℝ} {pt : V3 ℝ} (hh : r.hit = true) (hp : r.pt = some pt) :
    r = ⟨true, some pt, r.normal, r.sfo⟩ := by
  cases r; cases hh; cases hp; rfl

/-- A candidate, from what the scan sees. -/
theorem candidate_of {ray : Ray ℝ} {rem : ℝ} {o : Optic ℝ} {r : Hit4 ℝ} {pt : V3 ℝ} (hk : o.skipped = false)
    (h : o.testIntersect ray = .ok r) (hh : r.hit = true) (hp : r.pt = some pt)
    (hd : ¬ distanceBetween ray.position pt > rem ∧ distanceBetween ray.position pt > clippingFloor) :
    Candidate ray rem o (distanceBetween ray.position pt) pt r.normal where
  notSkipped := hk
  hit := ⟨r.sfo, by rw [h, ← hit4_eta hh hp]⟩
  dist_eq := (real_distance _ _).symm
  notTooNear := by have := hd.2; rw [clippingFloor_eq] at this; exact this
  inReach := not_lt.mp hd.1

/-- What the scan has found after a list of optics. -/
structure ScanResult (ray : Ray ℝ) (rem : ℝ) (sel0 : Option (Selected ℝ)) (l : List (Optic ℝ))
    (v : ScanVars ℝ) : Prop where
  nothing : v.minDistance = none → v.intersected = false ∧ v.selected = sel0 ∧
    ∀ o ∈ l, ∀ d pt n, ¬ Candidate ray rem o d pt n
  found : ∀ m, v.minDistance = some m → v.intersected = true ∧ ∃ l1 o l2 pt n, l = l1 ++ o :: l2 ∧
    v.selected = some ⟨o, pt, n⟩ ∧ Candidate ray rem o m pt n ∧
    (∀ o' ∈ l1, ∀ d pt' n', Candidate ray rem o' d pt' n' → m < d) ∧
    (∀ o' ∈ l2, ∀ d pt' n', Candidate ray rem o' d pt' n' → m ≤ d)
  sfo : (∃ o ∈ l, o.skipped = false) → v.sfo ≠ none

theorem candidate_unique {ray : Ray ℝ} {rem : ℝ} {o : Optic ℝ} {d d' : ℝ} {pt pt' : V3 ℝ} {n n' : Option (V3 ℝ)}
    (h : Candidate ray rem o d pt n) (h' : Candidate ray rem o d' pt' n') : d = d' ∧ pt = pt' ∧ n = n' := by
  obtain ⟨s, e⟩ := h.hit
  obtain ⟨s', e'⟩ := h'.hit
  rw [e] at e'
  cases e'
  exact ⟨by rw [← h.dist_eq, ← h'.dist_eq], rfl, rfl⟩

theorem scan_result (ray : Ray ℝ) (rem : ℝ) (v0 : ScanVars ℝ) (h1 : v0.intersected = false)
    (h2 : v0.minDistance = none) : ∀ (l : List (Optic ℝ)) (v : ScanVars ℝ),
      l.foldlM (scanStep ray rem) v0 = .ok v → ScanResult ray rem v0.selected l v := by
  intro l
  induction l using List.reverseRecOn with
  | nil =>
    intro v h
    cases h
    exact ⟨fun _ => ⟨h1, rfl, by simp⟩, (fun m hm => by rw [h2] at hm; cases hm), (by rintro ⟨o, ho, _⟩; cases ho)⟩
  | append_singleton l o ih =>
    intro v h
    rw [List.foldlM_append] at h
    cases hw : l.foldlM (scanStep ray rem) v0 with
    | error e => rw [hw] at h; cases h
    | ok w =>
      rw [hw] at h
      have hstep : scanStep ray rem w o = .ok v := by
        rw [show (Except.ok w >>= fun s => [o].foldlM (scanStep ray rem) s) = ([o].foldlM (scanStep ray rem) w) from rfl,
          List.foldlM_cons] at h
        cases hs : scanStep ray rem w o with
        | error e => rw [hs] at h; cases h
        | ok u => rw [hs] at h; cases h; rfl
      have W := ih w hw
      -- if the new optic is not a candidate, what was known stays true
      have keep : (∀ d pt n, ¬ Candidate ray rem o d pt n) → v.intersected = w.intersected →
          v.minDistance = w.minDistance → v.selected = w.selected →
          ((∃ x ∈ l ++ [o], x.skipped = false) → v.sfo ≠ none) → ScanResult ray rem v0.selected (l ++ [o]) v := by
        intro hno e1 e2 e3 e4
        constructor
        · intro hm
          rw [e2] at hm
          obtain ⟨a, b, c⟩ := W.nothing hm
          refine ⟨by rw [e1, a], by rw [e3, b], ?_⟩
          intro x hx
          rcases List.mem_append.mp hx with hx | hx
          · exact c x hx
          · rw [List.mem_singleton.mp hx]; exact hno
        · intro m hm
          rw [e2] at hm
          obtain ⟨a, l1, x, l2, pt, n, b1, b2, b3, b4, b5⟩ := W.found m hm
          refine ⟨by rw [e1, a], l1, x, l2 ++ [o], pt, n, by rw [b1]; simp, by rw [e3, b2], b3, b4, ?_⟩
          intro y hy
          rcases List.mem_append.mp hy with hy | hy
          · exact b5 y hy
          · rw [List.mem_singleton.mp hy]; exact fun d p q h => absurd h (hno d p q)
        · exact e4
      rcases scanStep_ok hstep with ⟨hk, rfl⟩ | ⟨r, hk, ht, hh, rfl⟩ | ⟨r, pt, hk, ht, hh, hp, hd, rfl⟩ |
        ⟨r, pt, hk, ht, hh, hp, hd, hm, rfl⟩ | ⟨r, pt, hk, ht, hh, hp, hd, hm, rfl⟩
      · refine keep (fun d pt n h => ?_) rfl rfl rfl ?_
        · have := h.notSkipped; rw [hk] at this; cases this
        · rintro ⟨x, hx, hxk⟩
          rcases List.mem_append.mp hx with hx | hx
          · exact W.sfo ⟨x, hx, hxk⟩
          · rw [List.mem_singleton.mp hx, hk] at hxk; cases hxk
      · refine keep (fun d pt n h => ?_) rfl rfl rfl (fun _ => by simp)
        obtain ⟨s, hs⟩ := h.hit
        rw [ht] at hs; cases hs; cases hh
      · refine keep (fun d pt' n hc => ?_) rfl rfl rfl (fun _ => by simp)
        obtain ⟨s, hs⟩ := hc.hit
        rw [ht] at hs
        cases hs
        cases hp
        have e := hc.dist_eq
        rw [← real_distance] at e
        rcases hd with hd | hd
        · have := hc.inReach; rw [e] at hd; exact absurd this (not_le.mpr hd)
        · rw [clippingFloor_eq, e] at hd; exact hd hc.notTooNear
      · -- a candidate that is not nearer
        have hc := candidate_of (rem := rem) hk ht hh hp hd
        cases hwm : w.minDistance with
        | none => rw [hwm] at hm; simp [ltMin] at hm
        | some m =>
          rw [hwm] at hm
          have hle : m ≤ distanceBetween ray.position pt := by simpa [ltMin] using hm
          obtain ⟨a, l1, x, l2, pt', n, b1, b2, b3, b4, b5⟩ := W.found m hwm
          refine ⟨(fun h => by cases h), ?_, fun _ => (by simp)⟩
          intro m' hm'
          cases hm'
          refine ⟨rfl, l1, x, l2 ++ [o], pt', n, by rw [b1]; simp, b2, b3, b4, ?_⟩
          intro y hy
          rcases List.mem_append.mp hy with hy | hy
          · exact b5 y hy
          · rw [List.mem_singleton.mp hy]
            intro d p q h
            rw [← (candidate_unique hc h).1]; exact hle
      · -- a new nearest candidate
        have hc := candidate_of (rem := rem) hk ht hh hp hd
        refine ⟨(fun h => by cases h), ?_, fun _ => (by simp)⟩
        rintro m ⟨⟩
        refine ⟨rfl, l, o, [], pt, r.normal, rfl, rfl, hc, ?_, by simp⟩
        intro o' ho' d pt' n' h
        cases hwm : w.minDistance with
        | none => exact absurd h ((W.nothing hwm).2.2 o' ho' d pt' n')
        | some m =>
          rw [hwm] at hm
          have hlt : distanceBetween ray.position pt < m := by simpa [ltMin] using hm
          obtain ⟨a, l1, x, l2, pt'', n, b1, b2, b3, b4, b5⟩ := W.found m hwm
          rw [b1] at ho'
          rcases List.mem_append.mp ho' with ho' | ho'
          · exact hlt.trans (b4 o' ho' d pt' n' h)
          · rcases List.mem_cons.mp ho' with rfl | ho'
            · rw [← (candidate_unique b3 h).1]; exact hlt
            · exact hlt.trans_le (b5 o' ho' d pt' n' h)

/-- The scan returns exactly if all the tests it makes do. -/
theorem scan_ok_iff (ray : Ray ℝ) (rem : ℝ) (optics : List (Optic ℝ)) (v0 : ScanVars ℝ) :
    (∃ v, optics.foldlM (scanStep ray rem) v0 = .ok v) ↔ TestsReturn ray optics := by
  induction optics generalizing v0 with
  | nil => exact ⟨fun _ o ho => (by cases ho), fun _ => ⟨v0, rfl⟩⟩
  | cons o l ih =>
    have hstep : (∃ w, scanStep ray rem v0 o = .ok w) ↔
        (o.skipped = false → ∃ r, o.testIntersect ray = .ok r ∧ (r.hit = true → r.pt ≠ none)) := by
      unfold scanStep
      cases hk : o.skipped with
      | true => simp [pure, Except.pure]
      | false =>
        simp only [Bool.false_eq_true, if_false, bind, Except.bind, pure, Except.pure, forall_const]
        cases ht : o.testIntersect ray with
        | error e => simp
        | ok r =>
          simp only [Except.ok.injEq, exists_eq_left']
          cases hh : r.hit with
          | false => simp
          | true =>
            cases hp : r.pt with
            | none => simp [need]
            | some pt =>
              simp only [if_true, need, ne_eq, reduceCtorEq, not_false_eq_true, implies_true, iff_true]
              split_ifs <;> exact ⟨_, rfl⟩
    rw [TestsReturn, List.forall_mem_cons, ← hstep, ← TestsReturn]
    rw [List.foldlM_cons]
    cases hs : scanStep ray rem v0 o with
    | error e =>
      constructor
      · rintro ⟨v, h⟩; cases h
      · rintro ⟨⟨w, h⟩, _⟩; cases h
    | ok w =>
      rw [show (Except.ok w >>= fun s => l.foldlM (scanStep ray rem) s) = l.foldlM (scanStep ray rem) w from rfl, ih w]
      exact ⟨fun h => ⟨⟨w, rfl⟩, h⟩, fun h => h.2⟩

/-! ## C45 -/

/-- C45: in each pass of the loop, either no optic's reported intersection is further than 1e-12 and within the
remaining distance, and the ray flies freely; or an optic of the list acts, at the point and with the normal it
reported, which is the nearest of these, and the first one in the list among equally near ones. -/
theorem C45_nearest (md : ℝ) (optics : List (Optic ℝ)) (s s' : RunState ℝ)
    (h : runStep md optics s = .next s') :
    ((∀ o ∈ optics, ∀ d pt n, ¬ Candidate s.ray s.remaining o d pt n) ∧
      s'.ray = s.ray.movedTo (lineAt s.ray.position s.ray.direction s.remaining) ∧ s'.log = s.log ∧
      s'.interactions = s.interactions) ∨
    ∃ l1 o l2 d pt n, optics = l1 ++ o :: l2 ∧ Candidate s.ray s.remaining o d pt n ∧
      (∀ o' ∈ l1, ∀ d' pt' n', Candidate s.ray s.remaining o' d' pt' n' → d < d') ∧
      (∀ o' ∈ l2, ∀ d' pt' n', Candidate s.ray s.remaining o' d' pt' n' → d ≤ d') ∧
      s'.remaining = s.remaining - d ∧ s'.interactions = s.interactions + 1 ∧
      (s.ray.type ≠ "faerie_fire" → ∃ sfo hits,
        o.doIntersect (s.ray.movedTo (lineAt s.ray.position s.ray.direction d)) pt n sfo = .ok (s'.ray, hits) ∧
        s'.log = s.log ++ hits) ∧
      (s.ray.type = "faerie_fire" → s'.log = s.log ∧
        s'.ray = { s.ray.movedTo (lineAt s.ray.position s.ray.direction d) with blocked := true }) := by
  obtain ⟨v, hv, hs⟩ := runStep_next h
  have R := scan_result s.ray s.remaining ⟨false, none, s.selected, s.sfo⟩ rfl rfl optics v hv
  have hit : v.intersected = true → ∀ sel, v.selected = some sel → ∃ l1 o l2 pt n, sel = ⟨o, pt, n⟩ ∧
      optics = l1 ++ o :: l2 ∧ Candidate s.ray s.remaining o (distanceBetween s.ray.position sel.pt) pt n ∧
      (∀ o' ∈ l1, ∀ d' pt' n', Candidate s.ray s.remaining o' d' pt' n' → distanceBetween s.ray.position sel.pt < d') ∧
      (∀ o' ∈ l2, ∀ d' pt' n', Candidate s.ray s.remaining o' d' pt' n' → distanceBetween s.ray.position sel.pt ≤ d') := by
    intro hi sel hsel
    cases hm : v.minDistance with
    | none => rw [(R.nothing hm).1] at hi; cases hi
    | some m =>
      obtain ⟨-, l1, o, l2, pt, n, h1, h2, h3, h4, h5⟩ := R.found m hm
      rw [hsel] at h2
      cases h2
      have e : distanceBetween s.ray.position pt = m := by rw [real_distance, h3.dist_eq]
      simp only [e]
      exact ⟨l1, o, l2, pt, n, rfl, h1, h3, h4, h5⟩
  rcases hs with ⟨hi, rfl⟩ | ⟨sel, hi, hsel, ht, rfl⟩ | ⟨sel, sfo, ray', hits, hi, hsel, _, ht, ha, rfl⟩
  · left
    cases hm : v.minDistance with
    | some m => rw [(R.found m hm).1] at hi; cases hi
    | none => exact ⟨(R.nothing hm).2.2, rfl, rfl, rfl⟩
  · right
    obtain ⟨l1, o, l2, pt, n, rfl, h1, h2, h3, h4⟩ := hit hi sel hsel
    exact ⟨l1, o, l2, _, pt, n, h1, h2, h3, h4, rfl, rfl, fun h => absurd ht h, fun _ => ⟨rfl, rfl⟩⟩
  · right
    obtain ⟨l1, o, l2, pt, n, rfl, h1, h2, h3, h4⟩ := hit hi sel hsel
    exact ⟨l1, o, l2, _, pt, n, h1, h2, h3, h4, rfl, rfl, fun _ => ⟨sfo, hits, ha, rfl⟩, fun h => absurd h ht⟩

/-- C45, when a pass does not return: either a test raised and nothing at all has changed, or all tests returned,
and the ray has flown to the nearest candidate, whose `do_intersect` raised. -/
theorem C45_nearest_raised (md : ℝ) (optics : List (Optic ℝ)) (s s' : RunState ℝ) (e : PyErr)
    (h : runStep md optics s = .raised e s') :
    (¬ TestsReturn s.ray optics ∧ s' = s) ∨
    ∃ l1 o l2 d pt n, optics = l1 ++ o :: l2 ∧ Candidate s.ray s.remaining o d pt n ∧
      (∀ o' ∈ l1, ∀ d' pt' n', Candidate s.ray s.remaining o' d' pt' n' → d < d') ∧
      (∀ o' ∈ l2, ∀ d' pt' n', Candidate s.ray s.remaining o' d' pt' n' → d ≤ d') ∧
      s'.ray = s.ray.movedTo (lineAt s.ray.position s.ray.direction d) ∧ s'.log = s.log ∧
      s'.remaining = s.remaining - d ∧ s'.interactions = s.interactions + 1 ∧
      s.ray.type ≠ "faerie_fire" ∧
      ∃ sfo, o.doIntersect s'.ray pt n sfo = .error e := by
  rcases runStep_raised h with ⟨he, rfl⟩ | ⟨v, hv, hi, hs, rfl⟩ | ⟨v, sel, hv, hi, hsel, ht, ha, rfl⟩
  · left
    refine ⟨?_, rfl⟩
    rw [← scan_ok_iff s'.ray s'.remaining optics ⟨false, none, s'.selected, s'.sfo⟩]
    rintro ⟨v, h⟩
    rw [scan] at he
    rw [he] at h
    cases h
  · obtain ⟨sel, h1, -⟩ := scan_selected (fun _ _ _ => rfl) hv hi
    rw [hs] at h1; cases h1
  · right
    have R := scan_result s.ray s.remaining ⟨false, none, s.selected, s.sfo⟩ rfl rfl optics v hv
    cases hm : v.minDistance with
    | none => rw [(R.nothing hm).1] at hi; cases hi
    | some m =>
      obtain ⟨-, l1, o, l2, pt, n, h1, h2, h3, h4, h5⟩ := R.found m hm
      rw [hsel] at h2
      cases h2
      have e : distanceBetween s.ray.position pt = m := by rw [real_distance, h3.dist_eq]
      obtain ⟨-, -, -, -, -, hsfo⟩ := scan_selected (fun _ _ _ => rfl) hv hi
      obtain ⟨sfo, hsfo⟩ := Option.ne_none_iff_exists'.mp hsfo
      refine ⟨l1, o, l2, m, pt, n, h1, h3, h4, h5, ?_, rfl, ?_, rfl, ht, sfo, ?_⟩
      · simp only [RunState.flown, e]; rfl
      · simp only [e]
      · exact ha sfo hsfo

/-! ## C52 -/

/-- C52: a ray that meets no optic within `max_distance` ends exactly `max_distance` further along its direction,
with one new history point, unblocked and with unchanged direction; nothing is recorded. -/
theorem C52_free_flight (ray : Ray ℝ) (hb : ray.blocked = false) (md : ℝ) (hmd : 0 < md) (optics : List (Optic ℝ))
    (mi : Option Int) (hmi : ∀ m, mi = some m → 0 < m) (fuel : Nat) (htests : TestsReturn ray optics)
    (hmiss : ∀ o ∈ optics, ∀ d pt n, ¬ Candidate ray md o d pt n) :
    ∃ s, ray.run md optics mi (fuel + 2) = .finished s ∧ s.log = [] ∧ s.interactions = 0 ∧
      s.ray = { ray with position := lineAt ray.position ray.direction md,
                         pointHistory := ray.pointHistory ++ [lineAt ray.position ray.direction md] } := by
  have hc : (RunState.init ray md).continues mi = true := by
    simp only [RunState.continues, RunState.init, Bool.and_eq_true, decide_eq_true_eq, hb, lit0]
    refine ⟨⟨hmd, ?_⟩, rfl⟩
    cases mi with
    | none => rfl
    | some m => simpa using hmi m rfl
  have hstep : ∃ s, runStep md optics (RunState.init ray md) = .next s := by
    cases h : runStep md optics (RunState.init ray md) with
    | next s => exact ⟨s, rfl⟩
    | raised e s =>
      rcases C45_nearest_raised _ _ _ _ _ h with ⟨h1, -⟩ | ⟨l1, o, l2, d, pt, n, h1, h2, -⟩
      · exact absurd htests h1
      · exact absurd h2 (hmiss o (by rw [h1]; simp) d pt n)
  obtain ⟨s, hs⟩ := hstep
  obtain ⟨v, hv, hn⟩ := runStep_next hs
  have hrem : s.remaining = md - md ∧ s.ray = ray.movedTo (lineAt ray.position ray.direction md) ∧ s.log = [] ∧
      s.interactions = 0 := by
    rcases C45_nearest _ _ _ _ hs with ⟨-, h2, h3, h4⟩ | ⟨l1, o, l2, d, pt, n, h1, h2, -⟩
    · refine ⟨?_, h2, h3, h4⟩
      rcases hn with ⟨hi, rfl⟩ | ⟨sel, hi, hsel, ht, rfl⟩ | ⟨sel, sfo, ray', hits, hi, hsel, _, ht, ha, rfl⟩
      · rfl
      · simp [RunState.init] at h4
      · simp [RunState.init] at h4
    · exact absurd h2 (hmiss o (by rw [h1]; simp) d pt n)
  have hstop : s.continues mi = false := by
    simp [RunState.continues, hrem.1, lit0]
  refine ⟨s, ?_, hrem.2.2.1, hrem.2.2.2, hrem.2.1⟩
  rw [Ray.run, runLoop, if_pos hc]
  simp only [hs]
  rw [runLoop, if_neg (by rw [hstop]; decide)]

end Optics
