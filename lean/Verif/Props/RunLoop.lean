import Verif.Lemmas.RunBudget

/-!
# C39, C42–C44, C47–C49, C52: the run loop, whatever the numbers

Most theorems here hold over every number type (in particular for IEEE doubles with rounding): they are
about control flow.  Where the distance budget matters they are stated over `ℝ` and over `XR`, exact reals with
`nan` and infinities.
-/

namespace Optics
variable {α : Type} [PyNum α]
open V3

/-! ## C39 -/

/-- C39: `fly(d)` moves the ray by `d` times its direction, appends exactly the new position to the history,
and leaves everything else alone. -/
theorem C39_fly (ray : Ray α) (d : α) :
    ∃ ray', ray.fly (some d) = .ok ray' ∧
      ray'.position = ⟨ray.position.x + d * ray.direction.x, ray.position.y + d * ray.direction.y,
        ray.position.z + d * ray.direction.z⟩ ∧
      ray'.pointHistory = ray.pointHistory ++ [ray'.position] ∧
      ray'.direction = ray.direction ∧ ray'.wavelength = ray.wavelength ∧ ray'.order = ray.order ∧
      ray'.blocked = ray.blocked ∧ ray'.type = ray.type :=
  ⟨_, rfl, rfl, rfl, rfl, rfl, rfl, rfl, rfl⟩

/-- C39: `fly()` without a distance raises `ValueError`. -/
theorem C39_fly_none (ray : Ray α) : ray.fly none = .error .valueError := rfl

/-- C39: a ray of unit direction flies the distance it is told, and to the side its direction points to. -/
theorem C39_fly_distance (ray ray' : Ray ℝ) (d : ℝ) (hd : ‖ray.direction.toE‖ = 1)
    (h : ray.fly (some d) = .ok ray') :
    dist ray'.position.toE ray.position.toE = |d| ∧
    inner ℝ (ray'.position - ray.position).toE ray.direction.toE = d := by
  cases h
  have e : ray.position + d * ray.direction - ray.position = d * ray.direction := by
    ext <;> simp
  constructor
  · rw [dist_toE_eq, e, V3.norm_smul, ← norm_toE, hd, mul_one]
  · rw [e, toE_smul, real_inner_smul_left, real_inner_self_eq_norm_sq, hd]; ring

/-- C39: flying `d` and then `e` ends where flying `d + e` ends. -/
theorem C39_fly_twice (ray r1 r2 r12 : Ray ℝ) (d e : ℝ) (h1 : ray.fly (some d) = .ok r1)
    (h2 : r1.fly (some e) = .ok r2) (h12 : ray.fly (some (d + e)) = .ok r12) :
    r2.position = r12.position ∧ r2.direction = r12.direction ∧
    r2.pointHistory = ray.pointHistory ++ [r1.position, r12.position] := by
  cases h1; cases h2; cases h12
  have e : ray.position + d * ray.direction + e * ray.direction = ray.position + (d + e) * ray.direction := by
    ext <;> simp only [add_x, add_y, add_z, smul_x, smul_y, smul_z] <;> ring
  refine ⟨e, rfl, ?_⟩
  simp only [List.append_assoc, List.cons_append, List.nil_append, e]

/-- A case in the scope of C39. -/
example : ∃ r : Ray ℝ, (Ray.new (⟨1, 2, 3⟩ : V3 ℝ) ⟨0, 0, 1⟩ 532 0 "normal").fly (some 5) = .ok r ∧
    r.position = ⟨1, 2, 8⟩ := by
  refine ⟨_, rfl, ?_⟩
  simp only [Ray.new, unitVector_of_unit (show dot (⟨0, 0, 1⟩ : V3 ℝ) ⟨0, 0, 1⟩ = 1 by norm_num [dot])]
  ext <;> norm_num

/-! ## C43 -/

/-- What every completed or raising pass does to the parts of the ray that optics do not touch. -/
theorem step_frame {md : α} {optics : List (Optic α)} {s s' : RunState α}
    (h : runStep md optics s = .next s') :
    s'.ray.pointHistory = s.ray.pointHistory ++ [s'.ray.position] ∧
    s'.ray.wavelength = s.ray.wavelength ∧ s'.ray.order = s.ray.order ∧ s'.ray.type = s.ray.type := by
  obtain ⟨v, hv, hs⟩ := runStep_next h
  rcases hs with ⟨_, rfl⟩ | ⟨sel, _, _, _, rfl⟩ | ⟨sel, sfo, ray', hits, _, _, _, _, ha, rfl⟩
  · exact ⟨rfl, rfl, rfl, rfl⟩
  · exact ⟨rfl, rfl, rfl, rfl⟩
  · obtain ⟨d, b, e⟩ := (doIntersect_ok ha).eq
    simp only [e]
    exact ⟨rfl, rfl, rfl, rfl⟩

/-- C43: each complete pass of the loop appends exactly one point, the ray's new position; `n` passes append
`n` points, and only append. -/
theorem C43_one_point_per_pass {md : α} {optics : List (Optic α)} {mi : Option Int} {n : Nat}
    {s s' : RunState α} (h : Passes md optics mi n s s') :
    ∃ new, s'.ray.pointHistory = s.ray.pointHistory ++ new ∧ new.length = n ∧
      (0 < n → new.getLast? = some s'.ray.position) ∧ (n = 0 → s' = s) := by
  induction h with
  | zero s => exact ⟨[], by simp, rfl, fun h => absurd h (lt_irrefl _), fun _ => rfl⟩
  | succ _ _ h2 ih =>
    obtain ⟨new, e1, e2, -, -⟩ := ih
    refine ⟨new ++ [_], ?_, by rw [List.length_append, e2]; rfl, fun _ => List.getLast?_concat, fun h => by omega⟩
    rw [(step_frame h2).1, e1, List.append_assoc]

/-- C43: `run` only appends to the history, and (if that was so before) the ray's position is the last entry
of its history whenever the loop condition is evaluated, when `run` returns, and also when it raises.
Wavelength, order and type never change. -/
theorem C43_history (ray : Ray α) (md : α) (optics : List (Optic α)) (mi : Option Int) (fuel : Nat)
    (h0 : ray.pointHistory.getLast? = some ray.position) :
    let r := (ray.run md optics mi fuel).state.ray
    ray.pointHistory <+: r.pointHistory ∧ r.pointHistory.getLast? = some r.position ∧
    r.wavelength = ray.wavelength ∧ r.order = ray.order ∧ r.type = ray.type := by
  refine runLoop_invariant (P := fun s => ray.pointHistory <+: s.ray.pointHistory ∧
    s.ray.pointHistory.getLast? = some s.ray.position ∧
    s.ray.wavelength = ray.wavelength ∧ s.ray.order = ray.order ∧ s.ray.type = ray.type)
    ?_ ?_ fuel _ ⟨List.prefix_rfl, h0, rfl, rfl, rfl⟩
  · rintro s s' ⟨h1, h2, h3, h4, h5⟩ - hs
    obtain ⟨e1, e2, e3, e4⟩ := step_frame hs
    refine ⟨?_, ?_, by rw [e2, h3], by rw [e3, h4], by rw [e4, h5]⟩
    · rw [e1]; exact h1.trans (List.prefix_append _ _)
    · rw [e1]; exact List.getLast?_concat
  · rintro s s' e ⟨h1, h2, h3, h4, h5⟩ - hs
    rcases runStep_raised hs with ⟨_, rfl⟩ | ⟨v, _, _, _, rfl⟩ | ⟨v, sel, _, _, _, _, _, rfl⟩
    · exact ⟨h1, h2, h3, h4, h5⟩
    · exact ⟨h1, h2, h3, h4, h5⟩
    · exact ⟨h1.trans (List.prefix_append _ _), List.getLast?_concat, h3, h4, h5⟩

/-- A ray made by `Ray(...)` satisfies the hypothesis of `C43_history`. -/
theorem C43_new_ray (p d : V3 α) (w o : α) (t : String) :
    (Ray.new p d w o t).pointHistory.getLast? = some (Ray.new p d w o t).position := rfl

/-- The number of points appended is the number of interactions, or one more after the final free flight. -/
theorem points_of_laws (laws : BudgetLaws α) (ray : Ray α) (md : α) (optics : List (Optic α))
    (mi : Option Int) (fuel : Nat) :
    let s := (ray.run md optics mi fuel).state
    s.ray.pointHistory.length = ray.pointHistory.length + s.interactions ∨
    s.ray.pointHistory.length = ray.pointHistory.length + s.interactions + 1 := by
  have key := runLoop_invariant (md := md) (optics := optics) (mi := mi) (P := fun s =>
    (¬ md < s.remaining ∧ s.ray.pointHistory.length = ray.pointHistory.length + s.interactions) ∨
    (¬ s.remaining > 0.0 ∧ s.ray.pointHistory.length = ray.pointHistory.length + s.interactions + 1))
    ?_ ?_ fuel (RunState.init ray md) (.inl ⟨laws.start md, rfl⟩)
  · rcases key with ⟨_, h⟩ | ⟨_, h⟩
    · exact .inl h
    · exact .inr h
  · rintro s s' hP hc hs
    have hc : s.remaining > 0.0 := by
      simp only [RunState.continues, Bool.and_eq_true, decide_eq_true_eq] at hc; exact hc.1.1
    obtain ⟨h1, h2⟩ : ¬ md < s.remaining ∧ s.ray.pointHistory.length = ray.pointHistory.length + s.interactions := by
      rcases hP with h | h
      · exact h
      · exact absurd hc h.1
    have hlen : s'.ray.pointHistory.length = ray.pointHistory.length + s.interactions + 1 := by
      rw [(step_frame hs).1, List.length_append, h2]; rfl
    obtain ⟨v, hv, hs'⟩ := runStep_next hs
    rcases hs' with ⟨_, rfl⟩ | ⟨sel, _, _, _, rfl⟩ | ⟨sel, sfo, ray', hits, _, _, _, _, ha, rfl⟩
    · exact .inr ⟨laws.stops _ _ h1, hlen⟩
    · exact .inl ⟨laws.shrinks _ _ _ _ h1, hlen⟩
    · exact .inl ⟨laws.shrinks _ _ _ _ h1, hlen⟩
  · rintro s s' e hP hc hs
    have hc : s.remaining > 0.0 := by
      simp only [RunState.continues, Bool.and_eq_true, decide_eq_true_eq] at hc; exact hc.1.1
    obtain ⟨h1, h2⟩ : ¬ md < s.remaining ∧ s.ray.pointHistory.length = ray.pointHistory.length + s.interactions := by
      rcases hP with h | h
      · exact h
      · exact absurd hc h.1
    rcases runStep_raised hs with ⟨_, rfl⟩ | ⟨v, _, _, _, rfl⟩ | ⟨v, sel, _, _, _, _, _, rfl⟩
    · exact .inl ⟨h1, h2⟩
    · exact .inl ⟨h1, h2⟩
    · refine .inl ⟨laws.shrinks _ _ _ _ h1, ?_⟩
      show (s.ray.pointHistory ++ [_]).length = _
      rw [List.length_append, h2]; rfl

/-- C43: a run with `k` interactions appends `k` or `k + 1` points; here with numpy's `nan` and infinities
included. -/
theorem C43_points (ray : Ray XR) (md : XR) (optics : List (Optic XR)) (mi : Option Int) (fuel : Nat) :
    let s := (ray.run md optics mi fuel).state
    s.ray.pointHistory.length = ray.pointHistory.length + s.interactions ∨
    s.ray.pointHistory.length = ray.pointHistory.length + s.interactions + 1 :=
  points_of_laws budget_xr ray md optics mi fuel

/-- C43: the same over the real numbers. -/
theorem C43_points_real (ray : Ray ℝ) (md : ℝ) (optics : List (Optic ℝ)) (mi : Option Int) (fuel : Nat) :
    let s := (ray.run md optics mi fuel).state
    s.ray.pointHistory.length = ray.pointHistory.length + s.interactions ∨
    s.ray.pointHistory.length = ray.pointHistory.length + s.interactions + 1 :=
  points_of_laws budget_real ray md optics mi fuel

/-! ## C42 -/

theorem interactions_le (ray : Ray α) (md : α) (optics : List (Optic α)) (m : Int) (fuel : Nat) :
    (ray.run md optics (some m) fuel).state.interactions ≤ m.toNat := by
  refine runLoop_invariant (P := fun s => s.interactions ≤ m.toNat) ?_ ?_ fuel _ (Nat.zero_le _)
  · rintro s s' h hc hs
    have hc : (s.interactions : Int) < m := by
      simp only [RunState.continues, Bool.and_eq_true, decide_eq_true_eq] at hc; exact hc.1.2
    obtain ⟨v, hv, hs'⟩ := runStep_next hs
    rcases hs' with ⟨_, rfl⟩ | ⟨sel, _, _, _, rfl⟩ | ⟨sel, sfo, ray', hits, _, _, _, _, ha, rfl⟩
    · exact h
    · show s.interactions + 1 ≤ _; omega
    · show s.interactions + 1 ≤ _; omega
  · rintro s s' e h hc hs
    have hc : (s.interactions : Int) < m := by
      simp only [RunState.continues, Bool.and_eq_true, decide_eq_true_eq] at hc; exact hc.1.2
    rcases runStep_raised hs with ⟨_, rfl⟩ | ⟨v, _, _, _, rfl⟩ | ⟨v, sel, _, _, _, _, _, rfl⟩
    · exact h
    · exact h
    · show s.interactions + 1 ≤ _; omega

/-- `k` of the passes made from `s` to `s'` ended with an optic's `do_intersect` acting on the ray, or with a
faerie-fire ray being stopped by it. -/
inductive Acts (md : α) (optics : List (Optic α)) : Nat → RunState α → RunState α → Prop
  | zero (s) : Acts md optics 0 s s
  | flight {k s s' s''} : Acts md optics k s s' → runStep md optics s' = .next s'' →
      s''.ray.direction = s'.ray.direction → s''.log = s'.log → s''.ray.blocked = s'.ray.blocked →
      Acts md optics k s s''
  | act {k s s' s''} : Acts md optics k s s' → runStep md optics s' = .next s'' → Acts md optics (k + 1) s s''

/-- C42: with `max_interactions = m`, all but at most `m` of the passes of a run leave direction, `blocked` and
the detectors alone: at most `m` optics act.  (`m` negative counts as 0.) -/
theorem C42_cap (ray : Ray α) (md : α) (optics : List (Optic α)) (m : Int) {n : Nat} {s : RunState α}
    (h : Passes md optics (some m) n (RunState.init ray md) s) :
    ∃ k, k ≤ m.toNat ∧ Acts md optics k (RunState.init ray md) s := by
  have : ∀ {n s0 s}, Passes md optics (some m) n s0 s → s0.interactions = 0 →
      s.interactions ≤ m.toNat ∧ Acts md optics s.interactions s0 s := by
    intro n s0 s h h0
    induction h with
    | zero s => rw [h0]; exact ⟨Nat.zero_le _, .zero s⟩
    | succ _ hc hs ih =>
      obtain ⟨i1, i2⟩ := ih h0
      simp only [RunState.continues, Bool.and_eq_true, decide_eq_true_eq] at hc
      obtain ⟨v, hv, hs'⟩ := runStep_next hs
      rcases hs' with ⟨_, rfl⟩ | ⟨sel, _, _, _, rfl⟩ | ⟨sel, sfo, ray', hits, _, _, _, _, ha, rfl⟩
      · exact ⟨i1, .flight i2 hs rfl rfl rfl⟩
      · refine ⟨?_, .act i2 hs⟩
        have := hc.1.2
        show _ + 1 ≤ _
        omega
      · refine ⟨?_, .act i2 hs⟩
        have := hc.1.2
        show _ + 1 ≤ _
        omega
  exact ⟨_, this h rfl⟩

/-- C42: so at most `m + 1` points are appended to the history (numpy numbers). -/
theorem C42_cap_points (ray : Ray XR) (md : XR) (optics : List (Optic XR)) (m : Int) (fuel : Nat) :
    (ray.run md optics (some m) fuel).state.ray.pointHistory.length ≤ ray.pointHistory.length + m.toNat + 1 := by
  have h1 := interactions_le ray md optics m fuel
  have h2 := C43_points ray md optics (some m) fuel
  simp only at h2
  omega

/-- C42: `max_interactions <= 0` leaves the ray and the detectors entirely unchanged. -/
theorem C42_no_interactions (ray : Ray α) (md : α) (optics : List (Optic α)) (m : Int) (hm : m ≤ 0) (fuel : Nat) :
    ∃ s, ray.run md optics (some m) (fuel + 1) = .finished s ∧ s.ray = ray ∧ s.log = [] := by
  refine ⟨RunState.init ray md, ?_, rfl, rfl⟩
  have : ¬ ((0 : Nat) : Int) < m := by omega
  simp [Ray.run, runLoop, RunState.continues, RunState.init]
  intro _ h
  omega

/-- C42: `max_distance <= 0` (or a `max_distance` that is not greater than 0, like `nan`) leaves the ray and the
detectors entirely unchanged. -/
theorem C42_no_distance (ray : Ray α) (md : α) (optics : List (Optic α)) (mi : Option Int) (hm : ¬ md > 0.0)
    (fuel : Nat) :
    ∃ s, ray.run md optics mi (fuel + 1) = .finished s ∧ s.ray = ray ∧ s.log = [] := by
  refine ⟨RunState.init ray md, ?_, rfl, rfl⟩
  have hc : (RunState.init ray md).continues mi = false := by
    rw [Bool.eq_false_iff]
    intro h
    simp only [RunState.continues, Bool.and_eq_true, decide_eq_true_eq] at h
    exact hm h.1.1
  simp only [Ray.run, runLoop, hc, Bool.false_eq_true, if_false]

/-! ## C44 -/

/-- C44: running a blocked ray changes neither the ray nor any detector. -/
theorem C44_blocked (ray : Ray α) (hb : ray.blocked = true) (md : α) (optics : List (Optic α)) (mi : Option Int)
    (fuel : Nat) :
    ∃ s, ray.run md optics mi (fuel + 1) = .finished s ∧ s.ray = ray ∧ s.log = [] := by
  refine ⟨RunState.init ray md, ?_, rfl, rfl⟩
  simp only [Ray.run, runLoop, RunState.continues, RunState.init, hb, Bool.not_true, Bool.and_false,
    Bool.false_eq_true, if_false]

/-- C44: any sequence of runs of a blocked ray changes neither the ray nor any detector. -/
theorem C44_blocked_runs (ray : Ray α) (hb : ray.blocked = true) (calls : List (RunCall α)) :
    ray.runs calls = (ray, []) := by
  induction calls with
  | nil => rfl
  | cons c cs ih =>
    obtain ⟨s, h, e1, e2⟩ := C44_blocked ray hb c.maxDistance c.optics c.maxInteractions c.fuel
    unfold Ray.runs
    rw [h]
    simp only [Outcome.state, e1, e2, ih, List.nil_append]

/-- C44: once the ray is blocked during a run, the run is over: no further pass is made. -/
theorem C44_blocked_ends {md : α} {optics : List (Optic α)} {mi : Option Int} {n m : Nat}
    {s s' s'' : RunState α} (_h1 : Passes md optics mi n s s') (hb : s'.ray.blocked = true)
    (h2 : Passes md optics mi m s' s'') : m = 0 ∧ s'' = s' := by
  induction h2 with
  | zero => exact ⟨rfl, rfl⟩
  | succ h hc hs ih =>
    obtain ⟨e1, e2⟩ := ih _h1 hb
    rw [e2] at hc
    simp only [RunState.continues, hb, Bool.not_true, Bool.and_false] at hc
    cases hc

/-- C44: if a run leaves the ray blocked then later runs, in whatever scenes, neither move it nor write to
detectors. -/
theorem C44_later_runs (ray : Ray α) (c : RunCall α) (calls : List (RunCall α))
    (hb : (ray.runs [c]).1.blocked = true) : ray.runs (c :: calls) = ray.runs [c] := by
  have h := C44_blocked_runs _ hb calls
  simp only [Ray.runs] at h ⊢
  rw [h]

/-! ## C47 -/

/-- C47: removing every Annotation, Filter and Window from the scene changes nothing in a run. -/
theorem C47_transparent (ray : Ray α) (md : α) (optics : List (Optic α)) (mi : Option Int) (fuel : Nat) :
    ray.run md (optics.filter fun o => match o with
      | .annotation | .filter | .window => false
      | _ => true) mi fuel = ray.run md optics mi fuel := by
  have hscan : ∀ (l : List (Optic α)) (r : Ray α) (rem : α) (v : ScanVars α),
      (l.filter fun o => match o with
        | .annotation | .filter | .window => false
        | _ => true).foldlM (scanStep r rem) v = l.foldlM (scanStep r rem) v := by
    intro l r rem
    induction l with
    | nil => intro v; rfl
    | cons o l ih =>
      intro v
      cases o <;> simp only [List.filter, List.foldlM_cons, ih] <;>
        · simp only [scanStep, Optic.skipped, if_true, pure, Except.pure, bind, Except.bind]
  have hstep : ∀ s, runStep md (optics.filter fun o => match o with
      | .annotation | .filter | .window => false
      | _ => true) s = runStep md optics s := by
    intro s; unfold runStep; rw [hscan]
  have hloop : ∀ fuel s, runLoop md (optics.filter fun o => match o with
      | .annotation | .filter | .window => false
      | _ => true) mi fuel s = runLoop md optics mi fuel s := by
    intro fuel
    induction fuel with
    | zero => intro s; rfl
    | succ n ih => intro s; simp only [runLoop, hstep, ih]
  exact hloop _ _

/-! ## C48 -/

theorem foldlM_mem {σ β : Type} (f : σ → β → Py σ) (P : σ → Prop) :
    ∀ (l : List β) (s s' : σ), (∀ s b s', b ∈ l → P s → f s b = .ok s' → P s') → P s → l.foldlM f s = .ok s' → P s'
  | [], s, s', _, h0, e => by cases e; exact h0
  | b :: l, s, s', h, h0, e => by
    rw [List.foldlM_cons] at e
    cases hb : f s b with
    | error e' => rw [hb] at e; cases e
    | ok t =>
      rw [hb] at e
      exact foldlM_mem f P l t s' (fun s b s' hm => h s b s' (List.mem_cons_of_mem _ hm))
        (h s b t List.mem_cons_self h0 hb) e

/-- What the loop knows about the locals that survive a pass: the selected optic is one of the scene's, that its
`test_intersect` reported a hit. -/
theorem scan_mem {optics : List (Optic α)} {s : RunState α} {v : ScanVars α} (h : scan optics s = .ok v)
    (h0 : ∀ sel, s.selected = some sel → sel.optic ∈ optics ∧ ∃ ray r, sel.optic.testIntersect ray = .ok r) :
    ∀ sel, v.selected = some sel → sel.optic ∈ optics ∧ ∃ ray r, sel.optic.testIntersect ray = .ok r := by
  refine foldlM_mem (scanStep s.ray s.remaining) (fun v => ∀ sel, v.selected = some sel → sel.optic ∈ optics ∧
    ∃ ray r, sel.optic.testIntersect ray = .ok r) optics _ v ?_ h0 h
  intro v o v' hm hv hstep
  rcases scanStep_ok hstep with ⟨_, rfl⟩ | ⟨r, _, _, _, rfl⟩ | ⟨r, pt, _, _, _, _, _, rfl⟩ |
    ⟨r, pt, _, _, _, _, hd, hm, rfl⟩ | ⟨r, pt, _, ht, _, _, hd, hmm, rfl⟩
  · exact hv
  · exact hv
  · exact hv
  · exact hv
  · rintro sel ⟨⟩
    exact ⟨hm, _, _, ht⟩

/-- C48: over a run of a ray that is not blocked at the start, either no row is written to any detector, and the
ray is not blocked unless it is a faerie-fire ray; or exactly one row is written, to a detector of the scene, with
the ray's wavelength, and the ray is blocked, so that the run is over. -/
theorem C48_at_most_one_row (ray : Ray α) (hb : ray.blocked = false) (md : α) (optics : List (Optic α))
    (mi : Option Int) (fuel : Nat) :
    let s := (ray.run md optics mi fuel).state
    (s.log = [] ∧ (ray.type ≠ "faerie_fire" → s.ray.blocked = false)) ∨
    ∃ row d, s.log = [row] ∧ .detector d ∈ optics ∧ row.detector = d.id ∧ row.wavelength = ray.wavelength ∧
      s.ray.blocked = true := by
  refine runLoop_invariant (P := fun s => s.ray.wavelength = ray.wavelength ∧ s.ray.type = ray.type ∧
    (∀ sel, s.selected = some sel → sel.optic ∈ optics ∧ ∃ ray r, sel.optic.testIntersect ray = .ok r) ∧
    ((s.log = [] ∧ (ray.type ≠ "faerie_fire" → s.ray.blocked = false)) ∨
    ∃ row d, s.log = [row] ∧ .detector d ∈ optics ∧ row.detector = d.id ∧ row.wavelength = ray.wavelength ∧
      s.ray.blocked = true)) ?_ ?_ fuel
    (RunState.init ray md) ⟨rfl, rfl, (by rintro sel ⟨⟩), .inl ⟨rfl, fun _ => hb⟩⟩ |>.2.2.2
  · rintro s s' ⟨hw, ht, hsel, h⟩ hc hs
    have hb : s.ray.blocked = false := by
      simp only [RunState.continues, Bool.and_eq_true, Bool.not_eq_true'] at hc; exact hc.2
    have hl : s.log = [] := by
      rcases h with h | ⟨row, d, _, _, _, _, h⟩
      · exact h.1
      · rw [hb] at h; cases h
    obtain ⟨-, f2, -, f4⟩ := step_frame hs
    obtain ⟨v, hv, hs'⟩ := runStep_next hs
    have hm := scan_mem hv hsel
    have hsel' : s'.selected = v.selected := by
      rcases hs' with ⟨_, rfl⟩ | ⟨sel, _, _, _, rfl⟩ | ⟨sel, sfo, ray', hits, _, _, _, _, ha, rfl⟩ <;> rfl
    refine ⟨by rw [f2, hw], by rw [f4, ht], by rw [hsel']; exact hm, ?_⟩
    rcases hs' with ⟨_, rfl⟩ | ⟨sel, _, _, hff, rfl⟩ | ⟨sel, sfo, ray', hits, _, hsl, _, _, ha, rfl⟩
    · exact .inl ⟨hl, fun _ => hb⟩
    · exact .inl ⟨hl, fun h => absurd (ht ▸ hff) h⟩
    · have hh := (doIntersect_ok ha).hits
      have hbb := (doIntersect_ok ha).blocked
      obtain ⟨hmem, r0, r1, htest⟩ := hm sel hsl
      have hfb : (s.flown sel.pt).blocked = false := hb
      simp only [hl, List.nil_append]
      cases ho : sel.optic with
      | detector d =>
        rw [ho] at hh hbb hmem
        exact .inr ⟨_, d, hh, hmem, rfl, hw, by rw [hbb, Optic.blocks, Bool.or_true]⟩
      | block => rw [ho] at htest; cases htest
      | _ =>
        rw [ho] at hh hbb
        exact .inl ⟨hh, fun _ => by rw [hbb, hfb]; rfl⟩
  · rintro s s' e ⟨hw, ht, hsel, h⟩ hc hs
    have hb : s.ray.blocked = false := by
      simp only [RunState.continues, Bool.and_eq_true, Bool.not_eq_true'] at hc; exact hc.2
    have hl : s.log = [] := by
      rcases h with h | ⟨row, d, _, _, _, _, h⟩
      · exact h.1
      · rw [hb] at h; cases h
    rcases runStep_raised hs with ⟨_, rfl⟩ | ⟨v, hv, _, hsn, rfl⟩ | ⟨v, sel, hv, _, _, _, _, rfl⟩
    · exact ⟨hw, ht, hsel, .inl ⟨hl, fun _ => hb⟩⟩
    · exact ⟨hw, ht, scan_mem hv hsel, .inl ⟨hl, fun _ => hb⟩⟩
    · exact ⟨hw, ht, scan_mem hv hsel, .inl ⟨hl, fun _ => hb⟩⟩

/-- C48: so for an ordinary ray, being blocked after the run and having written a row are the same, and over any
sequence of runs at most one row is written. -/
theorem C48_runs (ray : Ray α) (hb : ray.blocked = false) (ht : ray.type ≠ "faerie_fire")
    (calls : List (RunCall α)) :
    let r := ray.runs calls
    (r.2 = [] ∧ r.1.blocked = false) ∨ ∃ row, r.2 = [row] ∧ row.wavelength = ray.wavelength ∧ r.1.blocked = true := by
  induction calls generalizing ray with
  | nil => exact .inl ⟨rfl, hb⟩
  | cons c cs ih =>
    have frame : (ray.run c.maxDistance c.optics c.maxInteractions (c.fuel + 1)).state.ray.wavelength = ray.wavelength ∧
        (ray.run c.maxDistance c.optics c.maxInteractions (c.fuel + 1)).state.ray.type = ray.type := by
      refine runLoop_invariant (P := fun s => s.ray.wavelength = ray.wavelength ∧ s.ray.type = ray.type) ?_ ?_ _ _
        ⟨rfl, rfl⟩
      · rintro s s' ⟨h1, h2⟩ - hs
        obtain ⟨-, f2, -, f4⟩ := step_frame hs
        exact ⟨by rw [f2, h1], by rw [f4, h2]⟩
      · rintro s s' e h - hs
        rcases runStep_raised hs with ⟨_, rfl⟩ | ⟨v, hv, _, hsn, rfl⟩ | ⟨v, sel, hv, _, _, _, _, rfl⟩ <;> exact h
    simp only [Ray.runs]
    rcases C48_at_most_one_row ray hb c.maxDistance c.optics c.maxInteractions (c.fuel + 1) with
      ⟨h1, h2⟩ | ⟨row, d, h1, -, -, h4, h5⟩
    · rw [h1, List.nil_append]
      rcases ih _ (h2 ht) (by rw [frame.2]; exact ht) with h | ⟨row, e1, e2, e3⟩
      · exact .inl h
      · exact .inr ⟨row, e1, by rw [e2, frame.1], e3⟩
    · rw [C44_blocked_runs _ h5 cs, h1]
      exact .inr ⟨row, rfl, h4, h5⟩

/-! ## C49 -/

/-- C49: a faerie-fire ray never changes direction and never writes to a detector; it is blocked exactly when it
has met an optic, and it meets at most one.  It cannot raise once it has met one. -/
theorem C49_faerie_fire (ray : Ray α) (ht : ray.type = "faerie_fire") (hb : ray.blocked = false) (md : α)
    (optics : List (Optic α)) (mi : Option Int) (fuel : Nat) :
    let s := (ray.run md optics mi fuel).state
    s.ray.direction = ray.direction ∧ s.log = [] ∧
    ((s.interactions = 0 ∧ s.ray.blocked = false) ∨ (s.interactions = 1 ∧ s.ray.blocked = true)) := by
  refine runLoop_invariant (P := fun s => s.ray.type = "faerie_fire" ∧ s.ray.direction = ray.direction ∧ s.log = [] ∧
    ((s.interactions = 0 ∧ s.ray.blocked = false) ∨ (s.interactions = 1 ∧ s.ray.blocked = true))) ?_ ?_ fuel
    (RunState.init ray md) ⟨ht, rfl, rfl, .inl ⟨rfl, hb⟩⟩ |>.2
  · rintro s s' ⟨ht, hd, hl, hk⟩ hc hs
    have hb : s.ray.blocked = false := by
      simp only [RunState.continues, Bool.and_eq_true, Bool.not_eq_true'] at hc; exact hc.2
    have hk : s.interactions = 0 := by
      rcases hk with h | h
      · exact h.1
      · rw [hb] at h; cases h.2
    obtain ⟨v, hv, hs'⟩ := runStep_next hs
    rcases hs' with ⟨_, rfl⟩ | ⟨sel, _, _, _, rfl⟩ | ⟨sel, sfo, ray', hits, _, _, _, ht', ha, rfl⟩
    · exact ⟨ht, hd, hl, .inl ⟨hk, hb⟩⟩
    · exact ⟨ht, hd, hl, .inr ⟨by show s.interactions + 1 = 1; rw [hk], rfl⟩⟩
    · exact absurd ht ht'
  · rintro s s' e ⟨ht, hd, hl, hk⟩ hc hs
    rcases runStep_raised hs with ⟨_, rfl⟩ | ⟨v, _, _, _, rfl⟩ | ⟨v, sel, _, _, _, ht', _, rfl⟩
    · exact ⟨ht, hd, hl, hk⟩
    · exact ⟨ht, hd, hl, hk⟩
    · exact absurd ht ht'

end Optics
