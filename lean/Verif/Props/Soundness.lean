import Verif.Lemmas.NanRun
import Verif.Props.Termination

/-!
# C40, C48, C50, C51, C68, C71: runs over well-formed scenes in numpy

A scene of real numbers is run with numpy's floats (`XR`: exact numbers, but every `nan` and infinity of IEEE
arithmetic); `lift` translates the one into the other.  `GratingsDiffract` says that the gratings the ray meets on
its way have an outgoing direction for it; it holds if there are no gratings, and for rays of order 0.  The theorems that
do not assume it cover all gratings.
-/

namespace Optics
open V3

variable {optics : List (Optic ℝ)}

/-! ## When `GratingsDiffract` holds -/

theorem gratingsDiffract_of_none (h : ∀ g, .grating g ∉ optics) (md : ℝ) (mi : Option Int) (ray : Ray ℝ) :
    GratingsDiffract md optics mi ray := by
  intro n s r _ _ g hg
  exact absurd hg (h g)

theorem gratingsDiffract_of_order_zero (md : ℝ) (mi : Option Int) (ray : Ray ℝ) (h : ray.order = 0) :
    GratingsDiffract md optics mi ray := by
  intro n s r hp hr g _ _
  left
  have := passes_invariant (P := fun s => s.ray.order = ray.lift.order)
    (fun s s' h0 _ hs => (step_frame hs).2.2.1.trans h0) hp rfl
  rw [hr] at this
  have : XR.fin r.order = XR.fin ray.order := this
  rw [XR.fin.inj this]
  exact h

/-! ## C68 -/

/-- C68, for scenes in which no grating is asked for an order it does not have: whatever the length of the run and
however it ends, every coordinate of the ray (position, direction, all of its history) and of every row written to
`hit_data` is a finite number.  Without the restriction on gratings the claim is false:
`C68_counterexample`. -/
theorem C68_finite_partial (hw : ∀ o ∈ optics, o.WellFormed) (ray : Ray ℝ) (hd : ‖ray.direction.toE‖ = 1) (md : ℝ)
    (mi : Option Int) (hg : GratingsDiffract md optics mi ray) (fuel : Nat) :
    let s := (ray.lift.run (.fin md) (optics.map Optic.lift) mi fuel).state
    ∃ (r : Ray ℝ) (log : List (DetHit ℝ)), s.ray = r.lift ∧ s.log = log.map DetHit.lift := by
  rw [norm_toE, norm_eq_one_iff] at hd
  obtain ⟨r, ρ, log, P, h, -⟩ := traced_run hw ray hd hg fuel
  exact ⟨r, log, h.sane.ray, h.sane.log⟩

/-- C68: scenes without gratings. -/
theorem C68_finite_without_gratings_partial (hw : ∀ o ∈ optics, o.WellFormed) (hng : ∀ g, .grating g ∉ optics)
    (ray : Ray ℝ) (hd : ‖ray.direction.toE‖ = 1) (md : ℝ) (mi : Option Int) (fuel : Nat) :
    let s := (ray.lift.run (.fin md) (optics.map Optic.lift) mi fuel).state
    ∃ (r : Ray ℝ) (log : List (DetHit ℝ)), s.ray = r.lift ∧ s.log = log.map DetHit.lift :=
  C68_finite_partial hw ray hd md mi (gratingsDiffract_of_none hng md mi ray) fuel

/-- C68: rays of order 0. -/
theorem C68_finite_order_zero_partial (hw : ∀ o ∈ optics, o.WellFormed)
    (ray : Ray ℝ) (hd : ‖ray.direction.toE‖ = 1) (ho : ray.order = 0) (md : ℝ) (mi : Option Int) (fuel : Nat) :
    let s := (ray.lift.run (.fin md) (optics.map Optic.lift) mi fuel).state
    ∃ (r : Ray ℝ) (log : List (DetHit ℝ)), s.ray = r.lift ∧ s.log = log.map DetHit.lift :=
  C68_finite_partial hw ray hd md mi (gratingsDiffract_of_order_zero md mi ray ho) fuel

/-- C68, all well-formed scenes: `nan` comes from nothing but a grating that has no such order for the ray it is met
by.  Then the direction is `nan`; after one more pass so are the position and the last entry of the history; all the rest
is finite, and no row has been written. -/
theorem C68_only_gratings_partial (hw : ∀ o ∈ optics, o.WellFormed) (ray : Ray ℝ) (hd : ‖ray.direction.toE‖ = 1) (md : ℝ)
    (mi : Option Int) (fuel : Nat) :
    let s := (ray.lift.run (.fin md) (optics.map Optic.lift) mi fuel).state
    (∃ (r : Ray ℝ) (log : List (DetHit ℝ)), s.ray = r.lift ∧ s.log = log.map DetHit.lift) ∨
    (∃ r : Ray ℝ, s.log = [] ∧ (s.ray = { r.lift with direction := V3.nan } ∨
        s.ray = { r.lift with direction := V3.nan, position := V3.nan,
                              pointHistory := r.lift.pointHistory ++ [V3.nan] }) ∧
      ∃ k t, ∃ (r₀ : Ray ℝ) (g : Grating ℝ) (n : V3 ℝ) (sfo : Sfo),
        Passes (.fin md) (optics.map Optic.lift) mi k (RunState.init ray.lift (.fin md)) t ∧ t.ray = r₀.lift ∧
        .grating g ∈ optics ∧ g.lift.testIntersect r₀.lift = .ok ⟨true, some r.position.lift, some n.lift, sfo⟩ ∧
        ¬ g.Diffracts r₀) := by
  rw [norm_toE, norm_eq_one_iff] at hd
  obtain ⟨k, -, h, -⟩ := fate_run hw ray hd (md := md) (mi := mi) fuel
  intro s
  rcases h with ⟨h, -, -⟩ | ⟨h, -, h1, h2, h3⟩ | ⟨h, -, h1, h2, h3⟩
  · exact .inl ⟨_, _, h.sane.ray, h.sane.log⟩
  · obtain ⟨k, t, r₀, g, n, c1, c2, c3, ⟨sfo, c4⟩, c5⟩ := h.cause
    exact .inr ⟨_, h3, .inl h1, k, t, r₀, g, n, sfo, c1, c2, c3, c4, c5⟩
  · obtain ⟨k, t, r₀, g, n, c1, c2, c3, ⟨sfo, c4⟩, c5⟩ := h.cause
    exact .inr ⟨_, h3, .inr h1, k, t, r₀, g, n, sfo, c1, c2, c3, c4, c5⟩

/-! ## C50 -/

/-- C50: `Ray(...)` from finite data with a nonzero direction makes a ray of finite data and unit direction. -/
theorem C50_new_ray (p d : V3 ℝ) (hd : d ≠ ⟨0, 0, 0⟩) (w o : ℝ) (t : String) :
    ∃ r : Ray ℝ, Ray.new p.lift d.lift (.fin w) (.fin o) t = r.lift ∧ ‖r.direction.toE‖ = 1 ∧ r.position = p ∧
      r.pointHistory = [p] ∧ r.wavelength = w ∧ r.order = o ∧ r.type = t ∧ r.blocked = false := by
  refine ⟨Ray.new p d w o t, ?_, ?_, rfl, rfl, rfl, rfl, rfl, rfl⟩
  · unfold Ray.new Ray.lift
    simp only [lift_unitVector hd, List.map_cons, List.map_nil]
  · rw [norm_toE, norm_eq_one_iff]
    exact unit_dot hd

/-- C50: a direction of length exactly 1 stays one through a run of any length over well-formed optics (gratings
permitting, see `C68_counterexample`: there the direction is `nan`).  The runs with `fuel = 0, 1, 2, …` end in the
states after each pass, so this is a statement about every moment the loop condition is evaluated. -/
theorem C50_unit_direction_partial (hw : ∀ o ∈ optics, o.WellFormed) (ray : Ray ℝ) (hd : ‖ray.direction.toE‖ = 1)
    (md : ℝ) (mi : Option Int) (hg : GratingsDiffract md optics mi ray) (fuel : Nat) :
    ∃ r : Ray ℝ, (ray.lift.run (.fin md) (optics.map Optic.lift) mi fuel).state.ray = r.lift ∧
      ‖r.direction.toE‖ = 1 := by
  rw [norm_toE, norm_eq_one_iff] at hd
  obtain ⟨r, ρ, log, P, h, -⟩ := traced_run hw ray hd hg fuel
  refine ⟨r, h.sane.ray, ?_⟩
  rw [norm_toE, norm_eq_one_iff]
  exact h.sane.unit

/-- C50 without the restriction: the direction is of length exactly 1, or `nan` in all three components. -/
theorem C50_unit_or_nan_partial (hw : ∀ o ∈ optics, o.WellFormed) (ray : Ray ℝ) (hd : ‖ray.direction.toE‖ = 1)
    (md : ℝ) (mi : Option Int) (fuel : Nat) :
    let d := (ray.lift.run (.fin md) (optics.map Optic.lift) mi fuel).state.ray.direction
    d = ⟨.nan, .nan, .nan⟩ ∨ ∃ u : V3 ℝ, d = u.lift ∧ ‖u.toE‖ = 1 := by
  rw [norm_toE, norm_eq_one_iff] at hd
  obtain ⟨k, -, h, -⟩ := fate_run hw ray hd (md := md) (mi := mi) fuel
  intro d
  rcases h with @⟨r, ρ, log, P, h, -, -⟩ | ⟨h, -, h1, -, -⟩ | ⟨h, -, h1, -, -⟩
  · refine .inr ⟨r.direction, congrArg Ray.direction h.sane.ray, ?_⟩
    rw [norm_toE, norm_eq_one_iff]
    exact h.sane.unit
  · exact .inl (congrArg Ray.direction h1)
  · exact .inl (congrArg Ray.direction h1)

/-! ## C40 -/

/-- C40: the broken path from the ray's position through the points a run appends to `point_history` is at most
`max_distance` long; and exactly that long if the run finished, with the ray not blocked and the interaction cap
not reached. -/
theorem C40_path_length_partial (hw : ∀ o ∈ optics, o.WellFormed) (ray : Ray ℝ) (hd : ‖ray.direction.toE‖ = 1)
    (md : ℝ) (hmd : 0 ≤ md) (mi : Option Int) (hg : GratingsDiffract md optics mi ray) (fuel : Nat) :
    ∃ P : List (V3 ℝ),
      (ray.lift.run (.fin md) (optics.map Optic.lift) mi fuel).state.ray.pointHistory =
        (ray.pointHistory ++ P).map V3.lift ∧
      pathLength (ray.position :: P) ≤ md ∧
      ∀ s, ray.lift.run (.fin md) (optics.map Optic.lift) mi fuel = .finished s → s.ray.blocked = false →
        (∀ m, mi = some m → (s.interactions : Int) < m) → pathLength (ray.position :: P) = md := by
  rw [norm_toE, norm_eq_one_iff] at hd
  obtain ⟨r, ρ, log, P, h, k, -, he⟩ := traced_run hw ray hd hg fuel
  refine ⟨P, ?_, ?_, ?_⟩
  · rw [h.sane.ray, ← h.history]; rfl
  · rcases h.budget hmd with ⟨h1, h2⟩ | ⟨h1, h2⟩ <;> linarith
  · intro s hs hb hm
    rw [hs] at he h
    have hc : ¬ (s.remaining > 0.0) := by
      intro hpos
      have : s.continues mi = true := by
        unfold RunState.continues
        rw [hb, decide_eq_true hpos]
        cases mi with
        | none => rfl
        | some m => simp only [hm m rfl, decide_true, Bool.not_false, Bool.and_self]
      rw [he] at this; cases this
    change s.remaining > 0.0 → False at hc
    rw [show s.remaining = .fin ρ from h.sane.remaining, xlit0] at hc
    have hρ : ρ ≤ 0 := not_lt.mp hc
    rcases h.budget hmd with ⟨h1, h2⟩ | ⟨h1, h2⟩ <;> linarith

/-- C40 without the restriction: the finite points of the path are at most `max_distance` apart in all, and after them
comes at most one `nan`.  If there is none, and the run finished, with the ray not blocked and the interaction cap not
reached, then the path is exactly `max_distance` long, unless the last thing met was a grating without such an order for
the ray. -/
theorem C40_all_scenes_partial (hw : ∀ o ∈ optics, o.WellFormed) (ray : Ray ℝ) (hd : ‖ray.direction.toE‖ = 1)
    (md : ℝ) (hmd : 0 ≤ md) (mi : Option Int) (fuel : Nat) :
    ∃ (P : List (V3 ℝ)) (Q : List (V3 XR)),
      (ray.lift.run (.fin md) (optics.map Optic.lift) mi fuel).state.ray.pointHistory =
        (ray.pointHistory ++ P).map V3.lift ++ Q ∧ (Q = [] ∨ Q = [⟨.nan, .nan, .nan⟩]) ∧
      pathLength (ray.position :: P) ≤ md ∧
      ∀ s, ray.lift.run (.fin md) (optics.map Optic.lift) mi fuel = .finished s → s.ray.blocked = false →
        (∀ m, mi = some m → (s.interactions : Int) < m) → s.ray.direction ≠ ⟨.nan, .nan, .nan⟩ →
        Q = [] ∧ pathLength (ray.position :: P) = md := by
  rw [norm_toE, norm_eq_one_iff] at hd
  obtain ⟨k, -, h, he⟩ := fate_run hw ray hd (md := md) (mi := mi) fuel
  rcases h with @⟨r, ρ, log, P, h, -, -⟩ | @⟨r, ρ, P, h, -, h1, -, -⟩ | @⟨r, ρ, P, h, -, h1, -, -⟩
  · refine ⟨P, [], ?_, .inl rfl, ?_, ?_⟩
    · rw [h.sane.ray, ← h.history, List.append_nil]; rfl
    · rcases h.budget hmd with ⟨h1, h2⟩ | ⟨h1, h2⟩ <;> linarith
    · intro s hs hb hm _
      refine ⟨rfl, ?_⟩
      rw [hs] at he h
      have hc : ¬ (s.remaining > 0.0) := by
        intro hpos
        have : s.continues mi = true := by
          unfold RunState.continues
          rw [hb, decide_eq_true hpos]
          cases mi with
          | none => rfl
          | some m => simp only [hm m rfl, decide_true, Bool.not_false, Bool.and_self]
        rw [he] at this; cases this
      change s.remaining > 0.0 → False at hc
      rw [show s.remaining = .fin ρ from h.sane.remaining, xlit0] at hc
      have hρ : ρ ≤ 0 := not_lt.mp hc
      rcases h.budget hmd with ⟨h1, h2⟩ | ⟨h1, h2⟩ <;> linarith
  · refine ⟨P, [], ?_, .inl rfl, ?_, ?_⟩
    · rw [h1, ← h.history, List.append_nil]; rfl
    · linarith [h.length, h.left]
    · intro s hs _ _ hn
      rw [hs] at h1
      exact absurd (congrArg Ray.direction h1) hn
  · refine ⟨P, [V3.nan], ?_, .inr rfl, ?_, ?_⟩
    · rw [h1, ← h.history]; rfl
    · linarith [h.length, h.left]
    · intro s hs _ _ hn
      rw [hs] at h1
      exact absurd (congrArg Ray.direction h1) hn

/-- C40: with a negative budget nothing moves. -/
theorem C40_negative (ray : Ray XR) (md : ℝ) (hmd : md ≤ 0) (scene : List (Optic XR)) (mi : Option Int) (fuel : Nat) :
    ∃ s, ray.run (.fin md) scene mi (fuel + 1) = .finished s ∧ s.ray = ray ∧ s.log = [] := by
  refine C42_no_distance ray (.fin md) scene mi ?_ fuel
  rw [xlit0]
  exact not_lt.mpr hmd

/-! ## C48 -/

/-- C48: if a run over a well-formed scene writes a row to a detector, the row's point is where the ray ends (and
is `[x, y, z]` of finite numbers). -/
theorem C48_position (hw : ∀ o ∈ optics, o.WellFormed) (ray : Ray ℝ) (hd : ‖ray.direction.toE‖ = 1)
    (md : ℝ) (mi : Option Int) (fuel : Nat) :
    let s := (ray.lift.run (.fin md) (optics.map Optic.lift) mi fuel).state
    ∀ row ∈ s.log, row.pt = s.ray.position ∧ row.wavelength = .fin ray.wavelength ∧ s.ray.blocked = true ∧
      ∃ x : V3 ℝ, row.pt = x.lift := by
  rw [norm_toE, norm_eq_one_iff] at hd
  obtain ⟨k, -, h, -⟩ := fate_run hw ray hd (md := md) (mi := mi) fuel
  intro s row hrow
  rcases h with @⟨r, ρ, log, P, h, -, -⟩ | ⟨-, -, -, -, h3⟩ | ⟨-, -, -, -, h3⟩
  · have e1 : s.ray = r.lift := h.sane.ray
    have e2 : s.log = log.map DetHit.lift := h.sane.log
    rw [e2] at hrow
    rcases h.rows with e | ⟨row', e, h1, h2, h3⟩
    · rw [e] at hrow; cases hrow
    · rw [e] at hrow
      obtain rfl := List.mem_singleton.mp hrow
      rw [e1]
      refine ⟨congrArg V3.lift h1, congrArg XR.fin h2, h3, row'.pt, rfl⟩
  · rw [show s.log = [] from h3] at hrow; cases hrow
  · rw [show s.log = [] from h3] at hrow; cases hrow

/-! ## C51 -/

/-- C51: a pass in which an optic is met.  The optic had reported the point `x` for the ray as it was; it is `x`
that `do_intersect` gets, together with the ray moved to its new position; and that position is `x`, unless the
ray's line only touches a round surface of the optic at `x`, behind the ray: then the ray ends as far ahead as `x` is
behind (`C51_counterexample`). -/
theorem C51_lands_partial (hw : ∀ o ∈ optics, o.WellFormed) (ray : Ray ℝ) (hd : ‖ray.direction.toE‖ = 1)
    (md : ℝ) (mi : Option Int) {k : Nat} {s s' : RunState XR}
    (hp : Passes (.fin md) (optics.map Optic.lift) mi k (RunState.init ray.lift (.fin md)) s)
    (hs : runStep (.fin md) (optics.map Optic.lift) s = .next s')
    (hi : s'.interactions ≠ s.interactions) :
    ∃ r : Ray ℝ, s.ray = r.lift ∧ ∃ o ∈ optics, ∃ x n y : V3 ℝ,
      (∃ sfo, o.lift.testIntersect r.lift = .ok ⟨true, some x.lift, some n.lift, sfo⟩) ∧
      (ray.type ≠ "faerie_fire" → ∃ sfo rows, s'.log = s.log ++ rows ∧
        o.lift.doIntersect (r.movedTo y).lift x.lift (some n.lift) sfo = .ok (s'.ray, rows)) ∧
      s'.ray.position = y.lift ∧
      (y = x ∨ (o.Grazed r x ∧ ∃ t < 0, x = r.at t ∧ y = r.at (-t))) := by
  rw [norm_toE, norm_eq_one_iff] at hd
  have still : s.ray.direction = V3.nan → False := by
    intro hn
    obtain ⟨t, e, -, -, -, h4⟩ := step_nan (md := .fin md) hw hn
    rw [e] at hs
    cases hs
    exact hi h4
  rcases fate_passes hw hd hp with @⟨r, ρ, log, P, h, -, -⟩ | ⟨-, -, h1, -, -⟩ | ⟨-, -, h1, -, -⟩
  case lost => exact (still (congrArg Ray.direction h1)).elim
  case gone => exact (still (congrArg Ray.direction h1)).elim
  rcases step_kind hw h.sane hs with
    (⟨-, h2⟩ | ⟨o, x, n, d, b, rows, ho, hk, ht, hm, hf, hd1, hd2, ha, h1, -⟩) | ⟨g, x, hg⟩
  · exact absurd h2 hi
  rotate_left
  · obtain ⟨n, ht, hm⟩ := hg.reports
    obtain ⟨t, h0, hx⟩ := hg.onRay
    refine ⟨r, h.sane.ray, .grating g, hg.mem, x, n, r.at (dist r.position.toE x.toE), ht, ?_, ?_, ?_⟩
    · intro hff
      rw [← h.type] at hff
      obtain ⟨sfo, hm⟩ := hm hff
      exact ⟨sfo, [], by rw [hg.log, List.append_nil], hm⟩
    · rw [hg.ray]; rfl
    · exact .inl (landing h.sane.unit t h0 hx)
  · refine ⟨r, h.sane.ray, o, ho, x, n, r.at (dist r.position.toE x.toE), ht, ?_, ?_, ?_⟩
    · intro hff
      rw [← h.type] at hff
      obtain ⟨sfo, hm⟩ := hm hff
      refine ⟨sfo, _, ?_, hm⟩
      rw [h1.log, h.sane.log, List.map_append]
    · rw [h1.ray]; rfl
    · obtain ⟨t, ht, h5⟩ := hf.onRay
      rcases lt_trichotomy t 0 with h0 | h0 | h0
      · right
        refine ⟨?_, t, h0, ht, ?_⟩
        · rcases h5 with h5 | h5
          · linarith
          · exact h5
        · rw [dist_toE_eq]
          change r.at (distanceBetween r.position x) = _
          rw [ht, dist_at r h.sane.unit, abs_of_neg h0]
      · exfalso
        rw [dist_toE_eq] at hd1
        change _ < distanceBetween r.position x at hd1
        rw [ht, dist_at r h.sane.unit, h0, abs_zero] at hd1
        norm_num at hd1
      · left
        exact landing h.sane.unit t h0 ht

/-- C51: in scenes whose optics have no round surfaces the ray always lands on the reported point. -/
theorem C51_lands_flat (hw : ∀ o ∈ optics, o.WellFormed) (hflat : ∀ o ∈ optics, o.prims = []) (ray : Ray ℝ)
    (hd : ‖ray.direction.toE‖ = 1)
    (md : ℝ) (mi : Option Int) {k : Nat} {s s' : RunState XR}
    (hp : Passes (.fin md) (optics.map Optic.lift) mi k (RunState.init ray.lift (.fin md)) s)
    (hs : runStep (.fin md) (optics.map Optic.lift) s = .next s')
    (hi : s'.interactions ≠ s.interactions) :
    ∃ o ∈ optics, ∃ n sfo, o.lift.testIntersect s.ray = .ok ⟨true, some s'.ray.position, some n, sfo⟩ := by
  obtain ⟨r, hr, o, ho, x, n, y, ⟨sfo, h1⟩, -, h3, h4⟩ := C51_lands_partial hw ray hd md mi hp hs hi
  refine ⟨o, ho, n.lift, sfo, ?_⟩
  rcases h4 with rfl | ⟨⟨p, hp, -⟩, -⟩
  · rw [hr, h1, h3]
  · rw [hflat o ho] at hp; cases hp

/-! ## C71 -/

/-- C71: a run over well-formed optics raises nothing, unless a compound contains a
`difference`; in numpy, for `max_distance` finite, it therefore finishes. -/
theorem C71_no_exception (hw : ∀ o ∈ optics, o.WellFormed) (hn : ∀ o ∈ optics, o.NoDifference) (ray : Ray ℝ)
    (hd : ‖ray.direction.toE‖ = 1) (md : ℝ) (mi : Option Int) (fuel : Nat)
    (hf : max md 0 / 1e-12 + 1 ≤ fuel) :
    ∃ s, ray.lift.run (.fin md) (optics.map Optic.lift) mi fuel = .finished s := by
  rw [norm_toE, norm_eq_one_iff] at hd
  obtain ⟨k, -, -, he⟩ := fate_run hw ray hd (md := md) (mi := mi) fuel
  cases hr : ray.lift.run (.fin md) (optics.map Optic.lift) mi fuel with
  | finished s => exact ⟨s, rfl⟩
  | outOfFuel s => exact absurd hr (C41_terminates _ _ _ _ _ hf s)
  | raised e s =>
    rw [hr] at he
    obtain ⟨o, ho, hno, -⟩ := he
    exact absurd (hn o ho) hno

/-- C71: if it does raise, the exception comes from the `test_intersect` of a compound with a `difference`, called
with the ray as it is left: all completed passes stand, nothing is half done. -/
theorem C71_exception (hw : ∀ o ∈ optics, o.WellFormed) (ray : Ray ℝ)
    (hd : ‖ray.direction.toE‖ = 1) (md : ℝ) (mi : Option Int) (fuel : Nat)
    {e : PyErr} {s : RunState XR} (h : ray.lift.run (.fin md) (optics.map Optic.lift) mi fuel = .raised e s) :
    (∃ c, .compound c ∈ optics ∧ c.lift.testIntersect s.ray = .error e) ∧
    ∃ k, Passes (.fin md) (optics.map Optic.lift) mi k (RunState.init ray.lift (.fin md)) s := by
  rw [norm_toE, norm_eq_one_iff] at hd
  obtain ⟨k, hk, -, he⟩ := fate_run hw ray hd (md := md) (mi := mi) fuel
  rw [h] at he hk
  refine ⟨?_, k, hk⟩
  obtain ⟨o, ho, hno, hte⟩ := he
  cases o with
  | compound c => exact ⟨c, ho, hte⟩
  | _ => exact absurd (by rintro c ⟨⟩) hno

end Optics
