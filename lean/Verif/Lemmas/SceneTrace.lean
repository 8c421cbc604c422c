import Verif.Lemmas.SceneRun

/-!
# The invariant of a run over a well-formed scene in numpy
-/

namespace Optics
open V3

theorem pathLength_concat (p : V3 ℝ) : ∀ (l : List (V3 ℝ)) (q : V3 ℝ) (x : V3 ℝ),
    (q :: l).getLast? = some x → pathLength (q :: (l ++ [p])) = pathLength (q :: l) + dist x.toE p.toE
  | [], q, x, h => by
    cases h
    simp only [List.nil_append, pathLength, List.getLast_singleton]; ring
  | a :: l, q, x, h => by
    rw [List.getLast?_cons_cons] at h
    simp only [List.cons_append, pathLength]
    rw [pathLength_concat p l a x h]; ring

theorem pathLength_nonneg : ∀ l : List (V3 ℝ), 0 ≤ pathLength l
  | [] => le_rfl
  | [_] => le_rfl
  | p :: q :: l => by
    have := pathLength_nonneg (q :: l)
    simp only [pathLength]
    have := dist_nonneg (x := p.toE) (y := q.toE)
    linarith

/-- What holds whenever the loop condition of a run is evaluated. -/
structure Traced (ray : Ray ℝ) (md : ℝ) (s : RunState XR) (r : Ray ℝ) (ρ : ℝ) (log : List (DetHit ℝ))
    (P : List (V3 ℝ)) : Prop where
  sane : Sane r ρ log s
  history : r.pointHistory = ray.pointHistory ++ P
  position : (ray.position :: P).getLast? = some r.position
  wavelength : r.wavelength = ray.wavelength
  order : r.order = ray.order
  type : r.type = ray.type
  budget : 0 ≤ md → (0 ≤ ρ ∧ pathLength (ray.position :: P) + ρ = md) ∨ (ρ ≤ 0 ∧ pathLength (ray.position :: P) = md)
  rows : log = [] ∨ ∃ row, log = [row] ∧ row.pt = r.position ∧ row.wavelength = ray.wavelength ∧ r.blocked = true

theorem traced_init (ray : Ray ℝ) (md : ℝ) (hd : dot ray.direction ray.direction = 1) :
    Traced ray md (RunState.init ray.lift (.fin md)) ray md [] [] where
  sane := ⟨rfl, rfl, rfl, hd⟩
  history := by simp
  position := rfl
  wavelength := rfl
  order := rfl
  type := rfl
  budget := fun hmd => .inl ⟨hmd, by simp [pathLength]⟩
  rows := .inl rfl

theorem detector_not_grazed {d : Detector ℝ} (h : (Optic.detector d).WellFormed) (r : Ray ℝ) (x : V3 ℝ) :
    ¬ (Optic.detector d).Grazed r x := by
  rintro ⟨p, hp, -⟩
  have : (Optic.detector d).prims = [] := by
    cases h with
    | detector hn ht hd =>
      unfold Detector.new at hd
      simp only [bind, Except.bind, pure, Except.pure] at hd
      split_ifs at hd with h1
      · rename_i position n t shape w h
        cases hr : Rectangle.new position n t h w with
        | error e => rw [hr] at hd; cases hd
        | ok q =>
          rw [hr] at hd
          cases hd
          rfl
  rw [this] at hp
  cases hp

theorem continues_pos {s : RunState XR} {mi : Option Int} (h : s.continues mi = true) {ρ : ℝ}
    (hr : s.remaining = .fin ρ) : 0 < ρ := by
  simp only [RunState.continues, Bool.and_eq_true, decide_eq_true_eq] at h
  have := h.1.1
  rw [hr, xlit0] at this
  exact this

theorem continues_unblocked {s : RunState XR} {mi : Option Int} (h : s.continues mi = true) {r : Ray ℝ}
    (hr : s.ray = r.lift) : r.blocked = false := by
  simp only [RunState.continues, Bool.and_eq_true, decide_eq_true_eq, Bool.not_eq_true'] at h
  have := h.2
  rw [hr] at this
  exact this

/-- One more pass. -/
theorem traced_step {optics : List (Optic ℝ)} (hw : ∀ o ∈ optics, o.WellFormed) {ray : Ray ℝ} {md : ℝ}
    {mi : Option Int} {s s' : RunState XR} {r : Ray ℝ} {ρ : ℝ} {log : List (DetHit ℝ)} {P : List (V3 ℝ)}
    (h : Traced ray md s r ρ log P) (hc : s.continues mi = true) (hs : SaneStep md optics r ρ log s s') :
    ∃ r' ρ' log' p, Traced ray md s' r' ρ' log' (P ++ [p]) ∧ p = r'.position := by
  have hpos := continues_pos hc h.sane.remaining
  have hnb := continues_unblocked hc h.sane.ray
  have hlog : log = [] := by
    rcases h.rows with h | ⟨row, -, -, -, h⟩
    · exact h
    · rw [h] at hnb; cases hnb
  have hbud : 0 ≤ md → 0 ≤ ρ ∧ pathLength (ray.position :: P) + ρ = md := by
    intro hmd
    rcases h.budget hmd with h | ⟨h, -⟩
    · exact h
    · exact absurd hpos (not_lt.mpr h)
  have hlen : ∀ t, 0 ≤ t → pathLength (ray.position :: (P ++ [r.at t])) = pathLength (ray.position :: P) + t := by
    intro t ht
    rw [pathLength_concat _ _ _ _ h.position, dist_toE_eq]
    have := dist_at r h.sane.unit t
    rw [abs_of_nonneg ht] at this
    exact congrArg _ this
  have hhist : ∀ t, (r.movedTo (r.at t)).pointHistory = ray.pointHistory ++ (P ++ [r.at t]) := by
    intro t
    show r.pointHistory ++ _ = _
    rw [h.history, List.append_assoc]
  have hlast : ∀ t, (ray.position :: (P ++ [r.at t])).getLast? = some (r.at t) := by
    intro t
    rw [← List.cons_append, List.getLast?_concat]
  rcases hs with ⟨h1, -⟩ | ⟨o, x, n, d, b, rows, ho, hk, ht, hm, hf, hd1, hd2, ha, h1, -⟩
  · refine ⟨_, _, _, r.at ρ, ⟨h1, hhist ρ, hlast ρ, h.wavelength, h.order, h.type, fun hmd => .inr ⟨?_, ?_⟩, .inl hlog⟩, rfl⟩
    · have := pathLength_nonneg (ray.position :: P)
      linarith [(hbud hmd).2]
    · rw [hlen ρ hpos.le]; exact (hbud hmd).2
  · refine ⟨_, _, _, r.at (dist r.position.toE x.toE), ⟨h1, hhist _, hlast _, h.wavelength, h.order, h.type,
      fun hmd => .inl ⟨by linarith, ?_⟩, ?_⟩, rfl⟩
    · rw [hlen _ dist_nonneg]; linarith [(hbud hmd).2]
    · rw [hlog, List.nil_append]
      rcases ha with ⟨-, ha⟩ | ⟨-, -, -, e⟩
      · cases o with
        | detector D =>
          obtain ⟨-, e2, e3⟩ := ha.det D rfl
          refine .inr ⟨_, e3, ?_, h.wavelength, e2⟩
          obtain ⟨t, ht, h5 | h5⟩ := hf.onRay
          · exact (landing h.sane.unit t (by linarith) ht).symm
          · exact absurd h5 (detector_not_grazed (hw _ ho) _ _)
        | _ => exact .inl (ha.other (by rintro D ⟨⟩)).2
      · exact .inl e

theorem traced_next {optics : List (Optic ℝ)} (hw : ∀ o ∈ optics, o.WellFormed) {ray : Ray ℝ} {md : ℝ}
    {mi : Option Int} {s s' : RunState XR} {r : Ray ℝ} {ρ : ℝ} {log : List (DetHit ℝ)} {P : List (V3 ℝ)}
    (h : Traced ray md s r ρ log P) (hc : s.continues mi = true) (hg : GratingsDiffractAt optics r)
    (hs : runStep (.fin md) (optics.map Optic.lift) s = .next s') :
    ∃ r' ρ' log' p, Traced ray md s' r' ρ' log' (P ++ [p]) ∧ p = r'.position :=
  traced_step hw h hc (step_sane hw h.sane hg hs)

/-- Over any number of passes. -/
theorem traced_passes {optics : List (Optic ℝ)} (hw : ∀ o ∈ optics, o.WellFormed) {ray : Ray ℝ} {md : ℝ}
    (hd : dot ray.direction ray.direction = 1) {mi : Option Int}
    (hg : GratingsDiffract md optics mi ray) {k : Nat} {s : RunState XR}
    (h : Passes (.fin md) (optics.map Optic.lift) mi k (RunState.init ray.lift (.fin md)) s) :
    ∃ r ρ log P, Traced ray md s r ρ log P ∧ P.length = k := by
  generalize h0 : RunState.init ray.lift (.fin md) = s0 at h
  induction h with
  | zero s => subst h0; exact ⟨ray, md, [], [], traced_init ray md hd, rfl⟩
  | succ hp hc hs ih =>
    subst h0
    obtain ⟨r, ρ, log, P, ht, hl⟩ := ih rfl
    obtain ⟨r', ρ', log', p, ht', -⟩ := traced_next hw ht hc (hg _ _ r hp ht.sane.ray) hs
    exact ⟨r', ρ', log', _, ht', by rw [List.length_append, hl]; rfl⟩

/-- How a run over a well-formed scene ends. -/
theorem traced_run {optics : List (Optic ℝ)} (hw : ∀ o ∈ optics, o.WellFormed) (ray : Ray ℝ) {md : ℝ}
    (hd : dot ray.direction ray.direction = 1) {mi : Option Int}
    (hg : GratingsDiffract md optics mi ray) (fuel : Nat) :
    ∃ r ρ log P, Traced ray md (ray.lift.run (.fin md) (optics.map Optic.lift) mi fuel).state r ρ log P ∧
      ∃ k, Passes (.fin md) (optics.map Optic.lift) mi k (RunState.init ray.lift (.fin md))
        (ray.lift.run (.fin md) (optics.map Optic.lift) mi fuel).state ∧
      match ray.lift.run (.fin md) (optics.map Optic.lift) mi fuel with
      | .finished t => t.continues mi = false
      | .raised e _ => ∃ o ∈ optics, ¬ o.NoDifference ∧ o.lift.testIntersect r.lift = .error e
      | .outOfFuel _ => True := by
  obtain ⟨n, s', hp, hm⟩ := runLoop_passes (md := .fin md) (optics := optics.map Optic.lift) (mi := mi) fuel
    (RunState.init ray.lift (.fin md))
  obtain ⟨r, ρ, log, P, ht, -⟩ := traced_passes hw hd hg hp
  unfold Ray.run
  cases hl : runLoop (.fin md) (optics.map Optic.lift) mi fuel (RunState.init ray.lift (.fin md)) with
  | finished t =>
    rw [hl] at hm
    obtain ⟨rfl, hc⟩ := hm
    exact ⟨r, ρ, log, P, ht, n, hp, hc⟩
  | outOfFuel t =>
    rw [hl] at hm
    obtain ⟨rfl, -⟩ := hm
    exact ⟨r, ρ, log, P, ht, n, hp, trivial⟩
  | raised e t =>
    rw [hl] at hm
    obtain ⟨hc, hr⟩ := hm
    obtain ⟨rfl, h2⟩ := raise_sane hw ht.sane hr
    exact ⟨r, ρ, log, P, ht, n, hp, h2⟩

end Optics
