import Verif.Lemmas.SceneAct
import Verif.Lemmas.RunBudget
import Verif.Props.RunLoop

/-!
# One pass of the run loop over a well-formed scene in numpy
-/

namespace Optics
open V3

section generic
variable {α : Type} [PyNum α]

/-- Where the selection of a scan comes from. -/
structure Chosen (optics : List (Optic α)) (ray : Ray α) (rem : α) (sel : Selected α) (r : Hit4 α) : Prop where
  mem : sel.optic ∈ optics
  notSkipped : sel.optic.skipped = false
  test : sel.optic.testIntersect ray = .ok r
  hit : r.hit = true
  pt : r.pt = some sel.pt
  normal : sel.normal = r.normal
  inReach : ¬ distanceBetween ray.position sel.pt > rem
  notTooNear : distanceBetween ray.position sel.pt > clippingFloor

theorem scan_chosen {optics : List (Optic α)} {s : RunState α} {v : ScanVars α}
    (hfin : ∀ d : α, ¬ d > s.remaining → d > clippingFloor → PyNum.ltInf d = true)
    (h : scan optics s = .ok v) (hi : v.intersected = true) :
    ∃ sel r, v.selected = some sel ∧ v.sfo ≠ none ∧ Chosen optics s.ray s.remaining sel r := by
  have key := foldlM_mem (scanStep s.ray s.remaining)
    (fun v => (v.minDistance = none ∧ v.intersected = false) ∨
      (v.sfo ≠ none ∧ ∃ sel r, v.selected = some sel ∧ Chosen optics s.ray s.remaining sel r)) optics _ v ?_
    (.inl ⟨rfl, rfl⟩) h
  · rcases key with ⟨_, hf⟩ | ⟨hs, sel, r, h1, h2⟩
    · rw [hf] at hi; cases hi
    · exact ⟨sel, r, h1, hs, h2⟩
  · intro v o v' hmem hv hstep
    rcases scanStep_ok hstep with ⟨_, rfl⟩ | ⟨r, _, _, _, rfl⟩ | ⟨r, pt, _, _, _, _, _, rfl⟩ |
      ⟨r, pt, _, _, _, _, hd, hm, rfl⟩ | ⟨r, pt, hk, ht, hh, hp, hd, hm, rfl⟩
    · exact hv
    · rcases hv with hv | ⟨_, hv⟩
      · exact .inl hv
      · exact .inr ⟨by simp, hv⟩
    · rcases hv with hv | ⟨_, hv⟩
      · exact .inl hv
      · exact .inr ⟨by simp, hv⟩
    · rcases hv with hv | ⟨_, hv⟩
      · rw [hv.1, ltMin, hfin _ hd.1 hd.2] at hm; cases hm
      · exact .inr ⟨by simp, hv⟩
    · exact .inr ⟨by simp, _, r, rfl, hmem, hk, ht, hh, hp, rfl, hd.1, hd.2⟩

/-- If a scan raises, an optic's `test_intersect` raised, or reported a hit without a point. -/
theorem scan_error {ray : Ray α} {rem : α} : ∀ (optics : List (Optic α)) (v : ScanVars α) (e : PyErr),
    optics.foldlM (scanStep ray rem) v = .error e → ∃ o ∈ optics, o.skipped = false ∧
      (o.testIntersect ray = .error e ∨ ∃ r, o.testIntersect ray = .ok r ∧ r.hit = true ∧ r.pt = none)
  | [], v, e, h => by cases h
  | o :: l, v, e, h => by
    rw [List.foldlM_cons] at h
    cases hs : scanStep ray rem v o with
    | ok w =>
      rw [hs] at h
      obtain ⟨o', h1, h2⟩ := scan_error l w e h
      exact ⟨o', List.mem_cons_of_mem _ h1, h2⟩
    | error e' =>
      rw [hs] at h
      cases h
      refine ⟨o, List.mem_cons_self, ?_⟩
      unfold scanStep at hs
      cases hk : o.skipped with
      | true => simp only [hk, if_true] at hs; cases hs
      | false =>
        simp only [hk, Bool.false_eq_true, if_false, bind, Except.bind, pure, Except.pure] at hs
        refine ⟨rfl, ?_⟩
        cases ht : o.testIntersect ray with
        | error e => simp only [ht] at hs; cases hs; exact .inl rfl
        | ok r =>
          simp only [ht] at hs
          cases hh : r.hit with
          | false => simp only [hh, Bool.false_eq_true, if_false] at hs; cases hs
          | true =>
            simp only [hh, if_true] at hs
            cases hp : r.pt with
            | none => exact .inr ⟨r, rfl, hh, hp⟩
            | some pt =>
              simp only [hp, need] at hs
              split_ifs at hs

end generic

/-- The run state is made of finite numbers, and the ray's direction is a unit vector. -/
structure Sane (r : Ray ℝ) (ρ : ℝ) (log : List (DetHit ℝ)) (s : RunState XR) : Prop where
  ray : s.ray = r.lift
  remaining : s.remaining = .fin ρ
  log : s.log = log.map DetHit.lift
  unit : dot r.direction r.direction = 1

theorem at_eq (r : Ray ℝ) (t : ℝ) : r.at t = r.position + t * r.direction := rfl

theorem dist_at (r : Ray ℝ) (hd : dot r.direction r.direction = 1) (t : ℝ) : distanceBetween r.position (r.at t) = |t| := by
  unfold distanceBetween
  have : r.position - r.at t = (-t) * r.direction := by
    rw [at_eq]; ext <;> simp
  rw [this, V3.norm_smul, norm_eq_one_iff.mpr hd, abs_neg, mul_one]

theorem lift_movedTo (r : Ray ℝ) (p : V3 ℝ) : r.lift.movedTo p.lift = (r.movedTo p).lift := by
  unfold Ray.movedTo Ray.lift
  simp

theorem lift_fly (r : Ray ℝ) (t : ℝ) : r.lift.movedTo (r.lift.position + XR.fin t * r.lift.direction)
    = (r.movedTo (r.at t)).lift := by
  rw [← lift_movedTo]; rfl

theorem xr_ltInf {ρ : ℝ} (d : XR) (h1 : ¬ d > .fin ρ) (h2 : d > clippingFloor) : PyNum.ltInf d = true := by
  cases d with
  | fin d => rfl
  | nan => exact absurd h2 (fun h => h)
  | inf => exact absurd trivial h1
  | ninf => exact absurd h2 (fun h => h)

/-- The optic reports a hit at `x` with normal `n`. -/
def Optic.Reports (o : Optic ℝ) (r : Ray ℝ) (x n : V3 ℝ) : Prop :=
  ∃ sfo, o.lift.testIntersect r.lift = .ok ⟨true, some x.lift, some n.lift, sfo⟩

/-- The optic's `do_intersect` has been called with the ray `y` and the point `x`, except for faerie-fire rays. -/
def RunState.Meets (s' : RunState XR) (o : Optic ℝ) (x n : V3 ℝ) (y : Ray ℝ) (rows : List (DetHit ℝ)) : Prop :=
  y.type ≠ "faerie_fire" → ∃ sfo, o.lift.doIntersect y.lift x.lift (some n.lift) sfo = .ok (s'.ray, rows.map DetHit.lift)

/-- What a completed pass from a sane state is. -/
inductive SaneStep (md : ℝ) (optics : List (Optic ℝ)) (r : Ray ℝ) (ρ : ℝ) (log : List (DetHit ℝ))
    (s s' : RunState XR) : Prop
  | free (h : Sane (r.movedTo (r.at ρ)) (ρ - md) log s') (hi : s'.interactions = s.interactions)
  | hit (o : Optic ℝ) (x n : V3 ℝ) (d : V3 ℝ) (b : Bool) (rows : List (DetHit ℝ)) (ho : o ∈ optics)
      (hw : o.skipped = false) (ht : o.Reports r x n) (hm : s'.Meets o x n (r.movedTo (r.at (dist r.position.toE x.toE))) rows)
      (hf : HitFacts o r x n) (hd : 1e-12 < dist r.position.toE x.toE) (hd' : dist r.position.toE x.toE ≤ ρ)
      (ha : (r.type ≠ "faerie_fire" ∧ Acted o (r.movedTo (r.at (dist r.position.toE x.toE))) x d b rows) ∨
        (r.type = "faerie_fire" ∧ d = r.direction ∧ b = true ∧ rows = []))
      (h : Sane { r.movedTo (r.at (dist r.position.toE x.toE)) with direction := d, blocked := b }
        (ρ - dist r.position.toE x.toE) (log ++ rows) s')
      (hi : s'.interactions = s.interactions + 1)

/-- The point a scan selects in a sane state, for the optic it belongs to. -/
theorem sane_chosen_at {optics : List (Optic ℝ)} (hw : ∀ o ∈ optics, o.WellFormed) {r : Ray ℝ}
    (hu : dot r.direction r.direction = 1) {ρ : ℝ} {sel : Selected XR} {res : Hit4 XR}
    (h : Chosen (optics.map Optic.lift) r.lift (.fin ρ) sel res) {o : Optic ℝ} (ho : o ∈ optics) (e : o.lift = sel.optic) :
    ∃ x n, o.skipped = false ∧ sel.pt = x.lift ∧ sel.normal = some n.lift ∧
      HitFacts o r x n ∧
      1e-12 < dist r.position.toE x.toE ∧ dist r.position.toE x.toE ≤ ρ ∧
      distanceBetween r.lift.position sel.pt = .fin (dist r.position.toE x.toE) ∧
      o.Reports r x n := by
  obtain ⟨pt, n, h1, h2, h3⟩ := test_good (hw o ho) r hu (by rw [e]; exact h.test) h.hit
  have hpt : sel.pt = pt := Option.some.inj (h.pt.symm.trans h1)
  have hk : o.skipped = false := by
    have := h.notSkipped
    rw [← e] at this
    cases o <;> first | rfl | cases this
  rcases h3 with hnan | ⟨x, m, rfl, rfl, hf⟩
  · exfalso
    have := h.notTooNear
    rw [hpt, hnan] at this
    have e : distanceBetween r.lift.position (V3.nan) = .nan := by
      simp [distanceBetween, V3.norm, dot, V3.nan]
    rw [e] at this
    exact this
  · have hd : distanceBetween r.lift.position sel.pt = .fin (dist r.position.toE x.toE) := by
      rw [hpt, dist_toE_eq]
      show distanceBetween r.position.lift x.lift = _
      rw [lift_distance]; rfl
    have h4 := h.notTooNear
    have h5 := h.inReach
    rw [hd] at h4 h5
    refine ⟨x, m, hk, hpt, by rw [h.normal, h2], hf, h4, not_lt.mp h5, hd, res.sfo, ?_⟩
    rw [e, h.test]
    have h6 := h.hit
    obtain ⟨a, b, c, d⟩ := res
    simp only at h1 h2 h6 ⊢
    rw [h1, h2, h6]

/-- The point a scan selects in a sane state. -/
theorem sane_chosen {optics : List (Optic ℝ)} (hw : ∀ o ∈ optics, o.WellFormed) {r : Ray ℝ}
    (hu : dot r.direction r.direction = 1) {ρ : ℝ} {sel : Selected XR} {res : Hit4 XR}
    (h : Chosen (optics.map Optic.lift) r.lift (.fin ρ) sel res) :
    ∃ o ∈ optics, ∃ x n, sel.optic = o.lift ∧ o.skipped = false ∧ sel.pt = x.lift ∧ sel.normal = some n.lift ∧
      HitFacts o r x n ∧
      1e-12 < dist r.position.toE x.toE ∧ dist r.position.toE x.toE ≤ ρ ∧
      distanceBetween r.lift.position sel.pt = .fin (dist r.position.toE x.toE) ∧
      o.Reports r x n := by
  obtain ⟨o, ho, e⟩ := List.mem_map.mp h.mem
  obtain ⟨x, n, h⟩ := sane_chosen_at hw hu h ho e
  exact ⟨o, ho, x, n, e.symm, h⟩

/-- The ray flown to the selected point, if that lies ahead, is there. -/
theorem landing {r : Ray ℝ} (hu : dot r.direction r.direction = 1) {x : V3 ℝ} (t : ℝ) (ht : 0 < t) (hx : x = r.at t) :
    r.at (dist r.position.toE x.toE) = x := by
  rw [dist_toE_eq]
  change r.at (distanceBetween r.position x) = x
  rw [hx, dist_at r hu, abs_of_pos ht]

theorem sane_act {optics : List (Optic ℝ)} (hw : ∀ o ∈ optics, o.WellFormed) {r : Ray ℝ}
    (hu : dot r.direction r.direction = 1) (hg : GratingsDiffractAt optics r) {o : Optic ℝ} (ho : o ∈ optics) {x n : V3 ℝ}
    (hf : HitFacts o r x n) (hres : o.Reports r x n) (sfo : Sfo) :
    ∃ d b rows, o.lift.doIntersect (r.movedTo (r.at (dist r.position.toE x.toE))).lift x.lift (some n.lift) sfo
      = .ok ({ r.movedTo (r.at (dist r.position.toE x.toE)) with direction := d, blocked := b }.lift,
          rows.map DetHit.lift) ∧ Acted o (r.movedTo (r.at (dist r.position.toE x.toE))) x d b rows := by
  refine do_good (hw o ho) (ray := r.movedTo (r.at (dist r.position.toE x.toE))) hf hu ?_ ?_ sfo
  · intro t ht hx
    exact landing hu t ht hx
  · rintro g rfl
    obtain ⟨sfo, hres⟩ := hres
    exact hg g ho ⟨_, hres, rfl⟩

theorem sane_act_kind {optics : List (Optic ℝ)} (hw : ∀ o ∈ optics, o.WellFormed) {r : Ray ℝ}
    (hu : dot r.direction r.direction = 1) {o : Optic ℝ} (ho : o ∈ optics) {x n : V3 ℝ} (hf : HitFacts o r x n) (sfo : Sfo) :
    (∃ d b rows, o.lift.doIntersect (r.movedTo (r.at (dist r.position.toE x.toE))).lift x.lift (some n.lift) sfo
      = .ok ({ r.movedTo (r.at (dist r.position.toE x.toE)) with direction := d, blocked := b }.lift,
          rows.map DetHit.lift) ∧ Acted o (r.movedTo (r.at (dist r.position.toE x.toE))) x d b rows) ∨
    (∃ g, o = .grating g ∧ ¬ g.Diffracts r ∧
      o.lift.doIntersect (r.movedTo (r.at (dist r.position.toE x.toE))).lift x.lift (some n.lift) sfo
      = .ok ({ (r.movedTo (r.at (dist r.position.toE x.toE))).lift with direction := V3.nan }, [])) :=
  do_kind (hw o ho) (ray := r.movedTo (r.at (dist r.position.toE x.toE))) hf hu (fun t ht hx => landing hu t ht hx) sfo

/-- A pass that takes the ray to a grating which has no order for it. -/
structure DeadStep (optics : List (Optic ℝ)) (r : Ray ℝ) (ρ : ℝ) (s s' : RunState XR) (g : Grating ℝ) (x : V3 ℝ) :
    Prop where
  mem : .grating g ∈ optics
  onRay : ∃ t, 0 < t ∧ x = r.at t
  reports : ∃ n, (Optic.grating g).Reports r x n ∧
    s'.Meets (.grating g) x n (r.movedTo (r.at (dist r.position.toE x.toE))) []
  far : 1e-12 < dist r.position.toE x.toE
  near : dist r.position.toE x.toE ≤ ρ
  none : ¬ g.Diffracts r
  type : r.type ≠ "faerie_fire"
  ray : s'.ray = { (r.movedTo (r.at (dist r.position.toE x.toE))).lift with direction := V3.nan }
  remaining : s'.remaining = .fin (ρ - dist r.position.toE x.toE)
  log : s'.log = s.log
  interactions : s'.interactions = s.interactions + 1

theorem grating_not_grazed {g : Grating ℝ} (h : (Optic.grating g).WellFormed) (r : Ray ℝ) (x : V3 ℝ) :
    ¬ (Optic.grating g).Grazed r x := by
  rintro ⟨p, hp, -⟩
  have : (Optic.grating g).prims = [] := by
    cases h with
    | grating hn ht hd =>
      unfold Grating.new at hd
      simp only [bind, Except.bind, pure, Except.pure] at hd
      split_ifs at hd
      split at hd <;> cases hd
      rfl
  rw [this] at hp
  cases hp

/-- A completed pass from a sane state. -/
theorem step_kind {md : ℝ} {optics : List (Optic ℝ)} (hw : ∀ o ∈ optics, o.WellFormed) {r : Ray ℝ} {ρ : ℝ}
    {log : List (DetHit ℝ)} {s s' : RunState XR} (hs : Sane r ρ log s)
    (h : runStep (.fin md) (optics.map Optic.lift) s = .next s') :
    SaneStep md optics r ρ log s s' ∨ ∃ g x, DeadStep optics r ρ s s' g x := by
  obtain ⟨v, hv, hn⟩ := runStep_next h
  have hu := hs.unit
  have hfin : ∀ d : XR, ¬ d > s.remaining → d > clippingFloor → PyNum.ltInf d = true := by
    rw [hs.remaining]; exact xr_ltInf
  rcases hn with ⟨hi, rfl⟩ | ⟨sel, hi, hsel, ht, rfl⟩ | ⟨sel, sfo, ray', hits, hi, hsel, hf, ht, ha, rfl⟩
  · refine .inl <| .free ⟨?_, ?_, hs.log, hu⟩ rfl
    · show s.ray.movedTo (s.ray.position + s.remaining * s.ray.direction) = _
      rw [hs.ray, hs.remaining, lift_fly]
    · show s.remaining - XR.fin md = _
      rw [hs.remaining, XR.fin_sub]
  · obtain ⟨sel', res, hsel', -, hc⟩ := scan_chosen hfin hv hi
    rw [hsel] at hsel'
    cases hsel'
    rw [hs.ray, hs.remaining] at hc
    obtain ⟨o, ho, x, n, e1, hk, e2, e3, hF, hd1, hd2, hd3, hres⟩ := sane_chosen hw hu hc
    have hfl : s.flown sel.pt = (r.movedTo (r.at (dist r.position.toE x.toE))).lift := by
      unfold RunState.flown
      rw [hs.ray, hd3, lift_fly]
    refine .inl <| .hit o x n r.direction true [] ho hk hres (fun h => absurd ?_ h) hF hd1 hd2 (.inr ⟨?_, rfl, rfl, rfl⟩) ⟨?_, ?_, ?_, hu⟩ rfl
    · rw [hs.ray] at ht; exact ht
    · rw [hs.ray] at ht; exact ht
    · show { s.flown sel.pt with blocked := true } = _
      rw [hfl]; rfl
    · show s.remaining - distanceBetween s.ray.position sel.pt = _
      rw [hs.remaining, hs.ray, hd3, XR.fin_sub]
    · rw [List.append_nil]; exact hs.log
  · obtain ⟨sel', res, hsel', -, hc⟩ := scan_chosen hfin hv hi
    rw [hsel] at hsel'
    cases hsel'
    rw [hs.ray, hs.remaining] at hc
    obtain ⟨o, ho, x, n, e1, hk, e2, e3, hF, hd1, hd2, hd3, hres⟩ := sane_chosen hw hu hc
    have hfl : s.flown sel.pt = (r.movedTo (r.at (dist r.position.toE x.toE))).lift := by
      unfold RunState.flown
      rw [hs.ray, hd3, lift_fly]
    rcases sane_act_kind hw hu ho hF sfo with ⟨d, b, rows, hdo, hac⟩ | ⟨g, rfl, hnd, hdo⟩
    · rw [hfl, e1, e2, e3, hdo] at ha
      cases ha
      refine .inl <| .hit o x n d b rows ho hk hres (fun _ => ⟨sfo, hdo⟩) hF hd1 hd2 (.inl ⟨?_, hac⟩) ⟨rfl, ?_, ?_, hac.unit⟩ rfl
      · rw [hs.ray] at ht; exact ht
      · show s.remaining - distanceBetween s.ray.position sel.pt = _
        rw [hs.remaining, hs.ray, hd3, XR.fin_sub]
      · show s.log ++ _ = _
        rw [hs.log, List.map_append]
    · rw [hfl, e1, e2, e3, hdo] at ha
      cases ha
      refine .inr ⟨g, x, ho, ?_, ⟨n, hres, fun _ => ⟨sfo, hdo⟩⟩, hd1, hd2, hnd, ?_, rfl, ?_, ?_, rfl⟩
      · obtain ⟨t, h1, h2⟩ := hF.onRay
        refine ⟨t, ?_, h1⟩
        rcases h2 with h2 | h2
        · linarith
        · exact absurd h2 (grating_not_grazed (hw _ ho) _ _)
      · rw [hs.ray] at ht; exact ht
      · show s.remaining - distanceBetween s.ray.position sel.pt = _
        rw [hs.remaining, hs.ray, hd3, XR.fin_sub]
      · exact List.append_nil _

/-- A completed pass from a sane state, if the gratings met have an order for the ray. -/
theorem step_sane {md : ℝ} {optics : List (Optic ℝ)} (hw : ∀ o ∈ optics, o.WellFormed) {r : Ray ℝ} {ρ : ℝ}
    {log : List (DetHit ℝ)} {s s' : RunState XR} (hs : Sane r ρ log s) (hg : GratingsDiffractAt optics r)
    (h : runStep (.fin md) (optics.map Optic.lift) s = .next s') : SaneStep md optics r ρ log s s' := by
  rcases step_kind hw hs h with h | ⟨g, x, h⟩
  · exact h
  · obtain ⟨n, ⟨sfo, hres⟩, -⟩ := h.reports
    exact absurd (hg g h.mem ⟨_, hres, rfl⟩) h.none

/-- A pass that raises from a sane state has not moved the ray: a compound with a `difference` has raised. -/
theorem raise_sane {md : ℝ} {optics : List (Optic ℝ)} (hw : ∀ o ∈ optics, o.WellFormed) {r : Ray ℝ} {ρ : ℝ}
    {log : List (DetHit ℝ)} {s s' : RunState XR} (hs : Sane r ρ log s) {e : PyErr}
    (h : runStep (.fin md) (optics.map Optic.lift) s = .raised e s') :
    s' = s ∧ ∃ o ∈ optics, ¬ o.NoDifference ∧ o.lift.testIntersect r.lift = .error e := by
  have hu := hs.unit
  have hfin : ∀ d : XR, ¬ d > s.remaining → d > clippingFloor → PyNum.ltInf d = true := by
    rw [hs.remaining]; exact xr_ltInf
  rcases runStep_raised h with ⟨he, es⟩ | ⟨v, hv, hi, hsel, es⟩ | ⟨v, sel, hv, hi, hsel, ht, ha, es⟩
  · refine ⟨es, ?_⟩
    obtain ⟨o', ho', hk', hres⟩ := scan_error _ _ _ he
    obtain ⟨o, ho, rfl⟩ := List.mem_map.mp ho'
    have hk : o.skipped = false := by cases o <;> first | rfl | cases hk'
    rw [hs.ray] at hres
    refine ⟨o, ho, ?_⟩
    rcases hres with hres | ⟨res, h1, h2, h3⟩
    · refine ⟨fun hno => ?_, hres⟩
      obtain ⟨res, h1⟩ := test_returns (hw o ho) hk hno r hu
      rw [h1] at hres; cases hres
    · obtain ⟨pt, n, h4, -⟩ := test_good (hw o ho) r hu h1 h2
      rw [h3] at h4; cases h4
  · obtain ⟨sel', res, hsel', -, hc⟩ := scan_chosen hfin hv hi
    rw [hsel] at hsel'; cases hsel'
  · exfalso
    obtain ⟨sel', res, hsel', hsfo, hc⟩ := scan_chosen hfin hv hi
    rw [hsel] at hsel'
    cases hsel'
    rw [hs.ray, hs.remaining] at hc
    obtain ⟨o, ho, x, n, e1, hk, e2, e3, hF, hd1, hd2, hd3, hres⟩ := sane_chosen hw hu hc
    have hfl : s.flown sel.pt = (r.movedTo (r.at (dist r.position.toE x.toE))).lift := by
      unfold RunState.flown
      rw [hs.ray, hd3, lift_fly]
    obtain ⟨sfo, hsfo'⟩ := Option.ne_none_iff_exists'.mp hsfo
    have := ha sfo hsfo'
    rcases sane_act_kind hw hu ho hF sfo with ⟨d, b, rows, hdo, hac⟩ | ⟨g, rfl, hnd, hdo⟩ <;>
      rw [hfl, e1, e2, e3, hdo] at this <;> cases this

end Optics
