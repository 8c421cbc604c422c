import Verif.Lemmas.SceneTrace
import Verif.Props.Gratings

/-!
# Rays without a direction

A grating with no such diffraction order leaves a ray whose direction is `nan`.  Nothing is ever hit by it: the next pass
of the loop sends it to `nan` and ends the run.
-/

namespace Optics
open V3

/-! ## Tests -/

theorem plane_nan (p : Plane XR) {ray : Ray XR} (hd : ray.direction = V3.nan) : p.testIntersect ray = Hit3.miss := by
  unfold Plane.testIntersect
  have e : dot (unitVector p.normal) (unitVector ray.direction) = XR.nan := by
    rw [hd]; simp [V3.nan, dot, unitVector]
  simp only [e]
  rw [if_neg]
  exact fun h => h

theorem rectangle_nan (r : Rectangle XR) {ray : Ray XR} (hd : ray.direction = V3.nan) :
    r.testIntersect ray = Hit3.miss := by
  unfold Rectangle.testIntersect
  simp only [plane_nan _ hd]
  rfl

theorem circle_nan (c : Circle XR) (p : Plane XR) (hp : c.plane = some p) {ray : Ray XR} (hd : ray.direction = V3.nan) :
    c.testIntersect ray = .ok Hit3.miss := by
  unfold Circle.testIntersect
  simp only [hp, plane_nan _ hd]
  rfl

theorem sphere_nan (s : Sphere XR) {ray : Ray XR} (hd : ray.direction = V3.nan) : s.testIntersect ray = Hit6.miss 0 := by
  unfold Sphere.testIntersect
  have e : ∀ q, dot ray.direction q = XR.nan := by
    intro q; rw [hd]; simp [V3.nan, dot]
  simp only [e, XR.nan_mul, XR.nan_sub]
  rw [if_neg (show ¬ (XR.nan > (0.0 : XR)) by simp), if_neg (show ¬ (PyNum.eqb XR.nan (0.0 : XR) = true) from Bool.false_ne_true)]

theorem cylinder_nan (c : InfiniteCylinder XR) (hR : PyNum.eqb c.R 0.0 = false) {ray : Ray XR}
    (hd : ray.direction = V3.nan) : c.testIntersect ray = .ok (Hit6.miss 0) := by
  unfold InfiniteCylinder.testIntersect
  rw [if_neg (by rw [hR]; decide)]
  have e : (c.dirToObjectSpace ray.direction).x = XR.nan := by
    rw [hd]
    simp [InfiniteCylinder.dirToObjectSpace, M4.mulVec, V3.hom, V3.nan, V4.dot]
  simp only [e, XR.nan_mul, XR.nan_add]
  have : ∀ B C : XR, cylinderRoots XR.nan B C = (none, none) := by
    intro B C
    unfold cylinderRoots
    simp only [XR.mul_nan, XR.nan_mul, XR.sub_nan]
    rw [if_neg (show ¬ (XR.nan > (0.0 : XR)) by simp), if_neg (show ¬ (PyNum.eqb XR.nan (0.0 : XR) = true) from Bool.false_ne_true)]
  simp only [this]

/-- A CSG solid reports no hit. -/
theorem csg_nan {ray : Ray XR} (hd : ray.direction = V3.nan) : ∀ {e : Csg (Prim ℝ)}, e.All Prim.WellFormed →
    ∃ k, testTreeIntersect e.tree.lift ray = .ok (.six (Hit6.miss k))
  | .prim (.sphere s), _ => ⟨0, by
      show Except.ok (IntersectResult.six (s.lift.testIntersect ray)) = _
      rw [sphere_nan _ hd]⟩
  | .prim (.cylinder c), h => ⟨0, by
      show (do return IntersectResult.six (← c.lift.testIntersect ray)) = _
      rw [cylinder_nan _ (by
        rw [show c.lift.R = XR.fin c.R from rfl, xlit0, XR.fin_eqb, decide_eq_false h.1]) hd]
      rfl⟩
  | .op o a b, h => by
    obtain ⟨ka, ea⟩ := csg_nan hd h.1
    obtain ⟨kb, eb⟩ := csg_nan hd h.2
    refine ⟨ka + kb, ?_⟩
    show testTreeIntersect (.node (Key.str o.name) a.tree.lift b.tree.lift) ray = _
    rw [testTreeIntersect, ea, eb]
    cases o <;> rfl

/-- A flat surface that is missed. -/
theorem flat_nan (b : Bool) {ray : Ray XR} {s : Shape XR} (hs : s.testIntersect ray = .ok (.three Hit3.miss))
    (n : Option (Option (V3 XR))) :
    [s].foldlM (flatStep b ray) ⟨false, none, none, n⟩ = .ok ⟨false, none, none, some none⟩ := by
  rw [List.foldlM_cons, flatStep, hs]
  rfl

theorem circle_new_nan {c n : V3 ℝ} {R D : Option ℝ} {C : Circle ℝ} (hC : Circle.new c (some n) R D = .ok C)
    {ray : Ray XR} (hd : ray.direction = V3.nan) :
    (Shape.circle C.lift).testIntersect ray = .ok (.three Hit3.miss) := by
  obtain ⟨-, -, h3, -⟩ := circle_new_ok hC
  show (do return IntersectResult.three (← C.lift.testIntersect ray)) = _
  rw [circle_nan C.lift (Plane.new c n).lift (by simp [Circle.lift, h3]) hd]
  rfl

theorem rectangle_shape_nan (r : Rectangle XR) {ray : Ray XR} (hd : ray.direction = V3.nan) :
    (Shape.rectangle r).testIntersect ray = .ok (.three Hit3.miss) := by
  show Except.ok (IntersectResult.three (r.testIntersect ray)) = _
  rw [rectangle_nan r hd]

/-- A well-formed optic with a `test_intersect` reports no hit. -/
theorem optic_nan {o : Optic ℝ} (h : o.WellFormed) (hs : o.skipped = false) {ray : Ray XR}
    (hd : ray.direction = V3.nan) : ∃ r, o.lift.testIntersect ray = .ok r ∧ r.hit = false := by
  cases h with
  | annotation => cases hs
  | filter => cases hs
  | window => cases hs
  | compound he hb hi =>
    rename_i e behavior index
    obtain ⟨k, ek⟩ := csg_nan hd he
    refine ⟨⟨false, none, none, .bool (decide (k % 2 = 0))⟩, ?_, rfl⟩
    show (Compound.mk e.tree.lift behavior (XR.fin index)).testIntersect ray = _
    unfold Compound.testIntersect
    rw [ek]
    rfl
  | grating hn ht hg =>
    rename_i g
    unfold Grating.new at hg
    simp only [bind, Except.bind, pure, Except.pure] at hg
    split_ifs at hg with h1
    split at hg <;> cases hg
    rename_i C hC
    refine ⟨⟨false, none, none, .none⟩, ?_, rfl⟩
    show Grating.testIntersect _ _ = _
    unfold Grating.testIntersect Grating.lift
    simp only [h1, or_true, if_true, List.map_cons, List.map_nil, Shape.lift]
    rw [flat_nan _ (rectangle_shape_nan _ hd)]
    rfl
  | detector hn ht hg =>
    unfold Detector.new at hg
    simp only [bind, Except.bind, pure, Except.pure] at hg
    split_ifs at hg with h1
    split at hg <;> cases hg
    refine ⟨⟨false, none, none, .none⟩, ?_, rfl⟩
    show Detector.testIntersect _ _ = _
    unfold Detector.testIntersect Detector.lift
    simp only [h1, or_true, if_true, List.map_cons, List.map_nil, Shape.lift]
    rw [flat_nan _ (rectangle_shape_nan _ hd)]
    rfl
  | lens hn hn' hD hi hl ideal =>
    rename_i position n shape D w hh f type index l
    unfold Lens.new at hl
    simp only [bind, Except.bind, pure, Except.pure] at hl
    split_ifs at hl with h1 h2
    · split at hl <;> cases hl
      rename_i C hC
      cases n with
      | none => exact absurd rfl (hn' h1)
      | some n =>
      refine ⟨⟨false, none, none, .bool true⟩, ?_, rfl⟩
      show Lens.testIntersect _ _ = _
      unfold Lens.testIntersect Lens.lift
      simp only [h1, if_true, List.map_cons, List.map_nil, Shape.lift]
      rw [flat_nan _ (circle_new_nan hC hd)]
      rfl
    · split at hl <;> cases hl
      rename_i s hs
      refine ⟨⟨false, none, none, .bool true⟩, ?_, rfl⟩
      show Lens.testIntersect _ _ = _
      unfold Lens.testIntersect Lens.lift
      simp only [h2, show ("spherical" = "spherical_biconvex") = False by simp, if_false, if_true,
            List.map_cons, List.map_nil, Shape.lift]
      rw [List.foldlM_cons, lensSphereStep, sphere_nan _ hd]
      rfl
  | mirror hn ht hdmd hD hf hm =>
    rename_i position shape n t D w hh f type dmd m
    unfold Mirror.new at hm
    simp only [need, bind, Except.bind, pure, Except.pure] at hm
    split_ifs at hm with h1 h2 h3 h4
    · cases n with
      | none => cases hm
      | some n =>
        simp only at hm
        split at hm <;> cases hm
        rename_i C hC
        refine ⟨⟨false, none, none, .none⟩, ?_, rfl⟩
        show Mirror.testIntersect _ _ = _
        unfold Mirror.testIntersect Mirror.lift
        simp only [h1, true_or, if_true, List.map_cons, List.map_nil, Shape.lift]
        rw [flat_nan _ (circle_new_nan hC hd)]
        rfl
    · cases n with
      | none => cases hm
      | some n =>
        cases t with
        | none => cases hm
        | some t =>
          simp only at hm
          split at hm <;> cases hm
          rename_i C hC
          refine ⟨⟨false, none, none, .none⟩, ?_, rfl⟩
          show Mirror.testIntersect _ _ = _
          unfold Mirror.testIntersect Mirror.lift
          simp only [h2, or_true, if_true, List.map_cons, List.map_nil, Shape.lift]
          rw [flat_nan _ (rectangle_shape_nan _ hd)]
          rfl
    · cases n with
      | none => cases hm
      | some n =>
        cases f with
        | none => cases hm
        | some f =>
          simp only at hm
          split at hm <;> cases hm
          refine ⟨⟨false, none, none, .count 0⟩, ?_, rfl⟩
          show Mirror.testIntersect _ _ = _
          unfold Mirror.testIntersect Mirror.lift
          simp only [h3, show ("circular_concave_spherical" = "circular_flat" ∨
            "circular_concave_spherical" = "rectangular_flat") = False by simp, if_false, if_true, List.map_cons,
            List.map_nil, Shape.lift, firstSphere, bound, bind, Except.bind]
          rw [sphere_nan _ hd]
          rfl
    · split at hm <;> cases hm
      refine ⟨⟨false, none, none, .count 0⟩, ?_, rfl⟩
      show Mirror.testIntersect _ _ = _
      unfold Mirror.testIntersect Mirror.lift
      simp only [h4, show ("circular_convex_spherical" = "circular_flat" ∨
            "circular_convex_spherical" = "rectangular_flat") = False by simp,
            show ("circular_convex_spherical" = "circular_concave_spherical") = False by simp, if_false, if_true,
            List.map_cons, List.map_nil, Shape.lift]
      rw [List.foldlM_cons]
      simp only [sphereStep, bind, Except.bind, pure, Except.pure, bound, sphere_nan _ hd]
      rfl

/-! ## The loop -/

/-- A scan with a ray without direction finds nothing. -/
theorem scan_nan {optics : List (Optic ℝ)} (hw : ∀ o ∈ optics, o.WellFormed) {ray : Ray XR} (hd : ray.direction = V3.nan)
    (rem : XR) : ∀ (l : List (Optic ℝ)), (∀ o ∈ l, o ∈ optics) → ∀ v : ScanVars XR, v.intersected = false →
    ∃ w, (l.map Optic.lift).foldlM (scanStep ray rem) v = .ok w ∧ w.intersected = false
  | [], _, v, hv => ⟨v, rfl, hv⟩
  | o :: l, hl, v, hv => by
    have step : ∃ w, scanStep ray rem v o.lift = .ok w ∧ w.intersected = false := by
      unfold scanStep
      cases hk : o.skipped with
      | true =>
        refine ⟨v, ?_, hv⟩
        rw [show o.lift.skipped = true by cases o <;> first | rfl | cases hk]
        rfl
      | false =>
        obtain ⟨r, e, hr⟩ := optic_nan (hw o (hl o List.mem_cons_self)) hk hd
        rw [show o.lift.skipped = false by cases o <;> first | rfl | cases hk]
        simp only [Bool.false_eq_true, if_false, e, bind, Except.bind, pure, Except.pure, hr]
        exact ⟨_, rfl, hv⟩
    obtain ⟨w, e, h⟩ := step
    obtain ⟨u, e', h'⟩ := scan_nan hw hd rem l (fun o ho => hl o (List.mem_cons_of_mem _ ho)) w h
    exact ⟨u, by rw [List.map_cons, List.foldlM_cons, e]; exact e', h'⟩

theorem fly_nan (p : V3 XR) (a : XR) : p + a * V3.nan = V3.nan := by
  ext <;> simp [V3.nan]

/-- The pass after a grating without an order for the ray: the ray is gone, and nothing else has changed. -/
theorem step_nan {md : XR} {optics : List (Optic ℝ)} (hw : ∀ o ∈ optics, o.WellFormed) {s : RunState XR}
    (hd : s.ray.direction = V3.nan) :
    ∃ s', runStep md (optics.map Optic.lift) s = .next s' ∧ s'.ray = s.ray.movedTo V3.nan ∧
      s'.remaining = s.remaining - md ∧ s'.log = s.log ∧ s'.interactions = s.interactions := by
  obtain ⟨v, e, hv⟩ := scan_nan hw hd s.remaining optics (fun _ h => h) ⟨false, none, s.selected, s.sfo⟩ rfl
  unfold runStep
  rw [e]
  simp only [hv, Bool.not_false, if_true, fly_some, hd, fly_nan]
  exact ⟨_, rfl, rfl, rfl, rfl, rfl⟩

/-- The run has met a grating without an order for the ray, at the end of the path `P`. -/
structure Lost (optics : List (Optic ℝ)) (ray : Ray ℝ) (md : ℝ) (mi : Option Int) (r : Ray ℝ) (ρ : ℝ) (P : List (V3 ℝ)) :
    Prop where
  history : r.pointHistory = ray.pointHistory ++ P
  position : (ray.position :: P).getLast? = some r.position
  wavelength : r.wavelength = ray.wavelength
  order : r.order = ray.order
  type : r.type = ray.type
  blocked : r.blocked = false
  length : pathLength (ray.position :: P) + ρ = md
  left : 0 ≤ ρ
  cause : ∃ (k : Nat) (s : RunState XR) (r₀ : Ray ℝ) (g : Grating ℝ) (n : V3 ℝ),
    Passes (.fin md) (optics.map Optic.lift) mi k (RunState.init ray.lift (.fin md)) s ∧ s.ray = r₀.lift ∧
    .grating g ∈ optics ∧ (Optic.grating g).Reports r₀ r.position n ∧ ¬ g.Diffracts r₀

/-- What a run over well-formed optics can look like when the loop condition is evaluated. -/
inductive Fate (optics : List (Optic ℝ)) (ray : Ray ℝ) (md : ℝ) (mi : Option Int) (k : Nat) (s : RunState XR) : Prop
  /-- everything is finite -/
  | traced {r ρ log P} (h : Traced ray md s r ρ log P) (hk : P.length = k) (hρ : ρ ≤ md)
  /-- a grating has just returned `nan` -/
  | lost {r ρ P} (h : Lost optics ray md mi r ρ P) (hk : P.length = k)
      (ray : s.ray = { r.lift with direction := V3.nan }) (remaining : s.remaining = .fin ρ) (log : s.log = [])
  /-- the ray has gone nowhere -/
  | gone {r ρ P} (h : Lost optics ray md mi r ρ P) (hk : P.length + 1 = k)
      (ray : s.ray = ({ r.lift with direction := V3.nan } : Ray XR).movedTo V3.nan)
      (remaining : s.remaining = .fin (ρ - md)) (log : s.log = [])

theorem lost_le {optics : List (Optic ℝ)} {ray : Ray ℝ} {md : ℝ} {mi : Option Int} {r : Ray ℝ} {ρ : ℝ} {P : List (V3 ℝ)}
    (h : Lost optics ray md mi r ρ P) : ρ ≤ md := by
  have := pathLength_nonneg (ray.position :: P)
  linarith [h.length]

theorem traced_le {optics : List (Optic ℝ)} {ray : Ray ℝ} {md : ℝ} {s s' : RunState XR} {r r' : Ray ℝ} {ρ ρ' : ℝ}
    {log log' : List (DetHit ℝ)} {P : List (V3 ℝ)} (hs : SaneStep md optics r ρ log s s') (h0 : 0 < ρ) (hρ : ρ ≤ md)
    (h : Traced ray md s' r' ρ' log' P) : ρ' ≤ md := by
  rcases hs with ⟨h1, -⟩ | ⟨o, x, n, d, b, rows, ho, hk, ht, hm, hf, hd1, hd2, ha, h1, -⟩
  · have := XR.fin.inj (h1.remaining.symm.trans h.sane.remaining); linarith
  · have := XR.fin.inj (h1.remaining.symm.trans h.sane.remaining)
    have := dist_nonneg (x := r.position.toE) (y := x.toE)
    linarith

theorem fate_next {optics : List (Optic ℝ)} (hw : ∀ o ∈ optics, o.WellFormed) {ray : Ray ℝ} {md : ℝ}
    {mi : Option Int} {k : Nat} {s s' : RunState XR}
    (hp : Passes (.fin md) (optics.map Optic.lift) mi k (RunState.init ray.lift (.fin md)) s)
    (h : Fate optics ray md mi k s) (hc : s.continues mi = true)
    (hs : runStep (.fin md) (optics.map Optic.lift) s = .next s') : Fate optics ray md mi (k + 1) s' := by
  cases h with
  | @traced r ρ log P h hk hρ =>
    have hpos := continues_pos hc h.sane.remaining
    rcases step_kind hw h.sane hs with hst | ⟨g, x, hd⟩
    · obtain ⟨r', ρ', log', p, h', -⟩ := traced_step hw h hc hst
      exact .traced h' (by rw [List.length_append, hk]; rfl) (traced_le hst hpos hρ h')
    · have hlog : log = [] := by
        rcases h.rows with e | ⟨row, -, -, -, e⟩
        · exact e
        · rw [continues_unblocked hc h.sane.ray] at e; cases e
      have hnb : r.blocked = false := continues_unblocked hc h.sane.ray
      obtain ⟨t, ht, hx⟩ := hd.onRay
      have hl := landing h.sane.unit t ht hx
      obtain ⟨n, hn, -⟩ := hd.reports
      refine .lost (r := r.movedTo (r.at (dist r.position.toE x.toE))) (P := P ++ [r.at (dist r.position.toE x.toE)])
        ⟨?_, ?_, h.wavelength, h.order, h.type, hnb, ?_, sub_nonneg.mpr hd.near,
          k, s, r, g, n, hp, h.sane.ray, hd.mem, ?_, hd.none⟩ (by rw [List.length_append, hk]; rfl) hd.ray hd.remaining
        (by rw [hd.log, h.sane.log, hlog]; rfl)
      · show r.pointHistory ++ _ = _
        rw [h.history, List.append_assoc]
      · rw [← List.cons_append, List.getLast?_concat]; rfl
      · rw [pathLength_concat _ _ _ _ h.position, hl]
        have := h.budget (hpos.le.trans hρ)
        rcases this with ⟨-, e⟩ | ⟨e, -⟩ <;> linarith
      · show (Optic.grating g).Reports r (r.at (dist r.position.toE x.toE)) n
        rw [hl]; exact hn
  | @lost r ρ P h hk hr hrem hlog =>
    obtain ⟨t, e, h1, h2, h3, -⟩ := step_nan (md := .fin md) hw (s := s) (by rw [hr])
    rw [e] at hs
    cases hs
    exact .gone h (by rw [hk]) (by rw [h1, hr]) (by rw [h2, hrem, XR.fin_sub]) (h3.trans hlog)
  | @gone r ρ P h hk hr hrem hlog =>
    have := continues_pos hc hrem
    have := lost_le h
    linarith

/-- Every run over well-formed optics, at every moment. -/
theorem fate_passes {optics : List (Optic ℝ)} (hw : ∀ o ∈ optics, o.WellFormed) {ray : Ray ℝ} {md : ℝ}
    (hd : dot ray.direction ray.direction = 1) {mi : Option Int} {k : Nat} {s : RunState XR}
    (h : Passes (.fin md) (optics.map Optic.lift) mi k (RunState.init ray.lift (.fin md)) s) :
    Fate optics ray md mi k s := by
  generalize h0 : RunState.init ray.lift (.fin md) = s0 at h
  induction h with
  | zero s => subst h0; exact .traced (traced_init ray md hd) rfl le_rfl
  | succ hp hc hs ih =>
    subst h0
    exact fate_next hw hp (ih rfl) hc hs

/-- No run over well-formed optics raises, unless a compound with a `difference` does. -/
theorem fate_raised {optics : List (Optic ℝ)} (hw : ∀ o ∈ optics, o.WellFormed) {ray : Ray ℝ} {md : ℝ}
    {mi : Option Int} {k : Nat} {s s' : RunState XR} {e : PyErr} (h : Fate optics ray md mi k s)
    (hc : s.continues mi = true) (hs : runStep (.fin md) (optics.map Optic.lift) s = .raised e s') :
    s' = s ∧ ∃ o ∈ optics, ¬ o.NoDifference ∧ o.lift.testIntersect s.ray = .error e := by
  cases h with
  | traced h hk hρ =>
    rw [h.sane.ray]
    exact raise_sane hw h.sane hs
  | lost h hk hr hrem hlog =>
    obtain ⟨t, e, -⟩ := step_nan (md := .fin md) hw (s := s) (by rw [hr])
    rw [e] at hs
    cases hs
  | gone h hk hr hrem hlog =>
    have := continues_pos hc hrem
    have := lost_le h
    linarith

/-- How a run over a well-formed scene ends. -/
theorem fate_run {optics : List (Optic ℝ)} (hw : ∀ o ∈ optics, o.WellFormed) (ray : Ray ℝ) {md : ℝ}
    (hd : dot ray.direction ray.direction = 1) {mi : Option Int} (fuel : Nat) :
    ∃ k, Passes (.fin md) (optics.map Optic.lift) mi k (RunState.init ray.lift (.fin md))
        (ray.lift.run (.fin md) (optics.map Optic.lift) mi fuel).state ∧
      Fate optics ray md mi k (ray.lift.run (.fin md) (optics.map Optic.lift) mi fuel).state ∧
      match ray.lift.run (.fin md) (optics.map Optic.lift) mi fuel with
      | .finished t => t.continues mi = false
      | .raised e s => ∃ o ∈ optics, ¬ o.NoDifference ∧ o.lift.testIntersect s.ray = .error e
      | .outOfFuel _ => True := by
  obtain ⟨n, s', hp, hm⟩ := runLoop_passes (md := .fin md) (optics := optics.map Optic.lift) (mi := mi) fuel
    (RunState.init ray.lift (.fin md))
  have hf := fate_passes hw hd hp
  unfold Ray.run
  cases hl : runLoop (.fin md) (optics.map Optic.lift) mi fuel (RunState.init ray.lift (.fin md)) with
  | finished t =>
    rw [hl] at hm
    obtain ⟨rfl, hc⟩ := hm
    exact ⟨n, hp, hf, hc⟩
  | outOfFuel t =>
    rw [hl] at hm
    obtain ⟨rfl, -⟩ := hm
    exact ⟨n, hp, hf, trivial⟩
  | raised e t =>
    rw [hl] at hm
    obtain ⟨hc, hr⟩ := hm
    obtain ⟨rfl, h2⟩ := fate_raised hw hf hc hr
    exact ⟨n, hp, hf, h2⟩

end Optics
