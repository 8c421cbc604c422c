import Verif.Lemmas.LensTrain
import Verif.Lemmas.RealRun

/-!
# Flat optics of every kind in the run loop
-/

namespace Optics
open V3

/-- The window of a rectangle, as the hit test checks it. -/
theorem rectangle_window_iff {c n t : V3 ℝ} (hn : n ≠ ⟨0, 0, 0⟩) (ht : t ≠ ⟨0, 0, 0⟩) {w h : ℝ} (hw : 0 < w) (hh : 0 < h)
    {C : Rectangle ℝ} (hC : Rectangle.new c n t (some h) (some w) = .ok C) {r : Ray ℝ} {s : ℝ}
    (hs : (Plane.new c n).testIntersect r = ⟨true, some (r.at s), some (unitVector n)⟩) :
    (C.testIntersect r).hit = true ↔ |inner ℝ (r.at s - c).toE (unitVector t).toE| ≤ h / 2 ∧
      |inner ℝ (r.at s - c).toE (cross (unitVector n) (unitVector t)).toE| ≤
        w / 2 * ‖(cross (unitVector n) (unitVector t)).toE‖ ^ 2 := by
  obtain ⟨-, e1', e2', -, -, hc, hnn, htt, ht2, hp, b0, b1, b2, -⟩ := rectangle_new_ok hC
  have e1'' : C.h = h := (Option.some.inj e1').symm
  have e2'' : C.w = w := (Option.some.inj e2').symm
  have hut := unit_dot ht
  obtain ⟨w1, w2⟩ := rectangle_window (c := c) (u := C.tangent2) (t := C.tangent) (M := r.at s) (h := h) (w := w)
    (by rw [htt]; exact hut) (by rw [htt, ht2]; exact dot_cross_right _ _) hh hw
  unfold Rectangle.testIntersect
  rw [hp, hs]
  simp only [b0, b1, b2, e1'', e2'', lit0]
  rw [inner_toE, inner_toE, norm_toE, norm_sq, ← ht2, ← htt]
  split_ifs with q1 q2
  · exact ⟨fun _ => ⟨w2.mp q2, w1.mp q1⟩, fun _ => rfl⟩
  · exact ⟨(fun h => by cases h), fun h => absurd (w2.mpr h.1) q2⟩
  · exact ⟨(fun h => by cases h), fun h => absurd (w1.mpr h.2) q1⟩

/-- Gratings. -/
theorem grating_flat {c n t : V3 ℝ} (hn : n ≠ ⟨0, 0, 0⟩) (ht : t ≠ ⟨0, 0, 0⟩) {w h G : ℝ} (hw : 0 < w) (hh : 0 < h)
    {g : Grating ℝ} (hg : Grating.new c n t "rectangular_flat" (some w) (some h) (some G) = .ok g) :
    FlatOptic (.grating g) c n (fun x => |inner ℝ (x - c).toE (unitVector t).toE| ≤ h / 2 ∧
      |inner ℝ (x - c).toE (cross (unitVector n) (unitVector t)).toE| ≤
        w / 2 * ‖(cross (unitVector n) (unitVector t)).toE‖ ^ 2) ∧
      g.normal = unitVector n ∧ g.tangent = unitVector t ∧ g.G = some G := by
  have hg' := hg
  simp only [Grating.new, bind, Except.bind, pure, Except.pure, if_true] at hg'
  cases hC : Rectangle.new c n t (some h) (some w) with
  | error e => rw [hC] at hg'; cases hg'
  | ok C =>
  rw [hC] at hg'
  obtain rfl := Except.ok.inj hg'
  refine ⟨⟨.grating hn ht hg, rfl, rfl, ?_, fun r hd => ?_⟩, rfl, rfl, rfl⟩
  · intro c e; cases e
  · obtain ⟨e2, hF, e3⟩ := rectangle_flatHit hn hC r hd
    obtain ⟨v, ev⟩ := flat_lift hF false (.rectangle C.lift)
      (by show Except.ok (IntersectResult.three (C.lift.testIntersect r.lift)) = _; rw [e2])
      (by simp [Shape.normalAttr, Rectangle.lift, e3]) none
    refine flat_reports hd hn hF (sfo := .none) ?_ fun s hs => rectangle_window_iff hn ht hw hh hC hs
    show Grating.testIntersect _ _ = _
    unfold Grating.testIntersect Grating.lift
    simp only [or_true, if_true, List.map_cons, List.map_nil, Shape.lift]
    rw [ev]; rfl

/-- Rectangular flat mirrors of every type. -/
theorem mirror_flat {c n t : V3 ℝ} (hn : n ≠ ⟨0, 0, 0⟩) (ht : t ≠ ⟨0, 0, 0⟩) {w h : ℝ} (hw : 0 < w) (hh : 0 < h)
    {D f : Option ℝ} (hD : NonZero D) (hf : NonZero f) {type : String} {dmd : V3 ℝ} (hdmd : dmd ≠ ⟨0, 0, 0⟩) {m : Mirror ℝ}
    (hm : Mirror.new c "rectangular_flat" (some n) D (some w) (some h) f (some t) type (some dmd) = .ok m) :
    FlatOptic (.mirror m) c n (fun x => |inner ℝ (x - c).toE (unitVector t).toE| ≤ h / 2 ∧
      |inner ℝ (x - c).toE (cross (unitVector n) (unitVector t)).toE| ≤
        w / 2 * ‖(cross (unitVector n) (unitVector t)).toE‖ ^ 2) := by
  have hm' := hm
  unfold Mirror.new at hm'
  simp only [need, bind, Except.bind, pure, Except.pure] at hm'
  rw [if_neg (by decide), if_pos trivial] at hm'
  cases hC : Rectangle.new c n t (some h) (some w) with
  | error e => rw [hC] at hm'; cases hm'
  | ok C =>
  rw [hC] at hm'
  obtain rfl := Except.ok.inj hm'
  refine ⟨.mirror (fun e => hn (Option.some.inj e)) (fun e => ht (Option.some.inj e)) hdmd hD hf hm, rfl, rfl, ?_, fun r hd => ?_⟩
  · intro c e; cases e
  · obtain ⟨e2, hF, e3⟩ := rectangle_flatHit hn hC r hd
    obtain ⟨v, ev⟩ := flat_lift hF true (.rectangle C.lift)
      (by show Except.ok (IntersectResult.three (C.lift.testIntersect r.lift)) = _; rw [e2])
      (by simp [Shape.normalAttr, Rectangle.lift, e3]) none
    refine flat_reports hd hn hF (sfo := .none) ?_ fun s hs => rectangle_window_iff hn ht hw hh hC hs
    show Mirror.testIntersect _ _ = _
    unfold Mirror.testIntersect Mirror.lift
    simp only [or_true, if_true, List.map_cons, List.map_nil, Shape.lift]
    rw [ev]; rfl

/-- Circular flat mirrors of every type. -/
theorem mirrorDisc_flat {c n : V3 ℝ} (hn : n ≠ ⟨0, 0, 0⟩) {D : ℝ} (hD : D ≠ 0) {t : Option (V3 ℝ)} (ht : NonZeroVec t)
    {w h f : Option ℝ} (hf : NonZero f) {type : String} {dmd : V3 ℝ} (hdmd : dmd ≠ ⟨0, 0, 0⟩) {m : Mirror ℝ}
    (hm : Mirror.new c "circular_flat" (some n) (some D) w h f t type (some dmd) = .ok m) :
    FlatOptic (.mirror m) c n (fun x => dist x.toE c.toE < D / 2) := by
  have hm' := hm
  unfold Mirror.new at hm'
  simp only [need, bind, Except.bind, pure, Except.pure] at hm'
  rw [if_pos trivial] at hm'
  cases hC : Circle.new c (some n) none (some D) with
  | error e => rw [hC] at hm'; cases hm'
  | ok C =>
  rw [hC] at hm'
  obtain rfl := Except.ok.inj hm'
  refine ⟨.mirror (fun e => hn (Option.some.inj e)) ht hdmd (fun e => hD (Option.some.inj e)) hf hm, rfl, rfl, ?_, fun r hd => ?_⟩
  · intro c e; cases e
  · obtain ⟨h1, h2, h3, h4⟩ := circle_new_ok hC
    have hR : C.R = D / 2 := by
      simp only [checkRAndD, Except.ok.injEq, Prod.mk.injEq, lit2] at h4
      exact h4.1.symm
    obtain ⟨hit, e1, e2, hF, e3⟩ := circle_flatHit hn hC r hd
    obtain ⟨v, ev⟩ := flat_lift hF true (.circle C.lift)
      (by show (do return IntersectResult.three (← C.lift.testIntersect r.lift)) = _; rw [e2]; rfl)
      (circle_normalAttr e3) none
    refine flat_reports hd hn hF (sfo := .none) ?_ fun t ht => ?_
    · show Mirror.testIntersect _ _ = _
      unfold Mirror.testIntersect Mirror.lift
      simp only [true_or, if_true, List.map_cons, List.map_nil, Shape.lift]
      rw [ev]; rfl
    · unfold Circle.testIntersect at e1
      rw [h3] at e1
      simp only [Option.map_some, ht] at e1
      rw [h1, hR] at e1
      rw [dist_toE_eq]
      change _ ↔ distanceBetween _ _ < _
      split_ifs at e1 with hq <;> obtain rfl := Except.ok.inj e1 <;> simp [hq, Hit3.miss]

/-! ## Where flat optics can be hit -/

theorem FlatOptic.lifts {o : Optic ℝ} {c n : V3 ℝ} {Q : V3 ℝ → Prop} (h : FlatOptic o c n Q) {r : Ray ℝ}
    (hd : dot r.direction r.direction = 1) : o.lift.testIntersect r.lift = (o.testIntersect r).map Hit4.lift :=
  optic_lift h.wellFormed hd (fun c hc => by rw [h.noPrims] at hc; cases hc)

/-- The points of the surface are the ones that can be hit. -/
theorem FlatOptic.canBeHit_iff {o : Optic ℝ} {c n : V3 ℝ} (hn : n ≠ ⟨0, 0, 0⟩) {Q : V3 ℝ → Prop} (h : FlatOptic o c n Q)
    (x : V3 ℝ) : o.CanBeHit x ↔ dot (x - c) (unitVector n) = 0 ∧ Q x := by
  have hu := unit_dot hn
  constructor
  · rintro ⟨r, hd, res, e1, e2, e3⟩
    rw [norm_toE, norm_eq_one_iff] at hd
    have e := h.lifts hd
    rw [e1] at e
    have hk := test_good h.wellFormed r hd e
    obtain ⟨pt, k, k1, k2, -⟩ := hk e2
    have hrep : ∃ k, o.Reports r x k := by
      cases hnn : res.normal with
      | none => simp [Hit4.lift, hnn] at k2
      | some k =>
        refine ⟨k, res.sfo, ?_⟩
        rw [e]
        simp [Except.map, Hit4.lift, e2, e3, hnn]
    obtain ⟨k, hk⟩ := hrep
    obtain ⟨-, -, t, -, -, g1, g2⟩ := (h.reports r hd x k).mp hk
    exact ⟨g1, g2⟩
  · rintro ⟨h1, h2⟩
    let r : Ray ℝ := ⟨x - unitVector n, unitVector n, 0, 0, [], false, ""⟩
    have hd : dot r.direction r.direction = 1 := hu
    have hx : r.at 1 = x := by
      rw [at_eq]; ext <;> simp [r]
    have hrep := (h.reports r hd x (unitVector n)).mpr ⟨rfl, by
      show _ < |dot (unitVector n) (unitVector n)|
      rw [hu]; norm_num, 1, by norm_num, hx.symm, h1, h2⟩
    obtain ⟨sfo, e⟩ := hrep
    rw [h.lifts hd] at e
    refine ⟨r, by rw [norm_toE, norm_eq_one_iff]; exact hd, ?_⟩
    cases e1 : o.testIntersect r with
    | error _ => rw [e1] at e; cases e
    | ok res =>
      rw [e1] at e
      obtain ⟨hit, pt, nn, sf⟩ := res
      simp only [Except.map, Hit4.lift, Except.ok.injEq, Hit4.mk.injEq] at e
      obtain ⟨a1, a2, -⟩ := e
      refine ⟨_, rfl, a1, ?_⟩
      cases pt with
      | none => cases a2
      | some p => exact congrArg some (lift_inj (Option.some.inj a2))

/-- A hit is reported along the ray. -/
theorem FlatOptic.onRay {o : Optic ℝ} {c n : V3 ℝ} (hn : n ≠ ⟨0, 0, 0⟩) {Q : V3 ℝ → Prop} (h : FlatOptic o c n Q) {r : Ray ℝ}
    (hd : dot r.direction r.direction = 1) {ρ d : ℝ} {x k : V3 ℝ} (hr : o.InReach r ρ d x k) :
    k = unitVector n ∧ 1e-9 < d ∧ x = r.at d ∧ o.CanBeHit x := by
  obtain ⟨rfl, h1, t, ht, rfl, g1, g2⟩ := (h.reports r hd x k).mp hr.reports
  have ht0 : 0 < t := by norm_num at ht; linarith
  have : d = t := by
    rw [← hr.dist_eq, dist_toE_eq]
    change distanceBetween _ _ = _
    rw [dist_at r hd, abs_of_pos ht0]
  subst this
  exact ⟨rfl, ht, rfl, (h.canBeHit_iff hn _).mpr ⟨g1, g2⟩⟩

/-- A scene of flat optics. -/
def FlatScene (optics : List (Optic ℝ)) : Prop :=
  ∀ o ∈ optics, ∃ (c n : V3 ℝ) (Q : V3 ℝ → Prop), n ≠ ⟨0, 0, 0⟩ ∧ FlatOptic o c n Q

/-- A pass does not raise. -/
theorem FlatScene.returns {md : ℝ} {optics : List (Optic ℝ)} (hw : FlatScene optics) {r : Ray ℝ} {ρ : ℝ}
    {log : List (DetHit ℝ)} {s : RunState XR} (hs : Sane r ρ log s) :
    ∃ s', runStep (.fin md) (optics.map Optic.lift) s = .next s' := by
  cases h : runStep (.fin md) (optics.map Optic.lift) s with
  | next s' => exact ⟨s', rfl⟩
  | raised e s' =>
    obtain ⟨-, o, ho, hno, -⟩ := raise_sane (fun o ho => by
      obtain ⟨c, n, Q, -, h⟩ := hw o ho
      exact h.wellFormed) hs h
    obtain ⟨c, n, Q, -, hF⟩ := hw o ho
    exact absurd hF.noDifference hno

/-- A leg that ends in free space. -/
theorem flat_free {md : ℝ} {optics : List (Optic ℝ)} (hw : FlatScene optics) {v w : Vertex}
    (h : Leg optics v w) (hend : w.mirror = none) {r : Ray ℝ} (hp : r.position = v.point) (hd : r.direction.toE = heading v w)
    {log : List (DetHit ℝ)} {s : RunState XR} (hs : Sane r (dist v.point.toE w.point.toE) log s) :
    ∃ s', runStep (.fin md) (optics.map Optic.lift) s = .next s' ∧ s'.ray = (r.movedTo w.point).lift ∧
      s'.remaining = .fin (dist v.point.toE w.point.toE - md) ∧ s'.log = s.log ∧ s'.interactions = s.interactions := by
  obtain ⟨s', e⟩ := hw.returns (md := md) hs
  refine ⟨s', e, ?_⟩
  rcases step_nearest (fun o ho => by
      obtain ⟨c, n, Q, -, h⟩ := hw o ho
      exact h.wellFormed) hs e with ⟨-, h1, h2, h3, h4⟩ | ⟨l1, o, l2, d, x, n, rfl, hr, -⟩
  · rw [leg_at h.pos hp hd] at h1
    exact ⟨h1, h2, h3, h4⟩
  · exfalso
    obtain ⟨c, m, Q, hm, hF⟩ := hw o (by simp)
    obtain ⟨-, h1, rfl, h3⟩ := hF.onRay hm hs.unit hr
    have h0 : 0 < d := by norm_num at h1; linarith
    rcases h.clear o (by simp) (r.at d) (leg_segment hp hd h0.le hr.inReach) h3 with ⟨e, -⟩ | ⟨-, e⟩
    · have := hr.dist_eq
      rw [e, ← hp, dist_self] at this
      linarith
    · rw [hend] at e; cases e

/-- A leg that ends at an optic. -/
theorem flat_hit {md : ℝ} {optics : List (Optic ℝ)} (hw : FlatScene optics) {v w : Vertex}
    (h : Leg optics v w) {o : Optic ℝ} (ho : o ∈ optics) (hm : w.mirror = some o) {c n : V3 ℝ} {Q : V3 ℝ → Prop} (hn : n ≠ ⟨0, 0, 0⟩)
    (hF : FlatOptic o c n Q) (hcan : o.CanBeHit w.point) {r : Ray ℝ} (hp : r.position = v.point)
    (hd : r.direction.toE = heading v w) (hst : 1e-9 < |dot (unitVector n) r.direction|) (hty : r.type ≠ "faerie_fire")
    {ρ : ℝ} (hρ : dist v.point.toE w.point.toE ≤ ρ) {log : List (DetHit ℝ)} {s : RunState XR} (hs : Sane r ρ log s) :
    ∃ s' sfo hits, runStep (.fin md) (optics.map Optic.lift) s = .next s' ∧
      s'.remaining = .fin (ρ - dist v.point.toE w.point.toE) ∧ s'.interactions = s.interactions + 1 ∧
      o.Reports r w.point (unitVector n) ∧
      o.lift.doIntersect (r.movedTo w.point).lift w.point.lift (some (unitVector n).lift) sfo = .ok (s'.ray, hits) ∧
      s'.log = s.log ++ hits := by
  obtain ⟨c1, c2⟩ := (hF.canBeHit_iff hn _).mp hcan
  have hreach : o.InReach r ρ (dist v.point.toE w.point.toE) w.point (unitVector n) := by
    refine ⟨hF.notSkipped, ?_, by rw [hp], ?_, hρ⟩
    · exact (hF.reports r hs.unit _ _).mpr ⟨rfl, hst, _, h.long, (leg_at h.pos hp hd).symm, c1, c2⟩
    · have := h.long
      norm_num at this ⊢
      linarith
  obtain ⟨s', e⟩ := hw.returns (md := md) hs
  rcases step_nearest (fun o ho => by
      obtain ⟨c, n, Q, -, h⟩ := hw o ho
      exact h.wellFormed) hs e with ⟨h1, -⟩ | ⟨l1, o', l2, d, x, k, rfl, hr, h1, h2, h3, h4, h5, -⟩
  · exact absurd hreach (h1 o ho _ _ _)
  · have hle : d ≤ dist v.point.toE w.point.toE := by
      rcases List.mem_append.mp ho with ho | ho
      · exact (h1 o ho _ _ _ hreach).le
      · rcases List.mem_cons.mp ho with rfl | ho
        · obtain ⟨sfo, e1⟩ := hr.reports
          obtain ⟨sfo', e2⟩ := hreach.reports
          rw [e1] at e2
          simp only [Except.ok.injEq, Hit4.mk.injEq, Option.some.injEq] at e2
          rw [← hr.dist_eq, lift_inj e2.2.1, hp]
        · exact h2 o ho _ _ _ hreach
    obtain ⟨c', n', Q', hn', hF'⟩ := hw o' (by simp)
    obtain ⟨rfl, g1, rfl, g3⟩ := hF'.onRay hn' hs.unit hr
    have h0 : 0 < d := by norm_num at g1; linarith
    have hx : r.at d = w.point ∧ o = o' := by
      rcases h.clear o' (by simp) (r.at d) (leg_segment hp hd h0.le hle) g3 with ⟨e, -⟩ | ⟨e, e'⟩
      · exfalso
        have := hr.dist_eq
        rw [e, ← hp, dist_self] at this
        linarith
      · rw [hm] at e'
        exact ⟨e, Option.some.inj e'⟩
    obtain ⟨hx, rfl⟩ := hx
    have hdd : d = dist v.point.toE w.point.toE := by rw [← hr.dist_eq, hx, hp]
    have hk : unitVector n = unitVector n' := by
      obtain ⟨q1, -⟩ := (hF'.reports r hs.unit _ _).mp hreach.reports
      exact q1
    obtain ⟨sfo, hits, h6, h7⟩ := h5 hty
    rw [hx, ← hk] at h6
    exact ⟨s', sfo, hits, e, by rw [h3, hdd], h4, hreach.reports, h6, h7⟩

end Optics
