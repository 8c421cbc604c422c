import Verif.Spec.RealRun
import Verif.Lemmas.MoveRun

/-!
# The run in numpy floats follows the run in real numbers
-/

namespace Optics
open V3

/-! ## Results -/

/-- The same result in numpy floats. -/
def IntersectResult.lift : IntersectResult ℝ → IntersectResult XR
  | .none => .none
  | .three r => .three r.lift
  | .six r => .six r.lift

/-- see `IntersectResult.lift` -/
def Found.lift (f : Found ℝ) : Found XR := ⟨f.point.map V3.lift, f.normal.map V3.lift, f.distance.map XR.fin, f.num⟩

/-- see `IntersectResult.lift` -/
def LoopVars.lift (v : LoopVars ℝ) : LoopVars XR :=
  ⟨v.intersected, v.pt.map V3.lift, v.minDistance.map XR.fin, v.normal.map (Option.map V3.lift)⟩

/-- see `IntersectResult.lift` -/
def ScanVars.lift (v : ScanVars ℝ) : ScanVars XR :=
  ⟨v.intersected, v.minDistance.map XR.fin, v.selected.map Selected.lift, v.sfo⟩

/-- see `IntersectResult.lift` -/
def StepResult.lift : StepResult ℝ → StepResult XR
  | .next s => .next s.lift
  | .raised e s => .raised e s.lift

theorem lift_ltMin (d : ℝ) (m : Option ℝ) : ltMin (XR.fin d) (m.map XR.fin) = ltMin d m := by
  cases m with
  | none => rfl
  | some m => exact decide_eq_decide.mpr Iff.rfl

theorem lift_pyLt (a b : Option ℝ) : pyLt (a.map XR.fin) (b.map XR.fin) = pyLt a b := by
  cases a <;> cases b <;> rfl

theorem lift_distance_ray (ray : Ray ℝ) (x : V3 ℝ) :
    distanceBetween ray.lift.position x.lift = XR.fin (distanceBetween ray.position x) := lift_distance _ _

/-! ## CSG -/

theorem helper_lift (r : Hit6 ℝ) (ray : Ray ℝ) (mode : Mode) :
    helperFindIntersects r.lift ray.lift mode = (helperFindIntersects r ray mode).map Found.lift := by
  obtain ⟨hit, p, q, n, m, k⟩ := r
  cases p <;> cases q <;> simp only [helperFindIntersects, Hit6.lift, Option.map_none, Option.map_some] <;> try rfl
  · rw [lift_distance_ray]; rfl
  · cases mode <;> simp only [lift_distance_ray, gt_iff_lt, XR.fin_lt] <;> split_ifs <;> rfl

theorem union_lift (A B : Hit6 ℝ) (ray : Ray ℝ) :
    operCsgUnion A.lift B.lift ray.lift = (operCsgUnion A B ray).map Hit6.lift := by
  unfold operCsgUnion
  simp only [helper_lift, show ∀ C : Hit6 ℝ, C.lift.hit = C.hit from fun _ => rfl,
    show ∀ C : Hit6 ℝ, C.lift.count = C.count from fun _ => rfl, bind, Except.bind, pure, Except.pure]
  cases helperFindIntersects A ray .nearest with
  | error e =>
    cases helperFindIntersects B ray .nearest <;> cases A.hit <;> cases B.hit <;> rfl
  | ok a =>
    cases helperFindIntersects B ray .nearest with
    | error e => cases A.hit <;> cases B.hit <;> rfl
    | ok b =>
      cases A.hit <;> cases B.hit <;> try rfl
      obtain ⟨pa, na, da, ka⟩ := a
      obtain ⟨pb, nb, db, kb⟩ := b
      simp only [Bool.and_self, if_true, Except.map, Found.lift, lift_pyLt]
      cases pa <;> cases pb <;> try rfl
      simp only [Option.map_some]
      cases pyLt da db with
      | error e => rfl
      | ok c => cases c <;> rfl

theorem intersect_lift (A B : Hit6 ℝ) (ray : Ray ℝ) :
    operCsgIntersect A.lift B.lift ray.lift = (operCsgIntersect A B ray).map Hit6.lift := by
  unfold operCsgIntersect
  simp only [helper_lift, show ∀ C : Hit6 ℝ, C.lift.hit = C.hit from fun _ => rfl,
    show ∀ C : Hit6 ℝ, C.lift.count = C.count from fun _ => rfl, bind, Except.bind, pure, Except.pure]
  cases A.hit <;> cases B.hit <;> try rfl
  simp only [Bool.and_self, if_true]
  cases helperFindIntersects A ray .nearest with
  | error e => rfl
  | ok an =>
  cases helperFindIntersects B ray .nearest with
  | error e => rfl
  | ok bn =>
  cases helperFindIntersects A ray .farthest with
  | error e => rfl
  | ok af =>
  cases helperFindIntersects B ray .farthest with
  | error e => rfl
  | ok bf =>
  simp only [Except.map, Found.lift, lift_pyLt]
  cases pyLt an.distance bn.distance <;> cases pyLt bn.distance af.distance <;> cases pyLt bn.distance an.distance <;>
    cases pyLt an.distance bf.distance <;> cases pyLt an.distance af.distance <;> simp only <;> split_ifs <;> rfl

theorem difference_lift (A B : Hit6 ℝ) (ray : Ray ℝ) :
    operCsgDifference A.lift B.lift ray.lift = (operCsgDifference A B ray).map Hit6.lift := by
  unfold operCsgDifference
  simp only [helper_lift, show ∀ C : Hit6 ℝ, C.lift.hit = C.hit from fun _ => rfl,
    show ∀ C : Hit6 ℝ, C.lift.count = C.count from fun _ => rfl, bind, Except.bind, pure, Except.pure]
  cases helperFindIntersects A ray .nearest with
  | error e => cases A.hit <;> cases B.hit <;> rfl
  | ok an =>
  cases A.hit <;> cases B.hit <;> try rfl
  simp only [Bool.and_self, if_true]
  cases helperFindIntersects B ray .nearest with
  | error e => rfl
  | ok bn =>
  cases helperFindIntersects A ray .farthest with
  | error e => rfl
  | ok af =>
  cases helperFindIntersects B ray .farthest with
  | error e => rfl
  | ok bf =>
  simp only [Except.map, Found.lift, lift_pyLt]
  cases pyLt an.distance bn.distance <;> cases pyLt bf.distance af.distance <;> simp only <;> split_ifs <;> rfl

/-! ## Shapes and trees -/

/-- The shape answers the ray in numpy as in real numbers. -/
def Shape.LiftsAt (s : Shape ℝ) (ray : Ray ℝ) : Prop :=
  s.lift.testIntersect ray.lift = (s.testIntersect ray).map IntersectResult.lift

theorem shape_lifts {s : Shape ℝ} (hs : s.Sound) {ray : Ray ℝ} (hd : dot ray.direction ray.direction = 1)
    (hc : ∀ c, Prim.cylinder c ∈ s.prims → ∀ k : ℝ, ray.direction ≠ k * c.direction) : s.LiftsAt ray := by
  have hd0 := ne_zero_of_dot_one hd
  unfold Shape.LiftsAt
  cases s with
  | shape c => rfl
  | cylinder c R D h => rfl
  | plane p =>
    show Except.ok (IntersectResult.three (p.lift.testIntersect ray.lift)) = .ok (.three (p.testIntersect ray).lift)
    rw [lift_plane_testIntersect _ hs _ hd0]
  | rectangle r =>
    show Except.ok (IntersectResult.three (r.lift.testIntersect ray.lift)) = .ok (.three (r.testIntersect ray).lift)
    rw [lift_rectangle_testIntersect _ hs _ hd0]
  | sphere s =>
    show Except.ok (IntersectResult.six (s.lift.testIntersect ray.lift)) = .ok (.six (s.testIntersect ray).lift)
    rw [lift_sphere_testIntersect s hs _ hd]
  | circle c =>
    show (do return IntersectResult.three (← c.lift.testIntersect ray.lift))
      = Except.map _ (do return IntersectResult.three (← c.testIntersect ray))
    cases hp : c.plane with
    | none =>
      unfold Circle.testIntersect
      simp only [Circle.lift, hp, Option.map_none]
      rfl
    | some p =>
      rw [lift_circle_testIntersect c p hp (hs p hp) _ hd0]
      cases c.testIntersect ray <;> rfl
  | infiniteCylinder c =>
    obtain ⟨hR, ha⟩ := hs
    show (do return IntersectResult.six (← c.lift.testIntersect ray.lift))
      = Except.map _ (do return IntersectResult.six (← c.testIntersect ray))
    have hA : 0 < axQ c.direction ray.direction := by
      refine (axQ_nonneg ha ray.direction).lt_of_ne fun h0 => ?_
      refine hc c (by simp [Shape.prims]) (dot ray.direction c.direction) ?_
      rw [← sub_eq_zero', ← V3.norm_eq_zero, ← mul_self_eq_zero, norm_mul_self]
      simp only [dot_sub_left, dot_sub_right, dot_smul_left, dot_smul_right, ha, dot_comm c.direction]
      unfold axQ at h0
      linarith
    rw [lift_cylinder_testIntersect c ha hR ray hA]
    cases c.testIntersect ray <;> rfl

/-- A CSG solid answers the ray in numpy as in real numbers, exceptions included. -/
theorem csg_lifts {ray : Ray ℝ} (hd : dot ray.direction ray.direction = 1) : ∀ {e : Csg (Prim ℝ)},
    e.All Prim.WellFormed → (∀ c, Prim.cylinder c ∈ e.tree.prims → ∀ k : ℝ, ray.direction ≠ k * c.direction) →
    testTreeIntersect e.tree.lift ray.lift = (testTreeIntersect e.tree ray).map IntersectResult.lift
  | .prim p, h, hc => shape_lifts (prim_sound h) hd (fun c hm => hc c (by
      show _ ∈ Key.prims _ ++ [] ++ []
      simp only [List.append_nil]
      exact hm))
  | .op o a b, h, hc => by
    show testTreeIntersect (.node (Key.str o.name) a.tree.lift b.tree.lift) _
      = Except.map _ (testTreeIntersect (.node (Key.str o.name) a.tree b.tree) _)
    have hca : ∀ c, Prim.cylinder c ∈ a.tree.prims → ∀ k : ℝ, ray.direction ≠ k * c.direction := fun c hm => hc c (by
      show _ ∈ [] ++ a.tree.prims ++ b.tree.prims
      simp [hm])
    have hcb : ∀ c, Prim.cylinder c ∈ b.tree.prims → ∀ k : ℝ, ray.direction ≠ k * c.direction := fun c hm => hc c (by
      show _ ∈ [] ++ a.tree.prims ++ b.tree.prims
      simp [hm])
    unfold testTreeIntersect
    rw [csg_lifts hd h.1 hca, csg_lifts hd h.2 hcb]
    simp only [bind, Except.bind, pure, Except.pure]
    cases testTreeIntersect a.tree ray with
    | error e => rfl
    | ok ra =>
    simp only [Except.map]
    cases testTreeIntersect b.tree ray with
    | error e => rfl
    | ok rb =>
    cases ra <;> cases rb <;> try rfl
    all_goals cases o <;> try rfl
    · simp only [IntersectResult.lift, intersectOper, CsgOp.name, asHit6, if_true, union_lift]
      cases operCsgUnion _ _ ray <;> rfl
    · simp only [IntersectResult.lift, intersectOper, CsgOp.name, asHit6, if_true, intersect_lift,
        show ¬ ("intersect" = "union") by decide, show ¬ ("intersect" = "difference") by decide, if_false]
      cases operCsgIntersect _ _ ray <;> rfl
    · simp only [IntersectResult.lift, intersectOper, CsgOp.name, asHit6, if_true, difference_lift,
        show ¬ ("difference" = "union") by decide, if_false]
      cases operCsgDifference _ _ ray <;> rfl

/-- Points of a solid. -/
theorem csg_point_lift (x : V3 ℝ) : ∀ {e : Csg (Prim ℝ)}, e.All Prim.WellFormed →
    testTreePoint e.tree.lift x.lift = testTreePoint e.tree x
  | .prim (.sphere s), h => by
    show Except.ok (some (s.lift.testPoint x.lift)) = .ok (some (s.testPoint x))
    unfold Sphere.testPoint
    rw [show s.lift.center = s.center.lift from rfl, lift_distance]
    rfl
  | .prim (.cylinder c), h => by
    obtain ⟨hR, ha⟩ := prim_sound h
    show (do return some (← c.lift.testPoint x.lift)) = (do return some (← c.testPoint x))
    have key : c.lift.testPoint x.lift = c.testPoint x := by
      unfold InfiniteCylinder.testPoint
      rw [lift_pointToObjectSpace c hR (ne_zero_of_dot_one ha)]
      simp only [show c.lift.R = .fin c.R from rfl, xlit0, lit0, XR.fin_eqb, real_eqb, V4.lift, XR.fin_mul, XR.fin_add,
        XR.fin_sqrt _ (add_nonneg (mul_self_nonneg _) (mul_self_nonneg _)), xlit1, lit1, XR.fin_lt, real_sqrt]
    rw [key]
  | .op o a b, h => by
    show testTreePoint (.node (Key.str o.name) a.tree.lift b.tree.lift) _
      = testTreePoint (.node (Key.str o.name) a.tree b.tree) _
    unfold testTreePoint
    rw [csg_point_lift x h.1, csg_point_lift x h.2]
    simp only [bind, Except.bind]
    obtain ⟨a', ha⟩ := csg_point_returns x.lift a h.1
    obtain ⟨b', hb⟩ := csg_point_returns x.lift b h.2
    rw [csg_point_lift x h.1] at ha
    rw [csg_point_lift x h.2] at hb
    rw [ha, hb]
    cases o <;> rfl

/-! ## Optics: `test_intersect` -/

/-- Steps that commute with a change of numbers give folds that do. -/
theorem foldlM_lift {σ σ' τ τ' : Type} (φ : σ → σ') (ψ : τ → τ') (f : σ → τ → Py σ) (f' : σ' → τ' → Py σ') :
    ∀ (l : List τ) (v : σ), (∀ s ∈ l, ∀ v, f' (φ v) (ψ s) = (f v s).map φ) →
      (l.map ψ).foldlM f' (φ v) = (l.foldlM f v).map φ
  | [], v, _ => rfl
  | s :: l, v, h => by
    rw [List.map_cons, List.foldlM_cons, List.foldlM_cons, h s (by simp)]
    cases f v s with
    | error e => rfl
    | ok w => exact foldlM_lift φ ψ f f' l w (fun s hs => h s (by simp [hs]))

theorem normalAttr_lift (s : Shape ℝ) : s.lift.normalAttr = s.normalAttr.map (Option.map V3.lift) := by
  cases s with
  | circle c => cases h : c.normal <;> simp [Shape.lift, Shape.normalAttr, Circle.lift, h] <;> rfl
  | _ => rfl

theorem flatStep_lift {ray : Ray ℝ} (b : Bool) {s : Shape ℝ} (hs : s.LiftsAt ray) (v : LoopVars ℝ) :
    flatStep b ray.lift v.lift s.lift = (flatStep b ray v s).map LoopVars.lift := by
  unfold flatStep
  rw [hs, normalAttr_lift]
  simp only [bind, Except.bind, pure, Except.pure]
  cases s.testIntersect ray with
  | error e => rfl
  | ok r =>
  cases r with
  | none => rfl
  | six r => rfl
  | three r =>
  obtain ⟨hit, pt, n⟩ := r
  cases hit with
  | false => rfl
  | true =>
  cases pt with
  | none => rfl
  | some x =>
  simp only [Except.map, IntersectResult.lift, Hit3.lift, asHit3, if_true, need, Option.map_some,
    lift_distance_ray, LoopVars.lift, lift_ltMin]
  cases ltMin (distanceBetween ray.position x) v.minDistance <;> cases b <;> try rfl
  cases s.normalAttr <;> rfl

theorem sphereUpdate_lift (ray : Ray ℝ) (v : LoopVars ℝ) (r : Hit6 ℝ) :
    sphereUpdate ray.lift v.lift r.lift = (sphereUpdate ray v r).map LoopVars.lift := by
  obtain ⟨hit, p, q, n, m, k⟩ := r
  unfold sphereUpdate
  cases p with
  | none => rfl
  | some x =>
  simp only [bind, Except.bind, pure, Except.pure, Hit6.lift, Option.map_some, need, lift_distance_ray, lift_ltMin,
    LoopVars.lift]
  cases ltMin (distanceBetween ray.position x) v.minDistance with
  | false =>
    cases q with
    | none => rfl
    | some y =>
      simp only [Option.map_some, Bool.false_eq_true, if_false, lift_distance_ray, lift_ltMin]
      cases ltMin (distanceBetween ray.position y) v.minDistance with
      | false => rfl
      | true => cases m <;> rfl
  | true =>
    cases n with
    | none => rfl
    | some n =>
    simp only [Option.map_some, if_true]
    cases q with
    | none => rfl
    | some y =>
      have := lift_ltMin (distanceBetween ray.position y) (some (distanceBetween ray.position x))
      rw [Option.map_some] at this
      simp only [Option.map_some, lift_distance_ray, this]
      cases ltMin (distanceBetween ray.position y) (some (distanceBetween ray.position x)) with
      | false => rfl
      | true => cases m <;> rfl

theorem sphere_lift_of {s : Sphere ℝ} {ray : Ray ℝ} (hs : (Shape.sphere s).LiftsAt ray) :
    s.lift.testIntersect ray.lift = (s.testIntersect ray).lift := by
  have : (Except.ok (IntersectResult.six (s.lift.testIntersect ray.lift)) : Py _)
      = .ok (IntersectResult.six (s.testIntersect ray).lift) := hs
  injection this with this
  injection this

theorem sphereStep_lift {ray : Ray ℝ} {s : Shape ℝ} (hs : s.LiftsAt ray) (v : LoopVars ℝ × Option (Hit6 ℝ)) :
    sphereStep ray.lift (v.1.lift, v.2.map Hit6.lift) s.lift
      = (sphereStep ray v s).map fun w => (w.1.lift, w.2.map Hit6.lift) := by
  obtain ⟨v, last⟩ := v
  have key : ∀ o : Option (Hit6 ℝ),
      (do let r ← bound (o.map Hit6.lift)
          if r.hit then return (← sphereUpdate ray.lift v.lift r, o.map Hit6.lift)
          else return (v.lift, o.map Hit6.lift) : Py _)
      = Except.map (fun w : LoopVars ℝ × Option (Hit6 ℝ) => (w.1.lift, w.2.map Hit6.lift))
        (do let r ← bound o
            if r.hit then return (← sphereUpdate ray v r, o) else return (v, o)) := by
    intro o
    cases o with
    | none => rfl
    | some r =>
      simp only [Option.map_some, bound, bind, Except.bind, pure, Except.pure, sphereUpdate_lift]
      rw [show r.lift.hit = r.hit from rfl]
      cases r.hit with
      | false => rfl
      | true => cases sphereUpdate ray v r <;> rfl
  cases s with
  | sphere s =>
    have := key (some (s.testIntersect ray))
    rw [Option.map_some, ← sphere_lift_of hs] at this
    exact this
  | _ => exact key last

theorem lensSphereStep_lift {ray : Ray ℝ} {s : Shape ℝ} (hs : s.LiftsAt ray) (v : LoopVars ℝ × Bool) :
    lensSphereStep ray.lift (v.1.lift, v.2) s.lift = (lensSphereStep ray v s).map fun w => (w.1.lift, w.2) := by
  cases s with
  | sphere s =>
    show lensSphereStep _ _ (Shape.sphere s.lift) = Except.map _ (lensSphereStep _ _ (Shape.sphere s))
    unfold lensSphereStep
    simp only [sphere_lift_of hs, sphereUpdate_lift, show ∀ r : Hit6 ℝ, r.lift.hit = r.hit from fun _ => rfl,
      show ∀ r : Hit6 ℝ, r.lift.count = r.count from fun _ => rfl, bind, Except.bind, pure, Except.pure]
    cases (s.testIntersect ray).hit with
    | false => rfl
    | true => cases sphereUpdate ray v.1 _ <;> rfl
  | _ => rfl

theorem flatLoop_lift {ray : Ray ℝ} (b : Bool) (l : List (Shape ℝ)) (hl : ∀ s ∈ l, s.LiftsAt ray)
    (n : Option (Option (V3 ℝ))) (sfo : Sfo) :
    (do let v ← (l.map Shape.lift).foldlM (flatStep b ray.lift) ⟨false, none, none, n.map (Option.map V3.lift)⟩
        return (⟨v.intersected, v.pt, ← bound v.normal, sfo⟩ : Hit4 XR))
      = Except.map Hit4.lift (do
        let v ← l.foldlM (flatStep b ray) ⟨false, none, none, n⟩
        return (⟨v.intersected, v.pt, ← bound v.normal, sfo⟩ : Hit4 ℝ)) := by
  have key : (l.map Shape.lift).foldlM (flatStep b ray.lift) ⟨false, none, none, n.map (Option.map V3.lift)⟩
      = (l.foldlM (flatStep b ray) ⟨false, none, none, n⟩).map LoopVars.lift :=
    foldlM_lift LoopVars.lift Shape.lift (flatStep b ray) (flatStep b ray.lift) l ⟨false, none, none, n⟩
      (fun s hs v => flatStep_lift b (hl s hs) v)
  rw [key]
  simp only [bind, Except.bind, pure, Except.pure]
  cases l.foldlM (flatStep b ray) ⟨false, none, none, n⟩ with
  | error e => rfl
  | ok v =>
    obtain ⟨i, p, d, k⟩ := v
    cases k <;> rfl

theorem mirror_lift {m : Mirror ℝ} {ray : Ray ℝ} (h : ∀ s ∈ m.surfaces, s.LiftsAt ray) :
    m.lift.testIntersect ray.lift = (m.testIntersect ray).map Hit4.lift := by
  unfold Mirror.testIntersect
  simp only [Mirror.lift]
  split_ifs with h1 h2 h3
  · exact flatLoop_lift true m.surfaces h none .none
  · rw [firstSphere_lift, firstCircle_lift]
    cases hs : firstSphere m.surfaces with
    | none => rfl
    | some s =>
    simp only [Option.map_some, bound, bind, Except.bind, pure, Except.pure]
    rw [sphere_lift_of (h _ (firstSphere_mem hs))]
    generalize s.testIntersect ray = q
    obtain ⟨hit, p, q, n, k, c⟩ := q
    cases hit with
    | false => rfl
    | true =>
    cases hc : firstCircle m.surfaces with
    | none => rfl
    | some C =>
    simp only [Option.map_some, Hit6.lift, if_true]
    have := h _ (firstCircle_mem hc)
    have this : (do return IntersectResult.three (← C.lift.testIntersect ray.lift))
      = Except.map IntersectResult.lift (do return IntersectResult.three (← C.testIntersect ray)) := this
    have e : C.lift.testIntersect ray.lift = (C.testIntersect ray).map Hit3.lift := by
      revert this
      cases C.lift.testIntersect ray.lift <;> cases C.testIntersect ray <;>
        intro this <;> cases this <;> rfl
    rw [e]
    cases C.testIntersect ray with
    | error e => rfl
    | ok r =>
    obtain ⟨hit, x, m⟩ := r
    cases hit with
    | false => rfl
    | true =>
    cases x with
    | none => rfl
    | some x =>
    cases p with
    | none => rfl
    | some p =>
    cases q with
    | none => rfl
    | some q =>
    simp only [Except.map, Hit3.lift, if_true, Option.map_some, need, lift_lt_dist]
    split_ifs <;> rfl
  · have key : (m.surfaces.map Shape.lift).foldlM (sphereStep ray.lift) (⟨false, none, none, some none⟩, none)
        = Except.map (fun w : LoopVars ℝ × Option (Hit6 ℝ) => (w.1.lift, w.2.map Hit6.lift))
          (m.surfaces.foldlM (sphereStep ray) (⟨false, none, none, some none⟩, none)) :=
      foldlM_lift (fun w : LoopVars ℝ × Option (Hit6 ℝ) => (w.1.lift, w.2.map Hit6.lift)) Shape.lift
      (sphereStep ray) (sphereStep ray.lift) m.surfaces
      (⟨false, none, none, some none⟩, none) (fun s hs v => sphereStep_lift (h s hs) v)
    simp only [h3, if_true]
    rw [key]
    simp only [bind, Except.bind, pure, Except.pure]
    cases m.surfaces.foldlM (sphereStep ray) (⟨false, none, none, some none⟩, none) with
    | error e => rfl
    | ok v =>
      obtain ⟨⟨i, p, d, k⟩, r⟩ := v
      cases k <;> cases r <;> rfl
  · simp only [h3, if_false]; rfl

theorem lens_lift {l : Lens ℝ} {ray : Ray ℝ} (h : ∀ s ∈ l.surfaces, s.LiftsAt ray) :
    l.lift.testIntersect ray.lift = (l.testIntersect ray).map Hit4.lift := by
  unfold Lens.testIntersect
  simp only [Lens.lift]
  by_cases h1 : l.shape = "spherical_biconvex"
  · simp only [h1, if_true]
    exact flatLoop_lift false l.surfaces h (some none) (.bool true)
  by_cases h2 : l.shape = "spherical"
  · have key : (l.surfaces.map Shape.lift).foldlM (lensSphereStep ray.lift) (⟨false, none, none, some none⟩, true)
        = Except.map (fun w : LoopVars ℝ × Bool => (w.1.lift, w.2))
          (l.surfaces.foldlM (lensSphereStep ray) (⟨false, none, none, some none⟩, true)) :=
      foldlM_lift (fun w : LoopVars ℝ × Bool => (w.1.lift, w.2)) Shape.lift
      (lensSphereStep ray) (lensSphereStep ray.lift) l.surfaces
      (⟨false, none, none, some none⟩, true) (fun s hs v => lensSphereStep_lift (h s hs) v)
    simp only [h2, show ¬ ("spherical" = "spherical_biconvex") by decide, if_true, if_false]
    rw [key]
    simp only [bind, Except.bind, pure, Except.pure]
    cases l.surfaces.foldlM (lensSphereStep ray) (⟨false, none, none, some none⟩, true) with
    | error e => rfl
    | ok v =>
      obtain ⟨⟨i, p, d, k⟩, r⟩ := v
      cases k <;> rfl
  · simp only [h1, h2, if_false]; rfl

theorem surfaces_lift {o : Optic ℝ} (h : o.WellFormed) {ray : Ray ℝ} (hd : dot ray.direction ray.direction = 1)
    (hc : ∀ c, Prim.cylinder c ∈ o.prims → ∀ k : ℝ, ray.direction ≠ k * c.direction) :
    ∀ s ∈ o.surfaces, s.LiftsAt ray := by
  intro s hs
  refine shape_lifts (wellFormed_surfaces h s hs) hd fun c hm => hc c ?_
  cases o <;> simp only [Optic.surfaces, List.not_mem_nil] at hs <;>
    exact List.mem_flatMap.mpr ⟨s, hs, hm⟩

/-- A well-formed optic answers the ray in numpy as in real numbers, exceptions included. -/
theorem optic_lift {o : Optic ℝ} (h : o.WellFormed) {ray : Ray ℝ} (hd : dot ray.direction ray.direction = 1)
    (hc : ∀ c, Prim.cylinder c ∈ o.prims → ∀ k : ℝ, ray.direction ≠ k * c.direction) :
    o.lift.testIntersect ray.lift = (o.testIntersect ray).map Hit4.lift := by
  have hs := surfaces_lift h hd hc
  cases o with
  | mirror m => exact mirror_lift hs
  | lens l => exact lens_lift hs
  | grating r =>
    show Grating.testIntersect _ _ = Except.map _ (Grating.testIntersect _ _)
    unfold Grating.testIntersect
    simp only [Grating.lift]
    by_cases h1 : r.shape = "circular_flat" ∨ r.shape = "rectangular_flat"
    · simp only [h1, if_true]
      exact flatLoop_lift false r.surfaces hs none .none
    · simp only [h1, if_false]; rfl
  | detector r =>
    show Detector.testIntersect _ _ = Except.map _ (Detector.testIntersect _ _)
    unfold Detector.testIntersect
    simp only [Detector.lift]
    by_cases h1 : r.shape = "circular_flat" ∨ r.shape = "rectangular_flat"
    · simp only [h1, if_true]
      exact flatLoop_lift false r.surfaces hs none .none
    · simp only [h1, if_false]; rfl
  | compound c =>
    cases h with
    | compound he hb hi =>
    rename_i e behavior index
    show Compound.testIntersect ⟨e.tree.lift, _, _⟩ _ = Except.map _ (Compound.testIntersect ⟨e.tree, _, _⟩ _)
    unfold Compound.testIntersect
    simp only [csg_lifts hd he hc, bind, Except.bind, pure, Except.pure]
    cases testTreeIntersect e.tree ray with
    | error e => rfl
    | ok r => cases r <;> rfl
  | _ => rfl

/-! ## Optics: `do_intersect` -/

/-- What `do_intersect` returns, in numpy floats. -/
def actLift (p : Ray ℝ × List (DetHit ℝ)) : Ray XR × List (DetHit XR) := (p.1.lift, p.2.map DetHit.lift)

theorem reflect_lift {ray : Ray ℝ} (hd : dot ray.direction ray.direction = 1) {n : V3 ℝ} (hn : dot n n = 1)
    (a : OpticAttrs XR) (b : OpticAttrs ℝ) :
    ray.lift.reflect "specular_flat" (some n.lift) a = (ray.reflect "specular_flat" (some n) b).map Ray.lift := by
  rw [(lift_reflect hd hn a).1]
  unfold Ray.reflect
  rw [if_pos rfl]
  rfl

theorem refract_lift {ray : Ray ℝ} (hd : dot ray.direction ray.direction = 1) {n : V3 ℝ} (hn : dot n n = 1)
    (a : OpticAttrs XR) (b : OpticAttrs ℝ) (p : V3 XR) (q : V3 ℝ) {η₁ η₂ : ℝ} (h1 : 0 < η₁) (h2 : 0 < η₂) :
    ray.lift.refract "snells_law" (some n.lift) a p (some (.fin η₁)) (some (.fin η₂))
      = (ray.refract "snells_law" (some n) b q (some η₁) (some η₂)).map Ray.lift := by
  show (do let d ← snellDirection ray.direction.lift n.lift (.fin η₁) (.fin η₂)
           return { ray.lift with direction := d })
    = Except.map _ (do let d ← snellDirection ray.direction n η₁ η₂
                       return { ray with direction := d })
  rw [lift_snell_pos hd hn h1 h2]
  cases snellDirection ray.direction n η₁ η₂ <;> rfl

theorem index_world_real : (indexOfTheWorld : ℝ) = 1 := lit1

/-- A well-formed optic acts on the ray in numpy as in real numbers. -/
theorem act_lift {o : Optic ℝ} (h : o.WellFormed) {ray₀ ray : Ray ℝ} {x n : V3 ℝ} (hf : HitFacts o ray₀ x n)
    (hd : dot ray.direction ray.direction = 1) (land : ∀ t, 0 < t → x = ray₀.at t → ray.position = x)
    (hg : ∀ g, o = .grating g → g.Diffracts ray) (sfo : Sfo) :
    o.lift.doIntersect ray.lift x.lift (some n.lift) sfo = (o.doIntersect ray x (some n) sfo).map actLift := by
  have wrap : ∀ (a : Py (Ray XR)) (b : Py (Ray ℝ)), a = b.map Ray.lift →
      (do return (← a, ([] : List (DetHit XR)))) = Except.map actLift (do return (← b, [])) := by
    rintro a b rfl
    cases b <;> rfl
  have hn := hf.unit
  cases h with
  | annotation => rfl
  | filter => rfl
  | window => rfl
  | detector hn' ht hD => rfl
  | mirror hn' ht hdmd hD hf' hm =>
    rename_i position shape n' t D w hh f type dmd m
    obtain ⟨e1, e2⟩ := mirror_new_facts hm
    have hdu : dot m.dmdNormal m.dmdNormal = 1 := by rw [e2]; exact unit_dot hdmd
    refine wrap _ _ ?_
    unfold Mirror.doIntersect
    simp only [Mirror.lift]
    by_cases t1 : m.type = "normal"
    · simp only [t1, if_true]
      exact reflect_lift hd hn _ _
    by_cases t2 : m.type = "dmd"
    · simp only [t2, show ¬ ("dmd" = "normal") by decide, if_true, if_false]
      exact reflect_lift hd hdu _ _
    · simp only [t1, t2, if_false]; rfl
  | compound he hb hi =>
    rename_i e behavior index
    refine wrap (Compound.doIntersect ⟨e.tree.lift, behavior, .fin index⟩ _ _ _)
      (Compound.doIntersect ⟨e.tree, behavior, index⟩ _ _ _) ?_
    unfold Compound.doIntersect
    simp only
    split_ifs
    · exact reflect_lift hd hn _ _
    · unfold Compound.getIndexAtPointIfInside
      have hp' : x.lift + (1e-8 : XR) * ray.lift.direction = (x + (1e-8 : ℝ) * ray.direction).lift := rfl
      obtain ⟨b, eb⟩ := csg_point_returns (x + (1e-8 : ℝ) * ray.direction).lift e he
      have eb' := eb
      rw [csg_point_lift _ he] at eb'
      simp only [hp', eb, eb', bind, Except.bind, pure, Except.pure, index_world, index_world_real]
      cases b with
      | true => exact refract_lift hd hn _ _ _ _ one_pos hi
      | false => exact refract_lift hd hn _ _ _ _ hi one_pos
    · rfl
  | grating hn' ht hG =>
    rename_i position n' t shape w hh G g
    refine wrap _ _ ?_
    obtain rfl : n = g.normal := hf.grating g rfl
    have htt : dot g.tangent g.tangent = 1 := by
      unfold Grating.new at hG
      simp only [bind, Except.bind, pure, Except.pure] at hG
      split_ifs at hG
      split at hG <;> cases hG
      exact unit_dot ht
    unfold Grating.doIntersect
    rw [show ray.lift.order = XR.fin ray.order from rfl, xlit0, XR.fin_eqb, lit0, real_eqb]
    by_cases h0 : ray.order = 0
    · rw [decide_eq_true h0, if_pos rfl, if_pos rfl]
      exact reflect_lift hd hn _ _
    · rw [decide_eq_false h0, if_neg (by decide), if_neg (by decide)]
      obtain ⟨hperp, hpar, G', hG', hsol⟩ := (hg g rfl).resolve_left h0
      have e := (C38_nan_iff ray.direction g.normal g.tangent (by rw [norm_toE, norm_eq_one_iff]; exact hd)
        (by rw [norm_toE, norm_eq_one_iff]; exact hn) (by rw [norm_toE, norm_eq_one_iff]; exact htt) hperp hpar G'
        ray.order ray.wavelength).1 hsol
      unfold Ray.reflect
      rw [if_neg (by decide), if_pos rfl, if_neg (by decide), if_pos rfl]
      simp only [show g.lift.G = some (XR.fin G') by show g.G.map _ = _; rw [hG']; rfl, hG', need, bind, Except.bind, pure,
        Except.pure]
      exact congrArg (fun v : V3 XR => (Except.ok ({ ray.lift with direction := v } : Ray XR) : Py _)) e
  | lens hn' hn'' hD hi hl ideal =>
    rename_i position n' shape D w hh f type index l
    obtain ⟨e1, e2, e3, e4, e5⟩ := lens_new_facts hl
    have hli : 0 < l.index := by rw [e2]; exact hi
    refine wrap _ _ ?_
    unfold Lens.doIntersect
    simp only [show l.lift.type = l.type from rfl, show l.lift.index = XR.fin l.index from rfl, xlit1, lit1]
    by_cases hid : l.Ideal
    · obtain ⟨m, hm, hmu, hplane, -, t, ht, hxt⟩ := hf.lens l rfl hid
      have ht0 : 0 < t := by norm_num at ht ⊢; linarith
      have hpos := land t ht0 hxt
      obtain ⟨-, f', hf1, hf0⟩ := ideal hid
      have hlf : l.f = some f' := by rw [e3, hf1]
      have a1 : l.lift.normal = some m.lift := by show l.normal.map _ = _; rw [hm]; rfl
      have a2 : l.lift.f = some (XR.fin f') := by show l.f.map _ = _; rw [hlf]; rfl
      have hp : ray.lift.position = ray.position.lift := rfl
      subst hpos
      have hmo : dot (orientedNormal m ray.direction) (orientedNormal m ray.direction) = 1 := by
        rw [orientedNormal_self, hmu]
      have hrm := orientedNormal_perp (d := ray.direction) hplane
      by_cases t1 : l.type = "ideal"
      · obtain ⟨d', ed, hud, ed'⟩ := lift_thinLens hd hmu hf0 hplane
        simp only [t1, if_true]
        unfold Ray.refract
        rw [if_pos rfl, if_pos rfl]
        simp only [a1, a2, hm, hlf, need, bind, Except.bind]
        rw [hp, show ray.lift.direction = ray.direction.lift from rfl, show l.lift.position = l.position.lift from rfl,
          ed, ed']
        rfl
      · by_cases t2 : l.type = "ideal_collimate"
        · simp only [t2, if_true]
          rw [if_neg (by decide), if_neg (by decide)]
          unfold Ray.refract
          rw [if_neg (by decide), if_pos rfl, if_neg (by decide), if_pos rfl]
          simp only [a1, hm, need, bind, Except.bind, pure, Except.pure]
          rw [show ray.lift.direction = ray.direction.lift from rfl]
          unfold collimateDirection
          rw [lift_orientedNormal, lift_unitVector (ne_zero_of_dot_one hmo)]
          rfl
        · have t3 : l.type = "ideal_focus" := (hid.resolve_left t1).resolve_left t2
          simp only [t3, if_true]
          rw [if_neg (by decide), if_neg (by decide), if_neg (by decide), if_neg (by decide)]
          unfold Ray.refract
          rw [if_neg (by decide), if_neg (by decide), if_pos rfl, if_neg (by decide), if_neg (by decide), if_pos rfl]
          simp only [a1, a2, hm, hlf, need, bind, Except.bind, pure, Except.pure]
          rw [hp, show ray.lift.direction = ray.direction.lift from rfl, show l.lift.position = l.position.lift from rfl]
          unfold focusDirection
          simp only [lift_orientedNormal, lift_smul, lift_add, lift_sub]
          obtain ⟨-, -, h0, -⟩ := thin_forward (d := orientedNormal m ray.direction) (x := ray.position) (P := l.position) hf0 hmo hrm
            1 one_ne_zero hmo
          have e : l.position + f' * orientedNormal m ray.direction - ray.position
              = f' * orientedNormal m ray.direction - (ray.position - l.position) := by
            ext <;> simp only [sub_x, sub_y, sub_z, add_x, add_y, add_z, smul_x, smul_y, smul_z] <;> ring
          rw [e, lift_normalise h0]
          rfl
    · have t1 : ¬ l.type = "ideal" := fun e => hid (.inl e)
      have t2 : ¬ l.type = "ideal_collimate" := fun e => hid (.inr (.inl e))
      have t3 : ¬ l.type = "ideal_focus" := fun e => hid (.inr (.inr e))
      simp only [t1, t2, t3, if_false]
      cases sfo.truthy with
      | true =>
        simp only [if_true]
        exact refract_lift hd hn _ _ _ _ one_pos hli
      | false =>
        simp only [Bool.false_eq_true, if_false, need, bind, Except.bind, lift_neg]
        exact refract_lift hd (by rw [dot_neg_left, dot_neg_right, neg_neg]; exact hn) _ _ _ _ hli one_pos

/-! ## The scan and the loop -/

theorem skipped_lift (o : Optic ℝ) : o.lift.skipped = o.skipped := by cases o <;> rfl

theorem scanStep_lift {o : Optic ℝ} {ray : Ray ℝ}
    (ho : o.skipped = false → o.lift.testIntersect ray.lift = (o.testIntersect ray).map Hit4.lift) (rem : ℝ) (v : ScanVars ℝ) :
    scanStep ray.lift (.fin rem) v.lift o.lift = (scanStep ray rem v o).map ScanVars.lift := by
  unfold scanStep
  rw [skipped_lift]
  cases hk : o.skipped with
  | true => rfl
  | false =>
    simp only [Bool.false_eq_true, if_false, ho hk, bind, Except.bind, pure, Except.pure]
    cases o.testIntersect ray with
    | error e => rfl
    | ok r =>
      obtain ⟨hit, pt, n, sfo⟩ := r
      simp only [Except.map, Hit4.lift]
      cases hit with
      | false => rfl
      | true =>
        cases pt with
        | none => rfl
        | some pt =>
          simp only [Option.map_some, need, lift_distance_ray, if_true, ScanVars.lift, lift_ltMin, gt_iff_lt, XR.fin_lt,
            show (clippingFloor : XR) = .fin clippingFloor from rfl]
          split_ifs <;> rfl

theorem continues_lift (s : RunState ℝ) (mi : Option Int) : s.lift.continues mi = s.continues mi := by
  unfold RunState.continues
  rw [xlit0, lit0]
  rfl

theorem step_lift {optics : List (Optic ℝ)} (hw : ∀ o ∈ optics, o.WellFormed) (md : ℝ) {s : RunState ℝ}
    (hu : dot s.ray.direction s.ray.direction = 1) (hc : CrossesCylinders optics s.ray)
    (hg : GratingsAnswer optics s.ray) :
    runStep (.fin md) (optics.map Optic.lift) s.lift = (runStep md optics s).lift ∧
    ∀ s', runStep md optics s = .next s' → dot s'.ray.direction s'.ray.direction = 1 := by
  have hscan : (optics.map Optic.lift).foldlM (scanStep s.lift.ray s.lift.remaining) ⟨false, none, s.lift.selected, s.lift.sfo⟩
      = (optics.foldlM (scanStep s.ray s.remaining) ⟨false, none, s.selected, s.sfo⟩).map ScanVars.lift :=
    foldlM_lift ScanVars.lift Optic.lift (scanStep s.ray s.remaining) (scanStep s.ray.lift (.fin s.remaining)) optics
      ⟨false, none, s.selected, s.sfo⟩
      (fun o ho v => scanStep_lift (fun _ => optic_lift (hw o ho) hu (hc o ho)) _ v)
  unfold runStep
  simp only [hscan, fly_some]
  cases hv : optics.foldlM (scanStep s.ray s.remaining) ⟨false, none, s.selected, s.sfo⟩ with
  | error e => exact ⟨rfl, fun s' h => by cases h⟩
  | ok v =>
    simp only [Except.map]
    rw [show v.lift.intersected = v.intersected from rfl]
    cases hi : v.intersected with
    | false =>
      simp only [Bool.not_false, if_true]
      refine ⟨?_, ?_⟩
      · show StepResult.next _ = StepResult.next _
        refine congrArg StepResult.next ?_
        show (⟨_, _, _, _, _, _⟩ : RunState XR) = ⟨_, _, _, _, _, _⟩
        rw [RunState.mk.injEq]
        exact ⟨lift_fly _ _, XR.fin_sub _ _, rfl, rfl, rfl, rfl⟩
      · rintro s' h
        cases h
        exact hu
    | true =>
      obtain ⟨sel, res, hsel, hsfo, hch⟩ := scan_chosen (fun _ _ _ => rfl) hv hi
      obtain ⟨sfo, hsfo⟩ := Option.ne_none_iff_exists'.mp hsfo
      have ho := hch.mem
      have hwo := hw _ ho
      have hl := optic_lift hwo hu (hc _ ho)
      rw [hch.test] at hl
      obtain ⟨pt, m, h1, h2, h3⟩ := test_good hwo s.ray hu hl hch.hit
      have hpt : pt = sel.pt.lift := by
        have : res.lift.pt = some sel.pt.lift := by show res.pt.map _ = _; rw [hch.pt]; rfl
        exact Option.some.inj (h1.symm.trans this)
      rcases h3 with hnan | ⟨x, k, hx, hk, hF⟩
      · exfalso
        rw [hpt] at hnan
        exact XR.noConfusion (congrArg V3.x hnan)
      rw [hpt] at hx
      obtain rfl := lift_inj hx.symm
      have hnorm : sel.normal = some k := by
        rw [hch.normal]
        have : res.normal.map V3.lift = some k.lift := by rw [← hk]; exact h2
        cases hr : res.normal with
        | none => rw [hr] at this; cases this
        | some n =>
          rw [hr] at this
          exact congrArg some (lift_inj (Option.some.inj this))
      simp only [Bool.not_true, Bool.false_eq_true, if_false, hsel, hsfo,
        show v.lift.selected = some sel.lift by show v.selected.map _ = _; rw [hsel]; rfl,
        show v.lift.sfo = some sfo from hsfo]
      have hdist : distanceBetween s.lift.ray.position sel.lift.pt = .fin (distanceBetween s.ray.position sel.pt) :=
        lift_distance _ _
      have hfl : s.lift.ray.movedTo (s.lift.ray.position + XR.fin (distanceBetween s.ray.position sel.pt) * s.lift.ray.direction)
          = (s.ray.movedTo (s.ray.position + distanceBetween s.ray.position sel.pt * s.ray.direction)).lift := lift_fly _ _
      rw [hdist, hfl]
      generalize hray : s.ray.movedTo (s.ray.position + distanceBetween s.ray.position sel.pt * s.ray.direction) = ray
      have hud : dot ray.direction ray.direction = 1 := by rw [← hray]; exact hu
      rw [show ray.lift.type = ray.type from rfl]
      by_cases ht : ray.type = "faerie_fire"
      · simp only [ht, if_true]
        refine ⟨?_, ?_⟩
        · refine congrArg StepResult.next ?_
          show (⟨_, _, _, _, _, _⟩ : RunState XR) = ⟨_, _, _, _, _, _⟩
          rw [RunState.mk.injEq]
          exact ⟨rfl, XR.fin_sub _ _, rfl, rfl, rfl, rfl⟩
        · rintro s' h
          cases h
          exact hud
      · simp only [ht, if_false]
        have land : ∀ t, 0 < t → sel.pt = s.ray.at t → ray.position = sel.pt := by
          intro t ht e
          rw [← hray]
          show s.ray.at (distanceBetween s.ray.position sel.pt) = sel.pt
          have hdt : distanceBetween s.ray.position sel.pt = t := by
            rw [e, dist_at s.ray hu, abs_of_pos ht]
          rw [hdt, e]
        have hgr : ∀ g, sel.optic = .grating g → g.Diffracts ray := by
          intro g e
          have := hg g (by rw [← e]; exact ho) ⟨res, by have := hch.test; rw [e] at this; exact this, hch.hit⟩
          rw [← hray]
          exact this
        have hact := act_lift hwo hF hud land hgr sfo
        obtain ⟨d, b, rows, hdo, hA⟩ := do_good hwo hF hud land hgr sfo
        have hact' : sel.lift.optic.doIntersect ray.lift sel.lift.pt sel.lift.normal sfo
            = (sel.optic.doIntersect ray sel.pt sel.normal sfo).map actLift := by
          show sel.optic.lift.doIntersect ray.lift sel.pt.lift (sel.normal.map V3.lift) sfo = _
          rw [hnorm]; exact hact
        rw [hact']
        rw [hact] at hdo
        rw [hnorm]
        cases hq : sel.optic.doIntersect ray sel.pt (some k) sfo with
        | error e => rw [hq] at hdo; cases hdo
        | ok q =>
          rw [hq] at hdo
          obtain ⟨q1, q2⟩ := q
          simp only [Except.map, actLift]
          refine ⟨?_, ?_⟩
          · refine congrArg StepResult.next ?_
            show (⟨_, _, _, _, _, _⟩ : RunState XR) = ⟨_, _, _, _, _, _⟩
            rw [RunState.mk.injEq]
            exact ⟨rfl, XR.fin_sub _ _, rfl, rfl, rfl, (List.map_append ..).symm⟩
          · rintro s' h
            cases h
            have : q1.lift = ({ ray with direction := d, blocked := b } : Ray ℝ).lift := by
              injection hdo with hdo
              exact congrArg Prod.fst hdo
            have hdir : q1.direction = d := lift_inj (congrArg Ray.direction this)
            show dot q1.direction q1.direction = 1
            rw [hdir]; exact hA.unit

theorem run_lift {optics : List (Optic ℝ)} (hw : ∀ o ∈ optics, o.WellFormed) {md : ℝ} {mi : Option Int} {ray : Ray ℝ}
    (hreg : RegularRun md optics mi ray) :
    ∀ (fuel k : Nat) (s : RunState ℝ), Passes md optics mi k (RunState.init ray md) s →
    dot s.ray.direction s.ray.direction = 1 →
    runLoop (.fin md) (optics.map Optic.lift) mi fuel s.lift = (runLoop md optics mi fuel s).lift
  | 0, _, _, _, _ => rfl
  | fuel + 1, k, s, hp, hu => by
    unfold runLoop
    rw [continues_lift]
    cases hc : s.continues mi with
    | false => rfl
    | true =>
      simp only [if_true]
      obtain ⟨h1, h2⟩ := hreg k s hp
      obtain ⟨hst, hn⟩ := step_lift hw md hu h1 h2
      rw [hst]
      cases hr : runStep md optics s with
      | raised e s' => rfl
      | next s' => exact run_lift hw hreg fuel (k + 1) s' (.succ hp hc hr) (hn s' hr)

end Optics
