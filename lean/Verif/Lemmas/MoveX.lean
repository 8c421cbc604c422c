import Verif.Lemmas.Motion
import Verif.Lemmas.SceneRun
import Verif.Spec.Equivariance

/-!
# Rigid motions in numpy: what the optics report

`Motion.ptX` and `Motion.dirX` are the motion on numpy arrays: finite arrays are moved, arrays with a `nan` or an
infinity are left alone.
-/

namespace Optics
open V3

theorem real?_lift (u : V3 ℝ) : u.lift.real? = some u := rfl

theorem real?_some {v : V3 XR} {u : V3 ℝ} (h : v.real? = some u) : v = u.lift := by
  obtain ⟨x, y, z⟩ := v
  cases x <;> cases y <;> cases z <;> cases h
  rfl

namespace Motion
variable (g : Motion)

theorem ptX_lift (u : V3 ℝ) : g.ptX u.lift = (g.pt u).lift := rfl
theorem dirX_lift (u : V3 ℝ) : g.dirX u.lift = (g.dir u).lift := rfl
theorem ptX_none {v : V3 XR} (h : v.real? = none) : g.ptX v = v := by unfold ptX; rw [h]; rfl
theorem dirX_none {v : V3 XR} (h : v.real? = none) : g.dirX v = v := by unfold dirX; rw [h]; rfl
theorem ptX_nan : g.ptX V3.nan = V3.nan := rfl
theorem dirX_nan : g.dirX V3.nan = V3.nan := rfl

theorem dirX_neg (v : V3 XR) : g.dirX (-v) = -g.dirX v := by
  cases h : v.real? with
  | some u => rw [real?_some h, lift_neg, dirX_lift, dirX_lift, lift_neg, dir_neg]
  | none =>
    have h' : (-v).real? = none := by
      obtain ⟨x, y, z⟩ := v
      cases x <;> cases y <;> cases z <;> first | rfl | cases h
    rw [dirX_none g h, dirX_none g h']

theorem far_left {v : V3 XR} (h : v.real? = none) (a b : V3 ℝ) :
    distanceBetween v a.lift = distanceBetween v b.lift := by
  obtain ⟨x, y, z⟩ := v
  cases x <;> cases y <;> cases z <;> first | rfl | cases h

theorem far_right {v : V3 XR} (h : v.real? = none) (a b : V3 ℝ) :
    distanceBetween a.lift v = distanceBetween b.lift v := by
  obtain ⟨x, y, z⟩ := v
  cases x <;> cases y <;> cases z <;> first | rfl | cases h

theorem distX (u v : V3 XR) : distanceBetween (g.ptX u) (g.ptX v) = distanceBetween u v := by
  cases hu : u.real? with
  | some a =>
    rw [real?_some hu, ptX_lift]
    cases hv : v.real? with
    | some b => rw [real?_some hv, ptX_lift, lift_distance, lift_distance, distance_pt]
    | none => rw [ptX_none g hv]; exact far_right hv _ _
  | none =>
    rw [ptX_none g hu]
    cases hv : v.real? with
    | some b => rw [real?_some hv, ptX_lift]; exact far_left hu _ _
    | none => rw [ptX_none g hv]
end Motion

/-! ## Results -/

/-- A moved result, on arrays. -/
noncomputable def Hit3.moveX (g : Motion) (h : Hit3 XR) : Hit3 XR := ⟨h.hit, h.pt.map g.ptX, h.normal.map g.dirX⟩
/-- see `Hit3.moveX` -/
noncomputable def Hit6.moveX (g : Motion) (h : Hit6 XR) : Hit6 XR :=
  ⟨h.hit, h.pt1.map g.ptX, h.pt2.map g.ptX, h.n1.map g.dirX, h.n2.map g.dirX, h.count⟩
/-- see `Hit3.moveX` -/
noncomputable def Hit4.moveX (g : Motion) (h : Hit4 XR) : Hit4 XR :=
  ⟨h.hit, h.pt.map g.ptX, h.normal.map g.dirX, h.sfo⟩
/-- see `Hit3.moveX` -/
noncomputable def IntersectResult.moveX (g : Motion) : IntersectResult XR → IntersectResult XR
  | .none => .none
  | .three r => .three (r.moveX g)
  | .six r => .six (r.moveX g)

theorem hit3_lift_move (g : Motion) (h : Hit3 ℝ) : (h.move g).lift = h.lift.moveX g := by
  obtain ⟨hit, p, n⟩ := h
  cases p <;> cases n <;> rfl

theorem hit6_lift_move (g : Motion) (h : Hit6 ℝ) : (h.move g).lift = h.lift.moveX g := by
  obtain ⟨hit, p, q, n, m, k⟩ := h
  cases p <;> cases q <;> cases n <;> cases m <;> rfl

/-! ## The CSG operators only compare distances -/

/-- see `Hit3.moveX` -/
noncomputable def Found.moveX (g : Motion) (f : Found XR) : Found XR :=
  ⟨f.point.map g.ptX, f.normal.map g.dirX, f.distance, f.num⟩

theorem helper_moveX (g : Motion) (r : Hit6 XR) {ray ray' : Ray XR} (hr : ray'.position = g.ptX ray.position)
    (mode : Mode) : helperFindIntersects (r.moveX g) ray' mode = (helperFindIntersects r ray mode).map (Found.moveX g) := by
  obtain ⟨hit, p, q, n, m, k⟩ := r
  cases p <;> cases q <;> simp only [helperFindIntersects, Hit6.moveX, Option.map_none, Option.map_some] <;> try rfl
  · rw [hr, g.distX]; rfl
  · cases mode <;> simp only [hr, g.distX] <;> split_ifs <;> rfl

theorem union_moveX (g : Motion) (A B : Hit6 XR) {ray ray' : Ray XR} (hr : ray'.position = g.ptX ray.position) :
    operCsgUnion (A.moveX g) (B.moveX g) ray' = (operCsgUnion A B ray).map (Hit6.moveX g) := by
  unfold operCsgUnion
  simp only [helper_moveX g _ hr, show ∀ C : Hit6 XR, (C.moveX g).hit = C.hit from fun _ => rfl,
    show ∀ C : Hit6 XR, (C.moveX g).count = C.count from fun _ => rfl, bind, Except.bind, pure, Except.pure]
  cases helperFindIntersects A ray .nearest with
  | error e =>
    cases helperFindIntersects B ray .nearest <;> cases A.hit <;> cases B.hit <;> rfl
  | ok a =>
    cases helperFindIntersects B ray .nearest with
    | error e => cases A.hit <;> cases B.hit <;> rfl
    | ok b =>
      cases A.hit <;> cases B.hit <;> try rfl
      obtain ⟨pa, na, da, ka⟩ := a
      obtain ⟨pb, nb, db, kb⟩ := b
      simp only [Bool.and_self, if_true, Except.map, Found.moveX]
      cases pa <;> cases pb <;> try rfl
      simp only [Option.map_some]
      cases pyLt da db with
      | error e => rfl
      | ok c => cases c <;> rfl

theorem intersect_moveX (g : Motion) (A B : Hit6 XR) {ray ray' : Ray XR} (hr : ray'.position = g.ptX ray.position) :
    operCsgIntersect (A.moveX g) (B.moveX g) ray' = (operCsgIntersect A B ray).map (Hit6.moveX g) := by
  unfold operCsgIntersect
  simp only [helper_moveX g _ hr, show ∀ C : Hit6 XR, (C.moveX g).hit = C.hit from fun _ => rfl,
    show ∀ C : Hit6 XR, (C.moveX g).count = C.count from fun _ => rfl, bind, Except.bind, pure, Except.pure]
  cases A.hit <;> cases B.hit <;> try rfl
  simp only [Bool.and_self, if_true]
  cases helperFindIntersects A ray .nearest with
  | error e => rfl
  | ok an =>
  cases helperFindIntersects B ray .nearest with
  | error e => rfl
  | ok bn =>
  cases helperFindIntersects A ray .farthest with
  | error e => rfl
  | ok af =>
  cases helperFindIntersects B ray .farthest with
  | error e => rfl
  | ok bf =>
  simp only [Except.map, Found.moveX]
  cases pyLt an.distance bn.distance <;> cases pyLt bn.distance af.distance <;> cases pyLt bn.distance an.distance <;>
    cases pyLt an.distance bf.distance <;> cases pyLt an.distance af.distance <;> simp only <;> split_ifs <;> rfl

theorem difference_moveX (g : Motion) (A B : Hit6 XR) {ray ray' : Ray XR} (hr : ray'.position = g.ptX ray.position) :
    operCsgDifference (A.moveX g) (B.moveX g) ray' = (operCsgDifference A B ray).map (Hit6.moveX g) := by
  unfold operCsgDifference
  simp only [helper_moveX g _ hr, show ∀ C : Hit6 XR, (C.moveX g).hit = C.hit from fun _ => rfl,
    show ∀ C : Hit6 XR, (C.moveX g).count = C.count from fun _ => rfl, bind, Except.bind, pure, Except.pure]
  cases helperFindIntersects A ray .nearest with
  | error e => cases A.hit <;> cases B.hit <;> rfl
  | ok an =>
  cases A.hit <;> cases B.hit <;> try rfl
  simp only [Bool.and_self, if_true]
  cases helperFindIntersects B ray .nearest with
  | error e => rfl
  | ok bn =>
  cases helperFindIntersects A ray .farthest with
  | error e => rfl
  | ok af =>
  cases helperFindIntersects B ray .farthest with
  | error e => rfl
  | ok bf =>
  simp only [Except.map, Found.moveX]
  cases pyLt an.distance bn.distance <;> cases pyLt bf.distance af.distance <;> simp only <;> split_ifs <;> rfl

/-! ## Shapes and trees -/

/-- A shape whose `test_intersect` meets no division by zero other than a cylinder's parallel rays. -/
def Shape.Sound : Shape ℝ → Prop
  | .plane p => p.normal ≠ ⟨0, 0, 0⟩
  | .circle c => ∀ p, c.plane = some p → p.normal ≠ ⟨0, 0, 0⟩
  | .rectangle r => r.plane.normal ≠ ⟨0, 0, 0⟩
  | .sphere s => s.R ≠ 0
  | .infiniteCylinder c => c.R ≠ 0 ∧ dot c.direction c.direction = 1
  | _ => True

theorem ray_lift_move_position (g : Motion) (ray : Ray ℝ) : (ray.move g).lift.position = g.ptX ray.lift.position := rfl

theorem unit_dir (g : Motion) {d : V3 ℝ} (h : dot d d = 1) : dot (g.dir d) (g.dir d) = 1 := by rw [g.dot_dir, h]

theorem dir_ne_zero (g : Motion) {d : V3 ℝ} (h : d ≠ ⟨0, 0, 0⟩) : g.dir d ≠ ⟨0, 0, 0⟩ :=
  fun e => h (g.dir_inj (e.trans g.dir_zero.symm))

theorem cylinder_parallel_nan (c : InfiniteCylinder ℝ) (ha : dot c.direction c.direction = 1) (hR : c.R ≠ 0)
    (ray : Ray ℝ) (h0 : axQ c.direction ray.direction = 0) :
    c.lift.testIntersect ray.lift = .ok (Hit6.one V3.nan V3.nan 2) := by
  have hpar : ray.direction = (dot ray.direction c.direction) * c.direction := by
    rw [← sub_eq_zero', ← V3.norm_eq_zero, ← mul_self_eq_zero, norm_mul_self]
    simp only [dot_sub_left, dot_sub_right, dot_smul_left, dot_smul_right, ha, dot_comm c.direction]
    unfold axQ at h0
    linarith
  exact C20_cylinder_parallel_counterexample c.center c.direction (ne_zero_of_dot_one ha) c.R hR
    (InfiniteCylinder.lift ⟨c.center, c.R, c.R * 2.0, c.direction⟩)
    (by
      show Except.ok _ = _
      rw [lift_unitVector (ne_zero_of_dot_one ha), unitVector_of_unit ha]; rfl) ray _ hpar

/-- A moved shape reports the moved result. -/
theorem shape_moveX (g : Motion) {s : Shape ℝ} (hs : s.Sound) {ray : Ray ℝ} (hd : dot ray.direction ray.direction = 1) :
    (s.move g).lift.testIntersect (ray.move g).lift = (s.lift.testIntersect ray.lift).map (IntersectResult.moveX g) := by
  have hd' : dot (ray.move g).direction (ray.move g).direction = 1 := unit_dir g hd
  have hd0 := ne_zero_of_dot_one hd
  have hd0' := ne_zero_of_dot_one hd'
  cases s with
  | shape c => rfl
  | cylinder c R D h => rfl
  | plane p =>
    show Except.ok (IntersectResult.three ((p.move g).lift.testIntersect (ray.move g).lift))
      = .ok (.three ((p.lift.testIntersect ray.lift).moveX g))
    rw [lift_plane_testIntersect _ hs _ hd0, lift_plane_testIntersect _ (dir_ne_zero g hs) _ hd0', plane_move,
      hit3_lift_move]
  | rectangle r =>
    show Except.ok (IntersectResult.three ((r.move g).lift.testIntersect (ray.move g).lift))
      = .ok (.three ((r.lift.testIntersect ray.lift).moveX g))
    rw [lift_rectangle_testIntersect _ hs _ hd0, lift_rectangle_testIntersect _ (dir_ne_zero g hs) _ hd0', rectangle_move,
      hit3_lift_move]
  | sphere s =>
    show Except.ok (IntersectResult.six ((s.move g).lift.testIntersect (ray.move g).lift))
      = .ok (.six ((s.lift.testIntersect ray.lift).moveX g))
    rw [lift_sphere_testIntersect s hs _ hd, lift_sphere_testIntersect (s.move g) hs _ hd', sphere_move, hit6_lift_move]
  | circle c =>
    show (do return IntersectResult.three (← (c.move g).lift.testIntersect (ray.move g).lift))
      = Except.map _ (do return IntersectResult.three (← c.lift.testIntersect ray.lift))
    cases hp : c.plane with
    | none =>
      unfold Circle.testIntersect
      simp only [Circle.lift, Circle.move, hp, Option.map_none]
      rfl
    | some p =>
      rw [lift_circle_testIntersect c p hp (hs p hp) _ hd0,
        lift_circle_testIntersect (c.move g) (p.move g) (by simp [Circle.move, hp]) (dir_ne_zero g (hs p hp)) _ hd0',
        circle_move]
      cases c.testIntersect ray with
      | error e => rfl
      | ok h => show Except.ok (IntersectResult.three (h.move g).lift) = _; rw [hit3_lift_move]; rfl
  | infiniteCylinder c =>
    obtain ⟨hR, ha⟩ := hs
    show (do return IntersectResult.six (← (c.move g).lift.testIntersect (ray.move g).lift))
      = Except.map _ (do return IntersectResult.six (← c.lift.testIntersect ray.lift))
    have hq : axQ (c.move g).direction (ray.move g).direction = axQ c.direction ray.direction := axQ_dir g _ _
    rcases (axQ_nonneg ha ray.direction).lt_or_eq with hA | hA
    · rw [lift_cylinder_testIntersect c ha hR ray hA,
        lift_cylinder_testIntersect (c.move g) (unit_dir g ha) hR (ray.move g) (by rw [hq]; exact hA), cylinder_move g c ha]
      cases c.testIntersect ray with
      | error e => rfl
      | ok h => show Except.ok (IntersectResult.six (h.move g).lift) = _; rw [hit6_lift_move]; rfl
    · rw [cylinder_parallel_nan c ha hR ray hA.symm,
        cylinder_parallel_nan (c.move g) (unit_dir g ha) hR (ray.move g) (by rw [hq]; exact hA.symm)]
      rfl

theorem prim_sound {p : Prim ℝ} (h : p.WellFormed) : p.toShape.Sound := by
  cases p with
  | sphere s => exact h
  | cylinder c =>
    obtain ⟨h1, h2⟩ := h
    rw [norm_toE, norm_eq_one_iff] at h2
    exact ⟨h1, h2⟩

/-- A ray and the moved ray: every moved shape reports the moved result. -/
structure MovesAlong (g : Motion) (ray ray' : Ray XR) : Prop where
  position : ray'.position = g.ptX ray.position
  shape : ∀ {s : Shape ℝ}, s.Sound → (s.move g).lift.testIntersect ray' = (s.lift.testIntersect ray).map (IntersectResult.moveX g)

theorem follows_unit (g : Motion) {ray : Ray ℝ} (hd : dot ray.direction ray.direction = 1) :
    MovesAlong g ray.lift (ray.move g).lift := ⟨rfl, fun hs => shape_moveX g hs hd⟩

/-- A moved CSG solid reports the moved result, exceptions included. -/
theorem csg_moveX (g : Motion) {ray ray' : Ray XR} (hd : MovesAlong g ray ray') : ∀ {e : Csg (Prim ℝ)},
    e.All Prim.WellFormed → testTreeIntersect (e.tree.move g).lift ray'
      = (testTreeIntersect e.tree.lift ray).map (IntersectResult.moveX g)
  | .prim p, h => hd.shape (prim_sound h)
  | .op o a b, h => by
    show testTreeIntersect (.node (Key.str o.name) (a.tree.move g).lift (b.tree.move g).lift) _
      = Except.map _ (testTreeIntersect (.node (Key.str o.name) a.tree.lift b.tree.lift) _)
    unfold testTreeIntersect
    rw [csg_moveX g hd h.1, csg_moveX g hd h.2]
    simp only [bind, Except.bind, pure, Except.pure]
    cases testTreeIntersect a.tree.lift ray with
    | error e => rfl
    | ok ra =>
    simp only [Except.map]
    cases testTreeIntersect b.tree.lift ray with
    | error e => rfl
    | ok rb =>
    have hr := hd.position
    cases ra <;> cases rb <;> try rfl
    all_goals cases o <;> try rfl
    · simp only [IntersectResult.moveX, intersectOper, CsgOp.name, asHit6, if_true, union_moveX g _ _ hr]
      cases operCsgUnion _ _ ray <;> rfl
    · simp only [IntersectResult.moveX, intersectOper, CsgOp.name, asHit6, if_true, intersect_moveX g _ _ hr,
        show ¬ ("intersect" = "union") by decide, show ¬ ("intersect" = "difference") by decide, if_false]
      cases operCsgIntersect _ _ ray <;> rfl
    · simp only [IntersectResult.moveX, intersectOper, CsgOp.name, asHit6, if_true, difference_moveX g _ _ hr,
        show ¬ ("difference" = "union") by decide, if_false]
      cases operCsgDifference _ _ ray <;> rfl

/-- Points of a moved solid. -/
theorem csg_testPoint_moveX (g : Motion) (x : V3 ℝ) : ∀ {e : Csg (Prim ℝ)}, e.All Prim.WellFormed →
    testTreePoint (e.tree.move g).lift (g.pt x).lift = testTreePoint e.tree.lift x.lift
  | .prim (.sphere s), h => by
    show Except.ok (some ((s.move g).lift.testPoint (g.pt x).lift)) = .ok (some (s.lift.testPoint x.lift))
    unfold Sphere.testPoint
    rw [show (s.move g).lift.center = g.ptX s.lift.center from rfl, ← g.ptX_lift, g.distX]; rfl
  | .prim (.cylinder c), h => by
    obtain ⟨hR, ha⟩ := prim_sound h
    show (do return some (← (c.move g).lift.testPoint (g.pt x).lift)) = (do return some (← c.lift.testPoint x.lift))
    have key : ∀ (c : InfiniteCylinder ℝ) (x : V3 ℝ), c.R ≠ 0 → dot c.direction c.direction = 1 →
        c.lift.testPoint x.lift = c.testPoint x := by
      intro c x hR ha
      unfold InfiniteCylinder.testPoint
      rw [lift_pointToObjectSpace c hR (ne_zero_of_dot_one ha)]
      simp only [show c.lift.R = .fin c.R from rfl, xlit0, lit0, XR.fin_eqb, real_eqb, V4.lift, XR.fin_mul, XR.fin_add,
        XR.fin_sqrt _ (add_nonneg (mul_self_nonneg _) (mul_self_nonneg _)), xlit1, lit1, XR.fin_lt, real_sqrt]
    rw [key c x hR ha, key (c.move g) (g.pt x) hR (unit_dir g ha), cylinder_testPoint_move g c ha]
  | .op o a b, h => by
    show testTreePoint (.node (Key.str o.name) (a.tree.move g).lift (b.tree.move g).lift) _
      = testTreePoint (.node (Key.str o.name) a.tree.lift b.tree.lift) _
    unfold testTreePoint
    rw [csg_testPoint_moveX g x h.1, csg_testPoint_moveX g x h.2]
    simp only [bind, Except.bind]
    obtain ⟨a', ha⟩ := csg_point_returns x.lift a h.1
    obtain ⟨b', hb⟩ := csg_point_returns x.lift b h.2
    rw [ha, hb]

/-! ## Optics -/

/-- see `Hit3.moveX` -/
noncomputable def LoopVars.moveX (g : Motion) (v : LoopVars XR) : LoopVars XR :=
  ⟨v.intersected, v.pt.map g.ptX, v.minDistance, v.normal.map (Option.map g.dirX)⟩

/-- Steps that commute give folds that commute. -/
theorem foldlM_comm {σ τ ρ ρ' : Type} (φ : σ → σ) (ψ : τ → ρ) (ψ' : τ → ρ') (f : σ → ρ → Py σ) (f' : σ → ρ' → Py σ) :
    ∀ (l : List τ) (v : σ), (∀ s ∈ l, ∀ v, f' (φ v) (ψ' s) = (f v (ψ s)).map φ) →
      (l.map ψ').foldlM f' (φ v) = ((l.map ψ).foldlM f v).map φ
  | [], v, _ => rfl
  | s :: l, v, h => by
    rw [List.map_cons, List.map_cons, List.foldlM_cons, List.foldlM_cons, h s (by simp)]
    cases f v (ψ s) with
    | error e => rfl
    | ok w => exact foldlM_comm φ ψ ψ' f f' l w (fun s hs => h s (by simp [hs]))

theorem normalAttr_moveX (g : Motion) (s : Shape ℝ) :
    (s.move g).lift.normalAttr = s.lift.normalAttr.map (Option.map g.dirX) := by
  cases s with
  | circle c => cases h : c.normal <;> simp [Shape.move, Shape.lift, Shape.normalAttr, Circle.move, Circle.lift, h] <;> rfl
  | _ => rfl

theorem flatStep_moveX (g : Motion) {ray ray' : Ray XR} (hd : MovesAlong g ray ray') (b : Bool) {s : Shape ℝ}
    (hs : s.Sound) (v : LoopVars XR) :
    flatStep b ray' (v.moveX g) (s.move g).lift = (flatStep b ray v s.lift).map (LoopVars.moveX g) := by
  unfold flatStep
  rw [hd.shape hs, normalAttr_moveX]
  simp only [bind, Except.bind, pure, Except.pure]
  cases s.lift.testIntersect ray with
  | error e => rfl
  | ok r =>
  cases r with
  | none => rfl
  | six r => rfl
  | three r =>
  obtain ⟨hit, pt, n⟩ := r
  cases hit with
  | false => rfl
  | true =>
  cases pt with
  | none => rfl
  | some x =>
  simp only [Except.map, IntersectResult.moveX, Hit3.moveX, asHit3, if_true, need, Option.map_some,
    hd.position, g.distX, LoopVars.moveX]
  cases ltMin (distanceBetween ray.position x) v.minDistance <;> cases b <;> try rfl
  cases s.lift.normalAttr <;> rfl

theorem sphereUpdate_moveX (g : Motion) {ray ray' : Ray XR} (hd : MovesAlong g ray ray') (v : LoopVars XR) (r : Hit6 XR) :
    sphereUpdate ray' (v.moveX g) (r.moveX g) = (sphereUpdate ray v r).map (LoopVars.moveX g) := by
  obtain ⟨hit, p, q, n, m, k⟩ := r
  unfold sphereUpdate
  cases p with
  | none => rfl
  | some x =>
  simp only [bind, Except.bind, pure, Except.pure, Hit6.moveX, Option.map_some, need, hd.position, g.distX,
    LoopVars.moveX]
  cases ltMin (distanceBetween ray.position x) v.minDistance with
  | false =>
    cases q with
    | none => rfl
    | some y =>
      simp only [Option.map_some, Bool.false_eq_true, if_false, g.distX]
      cases ltMin (distanceBetween ray.position y) v.minDistance with
      | false => rfl
      | true =>
        cases m with
        | none => rfl
        | some m => simp only [Option.map_some, if_true, Except.map, LoopVars.moveX, g.dirX_neg]
  | true =>
    cases n with
    | none => rfl
    | some n =>
    simp only [Option.map_some, if_true]
    cases q with
    | none => simp only [Option.map_none, Except.map, LoopVars.moveX, Option.map_some, g.dirX_neg]
    | some y =>
      simp only [Option.map_some, g.distX]
      cases ltMin (distanceBetween ray.position y) _ with
      | false =>
        simp only [Bool.false_eq_true, if_false, Except.map, LoopVars.moveX, Option.map_some, g.dirX_neg]
      | true =>
        cases m with
        | none => rfl
        | some m => simp only [Option.map_some, if_true, Except.map, LoopVars.moveX, g.dirX_neg]

theorem sphere_moveX (g : Motion) {s : Sphere ℝ} (hs : s.R ≠ 0) {ray ray' : Ray XR} (hd : MovesAlong g ray ray') :
    (s.move g).lift.testIntersect ray' = (s.lift.testIntersect ray).moveX g := by
  have : (Except.ok (IntersectResult.six ((s.move g).lift.testIntersect ray')) : Py _)
      = .ok (IntersectResult.six ((s.lift.testIntersect ray).moveX g)) := hd.shape (s := .sphere s) hs
  injection this with this
  injection this

theorem sphereStep_moveX (g : Motion) {ray ray' : Ray XR} (hd : MovesAlong g ray ray') {s : Shape ℝ}
    (hs : s.Sound) (v : LoopVars XR × Option (Hit6 XR)) :
    sphereStep ray' (v.1.moveX g, v.2.map (Hit6.moveX g)) (s.move g).lift
      = (sphereStep ray v s.lift).map fun w => (w.1.moveX g, w.2.map (Hit6.moveX g)) := by
  obtain ⟨v, last⟩ := v
  have key : ∀ o : Option (Hit6 XR),
      (do let r ← bound (o.map (Hit6.moveX g))
          if r.hit then return (← sphereUpdate ray' (v.moveX g) r, o.map (Hit6.moveX g))
          else return (v.moveX g, o.map (Hit6.moveX g)) : Py _)
      = Except.map (fun w : LoopVars XR × Option (Hit6 XR) => (w.1.moveX g, w.2.map (Hit6.moveX g)))
        (do let r ← bound o
            if r.hit then return (← sphereUpdate ray v r, o) else return (v, o)) := by
    intro o
    cases o with
    | none => rfl
    | some r =>
      simp only [Option.map_some, bound, bind, Except.bind, pure, Except.pure, sphereUpdate_moveX g hd]
      rw [show (r.moveX g).hit = r.hit from rfl]
      cases r.hit with
      | false => rfl
      | true => cases sphereUpdate ray v r <;> rfl
  cases s with
  | sphere s =>
    have := key (some (s.lift.testIntersect ray))
    rw [Option.map_some, ← sphere_moveX g hs hd] at this
    exact this
  | _ => exact key last

theorem lensSphereStep_moveX (g : Motion) {ray ray' : Ray XR} (hd : MovesAlong g ray ray') {s : Shape ℝ}
    (hs : s.Sound) (v : LoopVars XR × Bool) :
    lensSphereStep ray' (v.1.moveX g, v.2) (s.move g).lift
      = (lensSphereStep ray v s.lift).map fun w => (w.1.moveX g, w.2) := by
  cases s with
  | sphere s =>
    show lensSphereStep _ _ (Shape.sphere (s.move g).lift) = Except.map _ (lensSphereStep _ _ (Shape.sphere s.lift))
    unfold lensSphereStep
    simp only [sphere_moveX g hs hd, sphereUpdate_moveX g hd, show ∀ r : Hit6 XR, (r.moveX g).hit = r.hit from fun _ => rfl,
      show ∀ r : Hit6 XR, (r.moveX g).count = r.count from fun _ => rfl, bind, Except.bind, pure, Except.pure]
    cases (s.lift.testIntersect ray).hit with
    | false => rfl
    | true => cases sphereUpdate ray v.1 _ <;> rfl
  | _ => rfl

theorem firstSphere_moveX (g : Motion) : ∀ l : List (Shape ℝ),
    firstSphere (l.map fun s => (s.move g).lift) = (firstSphere l).map fun s => (s.move g).lift
  | [] => rfl
  | .sphere s :: _ => rfl
  | .shape _ :: l => firstSphere_moveX g l
  | .plane _ :: l => firstSphere_moveX g l
  | .circle _ :: l => firstSphere_moveX g l
  | .infiniteCylinder _ :: l => firstSphere_moveX g l
  | .cylinder _ _ _ _ :: l => firstSphere_moveX g l
  | .rectangle _ :: l => firstSphere_moveX g l

theorem firstCircle_moveX (g : Motion) : ∀ l : List (Shape ℝ),
    firstCircle (l.map fun s => (s.move g).lift) = (firstCircle l).map fun s => (s.move g).lift
  | [] => rfl
  | .circle s :: _ => rfl
  | .shape _ :: l => firstCircle_moveX g l
  | .plane _ :: l => firstCircle_moveX g l
  | .sphere _ :: l => firstCircle_moveX g l
  | .infiniteCylinder _ :: l => firstCircle_moveX g l
  | .cylinder _ _ _ _ :: l => firstCircle_moveX g l
  | .rectangle _ :: l => firstCircle_moveX g l

theorem firstSphere_lift : ∀ l : List (Shape ℝ),
    firstSphere (l.map Shape.lift) = (firstSphere l).map Sphere.lift
  | [] => rfl
  | .sphere s :: _ => rfl
  | .shape _ :: l => firstSphere_lift l
  | .plane _ :: l => firstSphere_lift l
  | .circle _ :: l => firstSphere_lift l
  | .infiniteCylinder _ :: l => firstSphere_lift l
  | .cylinder _ _ _ _ :: l => firstSphere_lift l
  | .rectangle _ :: l => firstSphere_lift l

theorem firstCircle_lift : ∀ l : List (Shape ℝ),
    firstCircle (l.map Shape.lift) = (firstCircle l).map Circle.lift
  | [] => rfl
  | .circle s :: _ => rfl
  | .shape _ :: l => firstCircle_lift l
  | .plane _ :: l => firstCircle_lift l
  | .sphere _ :: l => firstCircle_lift l
  | .infiniteCylinder _ :: l => firstCircle_lift l
  | .cylinder _ _ _ _ :: l => firstCircle_lift l
  | .rectangle _ :: l => firstCircle_lift l

theorem firstSphere_mem {α : Type} : ∀ {l : List (Shape α)} {s : Sphere α}, firstSphere l = some s → .sphere s ∈ l
  | .sphere s :: _, _, h => by cases h; simp
  | .shape _ :: l, _, h => List.mem_cons_of_mem _ (firstSphere_mem (l := l) h)
  | .plane _ :: l, _, h => List.mem_cons_of_mem _ (firstSphere_mem (l := l) h)
  | .circle _ :: l, _, h => List.mem_cons_of_mem _ (firstSphere_mem (l := l) h)
  | .infiniteCylinder _ :: l, _, h => List.mem_cons_of_mem _ (firstSphere_mem (l := l) h)
  | .cylinder _ _ _ _ :: l, _, h => List.mem_cons_of_mem _ (firstSphere_mem (l := l) h)
  | .rectangle _ :: l, _, h => List.mem_cons_of_mem _ (firstSphere_mem (l := l) h)

theorem firstCircle_mem {α : Type} : ∀ {l : List (Shape α)} {s : Circle α}, firstCircle l = some s → .circle s ∈ l
  | .circle s :: _, _, h => by cases h; simp
  | .shape _ :: l, _, h => List.mem_cons_of_mem _ (firstCircle_mem (l := l) h)
  | .plane _ :: l, _, h => List.mem_cons_of_mem _ (firstCircle_mem (l := l) h)
  | .sphere _ :: l, _, h => List.mem_cons_of_mem _ (firstCircle_mem (l := l) h)
  | .infiniteCylinder _ :: l, _, h => List.mem_cons_of_mem _ (firstCircle_mem (l := l) h)
  | .cylinder _ _ _ _ :: l, _, h => List.mem_cons_of_mem _ (firstCircle_mem (l := l) h)
  | .rectangle _ :: l, _, h => List.mem_cons_of_mem _ (firstCircle_mem (l := l) h)

/-- The loop over the flat surfaces of an optic. -/
theorem flatLoop_moveX (g : Motion) {ray ray' : Ray XR} (hd : MovesAlong g ray ray') (b : Bool)
    (l : List (Shape ℝ)) (hl : ∀ s ∈ l, s.Sound) (n : Option (Option (V3 XR))) (hn : n.map (Option.map g.dirX) = n)
    (sfo : Sfo) :
    (do let v ← ((l.map (Shape.move g)).map Shape.lift).foldlM (flatStep b ray') ⟨false, none, none, n⟩
        return (⟨v.intersected, v.pt, ← bound v.normal, sfo⟩ : Hit4 XR))
      = Except.map (Hit4.moveX g) (do
        let v ← (l.map Shape.lift).foldlM (flatStep b ray) ⟨false, none, none, n⟩
        return (⟨v.intersected, v.pt, ← bound v.normal, sfo⟩ : Hit4 XR)) := by
  have h0 : (⟨false, none, none, n⟩ : LoopVars XR) = LoopVars.moveX g ⟨false, none, none, n⟩ := by
    unfold LoopVars.moveX; simp only [hn, Option.map_none]
  have key := foldlM_comm (LoopVars.moveX g) Shape.lift (Shape.lift ∘ Shape.move g)
    (flatStep b ray) (flatStep b ray') l ⟨false, none, none, n⟩
    (fun s hs v => flatStep_moveX g hd b (hl s hs) v)
  rw [← h0, ← List.map_map] at key
  rw [key]
  simp only [bind, Except.bind, pure, Except.pure]
  cases (l.map Shape.lift).foldlM (flatStep b ray) ⟨false, none, none, n⟩ with
  | error e => rfl
  | ok v =>
    obtain ⟨i, p, d, k⟩ := v
    cases k <;> rfl

/-- The surfaces of an optic. -/
def Optic.surfaces {α : Type} : Optic α → List (Shape α)
  | .mirror m => m.surfaces
  | .lens l => l.surfaces
  | .grating g => g.surfaces
  | .detector d => d.surfaces
  | _ => []

theorem circle_sound {c n : V3 ℝ} (hn : n ≠ ⟨0, 0, 0⟩) {R D : Option ℝ} {C : Circle ℝ}
    (hC : Circle.new c (some n) R D = .ok C) : (Shape.circle C).Sound := by
  obtain ⟨h1, h2, h3, -⟩ := circle_new_ok hC
  intro p hp
  rw [h3] at hp
  cases hp
  exact ne_zero_of_dot_one (unit_dot hn)

theorem rectangle_sound {c n t : V3 ℝ} (hn : n ≠ ⟨0, 0, 0⟩) {h w : Option ℝ} {r : Rectangle ℝ}
    (hr : Rectangle.new c n t h w = .ok r) : (Shape.rectangle r).Sound := by
  obtain ⟨-, -, -, -, -, -, h1, -, -, h2, -⟩ := rectangle_new_ok hr
  show r.plane.normal ≠ _
  rw [h2]
  exact ne_zero_of_dot_one (unit_dot hn)

theorem sphere_D_sound {c : V3 ℝ} {D : Option ℝ} (hD : NonZero D) {s : Sphere ℝ} (hs : Sphere.new c none D = .ok s) :
    (Shape.sphere s).Sound := by
  cases D with
  | none => cases hs
  | some D =>
    cases hs
    have : D ≠ 0 := fun e => hD (by rw [e])
    show D / 2.0 ≠ 0
    rw [lit2]
    exact div_ne_zero this two_ne_zero

theorem wellFormed_surfaces {o : Optic ℝ} (h : o.WellFormed) : ∀ s ∈ o.surfaces, s.Sound := by
  cases h with
  | annotation => simp [Optic.surfaces]
  | filter => simp [Optic.surfaces]
  | window => simp [Optic.surfaces]
  | compound he hb hi => simp [Optic.surfaces]
  | grating hn ht hg =>
    unfold Grating.new at hg
    simp only [bind, Except.bind, pure, Except.pure] at hg
    split_ifs at hg
    split at hg <;> cases hg
    rename_i r hr
    simp only [Optic.surfaces, List.mem_singleton, forall_eq]
    exact rectangle_sound hn hr
  | detector hn ht hg =>
    unfold Detector.new at hg
    simp only [bind, Except.bind, pure, Except.pure] at hg
    split_ifs at hg
    split at hg <;> cases hg
    rename_i r hr
    simp only [Optic.surfaces, List.mem_singleton, forall_eq]
    exact rectangle_sound hn hr
  | lens hn hn' hD hi hl ideal =>
    rename_i position n shape D w hh f type index l
    unfold Lens.new at hl
    simp only [bind, Except.bind, pure, Except.pure] at hl
    split_ifs at hl with h1 h2
    · split at hl <;> cases hl
      rename_i C hC
      simp only [Optic.surfaces, List.mem_singleton, forall_eq]
      cases n with
      | none => exact absurd rfl (hn' h1)
      | some n => exact circle_sound (fun e => hn (by rw [e])) hC
    · split at hl <;> cases hl
      rename_i s hs
      simp only [Optic.surfaces, List.mem_singleton, forall_eq]
      exact sphere_D_sound hD hs
  | mirror hn ht hdmd hD hf hm =>
    rename_i position shape n t D w hh f type dmd m
    unfold Mirror.new at hm
    simp only [need, bind, Except.bind, pure, Except.pure] at hm
    split_ifs at hm with h1 h2 h3 h4
    · cases n with
      | none => cases hm
      | some n =>
        simp only at hm
        split at hm <;> cases hm
        rename_i C hC
        simp only [Optic.surfaces, List.mem_singleton, forall_eq]
        exact circle_sound (fun e => hn (by rw [e])) hC
    · cases n with
      | none => cases hm
      | some n =>
        cases t with
        | none => cases hm
        | some t =>
          simp only at hm
          split at hm <;> cases hm
          rename_i C hC
          simp only [Optic.surfaces, List.mem_singleton, forall_eq]
          exact rectangle_sound (fun e => hn (by rw [e])) hC
    · cases n with
      | none => cases hm
      | some n =>
        cases f with
        | none => cases hm
        | some f =>
          simp only at hm
          split at hm <;> cases hm
          rename_i C hC
          have hf : f ≠ 0 := fun e => hf (by rw [e])
          simp only [Optic.surfaces, List.mem_cons, List.not_mem_nil, or_false, forall_eq_or_imp, forall_eq]
          refine ⟨circle_sound (fun e => hn (by rw [e])) hC, ?_⟩
          show f * 2.0 ≠ 0
          rw [lit2]
          exact mul_ne_zero hf two_ne_zero
    · split at hm <;> cases hm
      rename_i s hs
      simp only [Optic.surfaces, List.mem_singleton, forall_eq]
      exact sphere_D_sound hD hs

theorem mirror_moveX (g : Motion) {m : Mirror ℝ} (h : ∀ s ∈ m.surfaces, s.Sound) {ray ray' : Ray XR}
    (hd : MovesAlong g ray ray') (m' : Mirror ℝ) (hm : Optic.move g (.mirror m) = .mirror m') :
    m'.lift.testIntersect ray' = (m.lift.testIntersect ray).map (Hit4.moveX g) := by
  cases hm
  unfold Mirror.testIntersect
  simp only [Mirror.lift]
  split_ifs with h1 h2 h3
  · exact flatLoop_moveX g hd true m.surfaces h none rfl .none
  · rw [List.map_map, firstSphere_lift, firstCircle_lift,
      show Shape.lift ∘ Shape.move g = fun s => (s.move g).lift from rfl, firstSphere_moveX, firstCircle_moveX]
    cases hs : firstSphere m.surfaces with
    | none => rfl
    | some s =>
    simp only [Option.map_some, bound, bind, Except.bind, pure, Except.pure]
    rw [sphere_moveX g (h _ (firstSphere_mem hs)) hd]
    generalize s.lift.testIntersect ray = q
    obtain ⟨hit, p, q, n, k, c⟩ := q
    cases hit with
    | false => rfl
    | true =>
    cases hc : firstCircle m.surfaces with
    | none => rfl
    | some C =>
    simp only [Option.map_some, Hit6.moveX, if_true]
    have := hd.shape (h _ (firstCircle_mem hc))
    have this : (do return IntersectResult.three (← (C.move g).lift.testIntersect ray'))
      = Except.map (IntersectResult.moveX g) (do return IntersectResult.three (← C.lift.testIntersect ray)) := this
    have e : (C.move g).lift.testIntersect ray' = (C.lift.testIntersect ray).map (Hit3.moveX g) := by
      revert this
      cases (C.move g).lift.testIntersect ray' <;> cases C.lift.testIntersect ray <;>
        intro this <;> cases this <;> rfl
    rw [e]
    cases C.lift.testIntersect ray with
    | error e => rfl
    | ok r =>
    obtain ⟨hit, x, m⟩ := r
    cases hit with
    | false => rfl
    | true =>
    cases x with
    | none => rfl
    | some x =>
    cases p with
    | none => rfl
    | some p =>
    cases q with
    | none => rfl
    | some q =>
    simp only [Except.map, Hit3.moveX, if_true, Option.map_some, need, g.distX]
    split_ifs <;> rfl
  · have key : (m.surfaces.map (Shape.lift ∘ Shape.move g)).foldlM (sphereStep ray')
        (⟨false, none, none, some none⟩, none)
        = Except.map (fun w : LoopVars XR × Option (Hit6 XR) => (w.1.moveX g, w.2.map (Hit6.moveX g)))
          ((m.surfaces.map Shape.lift).foldlM (sphereStep ray) (⟨false, none, none, some none⟩, none)) :=
      foldlM_comm (fun w : LoopVars XR × Option (Hit6 XR) => (w.1.moveX g, w.2.map (Hit6.moveX g))) Shape.lift
      (Shape.lift ∘ Shape.move g) (sphereStep ray) (sphereStep ray') m.surfaces
      (⟨false, none, none, some none⟩, none) (fun s hs v => sphereStep_moveX g hd (h s hs) v)
    rw [← List.map_map] at key
    simp only [h3, if_true]
    rw [key]
    simp only [bind, Except.bind, pure, Except.pure]
    cases (m.surfaces.map Shape.lift).foldlM (sphereStep ray) (⟨false, none, none, some none⟩, none) with
    | error e => rfl
    | ok v =>
      obtain ⟨⟨i, p, d, k⟩, r⟩ := v
      cases k <;> cases r <;> rfl
  · simp only [h3, if_false]; rfl

theorem lens_moveX (g : Motion) {l : Lens ℝ} (h : ∀ s ∈ l.surfaces, s.Sound) {ray ray' : Ray XR}
    (hd : MovesAlong g ray ray') (l' : Lens ℝ) (hl : Optic.move g (.lens l) = .lens l') :
    l'.lift.testIntersect ray' = (l.lift.testIntersect ray).map (Hit4.moveX g) := by
  cases hl
  unfold Lens.testIntersect
  simp only [Lens.lift]
  by_cases h1 : l.shape = "spherical_biconvex"
  · simp only [h1, if_true]
    exact flatLoop_moveX g hd false l.surfaces h (some none) rfl (.bool true)
  by_cases h2 : l.shape = "spherical"
  · have key : (l.surfaces.map (Shape.lift ∘ Shape.move g)).foldlM (lensSphereStep ray')
        (⟨false, none, none, some none⟩, true)
        = Except.map (fun w : LoopVars XR × Bool => (w.1.moveX g, w.2))
          ((l.surfaces.map Shape.lift).foldlM (lensSphereStep ray) (⟨false, none, none, some none⟩, true)) :=
      foldlM_comm (fun w : LoopVars XR × Bool => (w.1.moveX g, w.2)) Shape.lift
      (Shape.lift ∘ Shape.move g) (lensSphereStep ray) (lensSphereStep ray') l.surfaces
      (⟨false, none, none, some none⟩, true) (fun s hs v => lensSphereStep_moveX g hd (h s hs) v)
    rw [← List.map_map] at key
    simp only [h2, show ¬ ("spherical" = "spherical_biconvex") by decide, if_true, if_false]
    rw [key]
    simp only [bind, Except.bind, pure, Except.pure]
    cases (l.surfaces.map Shape.lift).foldlM (lensSphereStep ray) (⟨false, none, none, some none⟩, true) with
    | error e => rfl
    | ok v =>
      obtain ⟨⟨i, p, d, k⟩, r⟩ := v
      cases k <;> rfl
  · simp only [h1, h2, if_false]; rfl

/-- A moved optic reports the moved result, exceptions included. -/
theorem optic_moveX (g : Motion) {o : Optic ℝ} (h : o.WellFormed) {ray ray' : Ray XR}
    (hd : MovesAlong g ray ray') :
    (o.move g).lift.testIntersect ray' = (o.lift.testIntersect ray).map (Hit4.moveX g) := by
  have hs := wellFormed_surfaces h
  cases o with
  | mirror m => exact mirror_moveX g hs hd _ rfl
  | lens l => exact lens_moveX g hs hd _ rfl
  | grating r =>
    show Grating.testIntersect _ _ = Except.map _ (Grating.testIntersect _ _)
    unfold Grating.testIntersect
    simp only [Grating.lift]
    by_cases h1 : r.shape = "circular_flat" ∨ r.shape = "rectangular_flat"
    · simp only [h1, if_true]
      exact flatLoop_moveX g hd false r.surfaces hs none rfl .none
    · simp only [h1, if_false]; rfl
  | detector r =>
    show Detector.testIntersect _ _ = Except.map _ (Detector.testIntersect _ _)
    unfold Detector.testIntersect
    simp only [Detector.lift]
    by_cases h1 : r.shape = "circular_flat" ∨ r.shape = "rectangular_flat"
    · simp only [h1, if_true]
      exact flatLoop_moveX g hd false r.surfaces hs none rfl .none
    · simp only [h1, if_false]; rfl
  | compound c =>
    cases h with
    | compound he hb hi =>
    rename_i e behavior index
    show Compound.testIntersect ⟨(e.tree.move g).lift, _, _⟩ _ = Except.map _ (Compound.testIntersect ⟨e.tree.lift, _, _⟩ _)
    unfold Compound.testIntersect
    simp only [csg_moveX g hd he, bind, Except.bind, pure, Except.pure]
    cases testTreeIntersect e.tree.lift ray with
    | error e => rfl
    | ok r => cases r <;> rfl
  | _ => rfl

end Optics
