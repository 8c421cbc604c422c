import Verif.Spec.Motion
import Verif.Lemmas.Shapes
import Verif.Lemmas.Cylinder

/-! # Rigid motions and the shapes -/

namespace Optics
open V3

theorem IsRotation.cross_mulVec {A : M3 ℝ} (h : IsRotation A) (u v : V3 ℝ) :
    cross (M3.mulVec A u) (M3.mulVec A v) = M3.mulVec A (cross u v) := by
  obtain ⟨⟨h00, h11, h22, h01, h02, h12⟩, hdet⟩ := (isRotation_iff A).mp h
  have e0 : A.r0 = cross A.r1 A.r2 := by
    apply ext_of_dot
    have := cross_dot_self A.r1 A.r2
    rw [dot_sub_left, dot_sub_right, dot_sub_right, this, dot_comm (cross _ _) A.r0, hdet, h00, h11, h22, h12]
    norm_num
  have d1 : dot A.r1 (cross A.r2 A.r0) = 1 := by rw [← hdet]; simp only [dot, cross]; ring
  have e1 : A.r1 = cross A.r2 A.r0 := by
    apply ext_of_dot
    have := cross_dot_self A.r2 A.r0
    rw [dot_sub_left, dot_sub_right, dot_sub_right, this, dot_comm (cross _ _) A.r1, d1, h00, h11, h22,
      dot_comm A.r2 A.r0, h02]
    norm_num
  have d2 : dot A.r2 (cross A.r0 A.r1) = 1 := by rw [← hdet]; simp only [dot, cross]; ring
  have e2 : A.r2 = cross A.r0 A.r1 := by
    apply ext_of_dot
    have := cross_dot_self A.r0 A.r1
    rw [dot_sub_left, dot_sub_right, dot_sub_right, this, dot_comm (cross _ _) A.r2, d2, h00, h11, h22, h01]
    norm_num
  have key : ∀ a b : V3 ℝ, dot (cross a b) (cross u v) = dot a u * dot b v - dot a v * dot b u := by
    intro a b; simp only [dot, cross]; ring
  ext
  · show _ = dot A.r0 (cross u v)
    rw [e0, key]; simp only [cross, M3.mulVec]; ring
  · show _ = dot A.r1 (cross u v)
    rw [e1, key]; simp only [cross, M3.mulVec]; ring
  · show _ = dot A.r2 (cross u v)
    rw [e2, key]; simp only [cross, M3.mulVec]; ring

namespace Motion
variable (g : Motion)

theorem dot_dir (u v : V3 ℝ) : dot (g.dir u) (g.dir v) = dot u v := g.rot.dot_mulVec u v
theorem norm_dir (u : V3 ℝ) : norm (g.dir u) = norm u := g.rot.norm_mulVec u
theorem cross_dir (u v : V3 ℝ) : cross (g.dir u) (g.dir v) = g.dir (cross u v) := g.rot.cross_mulVec u v
theorem dir_add (u v : V3 ℝ) : g.dir u + g.dir v = g.dir (u + v) := (mulVec_add _ _ _).symm
theorem dir_sub (u v : V3 ℝ) : g.dir u - g.dir v = g.dir (u - v) := (mulVec_sub _ _ _).symm
theorem dir_neg (u : V3 ℝ) : -g.dir u = g.dir (-u) := (mulVec_neg _ _).symm
theorem dir_smul (a : ℝ) (u : V3 ℝ) : a * g.dir u = g.dir (a * u) := (mulVec_smul _ _ _).symm
theorem dir_div (a : ℝ) (u : V3 ℝ) : g.dir u / a = g.dir (u / a) := by
  rw [div_eq_smul, div_eq_smul, dir_smul]
theorem pt_sub (x y : V3 ℝ) : g.pt x - g.pt y = g.dir (x - y) := by
  rw [← dir_sub]
  ext <;> simp only [pt, dir, sub_x, sub_y, sub_z, add_x, add_y, add_z] <;> ring
theorem pt_add (x d : V3 ℝ) : g.pt x + g.dir d = g.pt (x + d) := by
  unfold pt
  rw [mulVec_add]
  ext <;> simp only [dir, add_x, add_y, add_z] <;> ring
theorem pt_sub_dir (x d : V3 ℝ) : g.pt x - g.dir d = g.pt (x - d) := by
  unfold pt
  rw [mulVec_sub]
  ext <;> simp only [dir, sub_x, sub_y, sub_z, add_x, add_y, add_z] <;> ring
theorem unitVector_dir (u : V3 ℝ) : unitVector (g.dir u) = g.dir (unitVector u) := by
  rw [unitVector, norm_dir, dir_div]; rfl
theorem distance_pt (x y : V3 ℝ) : distanceBetween (g.pt x) (g.pt y) = distanceBetween x y := by
  rw [distanceBetween, pt_sub, norm_dir]; rfl
theorem project_dir (u n : V3 ℝ) : projectOntoPlane (g.dir u) (g.dir n) = g.dir (projectOntoPlane u n) := by
  unfold projectOntoPlane
  simp only [dot_dir, norm_dir, unitVector_dir]
  exact (congrArg (g.dir u - ·) (g.dir_smul _ _)).trans (g.dir_sub u _)
theorem lineAt_pt (p d : V3 ℝ) (t : ℝ) : lineAt (g.pt p) (g.dir d) t = g.pt (lineAt p d t) := by
  rw [lineAt, dir_smul, pt_add]; rfl
theorem dir_inj {u v : V3 ℝ} (h : g.dir u = g.dir v) : u = v := by
  apply ext_of_dot; rw [← g.dot_dir, ← dir_sub, h]; simp [dot]
theorem dir_zero : g.dir ⟨0, 0, 0⟩ = ⟨0, 0, 0⟩ := by ext <;> simp [dir, M3.mulVec, dot]
end Motion

theorem plane_move (g : Motion) (p : Plane ℝ) (ray : Ray ℝ) :
    (p.move g).testIntersect (ray.move g) = (p.testIntersect ray).move g := by
  unfold Plane.testIntersect
  simp only [Plane.move, Ray.move, g.unitVector_dir, g.dot_dir, g.pt_sub, g.dir_smul, g.pt_add]
  split_ifs <;> rfl

theorem circle_move (g : Motion) (c : Circle ℝ) (ray : Ray ℝ) :
    (c.move g).testIntersect (ray.move g) = (c.testIntersect ray).map (Hit3.move g) := by
  unfold Circle.testIntersect
  rcases hp : c.plane with _ | p
  · simp only [Circle.move, hp, Option.map_none]; rfl
  · simp only [Circle.move, hp, Option.map_some, plane_move]
    rcases p.testIntersect ray with ⟨hit, pt, n⟩
    cases hit <;> cases pt <;> simp only [Hit3.move, Option.map_none, Option.map_some] <;> try rfl
    simp only [g.distance_pt]
    split_ifs <;> rfl

theorem rectangle_move (g : Motion) (r : Rectangle ℝ) (ray : Ray ℝ) :
    (r.move g).testIntersect (ray.move g) = (r.testIntersect ray).move g := by
  unfold Rectangle.testIntersect
  simp only [Rectangle.move, plane_move]
  rcases r.plane.testIntersect ray with ⟨hit, pt, n⟩
  cases hit <;> cases pt <;> simp only [Hit3.move, Option.map_none, Option.map_some] <;> try rfl
  simp only [g.pt_sub, g.dot_dir]
  split_ifs <;> rfl

theorem sphere_normal_move (g : Motion) (s : Sphere ℝ) (x : V3 ℝ) :
    (s.move g).normal (g.pt x) = g.dir (s.normal x) := by
  simp only [Sphere.normal, Sphere.move, g.pt_sub, g.unitVector_dir]

theorem sphere_move (g : Motion) (s : Sphere ℝ) (ray : Ray ℝ) :
    (s.move g).testIntersect (ray.move g) = (s.testIntersect ray).move g := by
  unfold Sphere.testIntersect
  have hn := sphere_normal_move g s
  simp only [Ray.move, show (s.move g).center = g.pt s.center from rfl, show (s.move g).R = s.R from rfl,
    g.pt_sub, g.dot_dir, g.dir_smul, g.pt_add, hn]
  split_ifs <;> rfl

theorem sphere_testPoint_move (g : Motion) (s : Sphere ℝ) (x : V3 ℝ) :
    (s.move g).testPoint (g.pt x) = s.testPoint x := by
  unfold Sphere.testPoint
  simp only [Sphere.move, g.distance_pt]

theorem axQ_dir (g : Motion) (a q : V3 ℝ) : axQ (g.dir a) (g.dir q) = axQ a q := by
  simp only [axQ, g.dot_dir]
theorem axB_dir (g : Motion) (a q d : V3 ℝ) : axB (g.dir a) (g.dir q) (g.dir d) = axB a q d := by
  simp only [axB, g.dot_dir]

theorem cylinder_normal_move (g : Motion) (c : InfiniteCylinder ℝ) (x : V3 ℝ) :
    (c.move g).normal (g.pt x) = g.dir (c.normal x) := by
  simp only [InfiniteCylinder.normal, InfiniteCylinder.move, g.pt_sub, g.project_dir, g.unitVector_dir]

/-- `InfiniteCylinder.test_intersect` in terms of quantities that do not depend on the coordinates. -/
theorem cylinder_raw (c : InfiniteCylinder ℝ) (ha : dot c.direction c.direction = 1) (hR : c.R ≠ 0)
    (ray : Ray ℝ) :
    c.testIntersect ray =
      let P := fun t => ray.position + t * ray.direction
      match cylinderRoots (axQ c.direction ray.direction)
        (2 * axB c.direction (ray.position - c.center) ray.direction / c.R)
        ((axQ c.direction (ray.position - c.center) - c.R ^ 2) / c.R ^ 2) with
      | (some t0o, some t1o) =>
        let t0 := t0o / (1 / c.R)
        let t1 := t1o / (1 / c.R)
        if t0 > clippingFloor ∧ t1 > clippingFloor then
          if t0 < t1 then .ok (Hit6.two (P t0) (P t1) (c.normal (P t0)) (c.normal (P t1)) 2)
          else .ok (Hit6.two (P t1) (P t0) (c.normal (P t1)) (c.normal (P t0)) 2)
        else if t1 > clippingFloor then .ok (Hit6.one (P t1) (c.normal (P t1)) 1)
        else if t0 > clippingFloor then .ok (Hit6.one (P t0) (c.normal (P t0)) 1)
        else .ok (Hit6.miss 0)
      | (some t0o, none) => .ok (Hit6.one (P (t0o / (1 / c.R))) (c.normal (P (t0o / (1 / c.R)))) 2)
      | (none, _) => .ok (Hit6.miss 0) := by
  unfold InfiniteCylinder.testIntersect
  have hR0 : PyNum.eqb c.R (0.0 : ℝ) = false := by simp [lit0, hR]
  simp only [hR0, Bool.false_eq_true, if_false, pointToObjectSpace_eq, dirToObjectSpace_eq, V3.hom,
    smul_x, smul_y, lit1, lit2]
  have xA := cylRot_xy ha ray.direction ray.direction
  have xB := cylRot_xy ha (ray.position - c.center) ray.direction
  have xC := cylRot_xy ha (ray.position - c.center) (ray.position - c.center)
  have qA : axB c.direction ray.direction ray.direction = axQ c.direction ray.direction := by
    unfold axB axQ; ring
  have qC : axB c.direction (ray.position - c.center) (ray.position - c.center)
      = axQ c.direction (ray.position - c.center) := by unfold axB axQ; ring
  rw [qA] at xA
  rw [qC] at xC
  generalize M3.mulVec (cylRot c.direction) ray.direction = U at *
  generalize M3.mulVec (cylRot c.direction) (ray.position - c.center) = W at *
  generalize axB c.direction (ray.position - c.center) ray.direction = b at *
  generalize axQ c.direction (ray.position - c.center) = Q at *
  generalize axQ c.direction ray.direction = A at *
  have eB : 2 * (1 / c.R * W.x) * U.x + 2 * (1 / c.R * W.y) * U.y = 2 * b / c.R := by
    rw [← xB]; field_simp
  have eC : 1 / c.R * W.x * (1 / c.R * W.x) + 1 / c.R * W.y * (1 / c.R * W.y) - 1
      = (Q - c.R ^ 2) / c.R ^ 2 := by
    rw [← xC]; field_simp
  rw [xA, eB, eC]
  rcases cylinderRoots A (2 * b / c.R) ((Q - c.R ^ 2) / c.R ^ 2) with ⟨_ | t0, _ | t1⟩ <;> rfl

theorem cylinder_move (g : Motion) (c : InfiniteCylinder ℝ) (ha : dot c.direction c.direction = 1)
    (ray : Ray ℝ) :
    (c.move g).testIntersect (ray.move g) = (c.testIntersect ray).map (Hit6.move g) := by
  by_cases hR : c.R = 0
  · have h1 : PyNum.eqb c.R (0.0 : ℝ) = true := by simp [lit0, hR]
    unfold InfiniteCylinder.testIntersect
    simp only [show (c.move g).R = c.R from rfl, h1, if_true]; rfl
  · rw [cylinder_raw c ha hR, cylinder_raw (c.move g) (by rw [← ha]; exact g.dot_dir _ _) hR]
    have hn := cylinder_normal_move g c
    simp only [Ray.move, show (c.move g).center = g.pt c.center from rfl, show (c.move g).R = c.R from rfl,
      show (c.move g).direction = g.dir c.direction from rfl, axQ_dir, axB_dir,
      g.pt_sub, g.dir_smul, g.pt_add, hn]
    rcases cylinderRoots (axQ c.direction ray.direction)
      (2 * axB c.direction (ray.position - c.center) ray.direction / c.R)
      ((axQ c.direction (ray.position - c.center) - c.R ^ 2) / c.R ^ 2) with ⟨_ | t0, _ | t1⟩ <;> try rfl
    simp only
    split_ifs <;> rfl

theorem cylinder_testPoint_move (g : Motion) (c : InfiniteCylinder ℝ) (ha : dot c.direction c.direction = 1)
    (x : V3 ℝ) : (c.move g).testPoint (g.pt x) = c.testPoint x := by
  unfold InfiniteCylinder.testPoint
  have ha' : dot (c.move g).direction (c.move g).direction = 1 := by rw [← ha]; exact g.dot_dir _ _
  simp only [show (c.move g).R = c.R from rfl, pointToObjectSpace_eq, V3.hom, smul_x, smul_y]
  have h1 := cylRot_xy ha (x - c.center) (x - c.center)
  have h2 := cylRot_xy ha' (g.pt x - (c.move g).center) (g.pt x - (c.move g).center)
  have h3 : axB (c.move g).direction (g.pt x - (c.move g).center) (g.pt x - (c.move g).center)
      = axB c.direction (x - c.center) (x - c.center) := by
    rw [show (c.move g).center = g.pt c.center from rfl, g.pt_sub]
    exact axB_dir g _ _ _
  rw [h3, ← h1] at h2
  have h4 : ∀ U W : V3 ℝ, U.x * U.x + U.y * U.y = W.x * W.x + W.y * W.y →
      1 / c.R * U.x * (1 / c.R * U.x) + 1 / c.R * U.y * (1 / c.R * U.y)
        = 1 / c.R * W.x * (1 / c.R * W.x) + 1 / c.R * W.y * (1 / c.R * W.y) := by
    intro U W h
    linear_combination (1 / c.R) ^ 2 * h
  rw [h4 _ _ h2]

end Optics
