import Verif.Lemmas.Motion
import Verif.Props.CylinderParallel

/-!
# C21: intersection commutes with rigid motion

`g : Motion` is any rotation followed by any translation.  The moved shape is built by calling the
constructor on moved arguments; `Hit3.move`/`Hit6.move` move the reported points and turn the reported
normals, leaving the hit flag and the count alone.
-/

namespace Optics
open V3

theorem plane_new_move (g : Motion) (c n : V3 ℝ) : Plane.new (g.pt c) (g.dir n) = (Plane.new c n).move g := by
  simp only [Plane.new, Plane.move, g.unitVector_dir]

theorem circle_new_move (g : Motion) (c : V3 ℝ) (n : Option (V3 ℝ)) (R D : Option ℝ) :
    Circle.new (g.pt c) (n.map g.dir) R D = (Circle.new c n R D).map (Circle.move g) := by
  unfold Circle.new
  rcases checkRAndD R D with e | ⟨R, D⟩
  · rfl
  · rcases n with _ | n
    · rfl
    · show Except.ok _ = Except.ok _
      simp only [Circle.move, Option.map_some, plane_new_move, g.unitVector_dir]

theorem sphere_new_move (g : Motion) (c : V3 ℝ) (R D : Option ℝ) :
    Sphere.new (g.pt c) R D = (Sphere.new c R D).map (Sphere.move g) := by
  unfold Sphere.new
  rcases checkRAndD R D with e | ⟨R, D⟩ <;> rfl

theorem cylinder_new_move (g : Motion) (c a : V3 ℝ) (R D : Option ℝ) :
    InfiniteCylinder.new (g.pt c) (g.dir a) R D = (InfiniteCylinder.new c a R D).map (InfiniteCylinder.move g) := by
  unfold InfiniteCylinder.new
  rcases checkRAndD R D with e | ⟨R, D⟩
  · rfl
  · show Except.ok _ = Except.ok _
    simp only [InfiniteCylinder.move, g.unitVector_dir]

theorem rectangle_new_move (g : Motion) (c n t : V3 ℝ) (h w : Option ℝ) :
    Rectangle.new (g.pt c) (g.dir n) (g.dir t) h w = (Rectangle.new c n t h w).map (Rectangle.move g) := by
  unfold Rectangle.new
  simp only [g.unitVector_dir, g.dot_dir, g.cross_dir]
  split_ifs
  · rfl
  · rcases checkHAndW h w with e | ⟨h, w⟩
    · rfl
    · show Except.ok _ = Except.ok _
      simp only [Rectangle.move, g.dir_smul, g.pt_add, g.pt_sub_dir, plane_new_move]

/-- C21 for planes. -/
theorem C21_plane (g : Motion) (c n : V3 ℝ) (ray : Ray ℝ) :
    (Plane.new (g.pt c) (g.dir n)).testIntersect (ray.move g) = ((Plane.new c n).testIntersect ray).move g := by
  rw [plane_new_move, plane_move]

/-- C21 for circles; `none` for the normal included (both sides raise). -/
theorem C21_circle (g : Motion) (c : V3 ℝ) (n : Option (V3 ℝ)) (R D : Option ℝ) (circ : Circle ℝ)
    (hc : Circle.new c n R D = .ok circ) (ray : Ray ℝ) :
    ∃ circ', Circle.new (g.pt c) (n.map g.dir) R D = .ok circ' ∧
      circ'.testIntersect (ray.move g) = (circ.testIntersect ray).map (Hit3.move g) := by
  refine ⟨circ.move g, ?_, circle_move g circ ray⟩
  rw [circle_new_move, hc]; rfl

/-- C21 for rectangles. -/
theorem C21_rectangle (g : Motion) (c n t : V3 ℝ) (h w : Option ℝ) (r : Rectangle ℝ)
    (hr : Rectangle.new c n t h w = .ok r) (ray : Ray ℝ) :
    ∃ r', Rectangle.new (g.pt c) (g.dir n) (g.dir t) h w = .ok r' ∧
      r'.testIntersect (ray.move g) = (r.testIntersect ray).move g := by
  refine ⟨r.move g, ?_, rectangle_move g r ray⟩
  rw [rectangle_new_move, hr]; rfl

/-- C21 for spheres. -/
theorem C21_sphere (g : Motion) (c : V3 ℝ) (R D : Option ℝ) (s : Sphere ℝ)
    (hs : Sphere.new c R D = .ok s) (ray : Ray ℝ) :
    ∃ s', Sphere.new (g.pt c) R D = .ok s' ∧
      s'.testIntersect (ray.move g) = (s.testIntersect ray).move g ∧
      ∀ x, s'.testPoint (g.pt x) = s.testPoint x := by
  refine ⟨s.move g, ?_, sphere_move g s ray, sphere_testPoint_move g s⟩
  rw [sphere_new_move, hs]; rfl

/-- C21 for infinite cylinders and rays not parallel to the axis (radius zero included: both sides
raise `ZeroDivisionError`). -/
theorem C21_cylinder (g : Motion) (c a : V3 ℝ) (ha : a ≠ ⟨0, 0, 0⟩) (R D : Option ℝ)
    (cyl : InfiniteCylinder ℝ) (hc : InfiniteCylinder.new c a R D = .ok cyl)
    (ray : Ray ℝ) (_hpar : ¬ ∃ k : ℝ, ray.direction = k * a) :
    ∃ cyl', InfiniteCylinder.new (g.pt c) (g.dir a) R D = .ok cyl' ∧
      cyl'.testIntersect (ray.move g) = (cyl.testIntersect ray).map (Hit6.move g) ∧
      ∀ x, cyl'.testPoint (g.pt x) = cyl.testPoint x := by
  have hu : dot cyl.direction cyl.direction = 1 := by
    unfold InfiniteCylinder.new at hc
    rcases h : checkRAndD R D with e | ⟨R', D'⟩ <;> rw [h] at hc <;> cases hc
    exact unit_dot ha
  refine ⟨cyl.move g, ?_, cylinder_move g cyl hu ray, cylinder_testPoint_move g cyl hu⟩
  rw [cylinder_new_move, hc]; rfl

/-- C21 for rays parallel to the axis, at `XR`: original and moved ray both get the same `nan` hit. -/
theorem C21_cylinder_parallel (g : Motion) (c a : V3 ℝ) (ha : a ≠ ⟨0, 0, 0⟩) (R : ℝ) (hR : R ≠ 0)
    (cyl cyl' : InfiniteCylinder XR)
    (hc : InfiniteCylinder.new c.lift a.lift (some (.fin R)) none = .ok cyl)
    (hc' : InfiniteCylinder.new (g.pt c).lift (g.dir a).lift (some (.fin R)) none = .ok cyl')
    (ray : Ray ℝ) (k : ℝ) (hpar : ray.direction = k * a) :
    cyl'.testIntersect (ray.move g).lift = cyl.testIntersect ray.lift := by
  rw [C20_cylinder_parallel_counterexample c a ha R hR cyl hc ray k hpar,
    C20_cylinder_parallel_counterexample (g.pt c) (g.dir a) (fun e => ha (g.dir_inj (e.trans g.dir_zero.symm))) R hR
      cyl' hc' (ray.move g) k (by rw [g.dir_smul, ← hpar]; rfl)]

/-- A motion that rotates and translates: a quarter turn about z, then a shift. -/
noncomputable def exampleMotion : Motion :=
  ⟨⟨⟨0, -1, 0⟩, ⟨1, 0, 0⟩, ⟨0, 0, 1⟩⟩, by rw [isRotation_iff]; norm_num [dot, cross], ⟨1, 2, 3⟩⟩

/-- The hypotheses can be met, with a hit: a ray along x that meets a sphere, moved by
`exampleMotion`. -/
example : ∃ s : Sphere ℝ, Sphere.new ⟨5, 0, 0⟩ (some 1) none = .ok s ∧
    (s.testIntersect ⟨⟨0, 0, 0⟩, ⟨1, 0, 0⟩, 532, 0, [], false, "normal"⟩).hit = true ∧
    exampleMotion.pt ⟨5, 0, 0⟩ = ⟨1, 7, 3⟩ ∧ exampleMotion.dir ⟨1, 0, 0⟩ = ⟨0, 1, 0⟩ := by
  refine ⟨⟨⟨5, 0, 0⟩, 1, 1 * 2.0⟩, rfl, ?_, ?_, ?_⟩
  · rw [sphere_eq]
    have : sphDisc ⟨5, 0, 0⟩ ⟨0, 0, 0⟩ ⟨1, 0, 0⟩ 1 = 1 := by norm_num [sphDisc, dot]
    simp only [this]
    norm_num [dot, Hit6.two, Hit6.one]
  · ext <;> norm_num [exampleMotion, Motion.pt, M3.mulVec, dot]
  · ext <;> norm_num [exampleMotion, Motion.dir, M3.mulVec, dot]

end Optics
