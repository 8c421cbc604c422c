import Verif.Spec.Rotation
import Verif.Model.Optics

/-!
# Proper rigid motions, and what it means to move a scene
-/

namespace Optics
open V3

/-- A proper rigid motion `x ↦ A x + w` of space. -/
structure Motion where
  A : M3 ℝ
  rot : IsRotation A
  w : V3 ℝ

namespace Motion
/-- Where a point goes. -/
noncomputable def pt (g : Motion) (x : V3 ℝ) : V3 ℝ := M3.mulVec g.A x + g.w
/-- Where a direction goes. -/
noncomputable def dir (g : Motion) (d : V3 ℝ) : V3 ℝ := M3.mulVec g.A d
/-- The motion does not rotate. -/
def IsTranslation (g : Motion) : Prop := ∀ d, g.dir d = d
end Motion

/-- A moved ray: its past moves along. -/
noncomputable def Ray.move (g : Motion) (r : Ray ℝ) : Ray ℝ :=
  { r with position := g.pt r.position, direction := g.dir r.direction,
           pointHistory := r.pointHistory.map g.pt }

/-- A moved `(hit, point, normal)`. -/
noncomputable def Hit3.move (g : Motion) (h : Hit3 ℝ) : Hit3 ℝ :=
  ⟨h.hit, h.pt.map g.pt, h.normal.map g.dir⟩
/-- A moved `(hit, point1, point2, normal1, normal2, count)`. -/
noncomputable def Hit6.move (g : Motion) (h : Hit6 ℝ) : Hit6 ℝ :=
  ⟨h.hit, h.pt1.map g.pt, h.pt2.map g.pt, h.n1.map g.dir, h.n2.map g.dir, h.count⟩
/-- A moved result of a shape's `test_intersect`. -/
noncomputable def IntersectResult.move (g : Motion) : IntersectResult ℝ → IntersectResult ℝ
  | .none => .none
  | .three r => .three (r.move g)
  | .six r => .six (r.move g)

/-- A moved plane. -/
noncomputable def Plane.move (g : Motion) (p : Plane ℝ) : Plane ℝ := ⟨g.pt p.center, g.dir p.normal⟩
/-- A moved circle. -/
noncomputable def Circle.move (g : Motion) (c : Circle ℝ) : Circle ℝ :=
  ⟨g.pt c.center, c.R, c.D, c.normal.map g.dir, c.plane.map (Plane.move g)⟩
/-- A moved sphere. -/
noncomputable def Sphere.move (g : Motion) (s : Sphere ℝ) : Sphere ℝ := ⟨g.pt s.center, s.R, s.D⟩
/-- A moved cylinder. -/
noncomputable def InfiniteCylinder.move (g : Motion) (c : InfiniteCylinder ℝ) : InfiniteCylinder ℝ :=
  ⟨g.pt c.center, c.R, c.D, g.dir c.direction⟩
/-- A moved rectangle. -/
noncomputable def Rectangle.move (g : Motion) (r : Rectangle ℝ) : Rectangle ℝ :=
  { center := g.pt r.center, normal := g.dir r.normal, tangent := g.dir r.tangent,
    tangent2 := g.dir r.tangent2, h := r.h, w := r.w, bounds0 := g.pt r.bounds0,
    bounds1 := g.pt r.bounds1, bounds2 := g.pt r.bounds2, bounds3 := g.pt r.bounds3,
    plane := r.plane.move g }
/-- A moved shape. -/
noncomputable def Shape.move (g : Motion) : Shape ℝ → Shape ℝ
  | .shape c => .shape (g.pt c)
  | .plane p => .plane (p.move g)
  | .circle c => .circle (c.move g)
  | .infiniteCylinder c => .infiniteCylinder (c.move g)
  | .sphere s => .sphere (s.move g)
  | .cylinder c R D h => .cylinder (g.pt c) R D h
  | .rectangle r => .rectangle (r.move g)

/-- A moved tree node. -/
noncomputable def Key.move (g : Motion) : Key ℝ → Key ℝ
  | .str s => .str s
  | .shape s => .shape (s.move g)
/-- A moved tree. -/
noncomputable def Tree.move (g : Motion) : Tree (Key ℝ) → Tree (Key ℝ)
  | .nil => .nil
  | .node k l r => .node (k.move g) (l.move g) (r.move g)

/-- A moved optic. -/
noncomputable def Optic.move (g : Motion) : Optic ℝ → Optic ℝ
  | .compound c => .compound { c with tree := c.tree.move g }
  | .mirror m => .mirror { m with
      position := g.pt m.position, dmdNormal := g.dir m.dmdNormal,
      normal := m.normal.map g.dir, surfaces := m.surfaces.map (Shape.move g) }
  | .lens l => .lens { l with
      position := g.pt l.position, normal := l.normal.map g.dir,
      surfaces := l.surfaces.map (Shape.move g) }
  | .grating r => .grating { r with
      position := g.pt r.position, normal := g.dir r.normal,
      tangent := g.dir r.tangent, surfaces := r.surfaces.map (Shape.move g) }
  | .detector d => .detector { d with
      position := g.pt d.position, normal := g.dir d.normal,
      tangent := g.dir d.tangent, surfaces := d.surfaces.map (Shape.move g) }
  | .base => .base
  | .annotation => .annotation
  | .filter => .filter
  | .window => .window
  | .block => .block

/-- A moved row of `hit_data`. -/
noncomputable def DetHit.move (g : Motion) (h : DetHit ℝ) : DetHit ℝ := { h with pt := g.pt h.pt }
/-- A moved 4-tuple. -/
noncomputable def Hit4.move (g : Motion) (h : Hit4 ℝ) : Hit4 ℝ :=
  ⟨h.hit, h.pt.map g.pt, h.normal.map g.dir, h.sfo⟩
/-- A moved selection of the scan. -/
noncomputable def Selected.move (g : Motion) (s : Selected ℝ) : Selected ℝ :=
  ⟨s.optic.move g, g.pt s.pt, s.normal.map g.dir⟩
/-- A moved state of `run`. -/
noncomputable def RunState.move (g : Motion) (s : RunState ℝ) : RunState ℝ :=
  { s with ray := s.ray.move g, selected := s.selected.map (Selected.move g),
           log := s.log.map (DetHit.move g) }
/-- A moved outcome of `run`. -/
noncomputable def Outcome.move (g : Motion) : Outcome ℝ → Outcome ℝ
  | .finished s => .finished (s.move g)
  | .raised e s => .raised e (s.move g)
  | .outOfFuel s => .outOfFuel (s.move g)

end Optics
