import Verif.Spec.PlaneMirrors
import Verif.Spec.Drawing
import Verif.Spec.Run
import Mathlib.Analysis.Convex.Segment

/-!
# Specification: light paths over plane mirrors

A light path is a polyline whose inner corners are reflections at mirrors of the scene, and which touches the mirrors
nowhere else.  The definition is symmetric: it does not say which end the light comes from.
-/

namespace Optics

/-- A corner or an end of a light path. -/
structure Vertex where
  point : V3 ℝ
  /-- The mirror met there; `none` at the two ends. -/
  mirror : Option (Optic ℝ)

/-- The unit vector from one vertex to another. -/
noncomputable def heading (v w : Vertex) : E3 := (dist v.point.toE w.point.toE)⁻¹ • (w.point.toE - v.point.toE)

/-- A straight piece of a path: longer than the tolerance of the hit tests, and free of mirrors, except those at its ends. -/
structure Leg (optics : List (Optic ℝ)) (v w : Vertex) : Prop where
  long : 1e-9 < dist v.point.toE w.point.toE
  clear : ∀ o ∈ optics, ∀ x : V3 ℝ, x.toE ∈ segment ℝ v.point.toE w.point.toE → o.CanBeHit x →
    x = v.point ∧ v.mirror = some o ∨ x = w.point ∧ w.mirror = some o

/-- Two legs meet in a reflection at a plane mirror, which is not met at grazing incidence. -/
def Bend (optics : List (Optic ℝ)) (u v w : Vertex) : Prop :=
  ∃ o c n, v.mirror = some o ∧ o ∈ optics ∧ o.PlaneMirror c n ∧ o.CanBeHit v.point ∧
    1e-9 * ‖n.toE‖ < |inner ℝ n.toE (heading u v)| ∧ Reflected n.toE (heading u v) (heading v w)

/-- A light path through a scene of plane mirrors. -/
structure LightPath (optics : List (Optic ℝ)) (path : List Vertex) : Prop where
  leg : ∀ v w, [v, w] <:+: path → Leg optics v w
  bend : ∀ u v w, [u, v, w] <:+: path → Bend optics u v w

end Optics
