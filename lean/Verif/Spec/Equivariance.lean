import Verif.Spec.Motion
import Verif.Spec.Scene

/-!
# Specification: the moved trace
-/

namespace Optics

/-- The real vector a finite array stands for. -/
def V3.real? : V3 XR → Option (V3 ℝ)
  | ⟨.fin x, .fin y, .fin z⟩ => some ⟨x, y, z⟩
  | _ => none

/-- The motion of points, on arrays: one with a `nan` or an infinity is left alone. -/
noncomputable def Motion.ptX (g : Motion) (v : V3 XR) : V3 XR := (v.real?.map fun u => (g.pt u).lift).getD v
/-- The motion of directions, on arrays. -/
noncomputable def Motion.dirX (g : Motion) (v : V3 XR) : V3 XR := (v.real?.map fun u => (g.dir u).lift).getD v

/-- A moved ray, on arrays. -/
noncomputable def Ray.moveX (g : Motion) (r : Ray XR) : Ray XR :=
  { r with position := g.ptX r.position, direction := g.dirX r.direction, pointHistory := r.pointHistory.map g.ptX }

/-- A moved row, on arrays. -/
noncomputable def DetHit.moveX (g : Motion) (h : DetHit XR) : DetHit XR := { h with pt := g.ptX h.pt }

/-- The states of two runs: the second is the first, moved.  The ray's position, direction and whole history, and the
points in the rows of `hit_data`, are the moved ones; all else is the same. -/
def RunState.Corresponds (g : Motion) (s s' : RunState XR) : Prop :=
  s'.ray = s.ray.moveX g ∧ s'.log = s.log.map (DetHit.moveX g) ∧
    s'.remaining = s.remaining ∧ s'.interactions = s.interactions

/-- Two runs end in the same way, with corresponding states. -/
def Outcome.Corresponds (g : Motion) : Outcome XR → Outcome XR → Prop
  | .finished s, .finished s' => s.Corresponds g s'
  | .raised e s, .raised e' s' => e = e' ∧ s.Corresponds g s'
  | .outOfFuel s, .outOfFuel s' => s.Corresponds g s'
  | _, _ => False

end Optics
