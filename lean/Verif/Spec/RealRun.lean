import Verif.Spec.Scene
import Verif.Lemmas.RoundMirrors

/-!
# Specification: the run in numpy floats is the run in real numbers

`lift` on everything a run holds: the same values, written as finite numpy floats.
-/

namespace Optics
open V3

/-- The same selection in numpy floats. -/
def Selected.lift (s : Selected ℝ) : Selected XR := ⟨s.optic.lift, s.pt.lift, s.normal.map V3.lift⟩

/-- The same state in numpy floats. -/
def RunState.lift (s : RunState ℝ) : RunState XR :=
  { ray := s.ray.lift, remaining := .fin s.remaining, interactions := s.interactions,
    selected := s.selected.map Selected.lift, sfo := s.sfo, log := s.log.map DetHit.lift }

/-- The same outcome in numpy floats. -/
def Outcome.lift : Outcome ℝ → Outcome XR
  | .finished s => .finished s.lift
  | .raised e s => .raised e s.lift
  | .outOfFuel s => .outOfFuel s.lift

/-- The ray runs along no cylinder of the scene. -/
def CrossesCylinders (optics : List (Optic ℝ)) (r : Ray ℝ) : Prop :=
  ∀ o ∈ optics, ∀ c, Prim.cylinder c ∈ o.prims → ∀ k : ℝ, r.direction ≠ k * c.direction

/-- Every grating that reports the ray has an outgoing direction for it (in real numbers). -/
def GratingsAnswer (optics : List (Optic ℝ)) (r : Ray ℝ) : Prop :=
  ∀ g, .grating g ∈ optics → (∃ res, g.testIntersect r = .ok res ∧ res.hit = true) → g.Diffracts r

/-- At no pass of the run in real numbers does the ray run along a cylinder or lack a diffracted direction. -/
def RegularRun (md : ℝ) (optics : List (Optic ℝ)) (mi : Option Int) (ray : Ray ℝ) : Prop :=
  ∀ n s, Passes md optics mi n (RunState.init ray md) s → CrossesCylinders optics s.ray ∧ GratingsAnswer optics s.ray

end Optics
