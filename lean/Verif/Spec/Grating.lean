import Verif.Spec.Euclid
import Mathlib.Analysis.SpecialFunctions.Trigonometric.Basic

/-!
# Specification: reflection gratings

The surface has unit normal `n`, the grooves run along the unit vector `t`, perpendicular to `n`. The
dispersion plane is perpendicular to `t`; angles in it are measured from `n` counterclockwise about `t`.
-/

namespace Optics
open V3

/-- The vector with component `a` along the grooves whose part in the dispersion plane has length `ρ` and
angle `φ`. -/
noncomputable def polar (n t : V3 ℝ) (a ρ φ : ℝ) : V3 ℝ :=
  a * t + ρ * (Real.cos φ * n + Real.sin φ * cross t n)

/-- The part of `v` in the dispersion plane has angle `φ`. -/
def HasAngle (n t v : V3 ℝ) (φ : ℝ) : Prop := ∃ a ρ : ℝ, 0 < ρ ∧ v = polar n t a ρ φ

/-- The sine of the in-plane angle of incidence, without sign. -/
noncomputable def inPlaneSine (n t d : V3 ℝ) : ℝ :=
  |inner ℝ d.toE (cross t n).toE| / ‖(d - (inner ℝ d.toE t.toE : ℝ) * t).toE‖

end Optics
