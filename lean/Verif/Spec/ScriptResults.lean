import Verif.Spec.Euclid
import Mathlib.Analysis.SpecialFunctions.Pow.Real

/-!
# Specification: what three example scripts show
-/

namespace Optics
open V3

/-- The point at distance `D` from `p` on the way to `q`. -/
noncomputable def towards (p q : V3 ℝ) (D : ℝ) : V3 ℝ := p + (D / dist p.toE q.toE) * (q - p)

/-- The sine of the Littrow angle for 700 nm in first order at 600 lines per millimetre, `600 · 10⁻⁶ · 700 / 2`. -/
noncomputable def littrowSine : ℝ := 21 / 100

/-- The direction that makes an angle with sine `b` with the normal of a grating that is turned about the `z` axis by the Littrow
angle, away from facing the source. -/
noncomputable def littrowExit (b : ℝ) : V3 ℝ :=
  √(1 - b ^ 2) * (⟨littrowSine, -√(1 - littrowSine ^ 2), 0⟩ : V3 ℝ) - b * (⟨√(1 - littrowSine ^ 2), littrowSine, 0⟩ : V3 ℝ)

/-- The grating equation at 600 lines per millimetre, solved for the sine of the exit angle. -/
noncomputable def exitSine (wavelength order : ℝ) : ℝ := 6e-4 * order * wavelength - littrowSine

end Optics
