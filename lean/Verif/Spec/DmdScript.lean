import Verif.Model.Vec
import Verif.Spec.Euclid
import Mathlib.Analysis.SpecialFunctions.Trigonometric.Basic

/-!
# Specification: the image in the micromirror script

Points of the object plane `y = 0` are imaged through a lens, tilted micromirrors and a second lens onto a detector that is
tilted by twice the deflection.  The tilt makes the image sharp, and its magnification depend on the place.
-/

namespace Optics

/-- Degrees. -/
noncomputable def deg (a : ℝ) : ℝ := a * Real.pi / 180

/-- The magnification for object points with coordinate `x`. -/
noncomputable def dmdMagnification (x : ℝ) : ℝ := 25 / (25 + x * Real.sin (deg 21.8))

/-- The image of the object point `(x, 0, z)`: the centre of the detector, at 100 mm from the micromirrors in the direction
21.8° away from the incoming axis, and from there the magnified coordinates along the detector, which is inclined by 43.6°. -/
noncomputable def dmdImage (x z : ℝ) : V3 ℝ :=
  ⟨100 * Real.sin (deg 21.8) + dmdMagnification x * x * Real.cos (deg 43.6),
    200 - 100 * Real.cos (deg 21.8) + dmdMagnification x * x * Real.sin (deg 43.6), dmdMagnification x * z⟩

/-- The rays from points `(x, 0, z)` of an object of 5 mm to points `(p, 100, q)` of the first lens within the aperture of the script. -/
structure DmdRay (x z p q : ℝ) : Prop where
  hx : |x| ≤ 5 / 2
  hz : |z| ≤ 5 / 2
  hp : |p - x| ≤ 25 / 4
  hq : |q - z| ≤ 25 / 4

/-- The rays from the object point `(x, 0, z)` to the point `(p, 100, q)` of the first lens for which the tolerance of the ideal
lens does not matter: they go along the axes of the lenses, or leave them visibly. -/
structure DmdClear (x z p q : ℝ) : Prop where
  first : p = x ∧ q = z ∨ 1e-5 ≤ |p - x| ∨ 1e-5 ≤ |q - z|
  second : p = -x ∧ q = -z ∨ 1e-5 ≤ |p + x| ∨ 1e-5 ≤ |q + z|

end Optics
