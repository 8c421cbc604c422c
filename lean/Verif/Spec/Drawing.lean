import Verif.Spec.Geometry
import Verif.Model.Optics

/-!
# Specification: where an optic can be hit, and plane figures placed in space
-/

namespace Optics

/-- Some ray of unit direction, sent at the optic alone, is reported to hit it at `x`. -/
def Optic.CanBeHit (o : Optic ℝ) (x : V3 ℝ) : Prop :=
  ∃ ray : Ray ℝ, ‖ray.direction.toE‖ = 1 ∧ ∃ r, o.testIntersect ray = .ok r ∧ r.hit = true ∧ r.pt = some x

/-- `e₁`, `e₂` are unit vectors at right angles to each other and to `n`. -/
structure PlaneFrame (n e₁ e₂ : V3 ℝ) : Prop where
  unit₁ : ‖e₁.toE‖ = 1
  unit₂ : ‖e₂.toE‖ = 1
  perp : inner ℝ e₁.toE e₂.toE = 0
  perp₁ : inner ℝ e₁.toE n.toE = 0
  perp₂ : inner ℝ e₂.toE n.toE = 0

/-- The point of space at coordinates `q` of the plane through `c` spanned by `e₁`, `e₂`. -/
noncomputable def placed (c e₁ e₂ : V3 ℝ) (q : ℝ × ℝ) : V3 ℝ := c + q.1 * e₁ + q.2 * e₂

/-- The point of the sphere of radius `R` about `c` at azimuth `u` and polar angle `v`. -/
noncomputable def spherePoint (c : V3 ℝ) (R u v : ℝ) : V3 ℝ :=
  c + R * (⟨Real.cos u * Real.sin v, Real.sin u * Real.sin v, Real.cos v⟩ : V3 ℝ)

end Optics
