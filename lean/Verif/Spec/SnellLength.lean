import Verif.Spec.RayOptics

/-! # Snell's law for directions that are not quite of length 1 -/

namespace Optics

/-- What exact refraction at a surface makes of a direction `d` of any length: `n` is the unit normal on the side of the
ray, `η₁` the index on that side.  Snell's law holds along the surface; the new direction points to the other side; and
`η² (length² - 1)` does not change.  For a direction of length 1 the last says that the new length is 1. -/
structure SnellExact (η₁ η₂ : ℝ) (n d e : E3) : Prop where
  tangential : ∀ T : E3, inner ℝ n T = 0 → η₂ * inner ℝ e T = η₁ * inner ℝ d T
  length : η₂ ^ 2 * (‖e‖ ^ 2 - 1) = η₁ ^ 2 * (‖d‖ ^ 2 - 1)
  across : inner ℝ e n ≤ 0

end Optics
