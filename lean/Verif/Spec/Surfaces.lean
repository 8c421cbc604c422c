import Verif.Spec.RayOptics
import Verif.Spec.Geometry

/-!
# Specification: what mirrors and glass surfaces do to a direction; the first point of a ray on a sphere
-/

namespace Optics

/-- What a mirror of the given type does to the direction `d` of a ray that hits it where the surface is
perpendicular to `a`: an ordinary mirror reflects about `a`, a DMD about the normal of its micromirrors, other types
let the ray pass. -/
structure MirrorLaw (type : String) (dmd a d d' : E3) : Prop where
  ordinary : type = "normal" → Reflected a d d'
  tilted : type = "dmd" → Reflected dmd d d'
  other : type ≠ "normal" → type ≠ "dmd" → d' = d

/-- What a surface perpendicular to `a` between glass of indices `η₁` and `η₂` does to the direction `d`: Snell's
law if possible, else total reflection. -/
structure GlassLaw (η₁ η₂ : ℝ) (a d d' : E3) : Prop where
  unit : ‖d'‖ = 1
  refracts : η₁ * sinIncidence a d ≤ η₂ → Refracted η₁ η₂ (‖a‖⁻¹ • a) d d'
  reflects : η₂ < η₁ * sinIncidence a d → Reflected a d d'

/-- The first point of the ray from `p` along `d` on the sphere, further than `1e-12` ahead, is at parameter `t`. -/
structure FirstOnSphere (c : V3 ℝ) (R : ℝ) (p d : V3 ℝ) (t : ℝ) : Prop where
  ahead : 1e-12 < t
  on : OnSphere c R (lineAt p d t)
  first : ∀ s, 1e-12 < s → OnSphere c R (lineAt p d s) → t ≤ s

end Optics
