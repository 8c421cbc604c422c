import Verif.Spec.Scene
import Verif.Spec.RayOptics
import Mathlib.Geometry.Euclidean.Projection

/-!
# Specification: plane mirrors

The mirror image in a plane is Mathlib's reflection in an affine subspace.
-/

namespace Optics

/-- The mirror image in the plane through `c` perpendicular to `n`. -/
noncomputable def planeImage (c n : V3 ℝ) : E3 ≃ᵃⁱ[ℝ] E3 :=
  EuclideanGeometry.reflection (AffineSubspace.mk' c.toE (ℝ ∙ n.toE)ᗮ)

/-- The optic is an ordinary plane mirror (a disc or a rectangle), built with the position `c` and the normal `n`. -/
inductive Optic.PlaneMirror (c n : V3 ℝ) : Optic ℝ → Prop
  | mk {shape : String} {t : Option (V3 ℝ)} {D w h f : Option ℝ} {dmd : V3 ℝ} {m : Mirror ℝ}
      (hs : shape = "circular_flat" ∨ shape = "rectangular_flat") (hn : n ≠ ⟨0, 0, 0⟩) (ht : NonZeroVec t)
      (hdmd : dmd ≠ ⟨0, 0, 0⟩) (hD : NonZero D) (hf : NonZero f)
      (hm : Mirror.new c shape (some n) D w h f t "normal" (some dmd) = .ok m) : PlaneMirror c n (.mirror m)

/-- A plane mirror as seen by a path: a point of its plane and the normal. -/
structure MirrorPlane where
  point : V3 ℝ
  normal : V3 ℝ

/-- The composition of the mirror images in the planes of a list, the first one first. -/
noncomputable def imageThrough : List MirrorPlane → E3 → E3
  | [], x => x
  | m :: ms, x => imageThrough ms (planeImage m.point m.normal x)

end Optics
