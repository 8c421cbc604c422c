import Verif.Model.Optics
import Verif.Spec.Geometry
import Verif.Spec.RayOptics

/-! # Specification: mirror balls and the light around them -/

namespace Optics

/-- `o` is a mirror ball around `b.1` with the radius `b.2`, built by the constructor. -/
def BallMirror (o : Optic ℝ) (b : V3 ℝ × ℝ) : Prop :=
  0 < b.2 ∧ ∃ n w h f t dmd m, dmd ≠ ⟨0, 0, 0⟩ ∧
    Mirror.new b.1 "circular_convex_spherical" n (some (2 * b.2)) w h f t "normal" (some dmd) = .ok m ∧ o = .mirror m

/-- The point `x` is inside none of the balls. -/
def OutsideBalls (balls : List (V3 ℝ × ℝ)) (x : E3) : Prop := ∀ b ∈ balls, b.2 ≤ dist x b.1.toE

/-- The broken line through the points of a list enters none of the balls. -/
def PathOutside (balls : List (V3 ℝ × ℝ)) (l : List (V3 ℝ)) : Prop :=
  (∀ p ∈ l, OutsideBalls balls p.toE) ∧
  ∀ l₁ p q l₂, l = l₁ ++ p :: q :: l₂ → ∀ x ∈ segment ℝ p.toE q.toE, OutsideBalls balls x

/-- The line of the ray touches the ball, at a point behind the ray. -/
def TouchedBehind (b : V3 ℝ × ℝ) (ray : Ray ℝ) : Prop :=
  Tangent b.1 b.2 ray.position ray.direction ∧ inner ℝ ray.direction.toE (b.1 - ray.position).toE < 0

end Optics
