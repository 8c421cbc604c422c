import Verif.Spec.NearBall

/-! # A glass ball ahead of a ray, close enough for rounded arithmetic -/

namespace Optics
open V3

/-- The exact way of a ray through a ball of index `η` in air.  It arrives at the point `A` in the direction `e`, goes in the
direction `e₁` along a chord of length `2 k`, and leaves in the direction `e₂`. -/
structure ThroughGlass (C A e e₁ e₂ : E3) (ρ k η : ℝ) : Prop where
  enter : Refracted 1 η (ρ⁻¹ • (A - C)) e e₁
  chord : inner ℝ e₁ (C - A) = k
  on : ‖A + (2 * k) • e₁ - C‖ = ρ
  leave : Refracted η 1 (ρ⁻¹ • (A + (2 * k) • e₁ - C)) e₁ e₂

/-- A ball ahead of a ray as in `BallAhead`, made of glass of index `η`.  The rounding errors of the way through the ball stay
below the clipping floor too, and the ray does not graze the ball. -/
structure GlassAhead (R : Rounding) (C P : V3 ℝ) (e : E3) (ρ t h L η : ℝ) : Prop extends BallAhead R C P e ρ t h L where
  glass : 1 ≤ η
  dense : η ≤ 4
  inside : R.u * (6 * L * ρ + 230 * ρ ^ 2) ≤ h / 10 ^ 12
  grazing : 10 ^ 8 * (R.u * L ^ 2 * ρ ^ 2) ≤ h ^ 4

end Optics
