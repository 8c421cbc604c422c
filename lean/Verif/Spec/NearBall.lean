import Verif.Spec.Rounded
import Verif.Spec.RayOptics

/-! # A ball ahead of a ray, close enough for rounded arithmetic -/

namespace Optics
open V3

/-- The ray from `P` in the direction `e` meets the ball around `C` of radius `ρ` after the distance `t`; `h` is the
radius times the cosine of the angle of incidence, half the chord the line cuts from the ball.  `L` bounds the
coordinates and the distance to the centre, in units of which the ball has at least radius 1.  With `near` the rounding
errors stay below the clipping floor of `1e-12`. -/
structure BallAhead (R : Rounding) (C P : V3 ℝ) (e : E3) (ρ t h L : ℝ) : Prop where
  unit : ‖e‖ = 1
  on : ‖P.toE + t • e - C.toE‖ = ρ
  cosine : inner ℝ e (C.toE - (P.toE + t • e)) = h
  radius : 1 ≤ ρ
  ahead : 1 / 1000 ≤ t
  steep : 1 / 1000 ≤ h
  size : ‖P.toE‖ ≤ L
  dist : ‖C.toE - P.toE‖ ≤ L
  range : L ≤ 10 ^ 40
  near : R.u * (16 * L ^ 2 + 35 * L * ρ + 15 * ρ ^ 2) ≤ h / 10 ^ 12

end Optics
