import Verif.Spec.NearBall
/-!
What it means for a ray to meet an infinite cylinder from outside. Used by `Props/RoundedCylinders.lean`.
-/

namespace Optics
open V3

/-- The part of `v` across the axis. -/
noncomputable def across (a v : E3) : E3 := v - inner ℝ v a • a

/-- The ray from `P` along the unit vector `e` meets the cylinder of radius `ρ` about the line through `C` along the unit
vector `a` from outside, after the distance `t`.  There `h` is the radius times the cosine of the angle of incidence, measured
across the axis, and `A` is the square of the sine of the angle between ray and axis.  `L` bounds all lengths, and `q` is one plus the
cosine of the angle between the axis and the `z` direction. -/
structure CylinderAhead (R : Rounding) (C P : V3 ℝ) (e a : E3) (ρ t h A L q : ℝ) : Prop where
  unit : ‖e‖ = 1
  axis : ‖a‖ = 1
  on : ‖across a (P.toE + t • e - C.toE)‖ = ρ
  cosine : inner ℝ e (across a (P.toE + t • e - C.toE)) = -h
  slant : ‖across a e‖ ^ 2 = A
  steep : 0 < h
  ahead : 1 / 100 ≤ t
  reach : t ≤ L
  size : ‖P.toE‖ ≤ L
  dist : ‖P.toE - C.toE‖ ≤ L
  land : ‖P.toE + t • e - C.toE‖ ≤ L
  one : 1 ≤ L
  range : L ≤ 10 ^ 30
  thick : 1 / 10 ^ 10 ≤ ρ
  qpos : 0 < q
  qtop : q ≤ 2
  tilt : 2 * 10 ^ 7 * (R.u * L ^ 2) ≤ q * A * h ^ 2
  away : 10 ^ 4 * (R.u * L ^ 2) ≤ q * A * h * t
  near : 150 * (R.u * L ^ 2) ≤ A * h / 10 ^ 12

end Optics
