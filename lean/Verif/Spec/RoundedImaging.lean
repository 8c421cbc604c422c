import Verif.Spec.RoundedLens

/-! # Specification: an ideal lens and a detector behind it, with rounded arithmetic -/

namespace Optics
open V3

/-- Behind the lens at `P` (axis `N`, focal length `f`), seen from `O`, and parallel to it, is the plane of a detector with the centre `C`, at the
distance `g`.  The ray from `O` in the direction `e` crosses the plane of the lens within `b` of its centre, with a small margin.  `κ` bounds the cosine
of the angle between the ray and the axis before the lens from below, `κ'` behind it; the numbers are not too large for the precision and the
detector is within the reach `m`. -/
structure DetectorBehind (R : Rounding) (O : V3 ℝ) (e : E3) (P N C : V3 ℝ) (f B κ b κ' g m : ℝ) : Prop where
  side : 0 < inner ℝ (axisOf N) (C.toE - P.toE) * inner ℝ (axisOf N) e
  gap : |inner ℝ (axisOf N) (C.toE - P.toE)| = g
  gap_lo : 1 / 100 ≤ g
  fine : 16000 * (R.u * (B / κ ^ 2)) ≤ f
  cross : ‖O.toE + (|inner ℝ (O.toE - P.toE) (axisOf N)| / |inner ℝ (axisOf N) e|) • e - P.toE‖ + 200 * (R.u * (B / κ ^ 2)) ≤ b
  slope : 1 / 1000 ≤ κ'
  slope_le : κ' * (101 / 100 * (f / κ + b)) ≤ 99 / 100 * f
  room₁ : ‖O.toE‖ + (|inner ℝ (O.toE - P.toE) (axisOf N)| + g) / κ + ‖C.toE‖ ≤ 9 / 10 * B
  room₂ : ‖P.toE‖ + b + (g + 1 / 100) / κ' + ‖C.toE‖ ≤ 9 / 10 * B
  reach : |inner ℝ (O.toE - P.toE) (axisOf N)| / κ + (g + 1 / 100) / κ' + 1 ≤ 99 / 100 * m

end Optics
