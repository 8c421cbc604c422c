import Verif.Spec.Rounded
import Verif.Spec.RayOptics

/-! # Specification: ideal lenses with rounded arithmetic -/

namespace Optics
variable {R : Rounding}
open V3

/-- An ideal lens as the constructor builds it, from its centre, its axis and its focal length. -/
inductive IdealLensOptic : Optic (Fl R) → V3 ℝ → V3 ℝ → ℝ → Prop
  | mk {l D w h index} {P N : V3 ℝ} {f : ℝ} (hN : SaneLength N)
      (hl : Lens.new P.fl (some N.fl) "spherical_biconvex" D w h (some (Fl.fin f)) "ideal" index = .ok l) :
      IdealLensOptic (.lens l) P N f

/-- The unit vector along the axis of a lens. -/
noncomputable def axisOf (N : V3 ℝ) : E3 := (1 / ‖N.toE‖) • N.toE

/-- The sizes for which the bounds are proved: `f` is the focal length, `B` bounds all positions, and `c` is the cosine of the
angle between the ray and the axis. -/
structure ThinSizes (R : Rounding) (f B c : ℝ) : Prop where
  f_lo : 1 / 10 ^ 90 ≤ f
  f_le : f ≤ B
  one_le : 1 ≤ B
  le_big : B ≤ 10 ^ 50
  lo : 1 / 1000 ≤ c
  hi : c ≤ 1 + 1 / 10000
  fine : 1000 * (R.u * (B / c ^ 2)) ≤ f

/-- The ray is not so close to the axis that the code treats it as a ray along the axis. -/
def OffAxis (R : Rounding) (N w : V3 ℝ) : Prop :=
  2 / 10 ^ 8 + 5 * R.u < ‖w.toE - axisOf N‖ ∧ 2 / 10 ^ 8 + 5 * R.u < ‖w.toE + axisOf N‖

/-- A pass of the loop, in any scene, that takes the ray from `O` in the direction `w` to the ideal lens at `P` with axis `N` and
focal length `f`.  No more than the budget `r` is left, and all of it happens within the distance `B` of the origin. -/
structure LensPass (md : Fl R) (optics : List (Optic (Fl R))) (s s' : RunState (Fl R)) (O w P N : V3 ℝ) (f B c r : ℝ) : Prop where
  sizes : ThinSizes R f B c
  grid : R.u * B ≤ 1 / 10 ^ 10
  pos : s.ray.position = O.fl
  dir : s.ray.direction = w.fl
  unit : |‖w.toE‖ - 1| ≤ 5 * R.u
  rem : s.remaining = Fl.fin r
  rem_nonneg : 0 ≤ r
  room : ‖O.toE‖ + r + ‖P.toE‖ ≤ 9 / 10 * B
  cos : |inner ℝ (axisOf N) w.toE| = c
  kind : s.ray.type ≠ "faerie_fire"
  step : runStep md optics s = .next s'
  hit : s'.interactions = s.interactions + 1
  lens : ∃ sel, s'.selected = some sel ∧ IdealLensOptic sel.optic P N f

/-- The ray from `O` in the direction `e` meets the lens at `P` with axis `N`, focal length `f` and aperture radius `a`: the lens
is ahead and within reach, the ray is not too oblique, it crosses the lens plane inside the rim with a small margin, and the
numbers are not too large for the precision. -/
structure LensAhead (R : Rounding) (O : V3 ℝ) (e : E3) (P N : V3 ℝ) (f B κ a md : ℝ) : Prop where
  sizes : ThinSizes R f B κ
  grid : R.u * B ≤ 1 / 10 ^ 10
  room : ‖O.toE‖ + md + ‖P.toE‖ ≤ 9 / 10 * B
  cos : κ + 5 * R.u ≤ |inner ℝ (axisOf N) e|
  ahead : 0 < inner ℝ (axisOf N) (P.toE - O.toE) * inner ℝ (axisOf N) e
  dist : 1 / 1000 ≤ |inner ℝ (O.toE - P.toE) (axisOf N)|
  near : 100 * (R.u * (B / κ ^ 2)) ≤ |inner ℝ (O.toE - P.toE) (axisOf N)|
  radius : 1 / 1000 ≤ a
  aperture : ‖O.toE + (|inner ℝ (O.toE - P.toE) (axisOf N)| / |inner ℝ (axisOf N) e|) • e - P.toE‖ +
    200 * (R.u * (B / κ ^ 2)) ≤ a
  reach : |inner ℝ (O.toE - P.toE) (axisOf N)| / κ + 200 * (R.u * (B / κ ^ 2)) ≤ 999 / 1000 * md
  leave : 3 * 10 ^ 11 * (R.u * B * (f / κ + a)) ≤ f

end Optics
