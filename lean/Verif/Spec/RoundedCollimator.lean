import Verif.Spec.RoundedLens

/-! # Specification: collimating and focusing lenses with rounded arithmetic -/

namespace Optics
variable {R : Rounding}
open V3

/-- A round lens of the given type as the constructor builds it, from its centre and its axis. -/
inductive RoundLensOptic (type : String) (f : Option (Fl R)) : Optic (Fl R) → V3 ℝ → V3 ℝ → Prop
  | mk {l D w h index} {P N : V3 ℝ} (hN : SaneLength N)
      (hl : Lens.new P.fl (some N.fl) "spherical_biconvex" D w h f type index = .ok l) : RoundLensOptic type f (.lens l) P N

/-- A pass of the loop, in any scene, that takes the ray from `O` in the direction `w` to the lens at `P` with axis `N`.  No more
than the budget `r` is left, all of it happens within the distance `B` of the origin, and the ray is not nearly in the plane of the
lens. -/
structure RoundPass (type : String) (f : Option (Fl R)) (md : Fl R) (optics : List (Optic (Fl R))) (s s' : RunState (Fl R))
    (O w P N : V3 ℝ) (B r : ℝ) : Prop where
  one_le : 1 ≤ B
  le_big : B ≤ 10 ^ 50
  grid : R.u * B ≤ 1 / 10 ^ 10
  pos : s.ray.position = O.fl
  dir : s.ray.direction = w.fl
  unit : |‖w.toE‖ - 1| ≤ 5 * R.u
  rem : s.remaining = Fl.fin r
  rem_nonneg : 0 ≤ r
  room : ‖O.toE‖ + r + ‖P.toE‖ ≤ 9 / 10 * B
  cos : 1 / 1000 ≤ |inner ℝ (axisOf N) w.toE|
  kind : s.ray.type ≠ "faerie_fire"
  step : runStep md optics s = .next s'
  hit : s'.interactions = s.interactions + 1
  lens : ∃ sel, s'.selected = some sel ∧ RoundLensOptic type f sel.optic P N

/-- The side of the lens the ray goes to: `1` if that is the side its axis points to and `-1` if it is the other. -/
noncomputable def sideOf (N w : V3 ℝ) : ℝ := if 0 < inner ℝ (axisOf N) w.toE then 1 else -1

end Optics
