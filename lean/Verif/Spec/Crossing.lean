import Verif.Spec.Csg

/-!
# Specification: going into or out of a solid
-/

namespace Optics

/-- Just after `x` the line along `d` is in `S`. -/
def GoesInto (S : Set (V3 ℝ)) (x d : V3 ℝ) : Prop := ∃ ε > 0, ∀ u, 0 < u → u < ε → lineAt x d u ∈ S

/-- Just after `x` the line along `d` is not in `S`. -/
def GoesOut (S : Set (V3 ℝ)) (x d : V3 ℝ) : Prop := ∃ ε > 0, ∀ u, 0 < u → u < ε → lineAt x d u ∉ S

/-- The line does not enter or leave `S` between `x` and the distance `r` after `x`. -/
def Steady (S : Set (V3 ℝ)) (x d : V3 ℝ) (r : ℝ) : Prop :=
  ∀ u, 0 < u → u ≤ r → (lineAt x d u ∈ S ↔ lineAt x d r ∈ S)

end Optics
