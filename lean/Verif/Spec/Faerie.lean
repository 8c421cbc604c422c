import Verif.Spec.Euclid

/-!
# Specification: the triples a stream of random numbers is read as
-/

namespace Optics

/-- A stream of numbers, read three at a time. -/
def triples : List ℝ → List (V3 ℝ)
  | x :: y :: z :: rest => ⟨x, y, z⟩ :: triples rest
  | _ => []

/-- The triples that are not too short to give a direction. -/
noncomputable def usableTriples (samples : List ℝ) : List (V3 ℝ) :=
  open Classical in (triples samples).filter fun v => decide (1e-6 ≤ ‖v.toE‖)

end Optics
