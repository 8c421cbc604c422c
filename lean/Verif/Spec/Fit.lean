import Mathlib.Data.Matrix.Mul
import Mathlib.Data.Real.Basic
import Mathlib.Algebra.Polynomial.Derivative

/-!
# Least squares fits

What a Savitzky-Golay filter is about: fitting polynomials on a window of equidistant points, and what `pinv` of numpy
promises.
-/

namespace Optics

open Matrix

/-- The four Penrose equations: `P` is the pseudo-inverse of `B`. -/
structure IsPseudoInverse {m n : Type} [Fintype m] [Fintype n] (B : Matrix m n ℝ) (P : Matrix n m ℝ) : Prop where
  bpb : B * P * B = B
  pbp : P * B * P = P
  bp : (B * P)ᵀ = B * P
  pb : (P * B)ᵀ = P * B

/-- The powers `k ^ i` for the window `k = -half, ..., half` and `i = 0, ..., order`. -/
def windowPowers (half order : ℕ) : Matrix (Fin (2 * half + 1)) (Fin (order + 1)) ℝ :=
  fun k i => ((k : ℝ) - half) ^ (i : ℕ)

/-- The samples `f(0), ..., f(n-1)` of a polynomial. -/
def samples (f : Polynomial ℝ) (n : ℕ) : List ℝ := (List.range n).map fun t : ℕ => f.eval (t : ℝ)

end Optics
