import Verif.Model.XR
import Mathlib.Data.Int.Log

/-!
# Rounded arithmetic

`XR` computes exactly on finite numbers.  `Fl R` computes as numpy does: every operation computes the exact
result and then rounds it, `R.rnd`, possibly to an infinity.  Theorems hold for every rounding `R` with the laws
below; `binary64` is the rounding of IEEE 754 doubles (to nearest, ties to even, with gradual underflow and
overflow).

Simplified: there is no signed zero; the transcendental functions are rounded correctly, which the C library only
approximates; a sum of three products is rounded product by product and then from the left, which is how numpy's
`dot` works without fused multiply-add.
-/

namespace Optics

/-- A way of rounding real numbers to floats. -/
structure Rounding where
  /-- what an operation returns when its exact result is `x` -/
  rnd : ℝ → XR
  /-- the unit roundoff -/
  u : ℝ
  u_pos : 0 < u
  u_small : u ≤ 1 / 2 ^ 20
  zero : rnd 0 = .fin 0
  mono : ∀ x y, x ≤ y → XR.le (rnd x) (rnd y)
  near : ∀ x, |x| ≤ 10 ^ 300 → ∃ y, rnd x = .fin y ∧ |y - x| ≤ u * (|x| + 1 / 10 ^ 300)

/-- Round the exact result of an operation; special values stay. -/
noncomputable def Rounding.apply (R : Rounding) : XR → XR
  | .fin x => R.rnd x
  | a => a

/-- A float of the format `R`. -/
structure Fl (R : Rounding) where
  val : XR

namespace Fl
variable {R : Rounding}

/-- A finite float. -/
noncomputable def fin (x : ℝ) : Fl R := ⟨.fin x⟩

/-- numpy's floats: negation, `abs` and comparisons are exact, every other result is rounded. -/
noncomputable instance : PyNum (Fl R) where
  add a b := ⟨R.apply (a.val + b.val)⟩
  sub a b := ⟨R.apply (a.val - b.val)⟩
  mul a b := ⟨R.apply (a.val * b.val)⟩
  div a b := ⟨R.apply (a.val / b.val)⟩
  neg a := ⟨-a.val⟩
  lt a b := a.val < b.val
  le a b := a.val ≤ b.val
  ofScientific m s e := ⟨R.apply (OfScientific.ofScientific m s e)⟩
  decLT _ _ := Classical.propDecidable _
  decLE _ _ := Classical.propDecidable _
  eqb a b := PyNum.eqb a.val b.val
  ltInf a := PyNum.ltInf a.val
  sqrt a := ⟨R.apply (PyNum.sqrt a.val)⟩
  abs a := ⟨PyNum.abs a.val⟩
  sin a := ⟨R.apply (PyNum.sin a.val)⟩
  cos a := ⟨R.apply (PyNum.cos a.val)⟩
  arccos a := ⟨R.apply (PyNum.arccos a.val)⟩
  arcsin a := ⟨R.apply (PyNum.arcsin a.val)⟩
  arctan2 a b := ⟨R.apply (PyNum.arctan2 a.val b.val)⟩
  pow a b := ⟨R.apply (PyNum.pow a.val b.val)⟩
  exp a := ⟨R.apply (PyNum.exp a.val)⟩
  log a := ⟨R.apply (PyNum.log a.val)⟩
  pi := ⟨R.apply PyNum.pi⟩

end Fl

/-! ## Doubles -/

/-- The nearest integer, ties to even. -/
noncomputable def roundEven (q : ℝ) : ℤ :=
  if q - ⌊q⌋ < 1 / 2 then ⌊q⌋
  else if 1 / 2 < q - ⌊q⌋ then ⌊q⌋ + 1
  else if Even ⌊q⌋ then ⌊q⌋ else ⌊q⌋ + 1

/-- The spacing of the doubles around `x`: 53 significant bits, exponents from -1022. -/
noncomputable def spacing64 (x : ℝ) : ℝ := 2 ^ (max (Int.log 2 |x|) (-1022) - 52)

/-- The nearest multiple of the spacing. -/
noncomputable def nearest64 (x : ℝ) : ℝ := roundEven (x / spacing64 x) * spacing64 x

/-- IEEE 754 round to nearest even: results of `2^1024` and more overflow. -/
noncomputable def rnd64 (x : ℝ) : XR :=
  if 2 ^ 1024 ≤ nearest64 x then .inf
  else if nearest64 x ≤ -2 ^ 1024 then .ninf
  else .fin (nearest64 x)

end Optics
