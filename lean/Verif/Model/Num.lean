import Mathlib.Analysis.SpecialFunctions.Trigonometric.Inverse
import Mathlib.Analysis.SpecialFunctions.Complex.Arg
import Mathlib.Analysis.SpecialFunctions.Pow.Real
import Mathlib.Tactic.Ring
import Mathlib.Tactic.Linarith
import Mathlib.Tactic.FieldSimp
import Mathlib.Tactic.NormNum

/-!
# The number type of the model

The Python program computes with numpy `float64` scalars.  The model is *generic* in the number
type `α`: every function is written once, over the class `PyNum α` of "things numpy arithmetic can
be done with", and is then used at

* any `α` at all  -- theorems about pure control flow; they hold in particular for IEEE doubles,
* `ℝ`             -- theorems about geometry and optics (exact arithmetic, no rounding),
* `XR`            -- exact arithmetic *plus* numpy's `nan`, `inf`, `-inf` (see `Verif/Model/XR.lean`);
                    theorems about when `nan` does or does not appear,
* `Float`         -- only to *run* the model on the repository's own test vectors (`Verif/Sanity.lean`);
                    no theorem mentions `Float`.
-/

namespace Optics

/-- The numpy scalar operations the code uses.  (`general_optics.py`, `optics3d.py`,
`Shapes/shapes.py`: `np.sqrt`, `np.abs`, `np.sin`, `np.cos`, `np.arccos`, `np.arcsin`,
`np.arctan2`, `**`, `==`, `<`, `<=`, literals.) -/
class PyNum (α : Type) extends Add α, Sub α, Mul α, Div α, Neg α, LT α, LE α, OfScientific α where
  decLT : DecidableLT α
  decLE : DecidableLE α
  /-- Python's `==` on numbers (`nan == nan` is `False`, so this is not Lean equality). -/
  eqb : α → α → Bool
  /-- `x < np.inf`. -/
  ltInf : α → Bool
  sqrt : α → α
  abs : α → α
  sin : α → α
  cos : α → α
  arccos : α → α
  arcsin : α → α
  /-- `np.arctan2(y, x)`. -/
  arctan2 : α → α → α
  /-- `x ** y` for a non-integer exponent. -/
  pow : α → α → α
  exp : α → α
  /-- natural logarithm `np.log` -/
  log : α → α
  pi : α

attribute [instance_reducible, instance] PyNum.decLT PyNum.decLE

/-- Exact real arithmetic.  The totalised points of Mathlib's functions (`x / 0 = 0`,
`√(-1) = 0`, `arcsin` and `arccos` clamped outside `[-1,1]`, `0 ** y`, `log 0`) differ from numpy,
which produces `nan`/`inf` there: the instance `XR` follows numpy at those points. -/
noncomputable instance : PyNum ℝ where
  decLT := inferInstance
  decLE := inferInstance
  eqb a b := decide (a = b)
  ltInf _ := true
  sqrt := Real.sqrt
  abs x := |x|
  sin := Real.sin
  cos := Real.cos
  arccos := Real.arccos
  arcsin := Real.arcsin
  arctan2 y x := Complex.arg ⟨x, y⟩
  pow := Real.rpow
  exp := Real.exp
  log := Real.log
  pi := Real.pi

/-- IEEE doubles: only used to run the model. -/
instance : PyNum Float where
  decLT := inferInstance
  decLE := inferInstance
  eqb a b := a == b
  ltInf x := x < 1.0 / 0.0
  sqrt := Float.sqrt
  abs := Float.abs
  sin := Float.sin
  cos := Float.cos
  arccos := Float.acos
  arcsin := Float.asin
  arctan2 := Float.atan2
  pow := Float.pow
  exp := Float.exp
  log := Float.log
  pi := 3.141592653589793

section real
@[simp] theorem real_eqb (a b : ℝ) : PyNum.eqb a b = decide (a = b) := rfl
@[simp] theorem real_ltInf (a : ℝ) : PyNum.ltInf a = true := rfl
@[simp] theorem real_sqrt (a : ℝ) : PyNum.sqrt a = Real.sqrt a := rfl
@[simp] theorem real_abs (a : ℝ) : PyNum.abs a = |a| := rfl
@[simp] theorem real_sin (a : ℝ) : PyNum.sin a = Real.sin a := rfl
@[simp] theorem real_cos (a : ℝ) : PyNum.cos a = Real.cos a := rfl
@[simp] theorem real_arccos (a : ℝ) : PyNum.arccos a = Real.arccos a := rfl
@[simp] theorem real_arcsin (a : ℝ) : PyNum.arcsin a = Real.arcsin a := rfl
@[simp] theorem real_arctan2 (a b : ℝ) : PyNum.arctan2 a b = Complex.arg ⟨b, a⟩ := rfl
@[simp] theorem real_pow (a b : ℝ) : PyNum.pow a b = a ^ b := rfl
@[simp] theorem real_exp (a : ℝ) : PyNum.exp a = Real.exp a := rfl
@[simp] theorem real_log (a : ℝ) : PyNum.log a = Real.log a := rfl
@[simp] theorem real_pi : (PyNum.pi : ℝ) = Real.pi := rfl
end real

/-- Python exceptions the code can raise, as values. -/
inductive PyErr where
  | valueError
  | typeError
  | attributeError
  | keyError
  | indexError
  | zeroDivisionError
  | unboundLocalError
  | overflowError
  | isADirectoryError
  | fileNotFoundError
  deriving DecidableEq, Repr

/-- A Python computation: a value or an exception. -/
abbrev Py (β : Type) := Except PyErr β

variable {α : Type} [PyNum α]

/-- `np.isclose(a, b, rtol, atol)` on finite numbers: `|a - b| <= atol + rtol * |b|`
(numpy's definition; its special treatment of infinities is not modelled). -/
def isclose (a b rtol atol : α) : Bool :=
  decide (PyNum.abs (a - b) ≤ atol + rtol * PyNum.abs b)

/-- numpy's default tolerances of `np.isclose` / `np.allclose`: `rtol=1e-5`, `atol=1e-8`. -/
def rtolDefault : α := 1e-5
/-- see `rtolDefault` -/
def atolDefault : α := 1e-8

end Optics
