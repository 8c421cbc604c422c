import Verif.Model.Num

/-!
# Exact reals with numpy's special values

`XR` adds `nan`, `inf`, `-inf` to the real numbers, with the rules numpy `float64` follows (IEEE 754),
but exact arithmetic on finite numbers: no rounding, no overflow, and no signed zero (the zero
denominator of `x / 0` counts as `+0`).
-/

namespace Optics

/-- A numpy `float64`, up to rounding and the sign of zero. -/
inductive XR where
  | nan
  | inf
  | ninf
  | fin (x : ℝ)

namespace XR

/-- IEEE negation. -/
def neg : XR → XR
  | nan => nan
  | inf => ninf
  | ninf => inf
  | fin x => fin (-x)

/-- IEEE addition: `inf + -inf = nan`. -/
noncomputable def add : XR → XR → XR
  | nan, _ => nan
  | _, nan => nan
  | inf, ninf => nan
  | ninf, inf => nan
  | inf, _ => inf
  | _, inf => inf
  | ninf, _ => ninf
  | _, ninf => ninf
  | fin x, fin y => fin (x + y)

/-- `inf` with the sign of `x`; `nan` for `x = 0`. -/
noncomputable def infSign (x : ℝ) : XR := if 0 < x then inf else if x < 0 then ninf else nan

/-- IEEE multiplication: `0 * inf = nan`. -/
noncomputable def mul : XR → XR → XR
  | nan, _ => nan
  | _, nan => nan
  | inf, inf => inf
  | inf, ninf => ninf
  | ninf, inf => ninf
  | ninf, ninf => inf
  | inf, fin y => infSign y
  | fin x, inf => infSign x
  | ninf, fin y => infSign (-y)
  | fin x, ninf => infSign (-x)
  | fin x, fin y => fin (x * y)

/-- IEEE division: `0/0 = nan`, `x/0 = ±inf`, `inf/inf = nan`, `x/inf = 0`. -/
noncomputable def div : XR → XR → XR
  | nan, _ => nan
  | _, nan => nan
  | fin x, fin y => if y = 0 then infSign x else fin (x / y)
  | fin _, _ => fin 0
  | inf, fin y => if y < 0 then ninf else inf
  | ninf, fin y => if y < 0 then inf else ninf
  | _, _ => nan

/-- IEEE `<`: false if either side is `nan`. -/
def lt : XR → XR → Prop
  | nan, _ => False
  | _, nan => False
  | inf, _ => False
  | ninf, ninf => False
  | ninf, _ => True
  | fin _, ninf => False
  | fin _, inf => True
  | fin x, fin y => x < y

/-- IEEE `<=`: false if either side is `nan`. -/
def le : XR → XR → Prop
  | nan, _ => False
  | _, nan => False
  | _, inf => True
  | ninf, _ => True
  | fin x, fin y => x ≤ y
  | _, _ => False

/-- Python `==`: `nan == nan` is false. -/
noncomputable def eqb : XR → XR → Bool
  | inf, inf => true
  | ninf, ninf => true
  | fin x, fin y => decide (x = y)
  | _, _ => false

/-- `np.sqrt`: `nan` on negative numbers. -/
noncomputable def sqrt : XR → XR
  | inf => inf
  | fin x => if x < 0 then nan else fin (Real.sqrt x)
  | _ => nan

/-- `np.abs`. -/
def abs : XR → XR
  | nan => nan
  | fin x => fin |x|
  | _ => inf

/-- A function that is `nan` on `nan` and on infinities. -/
noncomputable def onFin (f : ℝ → XR) : XR → XR
  | fin x => f x
  | _ => nan

/-- `np.arctan2(y, x)`. -/
noncomputable def arctan2 : XR → XR → XR
  | nan, _ => nan
  | _, nan => nan
  | fin y, fin x => fin (Complex.arg ⟨x, y⟩)
  | fin _, inf => fin 0
  | fin y, ninf => fin (if y < 0 then -Real.pi else Real.pi)
  | inf, fin _ => fin (Real.pi / 2)
  | ninf, fin _ => fin (-(Real.pi / 2))
  | inf, inf => fin (Real.pi / 4)
  | inf, ninf => fin (3 * Real.pi / 4)
  | ninf, inf => fin (-(Real.pi / 4))
  | ninf, ninf => fin (-(3 * Real.pi / 4))

/-- `np.arcsin` / `np.arccos`: `nan` outside `[-1, 1]`. -/
noncomputable def onUnit (f : ℝ → ℝ) (x : ℝ) : XR :=
  if -1 ≤ x ∧ x ≤ 1 then fin (f x) else nan

/-- numpy's floats.  (`pow`, `exp` and `log` are not used by the optics code; `pow` is only right for
finite positive bases.) -/
noncomputable instance : PyNum XR where
  add := add
  sub a b := add a (neg b)
  mul := mul
  div := div
  neg := neg
  lt := lt
  le := le
  ofScientific m s e := fin (OfScientific.ofScientific m s e)
  decLT _ _ := Classical.propDecidable _
  decLE _ _ := Classical.propDecidable _
  eqb := eqb
  ltInf
    | fin _ => true
    | ninf => true
    | _ => false
  sqrt := sqrt
  abs := abs
  sin := onFin fun x => fin (Real.sin x)
  cos := onFin fun x => fin (Real.cos x)
  arccos := onFin (onUnit Real.arccos)
  arcsin := onFin (onUnit Real.arcsin)
  arctan2 := arctan2
  pow a b := onFin (fun x => onFin (fun y => if 0 < x then fin (x ^ y) else nan) b) a
  exp
    | nan => nan
    | inf => inf
    | ninf => fin 0
    | fin x => fin (Real.exp x)
  log
    | inf => inf
    | fin x => if 0 < x then fin (Real.log x) else if x < 0 then nan else ninf
    | _ => nan
  pi := fin Real.pi

/-! Finite numbers compute as in `ℝ`, away from the singular points. -/

@[simp] theorem fin_inj (x y : ℝ) : (fin x = fin y) ↔ x = y := by constructor <;> simp
@[simp] theorem fin_add (x y : ℝ) : fin x + fin y = fin (x + y) := rfl
@[simp] theorem fin_sub (x y : ℝ) : fin x - fin y = fin (x - y) := by
  show add (fin x) (neg (fin y)) = _; simp [add, neg, sub_eq_add_neg]
@[simp] theorem fin_mul (x y : ℝ) : fin x * fin y = fin (x * y) := rfl
@[simp] theorem fin_neg (x : ℝ) : -fin x = fin (-x) := rfl
theorem fin_div (x y : ℝ) (h : y ≠ 0) : fin x / fin y = fin (x / y) := by
  show div (fin x) (fin y) = _; simp [div, h]
@[simp] theorem fin_lt (x y : ℝ) : (fin x < fin y) = (x < y) := rfl
@[simp] theorem fin_le (x y : ℝ) : (fin x ≤ fin y) = (x ≤ y) := rfl
@[simp] theorem fin_eqb (x y : ℝ) : PyNum.eqb (fin x) (fin y) = decide (x = y) := rfl
@[simp] theorem fin_ltInf (x : ℝ) : PyNum.ltInf (fin x) = true := rfl
theorem fin_sqrt (x : ℝ) (h : 0 ≤ x) : PyNum.sqrt (fin x) = fin (Real.sqrt x) := by
  show sqrt (fin x) = _; simp [sqrt, not_lt.mpr h]
@[simp] theorem fin_abs (x : ℝ) : PyNum.abs (fin x) = fin |x| := rfl
@[simp] theorem fin_sin (x : ℝ) : PyNum.sin (fin x) = fin (Real.sin x) := rfl
@[simp] theorem fin_cos (x : ℝ) : PyNum.cos (fin x) = fin (Real.cos x) := rfl
theorem fin_arcsin (x : ℝ) (h : -1 ≤ x ∧ x ≤ 1) : PyNum.arcsin (fin x) = fin (Real.arcsin x) := by
  show onUnit Real.arcsin x = _; simp [onUnit, h]
theorem fin_arccos (x : ℝ) (h : -1 ≤ x ∧ x ≤ 1) : PyNum.arccos (fin x) = fin (Real.arccos x) := by
  show onUnit Real.arccos x = _; simp [onUnit, h]
@[simp] theorem fin_arctan2 (y x : ℝ) : PyNum.arctan2 (fin y) (fin x) = fin (Complex.arg ⟨x, y⟩) := rfl
@[simp] theorem fin_ofScientific (m : ℕ) (s : Bool) (e : ℕ) :
    (OfScientific.ofScientific m s e : XR) = fin (OfScientific.ofScientific m s e) := rfl

/-! The singular points. -/

theorem zero_div_zero : fin 0 / fin 0 = nan := by show div _ _ = _; simp [div, infSign]
theorem sqrt_neg (x : ℝ) (h : x < 0) : PyNum.sqrt (fin x) = nan := by show sqrt _ = _; simp [sqrt, h]
theorem arcsin_out (x : ℝ) (h : ¬(-1 ≤ x ∧ x ≤ 1)) : PyNum.arcsin (fin x) = nan := by
  show onUnit Real.arcsin x = _; simp [onUnit, h]
@[simp] theorem nan_add (a : XR) : nan + a = nan := by cases a <;> rfl
@[simp] theorem add_nan (a : XR) : a + nan = nan := by cases a <;> rfl
@[simp] theorem nan_mul (a : XR) : nan * a = nan := by cases a <;> rfl
@[simp] theorem mul_nan (a : XR) : a * nan = nan := by cases a <;> rfl
@[simp] theorem nan_sub (a : XR) : nan - a = nan := by show add _ _ = _; cases a <;> rfl
@[simp] theorem sub_nan (a : XR) : a - nan = nan := by show add _ _ = _; cases a <;> rfl
@[simp] theorem nan_div (a : XR) : nan / a = nan := by cases a <;> rfl
@[simp] theorem div_nan (a : XR) : a / nan = nan := by cases a <;> rfl
@[simp] theorem neg_nan : -nan = nan := rfl
@[simp] theorem sqrt_nan : PyNum.sqrt nan = nan := rfl
@[simp] theorem sin_nan : PyNum.sin nan = nan := rfl
@[simp] theorem cos_nan : PyNum.cos nan = nan := rfl
@[simp] theorem abs_nan : PyNum.abs nan = nan := rfl
@[simp] theorem nan_lt (a : XR) : (nan < a) = False := by cases a <;> rfl
@[simp] theorem lt_nan (a : XR) : (a < nan) = False := by cases a <;> rfl
@[simp] theorem nan_le (a : XR) : (nan ≤ a) = False := by cases a <;> rfl
@[simp] theorem le_nan (a : XR) : (a ≤ nan) = False := by cases a <;> rfl

end XR
end Optics
