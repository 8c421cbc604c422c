import Verif.Model.Num
import Mathlib.Analysis.SpecialFunctions.Log.Base

/-!
# general.py: `log_interp1d`, `nparray2spacedstring`
-/

namespace Optics

/-! ## `log_interp1d` -/

/-- The line through two points. -/
noncomputable def lineThrough (p q : ℝ × ℝ) (x : ℝ) : ℝ := p.2 + (q.2 - p.2) / (q.1 - p.1) * (x - p.1)

/-- scipy's `InterpolatedUnivariateSpline(x, y, k=1)` evaluated at `x`, after its documentation: the spline of degree 1 through the points, whose first
and last pieces go on to infinity (`ext=0`).  A piece owns its left end. -/
noncomputable def linearSpline : ℝ × ℝ → ℝ × ℝ → List (ℝ × ℝ) → ℝ → ℝ
  | p, q, [], x => lineThrough p q x
  | p, q, r :: rest, x => if x < q.1 then lineThrough p q x else linearSpline q r rest x

/-- `np.all(np.diff(x) > 0.0)` -/
noncomputable def increasing : List ℝ → Bool
  | x :: y :: rest => decide (y - x > 0) && increasing (y :: rest)
  | _ => true

/-- The constructor `InterpolatedUnivariateSpline(x, y, k=1)`: arrays of different lengths, points not in increasing order and fewer than two points raise.
(The class of the last exception is scipy's own; it is not modelled.) -/
noncomputable def interpolatedSpline (xs ys : List ℝ) : Py (ℝ → ℝ) :=
  if xs.length ≠ ys.length then .error .valueError
  else if increasing xs = false then .error .valueError
  else match xs.zip ys with
    | p :: q :: rest => .ok (linearSpline p q rest)
    | _ => .error .valueError

/-- general.py:327-336 `log_interp1d`, for positive numbers (`np.log10` of the others is `nan` or `-inf`).  The argument `kind` is not used. -/
noncomputable def logInterp1d (xx yy : List ℝ) (_kind : String) : Py (ℝ → ℝ) := do
  let s ← interpolatedSpline (xx.map (Real.logb 10)) (yy.map (Real.logb 10))
  return fun zz => (10 : ℝ) ^ s (Real.logb 10 zz)

/-! ## `nparray2spacedstring` -/

/-- numpy's `_extendLine`: the finished lines `s`, the current line, the word.  In the only caller below the line ends
with the separator when it is wrapped, so `line.rstrip()` is the line.  `width` may be negative. -/
def extendLine (s line word : List Char) (width : Int) : List Char × List Char :=
  if (line.length : Int) + word.length > width ∧ ¬ line.length ≤ 1 then (s ++ line ++ ['\n'], ' ' :: word)
  else (s, line ++ word)

/-- The loop of numpy's `_formatArray` over the words of an array with one axis, separator `,`, hanging indent one space. -/
def wrapWords (width : Int) : List Char → List Char → List (List Char) → List Char
  | s, line, [] => s ++ line
  | s, line, [w] => let (s, line) := extendLine s line w width; s ++ line
  | s, line, w :: rest => let (s, line) := extendLine s line w width; wrapWords width s (line ++ [',']) rest

/-- numpy's `array2string` of an array with one axis, with all the words given: the hanging indent of the first line is taken off again and brackets are
put around (`_formatArray`, numpy 1.14 and later; an empty array gives `[]`).  The width of an element is the width of a line less one. -/
def array2string (width : Int) (words : List (List Char)) : List Char :=
  match words with
  | [] => ['[', ']']
  | _ => ['['] ++ (wrapWords (width - 1) [] [' '] words).drop 1 ++ [']']

/-- general.py:369-385 `nparray2spacedstring`, for an array of floats with one axis; `format` is `format(x, formatstr)`. -/
def spacedString {α : Type} (array : List α) (leftpad : List Char) (format : α → List Char) (rightpad : List Char) (width : Int) : List Char :=
  let s := array2string width (array.map fun x => leftpad ++ format x ++ rightpad)
  let s := if leftpad.length < 2 then s.filter (· ≠ '[') else s.map fun c => if c = '[' then ' ' else c
  s.filter fun c => ¬ (c = ',' ∨ c = ']')

end Optics
