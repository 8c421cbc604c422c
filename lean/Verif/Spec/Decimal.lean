import Mathlib.Data.Nat.Digits.Defs
import Mathlib.Data.Real.Basic

/-!
# Decimal numerals

The grammar of decimal numerals, the number one denotes, and how many significant digits it shows.
-/

namespace Optics

/-- The number a string of digits denotes. -/
def digitsValue (ds : List Char) : ℕ := Nat.ofDigits 10 (ds.reverse.map fun c => c.toNat - '0'.toNat)

/-- A numeral `[-]ip[.fp][e[+|-]exponent]`. -/
structure Numeral where
  neg : Bool
  ip : List Char
  dot : Bool
  fp : List Char
  /-- sign and digits of the exponent -/
  exponent : Option (List Char × List Char)

namespace Numeral

def text (N : Numeral) : List Char :=
  (if N.neg then ['-'] else []) ++ N.ip ++ (if N.dot then '.' :: N.fp else []) ++
    match N.exponent with
    | none => []
    | some (s, e) => 'e' :: s ++ e

structure Valid (N : Numeral) : Prop where
  ip_digits : ∀ c ∈ N.ip, c.isDigit
  ip_ne : N.ip ≠ []
  fp_digits : ∀ c ∈ N.fp, c.isDigit
  fp_dot : N.fp ≠ [] → N.dot = true
  exponent : ∀ s e, N.exponent = some (s, e) → (s = [] ∨ s = ['+'] ∨ s = ['-']) ∧ e ≠ [] ∧ ∀ c ∈ e, c.isDigit

def exponentValue (N : Numeral) : ℤ :=
  match N.exponent with
  | none => 0
  | some (s, e) => if s = ['-'] then - (digitsValue e : ℤ) else digitsValue e

/-- The number denoted. -/
noncomputable def value (N : Numeral) : ℝ :=
  (if N.neg then -1 else 1) * (digitsValue (N.ip ++ N.fp) * (10 : ℝ) ^ (N.exponentValue - N.fp.length))

/-- The digits from the first one that is not zero on. -/
def significant (N : Numeral) : List Char := (N.ip ++ N.fp).dropWhile (· = '0')

end Numeral

end Optics
