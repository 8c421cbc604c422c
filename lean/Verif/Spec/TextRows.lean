import Mathlib.Data.List.Chain

/-!
# Text in rows
-/

namespace Optics

/-- Width of a row of words: a space, and the words with commas between them. -/
def rowWidth (row : List (List Char)) : ℕ := 1 + (row.map List.length).sum + (row.length - 1)

/-- `rows` is the way to fill rows of the width from the left with the words: each row has a word and, unless it is the only one, all its words fit;
the first word of the next row would not have fitted. -/
def Filled (width : Int) (words : List (List Char)) (rows : List (List (List Char))) : Prop :=
  rows.flatten = words ∧ (∀ r ∈ rows, r ≠ [] ∧ (r.length = 1 ∨ (rowWidth r : Int) ≤ width)) ∧
    rows.IsChain fun a b => ∀ w ∈ b.head?, width < (rowWidth (a ++ [w]) : Int)

/-- Blank characters. -/
def blank (c : Char) : Bool := c = ' ' || c = '\n'

/-- Python's `str.split()`, for texts whose only blank characters are spaces and line feeds. -/
def tokens (l : List Char) : List (List Char) := (l.splitOnP blank).filter (· ≠ [])

end Optics
