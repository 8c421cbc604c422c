import Verif.Lemmas.TextRows

/-!
# C118: arrays as spaced text
-/

namespace Optics

/-- C118.  The text of an array is its padded numbers in rows, filled from the left up to the width less one (a comma counted between the numbers,
although it is taken out again); all rows but the first are indented by a space, the first one only if the left padding has two characters or more. -/
theorem C118_rows {α : Type} {array : List α} (h0 : array ≠ []) {L R : List Char} {format : α → List Char} (width : Int)
    (hw : ∀ x ∈ array, ∀ c ∈ L ++ format x ++ R, c ≠ '[' ∧ c ≠ ']' ∧ c ≠ ',') : ∃ rows, Filled (width - 1) (array.map fun x => L ++ format x ++ R) rows ∧
      spacedString array L format R width = (if L.length < 2 then [] else [' ']) ++ List.intercalate ['\n', ' '] (rows.map List.flatten) :=
  spacedString_rows h0 width hw

/-- C118.  If one of the paddings is not empty, the numbers can be read back: splitting the text at its blanks gives their texts in order, whatever the width. -/
theorem C118_read_back {α : Type} {array : List α} (nl nr : ℕ) (hpad : 0 < nl + nr) {format : α → List Char} (width : Int)
    (hw : ∀ x ∈ array, format x ≠ [] ∧ ∀ c ∈ format x, c ≠ '[' ∧ c ≠ ']' ∧ c ≠ ',' ∧ c ≠ ' ' ∧ c ≠ '\n') :
    tokens (spacedString array (List.replicate nl ' ') format (List.replicate nr ' ') width) = array.map format := by
  rcases eq_or_ne array [] with rfl | h0
  · simp only [spacedString, array2string, List.map_nil]
    split_ifs <;> decide
  · have hL : ∀ (n : ℕ), ∀ c ∈ List.replicate n ' ', blank c = true := fun n c hc => by rw [(List.mem_replicate.1 hc).2]; decide
    have hp : ∀ x ∈ array, plain (List.replicate nl ' ' ++ format x ++ List.replicate nr ' ') := by
      intro x hx c hc
      simp only [List.mem_append, List.mem_replicate] at hc
      rcases hc with (⟨-, rfl⟩ | hc) | ⟨-, rfl⟩
      · decide
      · have := (hw x hx).2 c hc
        exact ⟨this.1, this.2.1, this.2.2.1⟩
      · decide
    obtain ⟨rows, hF, e⟩ := spacedString_rows h0 width hp
    have hb : ∀ c ∈ (if (List.replicate nl ' ').length < 2 then [] else [' '] : List Char), blank c = true := by
      intro c hc
      split_ifs at hc
      · simp at hc
      · simp at hc; subst hc; decide
    rw [e, tokens_blanks hb]
    -- the rows as rows of values
    have hsplit : ∀ (rows : List (List (List Char))) (array : List α), rows.flatten = array.map (fun x => List.replicate nl ' ' ++ format x ++ List.replicate nr ' ') →
        ∃ vals : List (List α), vals.flatten = array ∧ rows = vals.map (List.map fun x => List.replicate nl ' ' ++ format x ++ List.replicate nr ' ') := by
      intro rows
      induction rows with
      | nil =>
        intro array h
        refine ⟨[], ?_, rfl⟩
        simpa using h
      | cons r rows ih =>
        intro array h
        rw [List.flatten_cons] at h
        obtain ⟨a1, a2, rfl, h1, h2⟩ := List.map_eq_append_iff.1 h.symm
        obtain ⟨vals, hv, hr⟩ := ih a2 h2.symm
        exact ⟨a1 :: vals, by rw [List.flatten_cons, hv], by rw [List.map_cons, ← hr, h1]⟩
    obtain ⟨vals, hv, rfl⟩ := hsplit rows array hF.1
    rw [tokens_rows _ (vals.map (List.map format))]
    · rw [← hv, List.map_flatten]
    · rw [List.forall₂_map_left_iff, List.forall₂_map_right_iff, List.forall₂_same]
      intro v hvm
      have := tokens_row (hL nl) (hL nr) (by
        rcases Nat.eq_zero_or_pos nl with h | h
        · right; simp; omega
        · left; simp; omega) (v.map format) (by
          intro w hwm
          obtain ⟨x, hx, rfl⟩ := List.mem_map.1 hwm
          have := hw x (by rw [← hv]; exact List.mem_flatten.2 ⟨v, hvm, hx⟩)
          exact ⟨this.1, fun c hc => by have := this.2 c hc; simp [blank, this.2.2.2.1, this.2.2.2.2]⟩)
      rw [List.map_map] at this
      exact this

/-- C118.  Without padding the numbers of a row run together: different arrays give the same text. -/
theorem C118_glued : spacedString [1, 23] [] (fun n : ℕ => (toString n).toList) [] 80 = "123".toList ∧
    spacedString [12, 3] [] (fun n : ℕ => (toString n).toList) [] 80 = "123".toList := by
  constructor <;> decide

/-- The hypotheses are met: three numbers in two rows of different indentation. -/
example : spacedString [1, 23, 4] [' '] (fun n : ℕ => (toString n).toList) [] 8 = " 1 23\n  4".toList := by decide

end Optics
