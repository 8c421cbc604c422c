import Verif.Spec.TextRows
import Verif.Model.Tables

/-!
# Filling rows
-/

namespace Optics

/-- A row as numpy writes it. -/
def rowText (row : List (List Char)) : List Char := ' ' :: List.intercalate [','] row

/-- The current line before the next word. -/
def openRow (g : List (List Char)) : List Char := ' ' :: (g.map (· ++ [','])).flatten

theorem openRow_append (g : List (List Char)) (w : List Char) : openRow g ++ w = rowText (g ++ [w]) := by
  unfold openRow rowText
  rw [List.cons_append]
  congr 1
  induction g with
  | nil => simp
  | cons a g ih =>
    rw [List.map_cons, List.flatten_cons, List.append_assoc, List.cons_append, List.intercalate_cons_of_ne_nil (by simp), ← ih]

theorem openRow_snoc (g : List (List Char)) (w : List Char) : openRow g ++ w ++ [','] = openRow (g ++ [w]) := by
  simp [openRow]

theorem rowText_snoc {g : List (List Char)} (h : g ≠ []) : openRow g = rowText g ++ [','] := by
  obtain ⟨a, w, rfl⟩ : ∃ a w, g = a ++ [w] := ⟨g.dropLast, g.getLast h, (List.dropLast_append_getLast h).symm⟩
  rw [← openRow_snoc, openRow_append]

theorem openRow_length (g : List (List Char)) : (openRow g).length = 1 + (g.map List.length).sum + g.length := by
  unfold openRow
  induction g with
  | nil => simp
  | cons a g ih =>
    simp only [List.map_cons, List.flatten_cons, List.length_cons, List.length_append, List.sum_cons, List.length_nil] at ih ⊢
    omega

theorem rowWidth_snoc (g : List (List Char)) (w : List Char) : rowWidth (g ++ [w]) = (openRow g).length + w.length := by
  rw [openRow_length]
  simp [rowWidth]
  omega

theorem wrapWords_cons {width : Int} {s line w : List Char} {rest : List (List Char)} (h : rest ≠ []) :
    wrapWords width s line (w :: rest) = wrapWords width (extendLine s line w width).1 ((extendLine s line w width).2 ++ [',']) rest := by
  cases rest with
  | nil => exact absurd rfl h
  | cons a r => rfl

/-- The rows written from some point on; `g` are the words already in the current line. -/
theorem wrapWords_rows (width : Int) (words : List (List Char)) : ∀ (_ : words ≠ []) (s : List Char) (g : List (List Char)),
    (g = [] ∨ g.length = 1 ∨ (rowWidth g : Int) ≤ width) →
    ∃ h rows, Filled width (g ++ words) ((g ++ h) :: rows) ∧
      wrapWords width s (openRow g) words = s ++ List.intercalate [',', '\n'] (((g ++ h) :: rows).map rowText) := by
  induction words with
  | nil => intro h; exact absurd rfl h
  | cons w rest ih =>
    intro _ s g hg
    have hfit : ∀ r : List (List Char), r ≠ [] → (r = [] ∨ r.length = 1 ∨ (rowWidth r : Int) ≤ width) → r ≠ [] ∧ (r.length = 1 ∨ (rowWidth r : Int) ≤ width) :=
      fun r h0 h => ⟨h0, h.resolve_left h0⟩
    by_cases hw : ((openRow g).length : Int) + w.length > width ∧ ¬ (openRow g).length ≤ 1
    · -- a new line
      have hg0 : g ≠ [] := by
        rintro rfl
        exact hw.2 (by simp [openRow])
      have he : extendLine s (openRow g) w width = (s ++ openRow g ++ ['\n'], openRow [] ++ w) := by
        unfold extendLine
        rw [if_pos hw]
        simp [openRow]
      have hwide : width < (rowWidth (g ++ [w]) : Int) := by
        rw [rowWidth_snoc]; push_cast; exact hw.1
      rcases eq_or_ne rest [] with rfl | hr
      · refine ⟨[], [[w]], ⟨by simp, ?_, ?_⟩, ?_⟩
        · intro r hr
          simp only [List.append_nil, List.mem_cons, List.not_mem_nil, or_false] at hr
          rcases hr with rfl | rfl
          · exact hfit r hg0 hg
          · simp
        · simp [hwide]
        · simp only [wrapWords, he, openRow_append]
          rw [rowText_snoc hg0]
          simp [List.intercalate_cons_cons]
      · obtain ⟨h, rows, ⟨hf, hrow, hc⟩, e⟩ := ih hr (s ++ openRow g ++ ['\n']) [w] (Or.inr (Or.inl rfl))
        refine ⟨[], ([w] ++ h) :: rows, ⟨?_, ?_, ?_⟩, ?_⟩
        · rw [List.flatten_cons, hf]; simp
        · intro r hr
          rw [List.append_nil] at hr
          rcases List.mem_cons.1 hr with rfl | hr
          · exact hfit r hg0 hg
          · exact hrow r hr
        · rw [List.append_nil]
          refine List.isChain_cons_cons.2 ⟨?_, hc⟩
          intro w' hw'
          have : w' = w := by simpa using hw'.symm
          rw [this]; exact hwide
        · rw [wrapWords_cons hr, he]
          simp only
          rw [openRow_snoc, List.nil_append, e, rowText_snoc hg0]
          simp [List.intercalate_cons_cons]
    · -- the same line
      have he : extendLine s (openRow g) w width = (s, openRow g ++ w) := by
        unfold extendLine
        rw [if_neg hw]
      have hfit' : (g ++ [w]).length = 1 ∨ (rowWidth (g ++ [w]) : Int) ≤ width := by
        by_cases h1 : (openRow g).length ≤ 1
        · left
          rw [openRow_length] at h1
          simp
          exact List.length_eq_zero_iff.1 (by omega)
        · right
          rw [rowWidth_snoc]
          push_cast
          by_contra h2
          exact hw ⟨by omega, h1⟩
      rcases eq_or_ne rest [] with rfl | hr
      · refine ⟨[w], [], ⟨by simp, ?_, by simp⟩, ?_⟩
        · intro r hr
          rw [List.mem_singleton] at hr
          subst hr
          exact ⟨by simp, hfit'⟩
        · simp only [wrapWords, he, openRow_append]
          simp
      · obtain ⟨h, rows, hF, e⟩ := ih hr s (g ++ [w]) (Or.inr hfit')
        refine ⟨w :: h, rows, ?_, ?_⟩
        · simpa using hF
        · rw [wrapWords_cons hr, he]
          simp only
          rw [openRow_snoc, e]
          simp

/-- None of the characters that are taken out of the text. -/
def plain (w : List Char) : Prop := ∀ c ∈ w, c ≠ '[' ∧ c ≠ ']' ∧ c ≠ ','

theorem filter_plain {w : List Char} (h : plain w) : w.filter (fun c => ¬ (c = ',' ∨ c = ']')) = w := by
  rw [List.filter_eq_self]
  intro c hc
  have := h c hc
  simp [this.2.1, this.2.2]

theorem filter_row {row : List (List Char)} (h : ∀ w ∈ row, plain w) :
    (List.intercalate [','] row).filter (fun c => ¬ (c = ',' ∨ c = ']')) = row.flatten := by
  induction row with
  | nil => rfl
  | cons a row ih =>
    have ih := ih fun w hw => h w (by simp [hw])
    have ha := filter_plain (h a (by simp))
    cases row with
    | nil => rw [List.intercalate_singleton, ha]; simp
    | cons b row =>
      rw [List.intercalate_cons_cons, List.filter_append, List.filter_append, ha, ih]
      simp

theorem filter_rows {rows : List (List (List Char))} (h : ∀ r ∈ rows, ∀ w ∈ r, plain w) :
    (List.intercalate [',', '\n'] (rows.map rowText)).filter (fun c => ¬ (c = ',' ∨ c = ']')) =
      List.intercalate ['\n'] (rows.map fun r => ' ' :: r.flatten) := by
  induction rows with
  | nil => rfl
  | cons a rows ih =>
    have ih := ih fun r hr => h r (by simp [hr])
    have ha : (rowText a).filter (fun c => ¬ (c = ',' ∨ c = ']')) = ' ' :: a.flatten := by
      unfold rowText
      rw [List.filter_cons_of_pos (by decide), filter_row (h a (by simp))]
    cases rows with
    | nil => simp only [List.map_cons, List.map_nil, List.intercalate_singleton]; exact ha
    | cons b rows =>
      simp only [List.map_cons] at ih ⊢
      rw [List.intercalate_cons_cons, List.intercalate_cons_cons, List.filter_append, List.filter_append, ha, ih]
      rfl

theorem mem_rows {rows : List (List (List Char))} (h : ∀ r ∈ rows, ∀ w ∈ r, plain w) :
    ∀ c ∈ List.intercalate [',', '\n'] (rows.map rowText), c ≠ '[' := by
  have hrow : ∀ row : List (List Char), (∀ w ∈ row, plain w) → ∀ c ∈ rowText row, c ≠ '[' := by
    intro row
    induction row with
    | nil => intro _ c hc; simp [rowText] at hc; subst hc; decide
    | cons a row ih =>
      intro h c hc
      have ih := ih fun w hw => h w (by simp [hw])
      cases row with
      | nil =>
        simp [rowText] at hc
        rcases hc with rfl | hc
        · decide
        · exact (h a (by simp) c hc).1
      | cons b row =>
        unfold rowText at hc ih
        rw [List.intercalate_cons_cons] at hc
        simp only [List.mem_cons, List.mem_append, List.not_mem_nil, or_false] at hc ih
        rcases hc with rfl | (hc | rfl) | hc
        · decide
        · exact (h a (by simp) c hc).1
        · decide
        · exact ih c (Or.inr hc)
  induction rows with
  | nil => intro c hc; simp at hc
  | cons a rows ih =>
    have ih := ih fun r hr => h r (by simp [hr])
    intro c hc
    cases rows with
    | nil =>
      simp only [List.map_cons, List.map_nil, List.intercalate_singleton] at hc
      exact hrow a (h a (by simp)) c hc
    | cons b rows =>
      simp only [List.map_cons] at hc ih
      rw [List.intercalate_cons_cons] at hc
      simp only [List.mem_cons, List.mem_append, List.not_mem_nil, or_false] at hc
      rcases hc with (hc | rfl | rfl) | hc
      · exact hrow a (h a (by simp)) c hc
      · decide
      · decide
      · exact ih c hc

theorem indented_rows (a : List Char) (rows : List (List Char)) :
    List.intercalate ['\n'] ((a :: rows).map fun r => ' ' :: r) = ' ' :: List.intercalate ['\n', ' '] (a :: rows) := by
  induction rows generalizing a with
  | nil => simp
  | cons b rows ih =>
    rw [List.map_cons, List.map_cons, List.intercalate_cons_cons, List.intercalate_cons_cons, ← List.map_cons, ih b]
    simp

/-- The text, from the rows. -/
theorem spacedString_rows {α : Type} {array : List α} (h0 : array ≠ []) {L R : List Char} {format : α → List Char} (width : Int)
    (hw : ∀ x ∈ array, plain (L ++ format x ++ R)) : ∃ rows, Filled (width - 1) (array.map fun x => L ++ format x ++ R) rows ∧
      spacedString array L format R width = (if L.length < 2 then [] else [' ']) ++ List.intercalate ['\n', ' '] (rows.map List.flatten) := by
  obtain ⟨h, rows, hF, e⟩ := wrapWords_rows (width - 1) (array.map fun x => L ++ format x ++ R) (by simpa using h0) [] [] (Or.inl rfl)
  rw [List.nil_append, List.nil_append] at hF e
  refine ⟨h :: rows, hF, ?_⟩
  have hp : ∀ r ∈ h :: rows, ∀ w ∈ r, plain w := by
    intro r hr w hwr
    have : w ∈ (h :: rows).flatten := List.mem_flatten.2 ⟨r, hr, hwr⟩
    rw [hF.1] at this
    obtain ⟨x, hx, rfl⟩ := List.mem_map.1 this
    exact hw x hx
  have hm := mem_rows hp
  have hf := filter_rows hp
  have hd : ∃ t, List.intercalate [',', '\n'] ((h :: rows).map rowText) = ' ' :: t := by
    cases rows with
    | nil => exact ⟨_, by simp only [List.map_cons, List.map_nil, List.intercalate_singleton]; rfl⟩
    | cons b rows => exact ⟨_, by simp only [List.map_cons, List.intercalate_cons_cons]; rfl⟩
  obtain ⟨t, ht⟩ := hd
  rw [ht] at hm hf
  rw [List.filter_cons_of_pos (by decide), show ((h :: rows).map fun r => ' ' :: r.flatten) = ((h :: rows).map List.flatten).map fun r => ' ' :: r by simp,
    List.map_cons, indented_rows, List.cons_inj_right] at hf
  have hs : array2string width (array.map fun x => L ++ format x ++ R) = '[' :: t ++ [']'] := by
    obtain ⟨x, xs, rfl⟩ := List.exists_cons_of_ne_nil h0
    have e' : wrapWords (width - 1) [] [' '] ((x :: xs).map fun x => L ++ format x ++ R) = ' ' :: t := by rw [← ht, ← e]; rfl
    rw [List.map_cons] at e' ⊢
    unfold array2string
    simp only [e']
    rfl
  have ht' : ∀ c ∈ t, c ≠ '[' := fun c hc => hm c (by simp [hc])
  unfold spacedString
  simp only [hs]
  by_cases hL : L.length < 2
  · rw [if_pos hL, if_pos hL]
    have : ('[' :: t ++ [']']).filter (· ≠ '[') = t ++ [']'] := by
      rw [List.cons_append, List.filter_cons_of_neg (by decide), List.filter_append, List.filter_eq_self.2 fun c hc => by simpa using ht' c hc]
      rfl
    rw [this, List.filter_append, hf]
    simp
  · rw [if_neg hL, if_neg hL]
    have : ('[' :: t ++ [']']).map (fun c => if c = '[' then ' ' else c) = ' ' :: t ++ [']'] := by
      have : t.map (fun c => if c = '[' then ' ' else c) = t := by
        conv_rhs => rw [← List.map_id t]
        exact List.map_congr_left fun c hc => if_neg (ht' c hc)
      rw [List.map_append, List.map_cons, this]
      rfl
    rw [this, List.filter_append, List.filter_cons_of_pos (by decide), hf]
    simp

/-! ## Tokens -/

theorem tokens_append {l m : List Char} {c : Char} (hc : blank c = true) : tokens (l ++ c :: m) = tokens l ++ tokens m := by
  unfold tokens
  rw [List.splitOnP_append_cons _ _ hc, List.filter_append]

theorem tokens_cons {m : List Char} {c : Char} (hc : blank c = true) : tokens (c :: m) = tokens m := by
  have := tokens_append (l := []) (m := m) hc
  simpa [tokens] using this

theorem tokens_blanks {l m : List Char} (h : ∀ c ∈ l, blank c = true) : tokens (l ++ m) = tokens m := by
  induction l with
  | nil => rfl
  | cons c l ih =>
    rw [List.cons_append, tokens_cons (h c (by simp)), ih fun d hd => h d (by simp [hd])]

theorem tokens_word {w : List Char} (h : ∀ c ∈ w, blank c = false) (h0 : w ≠ []) : tokens w = [w] := by
  unfold tokens
  rw [List.splitOnP_eq_singleton h]
  simp [h0]

/-- The tokens of padded words in a row. -/
theorem tokens_row {L R : List Char} (hL : ∀ c ∈ L, blank c = true) (hR : ∀ c ∈ R, blank c = true) (h0 : L ≠ [] ∨ R ≠ []) (ws : List (List Char))
    (hw : ∀ w ∈ ws, w ≠ [] ∧ ∀ c ∈ w, blank c = false) : tokens (ws.map fun w => L ++ w ++ R).flatten = ws := by
  induction ws with
  | nil => simp [tokens]
  | cons w ws ih =>
    have ih := ih fun v hv => hw v (by simp [hv])
    have hw1 := hw w (by simp)
    rw [List.map_cons, List.flatten_cons, List.append_assoc, List.append_assoc, tokens_blanks hL]
    rcases R with _ | ⟨c, R⟩
    · rcases ws with _ | ⟨v, ws⟩
      · simp [tokens_word hw1.2 hw1.1]
      · rcases L with _ | ⟨d, L⟩
        · simp at h0
        · have hd := hL d (by simp)
          rw [List.nil_append]
          simp only [List.map_cons, List.flatten_cons, List.cons_append] at ih ⊢
          rw [tokens_append hd, tokens_word hw1.2 hw1.1]
          rw [tokens_cons hd] at ih
          rw [ih]
          rfl
    · rw [List.cons_append, tokens_append (hR c (by simp)), tokens_word hw1.2 hw1.1, tokens_blanks fun d hd => hR d (by simp [hd]), ih]
      rfl

theorem tokens_rows (rows : List (List (List Char))) (texts : List (List (List Char)))
    (h : List.Forall₂ (fun r t => tokens r.flatten = t) rows texts) :
    tokens (List.intercalate ['\n', ' '] (rows.map List.flatten)) = texts.flatten := by
  induction h with
  | nil => simp [tokens]
  | @cons r t rows texts h hs ih =>
    cases hs with
    | nil => simp [h]
    | cons h2 hs =>
      rw [List.map_cons, List.intercalate_cons_of_ne_nil (by simp), List.append_assoc, List.cons_append, tokens_append (by decide),
        List.cons_append, List.nil_append, tokens_cons (by decide), ih, h]
      rfl

end Optics
