import Verif.Model.General

/-!
# C64: `prism10widetextarray`
-/

namespace Optics
variable {α : Type} [PyNum α]

/-! ## Specification -/

/-- One value: padded on the left by one space less if it is negative. -/
def prismCell (left : Int) (format : α → List Char) (v : α) : List Char :=
  (if v < 0.0 then spaces (left - 1) else spaces left) ++ format v

/-- One line: indented, the values separated by the right padding, which also ends the line unless the line is full. -/
def prismLine (left right indent : Int) (format : α → List Char) (vs : List α) : List Char :=
  spaces indent ++ List.intercalate (spaces right) (vs.map (prismCell left format))
    ++ (if vs.length < 10 then spaces right else [])

/-- `groups` is the way to cut `l` into groups of ten, the last of one to ten. -/
def InTens (l : List α) (groups : List (List α)) : Prop :=
  groups.flatten = l ∧ (∀ g ∈ groups, 1 ≤ g.length ∧ g.length ≤ 10) ∧ ∀ g ∈ groups.dropLast, g.length = 10

/-! ## Proof -/

/-- What the loop writes before the value at position `i`. -/
def prismBreak (indent : Int) (i : Nat) : List Char := if i > 0 ∧ i % 10 = 0 then '\n' :: spaces indent else []

theorem prismLoop_cons (left right indent : Int) (format : α → List Char) (i : Nat) (v : α) (rest : List α) :
    prismLoop left right indent format i (v :: rest) = prismBreak indent i ++ prismCell left format v
      ++ (if ¬ i % 10 = 9 then spaces right else []) ++ prismLoop left right indent format (i + 1) rest := by
  simp only [prismLoop, prismBreak, prismCell, List.append_assoc]

theorem intercalate_cons_cons' (sep a b : List Char) (l : List (List Char)) :
    List.intercalate sep (a :: b :: l) = a ++ sep ++ List.intercalate sep (b :: l) := by
  simp [List.intercalate, List.intersperse]

theorem prismLoop_line (left right indent : Int) (format : α → List Char) (vs rest : List α) (i : Nat) (hv : vs ≠ [])
    (hi : i % 10 + vs.length ≤ 10) :
    prismLoop left right indent format i (vs ++ rest) = prismBreak indent i
      ++ List.intercalate (spaces right) (vs.map (prismCell left format))
      ++ (if i % 10 + vs.length < 10 then spaces right else [])
      ++ prismLoop left right indent format (i + vs.length) rest := by
  induction vs generalizing i with
  | nil => exact absurd rfl hv
  | cons v vs ih =>
    rw [List.cons_append, prismLoop_cons]
    cases vs with
    | nil =>
      simp only [List.nil_append, List.map_cons, List.map_nil, List.length_cons, List.length_nil, List.length_cons] at hi ⊢
      rw [show List.intercalate (spaces right) [prismCell left format v] = prismCell left format v by
        simp [List.intercalate]]
      have : (¬ i % 10 = 9) ↔ i % 10 + (0 + 1) < 10 := by omega
      simp only [this, Nat.zero_add]
    | cons v' vs =>
      simp only [List.length_cons] at hi
      rw [ih (i + 1) (by simp) (by simp only [List.length_cons]; omega), if_pos (show ¬ i % 10 = 9 by omega),
        show prismBreak indent (i + 1) = [] by unfold prismBreak; rw [if_neg (by omega)]]
      have e1 : ((i + 1) % 10 + (v' :: vs).length < 10) ↔ (i % 10 + (v :: v' :: vs).length < 10) := by
        simp only [List.length_cons]; omega
      have e2 : i + 1 + (v' :: vs).length = i + (v :: v' :: vs).length := by simp only [List.length_cons]; omega
      simp only [e1, e2, List.nil_append, List.append_assoc, List.map_cons, intercalate_cons_cons']

theorem prismLoop_groups (left right indent : Int) (format : α → List Char) (n : Nat) (l : List α) (hn : l.length ≤ n)
    (hl : l ≠ []) (i : Nat) (hi : i % 10 = 0) : ∃ groups, groups ≠ [] ∧ InTens l groups ∧
      prismLoop left right indent format i l
        = prismBreak indent i ++ (List.intercalate ['\n'] (groups.map (prismLine left right indent format))).drop
            (spaces indent).length := by
  induction n generalizing l i with
  | zero => exact absurd (List.length_eq_zero_iff.mp (Nat.le_zero.mp hn)) hl
  | succ n ih =>
    have hpos : 1 ≤ l.length := List.length_pos_iff.mpr hl
    rcases Nat.lt_or_ge 10 l.length with h | h
    · have hd : l.drop 10 ≠ [] := by
        intro e
        have := congrArg List.length e
        simp at this
        omega
      obtain ⟨groups, hne, ⟨hf, hlen, hlast⟩, heq⟩ := ih (l.drop 10) (by simp; omega) hd (i + 10) (by omega)
      have ht : (l.take 10).length = 10 := by simp; omega
      refine ⟨l.take 10 :: groups, by simp, ⟨by rw [List.flatten_cons, hf, List.take_append_drop], ?_, ?_⟩, ?_⟩
      · intro g hg
        rcases List.mem_cons.mp hg with rfl | hg
        · omega
        · exact hlen g hg
      · intro g hg
        rw [List.dropLast_cons_of_ne_nil hne] at hg
        rcases List.mem_cons.mp hg with rfl | hg
        · exact ht
        · exact hlast g hg
      · have e := prismLoop_line left right indent format (l.take 10) (l.drop 10) i
          (by intro e; rw [e] at ht; simp at ht) (by omega)
        rw [List.take_append_drop, ht, heq, hi] at e
        rw [e]
        obtain ⟨g, gs, rfl⟩ := List.exists_cons_of_ne_nil hne
        have hb : prismBreak indent (i + 10) = '\n' :: spaces indent := by
          unfold prismBreak; rw [if_pos (by omega)]
        have hs : ∃ t, List.intercalate ['\n'] (prismLine left right indent format g :: gs.map (prismLine left right indent format))
            = spaces indent ++ t := by
          cases gs with
          | nil => exact ⟨_, by rw [List.map_nil]; simp [List.intercalate, prismLine]; rfl⟩
          | cons a gs => exact ⟨_, by rw [List.map_cons, intercalate_cons_cons']; simp only [prismLine, List.append_assoc]; rfl⟩
        obtain ⟨t, hs⟩ := hs
        simp only [hb, List.map_cons, intercalate_cons_cons', hs]
        simp [prismLine, ht]
    · refine ⟨[l], by simp, ⟨by simp, by intro g hg; rw [List.mem_singleton.mp hg]; exact ⟨hpos, h⟩, by simp⟩, ?_⟩
      have e := prismLoop_line left right indent format l [] i hl (by omega)
      rw [List.append_nil, hi, show prismLoop left right indent format (i + l.length) [] = [] from rfl] at e
      rw [e, List.map_cons, List.map_nil, show List.intercalate ['\n'] [prismLine left right indent format l]
        = prismLine left right indent format l by simp [List.intercalate]]
      simp [prismLine]

/-- C64: for a non-empty array the text is one line per started group of ten values, each as in `prismLine`. Any number
type, any padding, any format. -/
theorem C64_layout (array : List α) (h : array ≠ []) (left right indent : Int) (format : α → List Char) :
    ∃ groups, InTens array groups ∧ prism10WideTextArray array left right indent format
      = List.intercalate ['\n'] (groups.map (prismLine left right indent format)) := by
  obtain ⟨groups, hne, hg, e⟩ := prismLoop_groups left right indent format array.length array (le_refl _) h 0 rfl
  refine ⟨groups, hg, ?_⟩
  unfold prism10WideTextArray
  rw [e, show prismBreak indent 0 = [] from rfl, List.nil_append]
  obtain ⟨g, gs, rfl⟩ := List.exists_cons_of_ne_nil hne
  have hs : ∃ t, List.intercalate ['\n'] ((g :: gs).map (prismLine left right indent format)) = spaces indent ++ t := by
    cases gs with
    | nil => exact ⟨_, by simp only [List.map_cons, List.map_nil]; simp [List.intercalate, prismLine]; rfl⟩
    | cons a gs =>
      exact ⟨_, by simp only [List.map_cons, intercalate_cons_cons']; simp only [prismLine, List.append_assoc]; rfl⟩
  obtain ⟨t, hs⟩ := hs
  rw [hs, List.drop_left]

/-- C64: the number of lines is the number of started groups of ten. -/
theorem C64_lines (array : List α) (groups : List (List α)) (h : InTens array groups) :
    groups.length = (array.length + 9) / 10 := by
  obtain ⟨hf, h1, h2⟩ := h
  subst hf
  induction groups with
  | nil => simp
  | cons g gs ih =>
    have hg := h1 g List.mem_cons_self
    cases gs with
    | nil => simp only [List.flatten_cons, List.flatten_nil, List.append_nil, List.length_cons, List.length_nil]; omega
    | cons g' gs =>
      have e := ih (fun x hx => h1 x (List.mem_cons_of_mem _ hx)) (fun x hx => h2 x (by
        rw [List.dropLast_cons_of_ne_nil (by simp)]; exact List.mem_cons_of_mem _ hx))
      have : g.length = 10 := h2 g (by rw [List.dropLast_cons_of_ne_nil (by simp)]; exact List.mem_cons_self)
      rw [List.flatten_cons, List.length_cons, e, List.length_append, this]
      omega

/-- C64: an empty array gives one indented empty line. -/
theorem C64_empty (left right indent : Int) (format : α → List Char) :
    prism10WideTextArray [] left right indent format = spaces indent := by
  simp [prism10WideTextArray, prismLoop]

/-- Eleven values: two lines. -/
example : prism10WideTextArray (List.replicate 11 (1.0 : ℝ)) 1 2 3 (fun _ => ['x']) =
    "    x   x   x   x   x   x   x   x   x   x\n    x  ".toList := by
  have h : ¬ (1.0 : ℝ) < 0.0 := by norm_num
  simp [prism10WideTextArray, prismLoop, spaces, List.replicate, h]

end Optics
