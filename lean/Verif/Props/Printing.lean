import Verif.Spec.Csg

/-! # C24: `postOrderEval` prints a faithful expression -/

namespace Optics

/-- The infix symbol of an operator: union, intersection, set difference. -/
def CsgOp.symbol : CsgOp → String
  | .union => "u"
  | .intersect => "n"
  | .difference => "\\"

/-- The fully parenthesised infix expression, tokens separated by single spaces. -/
def Csg.infixExpr : Csg String → String
  | .prim s => s
  | .op o a b => "( " ++ a.infixExpr ++ " " ++ o.symbol ++ " " ++ b.infixExpr ++ " )"

/-- A leaf label that is a single token: not empty, no space in it, not the opening parenthesis. -/
def IsToken (s : String) : Prop := s ≠ "" ∧ ' ' ∉ s.toList ∧ s ≠ "("

/-- The tree of an expression whose leaves are labels. -/
def Csg.stringTree (e : Csg String) : Tree String := e.toTree id id

theorem infixExpr_ne_empty (e : Csg String) (h : e.All (· ≠ "")) : e.infixExpr ≠ "" := by
  cases e with
  | prim s => exact h
  | op o a b =>
    intro he
    have := congrArg String.toList he
    simp [Csg.infixExpr, String.toList_append] at this

/-- C24, first half: the fully parenthesised expression is printed, for every tree with nonempty
labels. -/
theorem C24_prints (e : Csg String) (h : e.All (· ≠ "")) :
    postOrderEval e.stringTree = .ok (some e.infixExpr) := by
  induction e with
  | prim s => rfl
  | op o a b iha ihb =>
    have ha := infixExpr_ne_empty a h.1
    have hb := infixExpr_ne_empty b h.2
    have iha := iha h.1
    have ihb := ihb h.2
    show postOrderEval (.node _ a.stringTree b.stringTree) = _
    rw [postOrderEval, iha, ihb]
    simp only [bind, Except.bind]
    rw [if_pos ⟨ha, hb⟩]
    cases o <;>
      simp [printOper, CsgOp.name, printCsgUnion, printCsgIntersect, printCsgDifference, Csg.infixExpr,
        CsgOp.symbol, pure, Except.pure, String.append_assoc]

/-- What may follow an expression: nothing, or a space. -/
def Follows (r : List Char) : Prop := r = [] ∨ ∃ r', r = ' ' :: r'

theorem token_split {a b r s : List Char} (ha : ' ' ∉ a) (hb : ' ' ∉ b) (hr : Follows r) (hs : Follows s)
    (h : a ++ r = b ++ s) : a = b ∧ r = s := by
  induction a generalizing b with
  | nil =>
    cases b with
    | nil => exact ⟨rfl, h⟩
    | cons c b =>
      rcases hr with rfl | ⟨r', rfl⟩
      · simp at h
      · simp only [List.nil_append, List.cons_append, List.cons.injEq] at h
        exact absurd (by rw [h.1]; simp) hb
  | cons c a ih =>
    cases b with
    | nil =>
      rcases hs with rfl | ⟨s', rfl⟩
      · simp at h
      · simp only [List.nil_append, List.cons_append, List.cons.injEq] at h
        exact absurd (by rw [h.1]; simp) ha
    | cons c' b =>
      simp only [List.cons_append, List.cons.injEq] at h
      obtain ⟨h1, h2⟩ := ih (fun m => ha (List.mem_cons_of_mem _ m)) (fun m => hb (List.mem_cons_of_mem _ m)) h.2
      exact ⟨by rw [h.1, h1], h2⟩

theorem infixExpr_prefix (e f : Csg String) (he : e.All IsToken) (hf : f.All IsToken)
    (r s : List Char) (hr : Follows r) (hs : Follows s)
    (h : e.infixExpr.toList ++ r = f.infixExpr.toList ++ s) : e = f ∧ r = s := by
  induction e generalizing f r s with
  | prim a =>
    cases f with
    | prim b =>
      obtain ⟨h1, h2⟩ := token_split he.2.1 hf.2.1 hr hs h
      exact ⟨by rw [String.toList_injective h1], h2⟩
    | op o x y =>
      exfalso
      have h' : a.toList ++ r = "(".toList ++
          ' ' :: ((x.infixExpr ++ " " ++ o.symbol ++ " " ++ y.infixExpr ++ " )").toList ++ s) := by
        rw [show a.toList = (Csg.prim a).infixExpr.toList from rfl, h]
        simp [Csg.infixExpr, String.toList_append]
      obtain ⟨h1, -⟩ := token_split he.2.1 (by decide) hr (Or.inr ⟨_, rfl⟩) h'
      exact he.2.2 (String.toList_injective h1)
  | op o a b iha ihb =>
    cases f with
    | prim c =>
      exfalso
      have h' : "(".toList ++
          ' ' :: ((a.infixExpr ++ " " ++ o.symbol ++ " " ++ b.infixExpr ++ " )").toList ++ r) = c.toList ++ s := by
        rw [show c.toList = (Csg.prim c).infixExpr.toList from rfl, ← h]
        simp [Csg.infixExpr, String.toList_append]
      obtain ⟨h1, -⟩ := token_split (by decide) hf.2.1 (Or.inr ⟨_, rfl⟩) hs h'
      exact hf.2.2 (String.toList_injective h1.symm)
    | op o' a' b' =>
      have h' : a.infixExpr.toList ++ (' ' :: (o.symbol.toList ++ ' ' :: (b.infixExpr.toList ++ ' ' :: ')' :: r)))
          = a'.infixExpr.toList ++ (' ' :: (o'.symbol.toList ++ ' ' :: (b'.infixExpr.toList ++ ' ' :: ')' :: s))) := by
        simpa [Csg.infixExpr, String.toList_append] using h
      obtain ⟨h1, h2⟩ := iha a' he.1 hf.1 _ _ (Or.inr ⟨_, rfl⟩) (Or.inr ⟨_, rfl⟩) h'
      simp only [List.cons.injEq, true_and] at h2
      have ho : ∀ o : CsgOp, ' ' ∉ o.symbol.toList := by intro o; cases o <;> decide
      obtain ⟨h3, h4⟩ := token_split (ho o) (ho o') (Or.inr ⟨_, rfl⟩) (Or.inr ⟨_, rfl⟩) h2
      simp only [List.cons.injEq, true_and] at h4
      obtain ⟨h5, h6⟩ := ihb b' he.2 hf.2 _ _ (Or.inr ⟨_, rfl⟩) (Or.inr ⟨_, rfl⟩) h4
      simp only [List.cons.injEq, true_and] at h6
      have : o = o' := by
        revert h3
        cases o <;> cases o' <;> decide
      exact ⟨by rw [this, h1, h5], h6⟩

theorem all_mono {ι : Type} {P Q : ι → Prop} (h : ∀ i, P i → Q i) (e : Csg ι) : e.All P → e.All Q := by
  induction e with
  | prim p => exact h p
  | op o a b iha ihb => exact fun ⟨x, y⟩ => ⟨iha x, ihb y⟩

/-- C24, second half: two different trees never print the same string. -/
theorem C24_injective (e f : Csg String) (he : e.All IsToken) (hf : f.All IsToken)
    (h : postOrderEval e.stringTree = postOrderEval f.stringTree) : e = f := by
  rw [C24_prints e (all_mono (fun _ h => h.1) e he), C24_prints f (all_mono (fun _ h => h.1) f hf)] at h
  have h : e.infixExpr = f.infixExpr := by simpa using h
  exact (infixExpr_prefix e f he hf [] [] (Or.inl rfl) (Or.inl rfl) (by rw [h])).1

/-- An expression in the scope of both theorems, of the shape of script_testBinaryTree.py. -/
example : (Csg.op .union (.op .difference (.op .intersect (.prim "s3") (.prim "s4")) (.prim "s2"))
      (.prim "s1")).All IsToken ∧
    postOrderEval (Csg.op .union (.op .difference (.op .intersect (.prim "s3") (.prim "s4")) (.prim "s2"))
      (.prim "s1")).stringTree = .ok (some "( ( ( s3 n s4 ) \\ s2 ) u s1 )") := by
  refine ⟨?_, ?_⟩
  · simp only [Csg.All, IsToken]; decide
  · rw [C24_prints _ (by simp only [Csg.All]; decide)]; rfl

/-- Without the restriction on labels the expression is ambiguous: a label that itself looks like an
expression. -/
theorem C24_ambiguous_labels :
    postOrderEval (Csg.prim "( a u b )").stringTree
      = postOrderEval (Csg.op .union (.prim "a") (.prim "b")).stringTree := by
  rw [C24_prints _ (by simp [Csg.All]), C24_prints _ (by simp [Csg.All])]; rfl

end Optics
