import Verif.Spec.Csg
import Verif.Spec.TreeOps
import Mathlib.Data.List.Perm.Basic
import Verif.Props.Spheres
import Verif.Props.Cylinders

/-!
# C22 (points in CSG solids), C23 (tree insertion), C24 (printing)
-/

namespace Optics
open V3

/-! ## C22 -/

/-- What a tree computes for a point, if every leaf answers: the Boolean combination of the leaves'
answers.  For any number type. -/
theorem testTreePoint_of_leaves {α : Type} [PyNum α] (x : V3 α) (d : Prim α → Set (V3 α))
    (e : Csg (Prim α))
    (h : e.All fun p => ∃ b, p.toShape.testPoint x = .ok (some b) ∧ (b = true ↔ x ∈ d p)) :
    ∃ b, testTreePoint e.tree x = .ok (some b) ∧ (b = true ↔ x ∈ e.den d) := by
  induction e with
  | prim p =>
    obtain ⟨b, h1, h2⟩ := h
    exact ⟨b, h1, h2⟩
  | op o a b iha ihb =>
    obtain ⟨ba, ha, ha'⟩ := iha h.1
    obtain ⟨bb, hb, hb'⟩ := ihb h.2
    have e1 : testTreePoint (Csg.tree (.op o a b)) x = do
        return some ((← pointOper (Key.str o.name : Key α)) ba bb) := by
      show testTreePoint (.node _ (Csg.tree a) (Csg.tree b)) x = _
      rw [testTreePoint, ha, hb]; rfl
    rw [e1]
    cases o
    · refine ⟨ba || bb, ?_, ?_⟩
      · cases ba <;> cases bb <;> rfl
      · rw [Bool.or_eq_true, ha', hb']; rfl
    · refine ⟨ba && bb, ?_, ?_⟩
      · cases ba <;> cases bb <;> rfl
      · rw [Bool.and_eq_true, ha', hb']; rfl
    · refine ⟨ba && !bb, ?_, ?_⟩
      · cases ba <;> cases bb <;> rfl
      · rw [Bool.and_eq_true, ha']
        have : ((!bb) = true) ↔ x ∉ b.den d := by rw [← hb']; simp
        rw [this]; rfl

theorem prim_testPoint (p : Prim ℝ) (h : p.WellFormed) (x : V3 ℝ) :
    ∃ b, p.toShape.testPoint x = .ok (some b) ∧ (b = true ↔ x ∈ p.solid) := by
  cases p with
  | sphere s => exact ⟨_, rfl, C15_sphere_test_point s.center s.R _ rfl x⟩
  | cylinder c =>
    obtain ⟨hR, ha⟩ := h
    rw [norm_toE, norm_eq_one_iff] at ha
    obtain ⟨b, h1, h2⟩ := C19_cylinder_test_point c.center c.direction (ne_zero_of_dot_one ha) c.R hR _ rfl x
    rw [unitVector_of_unit ha] at h1
    refine ⟨b, ?_, h2⟩
    have : c.testPoint x = .ok b := h1
    show (do return some (← c.testPoint x)) = _
    rw [this]; rfl

/-- C22: for every CSG expression over spheres and infinite cylinders and every point,
`test_tree_point` answers (without raising) whether the point belongs to the solid the expression
denotes. -/
theorem C22_test_tree_point (e : Csg (Prim ℝ)) (h : e.All Prim.WellFormed) (x : V3 ℝ) :
    ∃ b, testTreePoint e.tree x = .ok (some b) ∧ (b = true ↔ x ∈ e.den Prim.solid) := by
  apply testTreePoint_of_leaves
  induction e with
  | prim p => exact prim_testPoint p h x
  | op o a b iha ihb => exact ⟨iha h.1, ihb h.2⟩

/-- A ball with a cylindrical hole drilled along z: a point in the hole is out, a point in the glass is
in, a point on the far side is out. -/
noncomputable def drilledBall : Csg (Prim ℝ) :=
  .op .difference (.prim (.sphere ⟨⟨0, 0, 0⟩, 5, 10⟩)) (.prim (.cylinder ⟨⟨0, 0, 0⟩, 1, 2, ⟨0, 0, 1⟩⟩))

theorem drilledBall_wellFormed : drilledBall.All Prim.WellFormed := by
  refine ⟨?_, ?_, ?_⟩
  · show (5 : ℝ) ≠ 0; norm_num
  · show (1 : ℝ) ≠ 0; norm_num
  · rw [norm_toE, norm_eq_one_iff]; norm_num [dot]

example : testTreePoint drilledBall.tree ⟨0, 0, 2⟩ = .ok (some false) ∧
    testTreePoint drilledBall.tree ⟨3, 0, 2⟩ = .ok (some true) := by
  have h1 : ∀ x : V3 ℝ, x ∈ drilledBall.den Prim.solid ↔
      dot x x < 25 ∧ ¬ axQ ⟨0, 0, 1⟩ x < 1 := by
    intro x
    have hx : x - (⟨0, 0, 0⟩ : V3 ℝ) = x := by ext <;> simp
    show (InBall ⟨0, 0, 0⟩ 5 x ∧ ¬ InCylinder ⟨0, 0, 0⟩ ⟨0, 0, 1⟩ |1| x) ↔ _
    rw [inCylinder_iff (by norm_num [dot]), InBall, dist_toE_eq, hx, norm_eq, Real.sqrt_lt' (by norm_num)]
    norm_num
  constructor
  · obtain ⟨b, hb, hb'⟩ := C22_test_tree_point drilledBall drilledBall_wellFormed ⟨0, 0, 2⟩
    rw [hb]
    rw [h1] at hb'
    norm_num [dot, axQ] at hb'
    rw [hb']
  · obtain ⟨b, hb, hb'⟩ := C22_test_tree_point drilledBall drilledBall_wellFormed ⟨3, 0, 2⟩
    rw [hb]
    rw [h1] at hb'
    norm_num [dot, axQ] at hb'
    rw [hb']

/-- C22, other leaves: a plane, circle or rectangle as a left leaf raises `AttributeError`, whatever
the rest of the tree is. -/
theorem C22_flat_leaf_raises {α : Type} [PyNum α] (x : V3 α) (r : Tree (Key α)) (s : Shape α)
    (hs : (∃ p, s = .plane p) ∨ (∃ c, s = .circle c) ∨ (∃ q, s = .rectangle q)) (k : Key α) :
    testTreePoint (.node k (.node (.shape s) .nil .nil) r) x = .error .attributeError := by
  rcases hs with ⟨p, rfl⟩ | ⟨c, rfl⟩ | ⟨q, rfl⟩ <;> rfl

/-! ## C23 -/

/-- C23, one insertion on the left of any node: the new node is the left child; the old left child hangs
below it on the left; root value and right child are untouched. -/
theorem C23_insertLeft {κ : Type} (k x : κ) (l r : Tree κ) :
    ∃ t' c, (Tree.node k l r).insertLeft x = .ok t' ∧ t'.getRootVal = .ok k ∧ t'.getRightChild = .ok r ∧
      t'.getLeftChild = .ok c ∧ c.getRootVal = .ok x ∧ c.getLeftChild = .ok l ∧ c.getRightChild = .ok .nil := by
  cases l <;> exact ⟨_, _, rfl, rfl, rfl, rfl, rfl, rfl, rfl⟩

/-- C23, one insertion on the right. -/
theorem C23_insertRight {κ : Type} (k x : κ) (l r : Tree κ) :
    ∃ t' c, (Tree.node k l r).insertRight x = .ok t' ∧ t'.getRootVal = .ok k ∧ t'.getLeftChild = .ok l ∧
      t'.getRightChild = .ok c ∧ c.getRootVal = .ok x ∧ c.getRightChild = .ok r ∧ c.getLeftChild = .ok .nil := by
  cases r <;> exact ⟨_, _, rfl, rfl, rfl, rfl, rfl, rfl, rfl⟩

theorem insertLeft_node {κ : Type} (k x : κ) (l r : Tree κ) :
    (Tree.node k l r).insertLeft x = .ok (.node k (.node x l .nil) r) := by cases l <;> rfl
theorem insertRight_node {κ : Type} (k x : κ) (l r : Tree κ) :
    (Tree.node k l r).insertRight x = .ok (.node k l (.node x .nil r)) := by cases r <;> rfl

/-- An insertion succeeds iff its path leads to a node; then exactly the new value is added and the old
values keep their order. -/
theorem insertion_spec {κ : Type} (left : Bool) (x : κ) (path : List Bool) (t : Tree κ) :
    (t.sub path = .nil → Insertion.applyAt left x path t = .error .attributeError) ∧
    (t.sub path ≠ .nil → ∃ t' as bs, Insertion.applyAt left x path t = .ok t' ∧
      t.inorder = as ++ bs ∧ t'.inorder = as ++ x :: bs) := by
  induction path generalizing t with
  | nil =>
    cases t with
    | nil => refine ⟨fun _ => (by cases left <;> rfl), fun h => absurd rfl h⟩
    | node k l r =>
      refine ⟨fun h => (by cases h), fun _ => ?_⟩
      cases left
      · refine ⟨_, l.inorder ++ [k], r.inorder, insertRight_node k x l r, ?_, ?_⟩ <;> simp [Tree.inorder]
      · refine ⟨_, l.inorder, k :: r.inorder, insertLeft_node k x l r, ?_, ?_⟩ <;> simp [Tree.inorder]
  | cons b path ih =>
    cases t with
    | nil => refine ⟨fun _ => (by cases b <;> rfl), fun h => absurd rfl h⟩
    | node k l r =>
      cases b
      · have hs : (Tree.node k l r).sub (false :: path) = r.sub path := rfl
        rw [hs]
        refine ⟨fun h => ?_, fun h => ?_⟩
        · simp only [Insertion.applyAt, Tree.modifyRight, (ih r).1 h]; rfl
        · obtain ⟨t', as, bs, h1, h2, h3⟩ := (ih r).2 h
          refine ⟨.node k l t', l.inorder ++ k :: as, bs, ?_, ?_, ?_⟩
          · simp only [Insertion.applyAt, Tree.modifyRight, h1]; rfl
          · simp [Tree.inorder, h2]
          · simp [Tree.inorder, h3]
      · have hs : (Tree.node k l r).sub (true :: path) = l.sub path := rfl
        rw [hs]
        refine ⟨fun h => ?_, fun h => ?_⟩
        · simp only [Insertion.applyAt, Tree.modifyLeft, (ih l).1 h]; rfl
        · obtain ⟨t', as, bs, h1, h2, h3⟩ := (ih l).2 h
          refine ⟨.node k t' r, as, bs ++ k :: r.inorder, ?_, ?_, ?_⟩
          · simp only [Insertion.applyAt, Tree.modifyLeft, h1]; rfl
          · simp [Tree.inorder, h2]
          · simp [Tree.inorder, h3]

/-- C23, an insertion anywhere: it raises `AttributeError` exactly if the path runs off the tree;
otherwise the left-to-right listing of the values gains the new value at one place and is otherwise
unchanged. -/
theorem C23_insertion {κ : Type} (i : Insertion κ) (t : Tree κ) :
    (t.sub i.path = .nil ∧ i.apply t = .error .attributeError) ∨
    (t.sub i.path ≠ .nil ∧ ∃ t' as bs, i.apply t = .ok t' ∧ t.inorder = as ++ bs ∧
      t'.inorder = as ++ i.key :: bs) := by
  by_cases h : t.sub i.path = .nil
  · exact Or.inl ⟨h, (insertion_spec i.left i.key i.path t).1 h⟩
  · exact Or.inr ⟨h, (insertion_spec i.left i.key i.path t).2 h⟩

/-- C23, any sequence of insertions that does not raise: no value is lost or reordered, and exactly the
inserted ones are added. -/
theorem C23_insertions {κ : Type} (is : List (Insertion κ)) (t t' : Tree κ)
    (h : Insertion.applyAll is t = .ok t') :
    List.Sublist t.inorder t'.inorder ∧ List.Perm t'.inorder (t.inorder ++ is.map Insertion.key) ∧
      t'.inorder.length = t.inorder.length + is.length := by
  have key : List.Sublist t.inorder t'.inorder ∧ List.Perm t'.inorder (t.inorder ++ is.map Insertion.key) := by
    induction is generalizing t with
    | nil => cases h; simp
    | cons i is ih =>
      rcases C23_insertion i t with ⟨-, he⟩ | ⟨-, t1, as, bs, h1, h2, h3⟩
      · simp only [Insertion.applyAll, he] at h; cases h
      · simp only [Insertion.applyAll, h1] at h
        obtain ⟨s, p⟩ := ih t1 h
        constructor
        · refine List.Sublist.trans ?_ s
          rw [h2, h3]; exact (List.Sublist.refl as).append (List.sublist_cons_self _ _)
        · refine p.trans ?_
          rw [h3, h2]
          simp only [List.map_cons, List.append_assoc, List.cons_append]
          refine List.Perm.append_left as ?_
          exact (List.perm_middle (l₁ := bs)).symm
  refine ⟨key.1, key.2, ?_⟩
  rw [key.2.length_eq]; simp

/-- A sequence that pushes children down: inserting twice on the left, then below. -/
example : ∃ t' : Tree String, Insertion.applyAll
    [⟨[], true, "a"⟩, ⟨[], true, "b"⟩, ⟨[true], false, "c"⟩] (Tree.new "u") = .ok t' ∧
    t'.inorder = ["a", "b", "c", "u"] := ⟨_, rfl, rfl⟩

theorem toTree_rootKey {ι κ : Type} (name : String → κ) (leaf : ι → κ) (e : Csg ι) :
    e.fill name leaf (.node (e.rootKey name leaf) .nil .nil) = .ok (e.toTree name leaf) := by
  induction e with
  | prim p => rfl
  | op o a b iha ihb =>
    unfold Csg.fill
    rw [show (Csg.op o a b).rootKey name leaf = name o.name from rfl, insertLeft_node]
    simp only [bind, Except.bind, pure, Except.pure, insertRight_node, Tree.modifyLeft, iha, Tree.modifyRight, ihb]
    rfl

/-- C23: every CSG expression can be built with the insertion methods, in the way the scripts do. -/
theorem C23_build {ι κ : Type} (name : String → κ) (leaf : ι → κ) (e : Csg ι) :
    e.fill name leaf (Tree.new (e.rootKey name leaf)) = .ok (e.toTree name leaf) :=
  toTree_rootKey name leaf e

end Optics
