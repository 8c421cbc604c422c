import Verif.Model.Demos
import Verif.Props.Printing
import Verif.Props.Rotations
import Verif.Props.RoundedAlignment

/-!
# C114: what script_testMatrixTransforms.py and script_testBinaryTree.py print
-/

namespace Optics
open V3

/-! ## The two functions for rotations agree -/

/-- **C114: "both methods are roughly equivalent"** (script_testMatrixTransforms.py:77-79). For all vectors other than 0, the matrix of `rotation_matrix` is
the transpose of that of `rotation_matrix2`; hence a row vector times the first is the second times the column vector. -/
theorem C114_transpose (a b : V3 ℝ) (ha : a ≠ ⟨0, 0, 0⟩) (hb : b ≠ ⟨0, 0, 0⟩) :
    (rotationMatrix a b).1 = ⟨(rotationMatrix2 a b).1.col0, (rotationMatrix2 a b).1.col1, (rotationMatrix2 a b).1.col2⟩ ∧
    ∀ v, M3.vecMul v (rotationMatrix a b).1 = M3.mulVec (rotationMatrix2 a b).1 v := by
  have ht : (rotationMatrix a b).1 = ⟨(rotationMatrix2 a b).1.col0, (rotationMatrix2 a b).1.col1, (rotationMatrix2 a b).1.col2⟩ := by
    have ua := unit_dot ha
    have ub := unit_dot hb
    rw [rotationMatrix_unit ha hb, rotationMatrix2_unit ha hb]
    by_cases h : norm (cross (unitVector a) (unitVector b)) = 0
    · rw [rotationMatrix_parallel ua ub h, rotationMatrix2_parallel ua ub h]
      split <;> simp only [M3.col0, M3.col1, M3.col2, M3.eye] <;> rfl
    · rw [rotationMatrix_eq_rodMat ua ub h, rotationMatrix2_eq_rodMat ua ub h]
      simp only [M3.col0, M3.col1, M3.col2, rodMat, M3.mk.injEq, V3.mk.injEq]
      refine ⟨⟨?_, ?_, ?_⟩, ⟨?_, ?_, ?_⟩, ?_, ?_, ?_⟩ <;> first | trivial | ring
  refine ⟨ht, fun v => ?_⟩
  rw [ht]
  ext <;> simp only [M3.vecMul, M3.mulVec, M3.col0, M3.col1, M3.col2, dot] <;> ring

/-- Two vectors that meet the hypotheses, neither parallel nor of length 1. -/
example : (⟨1, 1, 1⟩ : V3 ℝ) ≠ ⟨0, 0, 0⟩ ∧ (⟨0, 0, 1⟩ : V3 ℝ) ≠ ⟨0, 0, 0⟩ ∧ cross (⟨1, 1, 1⟩ : V3 ℝ) ⟨0, 0, 1⟩ ≠ ⟨0, 0, 0⟩ := by
  simp [cross]

/-- **C114: the numbers script_testMatrixTransforms.py prints**, with exact arithmetic: the moved point, the axis of the cylinder turned to the `z` axis by each of
the three products, and the scaled point. -/
theorem C114_transforms :
    (matrixTransforms : Transformed ℝ) = ⟨⟨90, 10, 20, 1⟩, ⟨0, 0, 1⟩, ⟨0, 0, 1⟩, ⟨0, 0, 1, 0⟩, ⟨10, 0, 300, 1⟩⟩ := by
  have ha : (⟨1.0, 1.0, 1.0⟩ : V3 ℝ) ≠ ⟨0, 0, 0⟩ := by norm_num
  have hw : (⟨0.0, 0.0, 1.0⟩ : V3 ℝ) ≠ ⟨0, 0, 0⟩ := by norm_num
  obtain ⟨c, ec⟩ : ∃ c, c = unitVector (⟨1.0, 1.0, 1.0⟩ : V3 ℝ) := ⟨_, rfl⟩
  have hc : dot c c = 1 := by rw [ec]; exact unit_dot ha
  have hc0 : c ≠ ⟨0, 0, 0⟩ := by rintro rfl; norm_num [dot] at hc
  have uc : unitVector c = c := unitVector_of_unit hc
  have uw : unitVector (⟨0.0, 0.0, 1.0⟩ : V3 ℝ) = ⟨0.0, 0.0, 1.0⟩ := unitVector_of_unit (by norm_num [dot])
  have uw' : (⟨0.0, 0.0, 1.0⟩ : V3 ℝ) = ⟨0, 0, 1⟩ := by norm_num
  have e1 : rotationMatrix c (⟨0.0, 0.0, 1.0⟩ : V3 ℝ) = ((rotationMatrix c ⟨0.0, 0.0, 1.0⟩).1, c, ⟨0.0, 0.0, 1.0⟩) :=
    Prod.ext rfl (Prod.ext uc uw)
  have e2 : rotationMatrix2 c (⟨0.0, 0.0, 1.0⟩ : V3 ℝ) = ((rotationMatrix2 c ⟨0.0, 0.0, 1.0⟩).1, c, ⟨0.0, 0.0, 1.0⟩) :=
    Prod.ext rfl (Prod.ext uc uw)
  obtain ⟨-, ht⟩ := C114_transpose c ⟨0.0, 0.0, 1.0⟩ hc0 hw
  have hm := C07_rotation_matrix2_maps c ⟨0.0, 0.0, 1.0⟩ hc0 hw
  unfold matrixTransforms
  dsimp only
  rw [show (⟨1.0, 1.0, 1.0⟩ : V3 ℝ) / norm (⟨1.0, 1.0, 1.0⟩ : V3 ℝ) = c from ec.symm, e1]
  dsimp only
  rw [e2]
  dsimp only
  rw [ht]
  replace hm := hm.1
  rw [uc, uw] at hm
  rw [hm]
  have h4 : V4.sdiv (⟨1.0, 1.0, 1.0, 0.0⟩ : V4 ℝ) (PyNum.sqrt (V4.dot (⟨1.0, 1.0, 1.0, 0.0⟩ : V4 ℝ) ⟨1.0, 1.0, 1.0, 0.0⟩)) = c.hom 0 := by
    have : V4.dot (⟨1.0, 1.0, 1.0, 0.0⟩ : V4 ℝ) ⟨1.0, 1.0, 1.0, 0.0⟩ = dot (⟨1.0, 1.0, 1.0⟩ : V3 ℝ) ⟨1.0, 1.0, 1.0⟩ := by norm_num [V4.dot, dot]
    rw [this, ec]
    simp only [V4.sdiv, V3.hom, V4.mk.injEq]
    refine ⟨rfl, rfl, rfl, by norm_num⟩
  rw [h4]
  have h5 := (C09_homogeneous c ⟨0, 0, 0⟩ ⟨0, 0, 0⟩ c ⟨0.0, 0.0, 1.0⟩).2.2.2.1 0
  rw [hm] at h5
  unfold rotationMatrix4 at h5
  dsimp only at h5
  rw [h5]
  simp only [M4.mulVec, translationMatrix4, scalingMatrix4, V4.dot, V3.hom, Transformed.mk.injEq, V4.mk.injEq, V3.mk.injEq]
  norm_num

/-- **C114: the same with doubles**: the axis turned by the second matrix is the `z` axis to within `2e-13`. -/
theorem C114_transforms_rounded : ∃ w : V3 ℝ, (matrixTransforms : Transformed D64).turned2 = w.fl ∧ ‖w.toE - (⟨0, 0, 1⟩ : V3 ℝ).toE‖ ≤ 2 / 10 ^ 13 := by
  have hu : binary64.u = 1 / 2 ^ 53 := rfl
  have l0 : (0.0 : D64) = Fl.fin 0 := fl_lit0
  have l1 : (1.0 : D64) = Fl.fin 1 := fl_lit1 binary64_one
  have e111 : (⟨1.0, 1.0, 1.0⟩ : V3 D64) = V3.fl ⟨1, 1, 1⟩ := by rw [l1]; rfl
  have e001 : (⟨0.0, 0.0, 1.0⟩ : V3 D64) = V3.fl ⟨0, 0, 1⟩ := by rw [l0, l1]; rfl
  have n3 : ‖(⟨1, 1, 1⟩ : V3 ℝ).toE‖ ^ 2 = 3 := by rw [normE_sq]; norm_num [dot]
  have n3a : 1 ≤ ‖(⟨1, 1, 1⟩ : V3 ℝ).toE‖ := le_of_sq_le_sq (by rw [n3]; norm_num) (_root_.norm_nonneg _)
  have n3b : ‖(⟨1, 1, 1⟩ : V3 ℝ).toE‖ ≤ 2 := le_of_sq_le_sq (by rw [n3]; norm_num) (by norm_num)
  have s111 : SaneLength ⟨1, 1, 1⟩ := ⟨le_trans (by norm_num) n3a, n3b.trans (by norm_num)⟩
  -- a computed unit vector has a sane length, and a positive z component if the vector had one
  have step : ∀ v : V3 ℝ, SaneLength v → ∃ w : V3 ℝ, unitVector (v.fl : V3 D64) = w.fl ∧ ‖w.toE - v.dirE‖ ≤ 5 * binary64.u ∧ SaneLength w ∧
      9 / 10 ≤ ‖w.toE‖ ∧ ‖w.toE‖ ≤ 11 / 10 ∧ v.z / ‖v.toE‖ - 1 / 100 ≤ w.z := by
    intro v hv
    obtain ⟨w, hw, ew⟩ := unitVector_near (R := binary64) hv
    have h1 := abs_norm_sub_norm_le w.toE v.dirE
    rw [dirE_norm hv.pos] at h1
    have h2 := abs_le.mp (h1.trans ew)
    rw [hu] at h2
    have h3 : 9 / 10 ≤ ‖w.toE‖ := by linarith [h2.1]
    have h4 : ‖w.toE‖ ≤ 11 / 10 := by linarith [h2.2]
    refine ⟨w, hw, ew, ⟨le_trans (by norm_num) h3, h4.trans (by norm_num)⟩, h3, h4, ?_⟩
    have ew' := ew
    rw [← unitVector_dirE, ← toE_sub] at ew'
    have h5 := (abs_le.mp ((comp_le_norm (w - unitVector v)).2.2.trans ew')).1
    rw [hu] at h5
    simp only [sub_z, unitVector, sdiv_z] at h5
    rw [norm_toE]
    linarith
  obtain ⟨c0, hc0, -, s0, c0a, c0b, z0⟩ := step ⟨1, 1, 1⟩ s111
  obtain ⟨c1, hc1, -, s1, c1a, c1b, z1⟩ := step c0 s0
  obtain ⟨c2, hc2, e2, s2, c2a, c2b, z2⟩ := step c1 s1
  have p0 : 4 / 10 ≤ c0.z := by
    have : 1 / 2 ≤ (1 : ℝ) / ‖(⟨1, 1, 1⟩ : V3 ℝ).toE‖ := one_div_le_one_div_of_le (by linarith) n3b
    simp only at z0
    linarith
  have p1 : 3 / 10 ≤ c1.z := by
    have : 4 / 10 / (11 / 10) ≤ c0.z / ‖c0.toE‖ := div_le_div₀ (by linarith) p0 (by linarith) c0b
    linarith
  have uz : unitVector (⟨0, 0, 1⟩ : V3 ℝ) = ⟨0, 0, 1⟩ := unitVector_of_unit (by norm_num [dot])
  have nz : ‖(⟨0, 0, 1⟩ : V3 ℝ).toE‖ = 1 := by rw [norm_toE, norm_eq_one_iff.mpr (by norm_num [dot])]
  have hin : 0 ≤ inner ℝ c1.dirE (⟨0, 0, 1⟩ : V3 ℝ).dirE := by
    rw [← unitVector_dirE, ← unitVector_dirE, inner_toE, uz]
    simp only [dot, unitVector, sdiv_x, sdiv_y, sdiv_z, mul_zero, mul_one, zero_add]
    rw [← norm_toE]
    exact div_nonneg (by linarith) (_root_.norm_nonneg _)
  obtain ⟨rot, maps, w, hw, ew⟩ := C113_turn (R := binary64) c1 ⟨0, 0, 1⟩ c2 2 s1 ⟨by rw [nz]; norm_num, by rw [nz]; norm_num⟩
    (by rw [hu]; linarith) (by rw [hu]; norm_num) (by norm_num) (by norm_num) (by linarith)
  refine ⟨w, ?_, ?_⟩
  · rw [← hw]
    have a1 : unitVector (V3.fl ⟨1, 1, 1⟩ : V3 D64) = c0.fl := hc0
    have b1 : unitVector (V3.fl ⟨0, 0, 1⟩ : V3 D64) = V3.fl ⟨0, 0, 1⟩ := d_unit (s := 1) (.inl rfl)
    unfold unitVector at a1 b1 hc1 hc2
    unfold matrixTransforms
    dsimp only
    rw [e111, e001, a1]
    show M3.mulVec (rotationMatrix2 (c0.fl / V3.norm c0.fl) (V3.fl ⟨0, 0, 1⟩ / V3.norm (V3.fl ⟨0, 0, 1⟩))).1
      (c0.fl / V3.norm c0.fl / V3.norm (c0.fl / V3.norm c0.fl)) = _
    rw [hc1, b1, hc2]
  · have h1 : ‖(M3.mulVec (rotationMatrix2 c1 ⟨0, 0, 1⟩).1 c2).toE - (⟨0, 0, 1⟩ : V3 ℝ).toE‖ ≤ 5 * binary64.u := by
      rw [uz] at maps
      obtain ⟨A, eA⟩ : ∃ A, A = (rotationMatrix2 c1 (⟨0, 0, 1⟩ : V3 ℝ)).1 := ⟨_, rfl⟩
      rw [← eA] at maps rot ⊢
      rw [← maps, ← toE_sub, ← mulVec_sub, norm_toE, rot.norm_mulVec, ← norm_toE, toE_sub, unitVector_dirE]
      exact e2
    have h2 := norm_add_le (w.toE - (M3.mulVec (rotationMatrix2 c1 ⟨0, 0, 1⟩).1 c2).toE)
      ((M3.mulVec (rotationMatrix2 c1 ⟨0, 0, 1⟩).1 c2).toE - (⟨0, 0, 1⟩ : V3 ℝ).toE)
    rw [sub_add_sub_cancel] at h2
    have h3 : 450 * binary64.u / (1 + inner ℝ c1.dirE (⟨0, 0, 1⟩ : V3 ℝ).dirE) * 2 ≤ 450 * binary64.u * 2 := by
      have : 450 * binary64.u / (1 + inner ℝ c1.dirE (⟨0, 0, 1⟩ : V3 ℝ).dirE) ≤ 450 * binary64.u :=
        div_le_self (by rw [hu]; norm_num) (by linarith)
      linarith
    rw [hu] at h1 h3 ew
    norm_num at h1 h3 ew h2 ⊢
    linarith

/-! ## Printing trees of objects -/

/-- The text of an object: pointed brackets around something without a closing bracket, like `<Sphere, center=[1 1 1], R=0.5>`. -/
def IsTag (s : String) : Prop := ∃ body : List Char, s.toList = '<' :: body ++ ['>'] ∧ '>' ∉ body

/-- The expression with every primitive replaced by its text. -/
def Csg.mapPrim {ι κ : Type} (g : ι → κ) : Csg ι → Csg κ
  | .prim p => .prim (g p)
  | .op o a b => .op o (a.mapPrim g) (b.mapPrim g)

theorem tag_split {a b r s : List Char} {c d : List Char} (ha : a = '<' :: c ++ ['>']) (hc : '>' ∉ c) (hb : b = '<' :: d ++ ['>']) (hd : '>' ∉ d)
    (h : a ++ r = b ++ s) : a = b ∧ r = s := by
  subst ha hb
  have h' : c ++ '>' :: r = d ++ '>' :: s := by simpa using h
  clear h
  have : c = d ∧ r = s := by
    induction c generalizing d with
    | nil =>
      cases d with
      | nil => simpa using h'
      | cons x d =>
        simp only [List.nil_append, List.cons_append, List.cons.injEq] at h'
        exact absurd (by rw [h'.1]; simp) hd
    | cons x c ih =>
      cases d with
      | nil =>
        simp only [List.nil_append, List.cons_append, List.cons.injEq] at h'
        exact absurd (by rw [h'.1]; simp) hc
      | cons y d =>
        simp only [List.cons_append, List.cons.injEq] at h'
        obtain ⟨h1, h2⟩ := ih (fun m => hc (List.mem_cons_of_mem _ m)) (fun m => hd (List.mem_cons_of_mem _ m)) h'.2
        exact ⟨by rw [h'.1, h1], h2⟩
  exact ⟨by rw [this.1], this.2⟩

theorem infixExpr_tag (e f : Csg String) (he : e.All IsTag) (hf : f.All IsTag) (r s : List Char)
    (h : e.infixExpr.toList ++ r = f.infixExpr.toList ++ s) : e = f ∧ r = s := by
  induction e generalizing f r s with
  | prim a =>
    obtain ⟨c, hc, hc'⟩ := he
    cases f with
    | prim b =>
      obtain ⟨d, hd, hd'⟩ := hf
      obtain ⟨h1, h2⟩ := tag_split hc hc' hd hd' h
      exact ⟨by rw [String.toList_injective h1], h2⟩
    | op o x y =>
      exfalso
      rw [show (Csg.prim a).infixExpr.toList = a.toList from rfl, hc] at h
      simp [Csg.infixExpr, String.toList_append] at h
  | op o a b iha ihb =>
    cases f with
    | prim c =>
      exfalso
      obtain ⟨d, hd, -⟩ := hf
      rw [show (Csg.prim c).infixExpr.toList = c.toList from rfl, hd] at h
      simp [Csg.infixExpr, String.toList_append] at h
    | op o' a' b' =>
      have h' : a.infixExpr.toList ++ (' ' :: (o.symbol.toList ++ ' ' :: (b.infixExpr.toList ++ ' ' :: ')' :: r)))
          = a'.infixExpr.toList ++ (' ' :: (o'.symbol.toList ++ ' ' :: (b'.infixExpr.toList ++ ' ' :: ')' :: s))) := by
        simpa [Csg.infixExpr, String.toList_append] using h
      obtain ⟨h1, h2⟩ := iha a' he.1 hf.1 _ _ h'
      simp only [List.cons.injEq, true_and] at h2
      have ho : ∀ o : CsgOp, ' ' ∉ o.symbol.toList := by intro o; cases o <;> decide
      obtain ⟨h3, h4⟩ := token_split (ho o) (ho o') (Or.inr ⟨_, rfl⟩) (Or.inr ⟨_, rfl⟩) h2
      simp only [List.cons.injEq, true_and] at h4
      obtain ⟨h5, h6⟩ := ihb b' he.2 hf.2 _ _ h4
      simp only [List.cons.injEq, true_and] at h6
      have : o = o' := by
        revert h3
        cases o <;> cases o' <;> decide
      exact ⟨by rw [this, h1, h5], h6⟩

theorem all_mapPrim {ι : Type} {g : ι → String} {P : String → Prop} (h : ∀ x, P (g x)) (e : Csg ι) : (e.mapPrim g).All P := by
  induction e with
  | prim p => exact h p
  | op o a b iha ihb => exact ⟨iha, ihb⟩

variable {σ : Type}

/-- The tree of an expression over objects. -/
def Csg.valTree (e : Csg σ) : Tree (NodeVal σ) := e.toTree .text .thing

/-- **C114: trees of objects are printed as expressions.** For every tree whose leaves are objects and whose inner nodes are operators, `postOrderEval` raises
nothing and the text of what it returns is the fully parenthesised expression; for a single node it returns the object itself. -/
theorem C114_prints (repr : σ → String) (e : Csg σ) :
    ∃ x, postOrderEvalOf repr e.valTree = .ok (some x) ∧ x.str repr = (e.mapPrim repr).infixExpr ∧ (∀ p, e = .prim p → x = .thing p) := by
  suffices ∃ x, postOrderEvalOf repr e.valTree = .ok (some x) ∧ x.str repr = (e.mapPrim repr).infixExpr ∧ (∀ p, e = .prim p → x = .thing p) ∧
      x.truthy = true by
    obtain ⟨x, h1, h2, h3, -⟩ := this; exact ⟨x, h1, h2, h3⟩
  induction e with
  | prim p => exact ⟨.thing p, rfl, rfl, fun q h => by cases h; rfl, rfl⟩
  | op o a b iha ihb =>
    obtain ⟨x, x1, x2, -, x3⟩ := iha
    obtain ⟨y, y1, y2, -, y3⟩ := ihb
    refine ⟨.text ((Csg.op o a b).mapPrim repr).infixExpr, ?_, rfl, fun p h => (by cases h), ?_⟩
    · show postOrderEvalOf repr (.node (.text o.name) a.valTree b.valTree) = _
      rw [postOrderEvalOf, x1, y1]
      simp only [bind, Except.bind]
      rw [if_pos ⟨x3, y3⟩, x2, y2]
      cases o <;>
        simp [valOper, printOper, CsgOp.name, printCsgUnion, printCsgIntersect, printCsgDifference, Csg.mapPrim, Csg.infixExpr,
          CsgOp.symbol, pure, Except.pure, String.append_assoc]
    · simp only [NodeVal.truthy, decide_eq_true_eq, ne_eq]
      intro he
      have := congrArg String.toList he
      simp [Csg.mapPrim, Csg.infixExpr, String.toList_append] at this

/-- **C114: the printed expression determines the tree** up to objects with the same text, if the text of every object is in pointed brackets. (The text of a
sphere contains spaces, so that C24 does not apply to it.) -/
theorem C114_faithful (repr : σ → String) (htag : ∀ x, IsTag (repr x)) (e f : Csg σ) {x y : NodeVal σ}
    (hx : postOrderEvalOf repr e.valTree = .ok (some x)) (hy : postOrderEvalOf repr f.valTree = .ok (some y)) (h : x.str repr = y.str repr) :
    e.mapPrim repr = f.mapPrim repr := by
  obtain ⟨x', h1, h2, -⟩ := C114_prints repr e
  obtain ⟨y', h3, h4, -⟩ := C114_prints repr f
  rw [hx] at h1
  rw [hy] at h3
  simp only [Except.ok.injEq, Option.some.injEq] at h1 h3
  subst h1 h3
  exact (infixExpr_tag _ _ (all_mapPrim htag e) (all_mapPrim htag f) [] [] (by rw [← h2, ← h4, h])).1

/-- **C114: what script_testBinaryTree.py prints**, whatever the text of a sphere is: `( ( ( s3 n s4 ) \ s2 ) u s1 )`. -/
theorem C114_tree_script (repr : Sphere ℝ → String) : ∃ s1 s2 s3 s4 : Sphere ℝ,
    s1.center = ⟨1, 1, 1⟩ ∧ s2.center = ⟨-3, -3, -3⟩ ∧ s3.center = ⟨3, -1, 3⟩ ∧ s4.center = ⟨1, 5, -1⟩ ∧
    (∀ s ∈ [s1, s2, s3, s4], s.R = 1 / 2) ∧
    treeDemo repr = .ok (some ("( ( ( " ++ repr s3 ++ " n " ++ repr s4 ++ " ) \\ " ++ repr s2 ++ " ) u " ++ repr s1 ++ " )")) := by
  refine ⟨⟨⟨1, 1, 1⟩, 1 / 2, 1⟩, ⟨⟨-3, -3, -3⟩, 1 / 2, 1⟩, ⟨⟨3, -1, 3⟩, 1 / 2, 1⟩, ⟨⟨1, 5, -1⟩, 1 / 2, 1⟩, rfl, rfl, rfl, rfl, by simp, ?_⟩
  have hnew : ∀ c : V3 ℝ, Sphere.new c none (some 1.0) = .ok ⟨c, 1 / 2, 1⟩ := by
    intro c
    simp only [Sphere.new, checkRAndD, bind, Except.bind, pure, Except.pure]
    norm_num
  have htree : ∀ s1 s2 s3 s4 : Sphere ℝ, treeScript s1 s2 s3 s4
      = .ok (Csg.op .union (.op .difference (.op .intersect (.prim s3) (.prim s4)) (.prim s2)) (.prim s1)).valTree := fun _ _ _ _ => rfl
  unfold treeDemo
  simp only [hnew, bind, Except.bind, htree]
  obtain ⟨x, h1, h2, -⟩ := C114_prints repr (Csg.op .union (.op .difference (.op .intersect (.prim (⟨⟨3.0, -1.0, 3.0⟩, 1 / 2, 1⟩ : Sphere ℝ))
    (.prim ⟨⟨1.0, 5.0, -1.0⟩, 1 / 2, 1⟩)) (.prim ⟨⟨-3.0, -3.0, -3.0⟩, 1 / 2, 1⟩)) (.prim ⟨⟨1.0, 1.0, 1.0⟩, 1 / 2, 1⟩))
  rw [h1]
  simp only [Option.map_some, h2, pure, Except.pure, Csg.mapPrim, Csg.infixExpr, CsgOp.symbol]
  norm_num
  apply String.toList_injective
  simp [String.toList_append]

/-- **C114: script_testBallLens.py stops at its first statement**: `Lens` has no parameter `thinlens`. With that argument left out, the call is bound. -/
theorem C114_ball_lens : ballLensCall = .error .typeError ∧ bindCall lensParameters 1 1 ["shape", "D", "index"] = .ok () := by
  constructor <;> decide

/-- The text of a sphere as `Sphere.__repr__` gives it is in pointed brackets. -/
example : IsTag "<Sphere, center=[1 1 1], R=0.5>" := ⟨"Sphere, center=[1 1 1], R=0.5".toList, by decide, by decide⟩

end Optics
