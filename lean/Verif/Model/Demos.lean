import Verif.Model.Tree

/-!
# script_testMatrixTransforms.py, script_testBinaryTree.py, script_testBallLens.py
-/

namespace Optics
variable {α : Type} [PyNum α]
open V3

/-! ## script_testMatrixTransforms.py -/

/-- `np.dot(v, A)`, a vector of length 3 by a 3×3 matrix. -/
def M3.vecMul (v : V3 α) (A : M3 α) : V3 α := ⟨dot v A.col0, dot v A.col1, dot v A.col2⟩

/-- numpy `v / a` of a vector of length 4. -/
def V4.sdiv (v : V4 α) (a : α) : V4 α := ⟨v.x / a, v.y / a, v.z / a, v.w / a⟩

/-- What script_testMatrixTransforms.py prints besides its inputs and matrices. -/
structure Transformed (α : Type) where
  moved : V4 α
  turned : V3 α
  turned2 : V3 α
  turned4 : V4 α
  scaled : V4 α

/-- script_testMatrixTransforms.py:22-116.  The direction of the cylinder is normalised by line 30 and then, in place, by each of the two calls of
lines 66 and 67; the products of lines 69 and 70 see the array after both.  The matrices of lines 45-46, 84-85 and 106-109 are written like those of
`translation_matrix4`, `rotation_matrix4` and `scaling_matrix4`.  The integer arrays `point1_4d` and `translation_vector` become floats when they meet
a float matrix. -/
def matrixTransforms : Transformed α :=
  let point : V4 α := ⟨100.0, 0.0, 30.0, 1.0⟩
  let world : V3 α := ⟨0.0, 0.0, 1.0⟩
  let cyl0 : V3 α := (⟨1.0, 1.0, 1.0⟩ : V3 α) / norm (⟨1.0, 1.0, 1.0⟩ : V3 α)
  let cyl4 : V4 α := ⟨1.0, 1.0, 1.0, 0.0⟩
  let cyl4 := V4.sdiv cyl4 (PyNum.sqrt (V4.dot cyl4 cyl4))
  let (M, cyl1, world1) := rotationMatrix cyl0 world
  let (M2, cyl2, _) := rotationMatrix2 cyl1 world1
  let M24 : M4 α := ⟨⟨M2.r0.x, M2.r0.y, M2.r0.z, 0.0⟩, ⟨M2.r1.x, M2.r1.y, M2.r1.z, 0.0⟩, ⟨M2.r2.x, M2.r2.y, M2.r2.z, 0.0⟩,
    ⟨0.0, 0.0, 0.0, 1.0⟩⟩
  { moved := M4.mulVec (translationMatrix4 ⟨-10.0, 10.0, -10.0⟩) point
    turned := M3.vecMul cyl2 M
    turned2 := M3.mulVec M2 cyl2
    turned4 := M4.mulVec M24 cyl4
    scaled := M4.mulVec (scalingMatrix4 ⟨0.1, 1.0, 10.0⟩) point }

/-! ## script_testBinaryTree.py -/

/-- What `postOrderEval` returns: a string, or the object stored in a node. -/
inductive NodeVal (σ : Type) where
  | text (s : String)
  | thing (x : σ)

/-- Python truthiness: an empty string is false, an object of a class without `__bool__` and `__len__` is true. -/
def NodeVal.truthy {σ : Type} : NodeVal σ → Bool
  | .text s => s ≠ ""
  | .thing _ => true

/-- `str(x)`; `repr` is the class's `__repr__`. -/
def NodeVal.str {σ : Type} (repr : σ → String) : NodeVal σ → String
  | .text s => s
  | .thing x => repr x

/-- general_optics.py:284 `opers[key]`; an object is never equal to one of the three strings. -/
def valOper {σ : Type} : NodeVal σ → Py (String → String → String)
  | .text s => printOper s
  | .thing _ => .error .keyError

/-- general_optics.py:283-293 `postOrderEval` for trees with operator names and objects in their nodes. -/
def postOrderEvalOf {σ : Type} (repr : σ → String) : Tree (NodeVal σ) → Py (Option (NodeVal σ))
  | .nil => .ok none
  | .node k l r => do
    let res1 ← postOrderEvalOf repr l
    let res2 ← postOrderEvalOf repr r
    match res1, res2 with
    | some a, some b =>
      if a.truthy ∧ b.truthy then return some (.text ((← valOper k) (a.str repr) (b.str repr))) else return some k
    | _, _ => return some k

/-- script_testBinaryTree.py:20-27: the tree built from four objects. -/
def treeScript {σ : Type} (s1 s2 s3 s4 : σ) : Py (Tree (NodeVal σ)) := do
  let r := Tree.new (.text "union")
  let r ← r.insertLeft (.text "difference")
  let r ← r.insertRight (.thing s1)
  let r ← r.modifyLeft (·.insertLeft (.text "intersect"))
  let r ← r.modifyLeft (·.insertRight (.thing s2))
  let r ← r.modifyLeft (Tree.modifyLeft (·.insertLeft (.thing s3)))
  r.modifyLeft (Tree.modifyLeft (·.insertRight (.thing s4)))

/-- script_testBinaryTree.py:13-30: the tree of four spheres of diameter 1 is printed; `repr` is `Sphere.__repr__` (shapes.py:289-290) with the text of
arrays and numbers. -/
def treeDemo (repr : Sphere α → String) : Py (Option String) := do
  let s1 ← Sphere.new ⟨1.0, 1.0, 1.0⟩ none (some 1.0)
  let s2 ← Sphere.new ⟨-3.0, -3.0, -3.0⟩ none (some 1.0)
  let s3 ← Sphere.new ⟨3.0, -1.0, 3.0⟩ none (some 1.0)
  let s4 ← Sphere.new ⟨1.0, 5.0, -1.0⟩ none (some 1.0)
  return (← postOrderEvalOf repr (← treeScript s1 s2 s3 s4)).map (·.str repr)

/-! ## script_testBallLens.py -/

/-- optics3d.py:325-326: the parameters of `Lens.__init__` after `self`. -/
def lensParameters : List String := ["position", "normal", "shape", "D", "w", "h", "f", "tangent", "type", "index"]

/-- How Python binds the arguments of a call before running the body: `n` positional ones and the names of the keyword ones.  Parameters without a
default are the first `required` ones. -/
def bindCall (params : List String) (required n : Nat) (keywords : List String) : Py Unit :=
  if params.length < n then .error .typeError
  else if keywords.any (fun k => k ∉ params.drop n) then .error .typeError
  else if (params.take required).drop n |>.any (fun p => p ∉ keywords) then .error .typeError
  else .ok ()

/-- script_testBallLens.py:18: `Lens(lens_center, shape="spherical", D=50, thinlens=False, index=1.5)`. -/
def ballLensCall : Py Unit := bindCall lensParameters 1 1 ["shape", "D", "thinlens", "index"]

end Optics
