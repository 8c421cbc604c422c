import Verif.Model.Shapes

/-!
# `general_optics.py` lines 247-624: the CSG tree
-/

namespace Optics
variable {α : Type} [PyNum α]
open V3

/-- general_optics.py:247-251 `BinaryTree`, `nil` being `None`.  Trees are values in the model: the
in-place update of a node reached through `getLeftChild()`/`getRightChild()` is `modifyLeft`/
`modifyRight`; sharing one node between two parents is not modelled. -/
inductive Tree (κ : Type) where
  | nil
  | node (key : κ) (left right : Tree κ)

namespace Tree
variable {κ : Type}

/-- general_optics.py:248-251 `BinaryTree(rootObj)`. -/
def new (k : κ) : Tree κ := .node k .nil .nil

/-- `x == None`. -/
def isNone : Tree κ → Bool
  | nil => true
  | node _ _ _ => false

/-- general_optics.py:253-259 `insertLeft`. -/
def insertLeft (t : Tree κ) (k : κ) : Py (Tree κ) :=
  match t with
  | nil => .error .attributeError
  | node key l r =>
    if l.isNone then .ok (node key (new k) r)
    else
      -- t = BinaryTree(newNode); t.leftChild = self.leftChild; self.leftChild = t
      .ok (node key (node k l nil) r)

/-- general_optics.py:261-267 `insertRight`. -/
def insertRight (t : Tree κ) (k : κ) : Py (Tree κ) :=
  match t with
  | nil => .error .attributeError
  | node key l r =>
    if r.isNone then .ok (node key l (new k))
    else .ok (node key l (node k nil r))

/-- general_optics.py:272-273 `getLeftChild`. -/
def getLeftChild : Tree κ → Py (Tree κ)
  | nil => .error .attributeError
  | node _ l _ => .ok l

/-- general_optics.py:269-270 `getRightChild`. -/
def getRightChild : Tree κ → Py (Tree κ)
  | nil => .error .attributeError
  | node _ _ r => .ok r

/-- general_optics.py:275-276 `setRootVal`. -/
def setRootVal (t : Tree κ) (k : κ) : Py (Tree κ) :=
  match t with
  | nil => .error .attributeError
  | node _ l r => .ok (node k l r)

/-- general_optics.py:278-279 `getRootVal`. -/
def getRootVal : Tree κ → Py κ
  | nil => .error .attributeError
  | node k _ _ => .ok k

/-- `t.getLeftChild().m(...)` for a mutating method `m`: the effect on `t`. -/
def modifyLeft (m : Tree κ → Py (Tree κ)) : Tree κ → Py (Tree κ)
  | nil => .error .attributeError
  | node k l r => do return node k (← m l) r

/-- `t.getRightChild().m(...)` for a mutating method `m`: the effect on `t`. -/
def modifyRight (m : Tree κ → Py (Tree κ)) : Tree κ → Py (Tree κ)
  | nil => .error .attributeError
  | node k l r => do return node k l (← m r)

end Tree

/-- What the scripts store in tree nodes: an operator name or a shape. -/
inductive Key (α : Type) where
  | str (s : String)
  | shape (s : Shape α)

/-! ## Printing -/

/-- general_optics.py:296-297. -/
def printCsgUnion (a b : String) : String := "( " ++ a ++ " u " ++ b ++ " )"
/-- general_optics.py:300-301. -/
def printCsgIntersect (a b : String) : String := "( " ++ a ++ " n " ++ b ++ " )"
/-- general_optics.py:304-305 (`"\ "` is a backslash and a space). -/
def printCsgDifference (a b : String) : String := "( " ++ a ++ " \\ " ++ b ++ " )"

/-- general_optics.py:284: the `opers` table of `postOrderEval`. -/
def printOper (k : String) : Py (String → String → String) :=
  if k = "union" then .ok printCsgUnion
  else if k = "difference" then .ok printCsgDifference
  else if k = "intersect" then .ok printCsgIntersect
  else .error .keyError

/-- general_optics.py:283-293 `postOrderEval`, for trees whose keys are strings (a shape prints as
its `repr` string when it is a leaf of a larger tree; a lone root is returned unchanged).
`if res1 and res2` is Python truthiness: an empty string counts as absent. -/
def postOrderEval : Tree String → Py (Option String)
  | .nil => .ok none
  | .node k l r => do
    let res1 ← postOrderEval l
    let res2 ← postOrderEval r
    match res1, res2 with
    | some a, some b =>
      if a ≠ "" ∧ b ≠ "" then return some ((← printOper k) a b) else return some k
    | _, _ => return some k

/-! ## Point membership -/

/-- general_optics.py:345-353. -/
def operCsgIndexUnion (resA resB : Bool) : Bool :=
  if resA && resB then true else if resA then true else if resB then true else false

/-- general_optics.py:356-364. -/
def operCsgIndexIntersect (resA resB : Bool) : Bool :=
  if resA && resB then true else if resA then false else if resB then false else false

/-- general_optics.py:367-376. -/
def operCsgIndexDifference (resA resB : Bool) : Bool :=
  if resA && resB then false else if resA then true else if resB then false else false

/-- general_optics.py:324: the `opers` table of `test_tree_point`; a shape is never a key of it. -/
def pointOper (k : Key α) : Py (Bool → Bool → Bool) :=
  match k with
  | .shape _ => .error .keyError
  | .str s =>
    if s = "union" then .ok operCsgIndexUnion
    else if s = "difference" then .ok operCsgIndexDifference
    else if s = "intersect" then .ok operCsgIndexIntersect
    else .error .keyError

/-- `key.test_point(point)`: a string has no such method. -/
def Key.testPoint (k : Key α) (point : V3 α) : Py (Option Bool) :=
  match k with
  | .str _ => .error .attributeError
  | .shape s => s.testPoint point

/-- general_optics.py:323-341 `test_tree_point`. -/
def testTreePoint (tree : Tree (Key α)) (point : V3 α) : Py (Option Bool) :=
  match tree with
  | .nil => .ok none
  | .node k l r => do
    let resA ← testTreePoint l point
    let resB ← testTreePoint r point
    match resA, resB with
    | some a, some b => return some ((← pointOper k) a b)
    | _, _ => k.testPoint point

/-! ## Ray intersection -/

/-- general_optics.py:379: the two values `mode` takes in the code. -/
inductive Mode where
  | nearest
  | farthest

/-- The 4-tuple returned by `helper_findIntersects`. -/
structure Found (α : Type) where
  point : Option (V3 α)
  normal : Option (V3 α)
  distance : Option α
  num : Nat

/-- general_optics.py:379-419 `helper_findIntersects`.  In the third branch the code computes
`distance_between(ray.position, res[1])` with `res[1]` being `None`: a `TypeError`. -/
def helperFindIntersects (res : Hit6 α) (ray : Ray α) (mode : Mode) : Py (Found α) :=
  match res.pt1, res.pt2 with
  | some p1, some p2 =>
    let distance1 := distanceBetween ray.position p1
    let distance2 := distanceBetween ray.position p2
    match mode with
    | .nearest =>
      if distance1 < distance2 then .ok ⟨some p1, res.n1, some distance1, 2⟩
      else .ok ⟨some p2, res.n2, some distance2, 2⟩
    | .farthest =>
      if distance1 > distance2 then .ok ⟨some p1, res.n1, some distance1, 2⟩
      else .ok ⟨some p2, res.n2, some distance2, 2⟩
  | some p1, none => .ok ⟨some p1, res.n1, some (distanceBetween ray.position p1), 1⟩
  | none, some _ => .error .typeError
  | none, none => .ok ⟨none, none, none, 0⟩

/-- Python's `a < b` on numbers that may be `None`: comparing with `None` raises `TypeError`. -/
def pyLt (a b : Option α) : Py Bool :=
  match a, b with
  | some a, some b => .ok (decide (a < b))
  | _, _ => .error .typeError

/-- general_optics.py:422-477 `operCsgUnion`. -/
def operCsgUnion (resA resB : Hit6 α) (ray : Ray α) : Py (Hit6 α) :=
  let total := resA.count + resB.count
  if resA.hit && resB.hit then do
    let a ← helperFindIntersects resA ray .nearest
    let b ← helperFindIntersects resB ray .nearest
    match a.point, b.point with
    | some pa, some pb =>
      if ← pyLt a.distance b.distance then return ⟨true, some pa, none, a.normal, none, total⟩
      else return ⟨true, some pb, none, b.normal, none, total⟩
    | some pa, none => return ⟨true, some pa, none, a.normal, none, total⟩
    | none, _ => return ⟨true, none, none, none, none, total⟩
  else if resA.hit then do
    let a ← helperFindIntersects resA ray .nearest
    return ⟨true, a.point, none, a.normal, none, total⟩
  else if resB.hit then do
    let b ← helperFindIntersects resB ray .nearest
    return ⟨true, b.point, none, b.normal, none, total⟩
  else .ok (Hit6.miss total)

/-- general_optics.py:481-575 `operCsgIntersect`. -/
def operCsgIntersect (resA resB : Hit6 α) (ray : Ray α) : Py (Hit6 α) :=
  let total := resA.count + resB.count
  if resA.hit && resB.hit then do
    let aNear ← helperFindIntersects resA ray .nearest
    let bNear ← helperFindIntersects resB ray .nearest
    let aFar ← helperFindIntersects resA ray .farthest
    let bFar ← helperFindIntersects resB ray .farthest
    -- `number_intersectionsA`, `number_intersectionsB` come from the last two calls
    if aFar.num % 2 = 0 ∧ bFar.num % 2 = 0 then
      if (← pyLt aNear.distance bNear.distance) && (← pyLt bNear.distance aFar.distance) then
        return ⟨true, bNear.point, none, bNear.normal, none, total⟩
      else if (← pyLt bNear.distance aNear.distance) && (← pyLt aNear.distance bFar.distance) then
        return ⟨true, aNear.point, none, aNear.normal, none, total⟩
      else return Hit6.miss total
    else if aFar.num % 2 = 0 then
      if (← pyLt bNear.distance aNear.distance) && (← pyLt bNear.distance aFar.distance) then
        return Hit6.miss total
      else return ⟨true, aNear.point, none, aNear.normal, none, total⟩
    else if bFar.num % 2 = 0 then
      if (← pyLt aNear.distance bNear.distance) && (← pyLt aNear.distance bFar.distance) then
        return Hit6.miss total
      else return ⟨true, bNear.point, none, bNear.normal, none, total⟩
    else
      if ← pyLt aNear.distance bNear.distance then
        return ⟨true, aNear.point, none, aNear.normal, none, total + 1⟩
      else return ⟨true, bNear.point, none, bNear.normal, none, total + 1⟩
  else if resA.hit then .ok (Hit6.miss total)
  else if resB.hit then .ok (Hit6.miss total)
  else .ok (Hit6.miss total)

/-- general_optics.py:579-624 `operCsgDifference`.  When only A is hit, line 613 unpacks the
4-tuple of `helper_findIntersects` into two names: a `ValueError`. -/
def operCsgDifference (resA resB : Hit6 α) (ray : Ray α) : Py (Hit6 α) :=
  let total := resA.count + resB.count
  if resA.hit && resB.hit then do
    let aNear ← helperFindIntersects resA ray .nearest
    let bNear ← helperFindIntersects resB ray .nearest
    let aFar ← helperFindIntersects resA ray .farthest
    let bFar ← helperFindIntersects resB ray .farthest
    if ← pyLt aNear.distance bNear.distance then
      return ⟨true, aNear.point, none, aNear.normal, none, total⟩
    else if ← pyLt bFar.distance aFar.distance then
      return ⟨true, bFar.point, none, bFar.normal, none, total⟩
    else return Hit6.miss total
  else if resA.hit then do
    let _ ← helperFindIntersects resA ray .nearest
    .error .valueError
  else if resB.hit then .ok (Hit6.miss total)
  else .ok (Hit6.miss total)

/-- general_optics.py:309: the `opers` table of `test_tree_intersect`. -/
def intersectOper (k : Key α) : Py (Hit6 α → Hit6 α → Ray α → Py (Hit6 α)) :=
  match k with
  | .shape _ => .error .keyError
  | .str s =>
    if s = "union" then .ok operCsgUnion
    else if s = "difference" then .ok operCsgDifference
    else if s = "intersect" then .ok operCsgIntersect
    else .error .keyError

/-- `res[5]`, evaluated first in every operator: only 6-tuples have it. -/
def asHit6 (r : IntersectResult α) : Py (Hit6 α) :=
  match r with
  | .six h => .ok h
  | .three _ => .error .indexError
  | .none => .error .typeError

/-- `key.test_intersect(ray)`: a string has no such method. -/
def Key.testIntersect (k : Key α) (ray : Ray α) : Py (IntersectResult α) :=
  match k with
  | .str _ => .error .attributeError
  | .shape s => s.testIntersect ray

/-- general_optics.py:308-320 `test_tree_intersect`. -/
def testTreeIntersect (tree : Tree (Key α)) (ray : Ray α) : Py (IntersectResult α) :=
  match tree with
  | .nil => .ok .none
  | .node k l r => do
    let resA ← testTreeIntersect l ray
    let resB ← testTreeIntersect r ray
    match resA, resB with
    | .none, _ => k.testIntersect ray
    | _, .none => k.testIntersect ray
    | a, b => do
      let oper ← intersectOper k
      let a6 ← asHit6 a
      let b6 ← asHit6 b
      return .six (← oper a6 b6 ray)

end Optics
