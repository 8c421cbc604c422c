import Verif.Model.Tree

/-! # What the tree operations should do -/

namespace Optics
namespace Tree
variable {κ : Type}

/-- The node values from left to right. -/
def inorder : Tree κ → List κ
  | nil => []
  | node k l r => inorder l ++ k :: inorder r

/-- The subtree reached by a path of left (`true`) / right (`false`) steps. -/
def sub : Tree κ → List Bool → Tree κ
  | t, [] => t
  | nil, _ :: _ => nil
  | node _ l r, b :: path => if b then sub l path else sub r path

end Tree

/-- One insertion: walk down `path` with `getLeftChild()` (`true`) / `getRightChild()` (`false`), then
call `insertLeft(key)` (`left = true`) or `insertRight(key)` there. -/
structure Insertion (κ : Type) where
  path : List Bool
  left : Bool
  key : κ

namespace Insertion
variable {κ : Type}

/-- The effect of the calls on the whole tree. -/
def applyAt (left : Bool) (key : κ) : List Bool → Tree κ → Py (Tree κ)
  | [], t => if left then t.insertLeft key else t.insertRight key
  | true :: p, t => t.modifyLeft (applyAt left key p)
  | false :: p, t => t.modifyRight (applyAt left key p)

/-- see `applyAt` -/
def apply (i : Insertion κ) (t : Tree κ) : Py (Tree κ) := applyAt i.left i.key i.path t

/-- A sequence of insertions. -/
def applyAll : List (Insertion κ) → Tree κ → Py (Tree κ)
  | [], t => .ok t
  | i :: is, t => do applyAll is (← i.apply t)

end Insertion
end Optics
