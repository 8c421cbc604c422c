import Verif.Spec.Geometry
import Verif.Model.Tree
import Mathlib.Data.Set.Basic

/-!
# Constructive solid geometry: expressions and the sets they denote

An expression over primitives of type `ι`, independent of the code's trees.
-/

namespace Optics

/-- The three CSG operators. -/
inductive CsgOp where
  | union | intersect | difference
  deriving DecidableEq

/-- A CSG expression. -/
inductive Csg (ι : Type) where
  | prim (p : ι)
  | op (o : CsgOp) (a b : Csg ι)

namespace CsgOp
/-- The name the code uses for the operator. -/
def name : CsgOp → String
  | union => "union"
  | intersect => "intersect"
  | difference => "difference"

/-- The Boolean operation on sets. -/
def onSets {X : Type} : CsgOp → Set X → Set X → Set X
  | union => fun A B => A ∪ B
  | intersect => fun A B => A ∩ B
  | difference => fun A B => A \ B
end CsgOp

namespace Csg
variable {ι κ : Type}

/-- The set an expression denotes, given what its primitives denote. -/
def den {X : Type} (d : ι → Set X) : Csg ι → Set X
  | prim p => d p
  | op o a b => o.onSets (den d a) (den d b)

/-- The `BinaryTree` for an expression: operators at inner nodes, primitives at the leaves. -/
def toTree (name : String → κ) (leaf : ι → κ) : Csg ι → Tree κ
  | prim p => .node (leaf p) .nil .nil
  | op o a b => .node (name o.name) (toTree name leaf a) (toTree name leaf b)

/-- All primitives of an expression satisfy `P`. -/
def All (P : ι → Prop) : Csg ι → Prop
  | prim p => P p
  | op _ a b => All P a ∧ All P b

/-- Building the tree by the calls the scripts make: `t = BinaryTree(op)`, then
`t.insertLeft(...)`, `t.insertRight(...)`, and so on in the children reached with `getLeftChild()` and
`getRightChild()`. `fill t e` completes a node `t` that already holds the root value of `e`. -/
def rootKey (name : String → κ) (leaf : ι → κ) : Csg ι → κ
  | prim p => leaf p
  | op o _ _ => name o.name
/-- see `rootKey` -/
def fill (name : String → κ) (leaf : ι → κ) : Csg ι → Tree κ → Py (Tree κ)
  | prim _, t => .ok t
  | op _ a b, t => do
    let t ← t.insertLeft (rootKey name leaf a)
    let t ← t.insertRight (rootKey name leaf b)
    let t ← t.modifyLeft (fill name leaf a)
    t.modifyRight (fill name leaf b)
end Csg

/-- A primitive solid usable in a tree: a sphere or an infinite cylinder. -/
inductive Prim (α : Type) where
  | sphere (s : Sphere α)
  | cylinder (c : InfiniteCylinder α)

/-- The primitive as a shape. -/
def Prim.toShape {α : Type} : Prim α → Shape α
  | sphere s => .sphere s
  | cylinder c => .infiniteCylinder c

/-- The solid a primitive denotes: the open ball, or the set of points nearer than `|R|` to the axis. -/
def Prim.solid : Prim ℝ → Set (V3 ℝ)
  | sphere s => {x | InBall s.center s.R x}
  | cylinder c => {x | InCylinder c.center c.direction |c.R| x}

/-- The radius. -/
def Prim.radius {α : Type} : Prim α → α
  | sphere s => s.R
  | cylinder c => c.R

/-- Primitives as the constructors build them from a nonzero axis. -/
def Prim.WellFormed : Prim ℝ → Prop
  | sphere s => s.R ≠ 0
  | cylinder c => c.R ≠ 0 ∧ ‖c.direction.toE‖ = 1

/-- The tree of a CSG expression over shapes. -/
def Csg.tree {α : Type} (e : Csg (Prim α)) : Tree (Key α) :=
  e.toTree Key.str (fun p => Key.shape p.toShape)

end Optics

namespace Optics
open V3

/-- A primitive as it appears in a CSG solid: positive sphere radius, nonzero cylinder radius, unit
axis. -/
def Prim.Solid : Prim ℝ → Prop
  | .sphere s => 0 < s.R
  | .cylinder c => c.R ≠ 0 ∧ ‖c.direction.toE‖ = 1

/-! ## Rays and solids -/

/-- The surface of a primitive. -/
def Prim.surface : Prim ℝ → Set (V3 ℝ)
  | .sphere s => {x | OnSphere s.center s.R x}
  | .cylinder c => {x | OnCylinder c.center c.direction |c.R| x}

/-- The point of the ray at distance `t` from its start (for a unit direction). -/
noncomputable def Ray.at (ray : Ray ℝ) (t : ℝ) : V3 ℝ := lineAt ray.position ray.direction t

/-- The ray's line is parallel to the axis of the primitive. -/
def Prim.ParallelTo : Prim ℝ → Ray ℝ → Prop
  | .sphere _, _ => False
  | .cylinder c, ray => ∃ k : ℝ, ray.direction = k * c.direction

/-- The ray is in general position to the primitive: not parallel to a cylinder's axis, not tangent (if
its line touches the surface then it goes through the interior), and it does not start on the surface or
within 1e-12 before it. -/
structure Prim.General (p : Prim ℝ) (ray : Ray ℝ) : Prop where
  notParallel : ¬ p.ParallelTo ray
  notTangent : ∀ t, ray.at t ∈ p.surface → ∃ s, ray.at s ∈ p.solid
  startClear : ∀ t, 0 ≤ t → t ≤ 1e-12 → ray.at t ∉ p.surface

/-- `t` is the first time the ray crosses the boundary of `S`: before `t` it is on the side it started
on, and arbitrarily shortly after `t` it is on the other side. -/
def FirstCrossing (ray : Ray ℝ) (S : Set (V3 ℝ)) (t : ℝ) : Prop :=
  0 < t ∧ (∀ s, 0 < s → s < t → (ray.at s ∈ S ↔ ray.at 0 ∈ S)) ∧
    ∀ ε > 0, ∃ s, t ≤ s ∧ s < t + ε ∧ ¬ (ray.at s ∈ S ↔ ray.at 0 ∈ S)

/-- The ray stays forever on the side of `S` it started on. -/
def NeverCrosses (ray : Ray ℝ) (S : Set (V3 ℝ)) : Prop := ∀ s, 0 < s → (ray.at s ∈ S ↔ ray.at 0 ∈ S)

/-- `n` is the unit normal at the surface point `x` pointing to the centre or axis. -/
def Prim.InwardNormal : Prim ℝ → V3 ℝ → V3 ℝ → Prop
  | .sphere s, x, n => ‖n.toE‖ = 1 ∧ x + s.R * n = s.center
  | .cylinder c, x, n => ‖n.toE‖ = 1 ∧ inner ℝ n.toE c.direction.toE = 0 ∧
      ∃ s, x + |c.R| * n = lineAt c.center c.direction s

namespace Csg
variable {ι : Type}

/-- `p` occurs in the expression. -/
def Mem (p : ι) : Csg ι → Prop
  | prim q => p = q
  | op _ a b => Mem p a ∨ Mem p b

/-- Only unions. -/
def OnlyUnions : Csg ι → Prop
  | prim _ => True
  | op o a b => o = .union ∧ OnlyUnions a ∧ OnlyUnions b
end Csg

/-- The reported first point is where the ray first crosses the boundary of `S` (and nothing is reported
exactly if it never does). -/
def Describes (ray : Ray ℝ) (S : Set (V3 ℝ)) (r : Hit6 ℝ) : Prop :=
  (r.hit = false ∧ NeverCrosses ray S) ∨
  (r.hit = true ∧ ∃ t, r.pt1 = some (ray.at t) ∧ FirstCrossing ray S t)

/-- `test_tree_intersect` returns, and reports the first crossing. -/
def Correct (ray : Ray ℝ) (S : Set (V3 ℝ)) (result : Py (IntersectResult ℝ)) : Prop :=
  ∃ r, result = .ok (.six r) ∧ Describes ray S r

/-- If a hit is reported, it is on the surface of a primitive of the expression, with the inward unit
normal of that primitive there. -/
def OnPrimitive (e : Csg (Prim ℝ)) (r : Hit6 ℝ) : Prop :=
  r.hit = true → ∃ x n p, r.pt1 = some x ∧ r.n1 = some n ∧ e.Mem p ∧ x ∈ p.surface ∧ p.InwardNormal x n

/-- No point of the ray is on both surfaces. -/
def NoTie (ray : Ray ℝ) (A B : Prim ℝ) : Prop := ∀ t, 0 ≤ t → ray.at t ∈ A.surface → ray.at t ∉ B.surface

/-- No difference operator in the expression. -/
def Csg.NoDifference {ι : Type} : Csg ι → Prop
  | .prim _ => True
  | .op o a b => o ≠ .difference ∧ a.NoDifference ∧ b.NoDifference

end Optics
