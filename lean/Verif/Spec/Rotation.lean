import Verif.Spec.Euclid
import Mathlib.LinearAlgebra.UnitaryGroup
import Mathlib.LinearAlgebra.Matrix.Determinant.Basic

/-!
# Specification: rotations of Euclidean 3-space
-/

namespace Optics
open V3

/-- The Mathlib matrix with the same entries. -/
def M3.toMatrix (A : M3 ℝ) : Matrix (Fin 3) (Fin 3) ℝ :=
  !![A.r0.x, A.r0.y, A.r0.z; A.r1.x, A.r1.y, A.r1.z; A.r2.x, A.r2.y, A.r2.z]

/-- A proper rotation: a member of Mathlib's special orthogonal group. -/
def IsRotation (A : M3 ℝ) : Prop := A.toMatrix ∈ Matrix.specialOrthogonalGroup (Fin 3) ℝ

/-- Rodrigues' formula: `v` turned by `θ` counterclockwise (right-hand rule) about the unit vector
`k`. -/
noncomputable def rodrigues (k : V3 ℝ) (θ : ℝ) (v : V3 ℝ) : V3 ℝ :=
  Real.cos θ * v + Real.sin θ * cross k v + ((1 - Real.cos θ) * dot k v) * k

/-- `np.dot(A, v)` is Mathlib's matrix-vector product. -/
theorem mulVec_toMatrix (A : M3 ℝ) (v : V3 ℝ) :
    A.toMatrix.mulVec v.toFun = (M3.mulVec A v).toFun := by
  ext i
  fin_cases i <;>
    simp [M3.toMatrix, V3.toFun, M3.mulVec, dot, Matrix.mulVec, dotProduct, Fin.sum_univ_three]

end Optics
