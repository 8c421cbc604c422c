import Verif.Model.Vec
import Mathlib.Analysis.InnerProductSpace.PiL2
import Mathlib.LinearAlgebra.CrossProduct

/-!
# Bridge: the model's vectors over `ℝ` are Mathlib's Euclidean 3-space

The specifications below speak of `dot`, `norm` and `cross` of the model at `ℝ`.  These theorems
identify them with Mathlib's inner product, norm, distance and cross product.
-/

namespace Optics
open V3

/-- The point of Mathlib's Euclidean 3-space with the same coordinates. -/
noncomputable def V3.toE (v : V3 ℝ) : EuclideanSpace ℝ (Fin 3) := !₂[v.x, v.y, v.z]

/-- The plain coordinate triple. -/
def V3.toFun (v : V3 ℝ) : Fin 3 → ℝ := ![v.x, v.y, v.z]

theorem toE_injective : Function.Injective V3.toE := by
  intro u v h
  have h0 := congrArg (fun e : EuclideanSpace ℝ (Fin 3) => e 0) h
  have h1 := congrArg (fun e : EuclideanSpace ℝ (Fin 3) => e 1) h
  have h2 := congrArg (fun e : EuclideanSpace ℝ (Fin 3) => e 2) h
  simp [V3.toE] at h0 h1 h2
  ext <;> assumption

theorem toE_surjective : Function.Surjective V3.toE := by
  intro e
  refine ⟨⟨e 0, e 1, e 2⟩, ?_⟩
  ext i; fin_cases i <;> simp [V3.toE]

theorem toE_add (u v : V3 ℝ) : (u + v).toE = u.toE + v.toE := by
  ext i; fin_cases i <;> simp [V3.toE]
theorem toE_sub (u v : V3 ℝ) : (u - v).toE = u.toE - v.toE := by
  ext i; fin_cases i <;> simp [V3.toE]
theorem toE_neg (u : V3 ℝ) : (-u).toE = -u.toE := by
  ext i; fin_cases i <;> simp [V3.toE]
theorem toE_smul (a : ℝ) (u : V3 ℝ) : (a * u).toE = a • u.toE := by
  ext i; fin_cases i <;> simp [V3.toE]

/-- `np.dot` is Mathlib's inner product. -/
theorem inner_toE (u v : V3 ℝ) : inner ℝ u.toE v.toE = dot u v := by
  simp [V3.toE, PiLp.inner_apply, Fin.sum_univ_three, dot]; ring

/-- `np.linalg.norm` is Mathlib's norm. -/
theorem norm_toE (u : V3 ℝ) : ‖u.toE‖ = V3.norm u := by
  rw [EuclideanSpace.norm_eq]
  simp [V3.toE, Fin.sum_univ_three, V3.norm, dot, sq]

/-- `np.cross` is Mathlib's cross product. -/
theorem cross_toFun (u v : V3 ℝ) : crossProduct u.toFun v.toFun = (cross u v).toFun := by
  ext i; fin_cases i <;> simp [V3.toFun, cross, cross_apply]

end Optics
