import Verif.Lemmas.Vec
import Verif.Spec.Rotation
import Verif.Model.GeneralOptics

/-! # Rotations: helper lemmas -/

namespace Optics
open V3

/-- Componentwise form of `IsRotation`. -/
theorem isRotation_iff (A : M3 ℝ) :
    IsRotation A ↔
      (dot A.r0 A.r0 = 1 ∧ dot A.r1 A.r1 = 1 ∧ dot A.r2 A.r2 = 1 ∧
       dot A.r0 A.r1 = 0 ∧ dot A.r0 A.r2 = 0 ∧ dot A.r1 A.r2 = 0) ∧
      dot A.r0 (cross A.r1 A.r2) = 1 := by
  unfold IsRotation
  rw [Matrix.mem_specialOrthogonalGroup_iff, Matrix.mem_orthogonalGroup_iff]
  have hdet : A.toMatrix.det = dot A.r0 (cross A.r1 A.r2) := by
    rw [Matrix.det_fin_three]; simp [M3.toMatrix, dot, cross]; ring
  rw [hdet]
  refine and_congr_left fun _ => ?_
  constructor
  · intro h
    have e := fun i j => congrFun (congrFun h i) j
    have e00 := e 0 0; have e11 := e 1 1; have e22 := e 2 2
    have e01 := e 0 1; have e02 := e 0 2; have e12 := e 1 2
    simp [Matrix.mul_apply, Fin.sum_univ_three, M3.toMatrix] at e00 e11 e22 e01 e02 e12
    refine ⟨?_, ?_, ?_, ?_, ?_, ?_⟩ <;> simp only [dot] <;> assumption
  · rintro ⟨h0, h1, h2, h01, h02, h12⟩
    simp only [dot] at h0 h1 h2 h01 h02 h12
    ext i j
    fin_cases i <;> fin_cases j <;>
      simp [Matrix.mul_apply, Fin.sum_univ_three, M3.toMatrix] <;> linarith

/-- A rotation preserves inner products. -/
theorem IsRotation.dot_mulVec {A : M3 ℝ} (h : IsRotation A) (u v : V3 ℝ) :
    dot (M3.mulVec A u) (M3.mulVec A v) = dot u v := by
  unfold IsRotation at h
  rw [Matrix.mem_specialOrthogonalGroup_iff, Matrix.mem_orthogonalGroup_iff'] at h
  have e := fun i j => congrFun (congrFun h.1 i) j
  have e00 := e 0 0; have e11 := e 1 1; have e22 := e 2 2
  have e01 := e 0 1; have e02 := e 0 2; have e12 := e 1 2
  simp [Matrix.mul_apply, Fin.sum_univ_three, M3.toMatrix] at e00 e11 e22 e01 e02 e12
  simp only [M3.mulVec, dot]
  linear_combination (u.x * v.x) * e00 + (u.y * v.y) * e11 + (u.z * v.z) * e22
    + (u.x * v.y + u.y * v.x) * e01 + (u.x * v.z + u.z * v.x) * e02 + (u.y * v.z + u.z * v.y) * e12

theorem IsRotation.norm_mulVec {A : M3 ℝ} (h : IsRotation A) (u : V3 ℝ) :
    norm (M3.mulVec A u) = norm u := by rw [norm_eq, norm_eq, h.dot_mulVec]

theorem mulVec_add (A : M3 ℝ) (u v : V3 ℝ) : M3.mulVec A (u + v) = M3.mulVec A u + M3.mulVec A v := by
  ext <;> simp [M3.mulVec, dot] <;> ring
theorem mulVec_sub (A : M3 ℝ) (u v : V3 ℝ) : M3.mulVec A (u - v) = M3.mulVec A u - M3.mulVec A v := by
  ext <;> simp [M3.mulVec, dot] <;> ring
theorem mulVec_smul (A : M3 ℝ) (a : ℝ) (v : V3 ℝ) : M3.mulVec A (a * v) = a * M3.mulVec A v := by
  ext <;> simp [M3.mulVec, dot] <;> ring
theorem mulVec_neg (A : M3 ℝ) (v : V3 ℝ) : M3.mulVec A (-v) = -M3.mulVec A v := by
  ext <;> simp [M3.mulVec, dot] <;> ring

theorem unit_dot {v : V3 ℝ} (h : v ≠ ⟨0, 0, 0⟩) : dot (unitVector v) (unitVector v) = 1 := by
  have := (norm_pos h).ne'
  rw [unitVector, dot_div_left, dot_div_right, ← norm_mul_self]; field_simp

theorem unit_norm {v : V3 ℝ} (h : v ≠ ⟨0, 0, 0⟩) : norm (unitVector v) = 1 :=
  norm_eq_one_iff.mpr (unit_dot h)

/-- A unit vector is its own `unit_vector`. -/
theorem unitVector_of_unit {v : V3 ℝ} (h : dot v v = 1) : unitVector v = v := by
  rw [unitVector, norm_eq_one_iff.mpr h, div_one']

theorem unitVector_eq (v : V3 ℝ) : unitVector v = (1 / norm v) * v := div_eq_smul _ _

/-- The axis/angle matrix acts by Rodrigues' formula. -/
theorem axisAngle_rodrigues {axis : V3 ℝ} (h : axis ≠ ⟨0, 0, 0⟩) (θ : ℝ) (v : V3 ℝ) :
    M3.mulVec (rotationMatrixAxisAngle axis θ) v = rodrigues (unitVector axis) θ v := by
  have hk := unit_dot h
  have hu : axis / PyNum.sqrt (dot axis axis) = unitVector axis := rfl
  have hc : Real.cos θ = Real.cos (θ / 2) ^ 2 - Real.sin (θ / 2) ^ 2 := by
    rw [← Real.cos_two_mul', mul_div_cancel₀ _ (two_ne_zero)]
  have hs : Real.sin θ = 2 * Real.sin (θ / 2) * Real.cos (θ / 2) := by
    rw [← Real.sin_two_mul, mul_div_cancel₀ _ (two_ne_zero)]
  have h1 := Real.sin_sq_add_cos_sq (θ / 2)
  unfold rotationMatrixAxisAngle rodrigues
  rw [hu]
  generalize unitVector axis = k at hk ⊢
  rw [hc, hs]
  have l2 := lit2
  simp only [l2, real_cos, real_sin]
  generalize Real.sin (θ / 2) = s at *
  generalize Real.cos (θ / 2) = a at *
  simp only [dot] at hk
  ext <;> simp only [M3.mulVec, dot, cross, add_x, add_y, add_z, smul_x, smul_y, smul_z]
  · linear_combination (-s ^ 2 * v.x) * hk + (k.x * (k.x * v.x + k.y * v.y + k.z * v.z)) * h1
  · linear_combination (-s ^ 2 * v.y) * hk + (k.y * (k.x * v.x + k.y * v.y + k.z * v.z)) * h1
  · linear_combination (-s ^ 2 * v.z) * hk + (k.z * (k.x * v.x + k.y * v.y + k.z * v.z)) * h1

/-- The matrix of the rotation about the unit vector `k` with cosine `c` and sine `s`. -/
noncomputable def rodMat (k : V3 ℝ) (c s : ℝ) : M3 ℝ :=
  ⟨⟨c + (1 - c) * k.x * k.x, -s * k.z + (1 - c) * k.x * k.y, s * k.y + (1 - c) * k.x * k.z⟩,
   ⟨s * k.z + (1 - c) * k.y * k.x, c + (1 - c) * k.y * k.y, -s * k.x + (1 - c) * k.y * k.z⟩,
   ⟨-s * k.y + (1 - c) * k.z * k.x, s * k.x + (1 - c) * k.z * k.y, c + (1 - c) * k.z * k.z⟩⟩

theorem mulVec_rodMat (k v : V3 ℝ) (c s : ℝ) :
    M3.mulVec (rodMat k c s) v = c * v + s * cross k v + ((1 - c) * dot k v) * k := by
  ext <;> simp only [M3.mulVec, rodMat, dot, cross, add_x, add_y, add_z, smul_x, smul_y, smul_z] <;> ring

theorem isRotation_rodMat {k : V3 ℝ} {c s : ℝ} (hk : dot k k = 1) (h : c ^ 2 + s ^ 2 = 1) :
    IsRotation (rodMat k c s) := by
  rw [isRotation_iff]
  simp only [dot] at hk
  have hx : k.x ^ 2 = 1 - k.y ^ 2 - k.z ^ 2 := by linarith
  have hs : s ^ 2 = 1 - c ^ 2 := by linarith
  refine ⟨⟨?_, ?_, ?_, ?_, ?_, ?_⟩, ?_⟩ <;> simp only [rodMat, dot, cross]
  · linear_combination (s ^ 2 + (1 - c) ^ 2 * k.x ^ 2) * hk + (1 - k.x ^ 2) * h
  · linear_combination (s ^ 2 + (1 - c) ^ 2 * k.y ^ 2) * hk + (1 - k.y ^ 2) * h
  · linear_combination (s ^ 2 + (1 - c) ^ 2 * k.z ^ 2) * hk + (1 - k.z ^ 2) * h
  · linear_combination ((1 - c) ^ 2 * k.x * k.y) * hk - k.x * k.y * h
  · linear_combination ((1 - c) ^ 2 * k.x * k.z) * hk - k.x * k.z * h
  · linear_combination ((1 - c) ^ 2 * k.y * k.z) * hk - k.y * k.z * h
  · linear_combination (c ^ 2 * (1 - c) + s ^ 2 * (1 - c) * (k.x ^ 2 + k.y ^ 2 + k.z ^ 2 + 1)
      + c * s ^ 2) * hk + h

theorem M3.ext_mulVec {A B : M3 ℝ} (h : ∀ v, M3.mulVec A v = M3.mulVec B v) : A = B := by
  have h1 := h ⟨1, 0, 0⟩
  have h2 := h ⟨0, 1, 0⟩
  have h3 := h ⟨0, 0, 1⟩
  simp only [M3.mulVec, dot, V3.mk.injEq, mul_one, mul_zero, add_zero, zero_add] at h1 h2 h3
  ext <;> simp [h1, h2, h3]

theorem axisAngle_eq_rodMat {axis : V3 ℝ} (h : axis ≠ ⟨0, 0, 0⟩) (θ : ℝ) :
    rotationMatrixAxisAngle axis θ = rodMat (unitVector axis) (Real.cos θ) (Real.sin θ) :=
  M3.ext_mulVec fun v => by rw [axisAngle_rodrigues h, mulVec_rodMat, rodrigues]

theorem axisAngle_isRotation {axis : V3 ℝ} (h : axis ≠ ⟨0, 0, 0⟩) (θ : ℝ) :
    IsRotation (rotationMatrixAxisAngle axis θ) := by
  rw [axisAngle_eq_rodMat h]
  exact isRotation_rodMat (unit_dot h) (Real.cos_sq_add_sin_sq θ)

theorem mulVec_mul (A B : M3 ℝ) (v : V3 ℝ) :
    M3.mulVec (M3.mul A B) v = M3.mulVec A (M3.mulVec B v) := by
  ext <;> simp only [M3.mulVec, M3.mul, M3.col0, M3.col1, M3.col2, dot] <;> ring

theorem mulVec_eye (v : V3 ℝ) : M3.mulVec M3.eye v = v := by
  ext <;> simp [M3.mulVec, M3.eye, dot] <;> norm_num

theorem mulVec_neg_eye (v : V3 ℝ) : M3.mulVec (-M3.eye) v = -v := by
  ext <;> simp [M3.mulVec, M3.eye, dot] <;> norm_num

/-- Two parallel unit vectors. -/
theorem unit_parallel {a b : V3 ℝ} (ha : dot a a = 1) (hb : dot b b = 1)
    (h : norm (cross a b) = 0) : (dot a b = 1 ∧ b = a) ∨ (dot a b = -1 ∧ b = -a) := by
  have hl := cross_dot_self a b
  rw [← norm_mul_self, h, ha, hb] at hl
  have : (dot a b - 1) * (dot a b + 1) = 0 := by linarith
  rcases mul_eq_zero.mp this with h1 | h1
  · left
    refine ⟨by linarith, ext_of_dot ?_⟩
    simp only [dot_sub_left, dot_sub_right, dot_comm b a, ha, hb]; linarith
  · right
    refine ⟨by linarith, ext_of_dot ?_⟩
    simp only [dot_sub_left, dot_sub_right, dot_neg_left, dot_neg_right, dot_comm b a, ha, hb]; linarith

/-- `rotation_matrix2` away from the parallel case. -/
theorem rotationMatrix2_eq_rodMat {a b : V3 ℝ} (ha : dot a a = 1) (hb : dot b b = 1)
    (h : norm (cross a b) ≠ 0) :
    (rotationMatrix2 a b).1 = rodMat (unitVector (cross a b)) (dot a b) (norm (cross a b)) := by
  apply M3.ext_mulVec
  intro x
  have hna := norm_eq_one_iff.mpr ha
  have hnb := norm_eq_one_iff.mpr hb
  have hl := cross_dot_self a b
  rw [← norm_mul_self, ha, hb] at hl
  have hc : 1 + dot a b ≠ 0 := by
    intro e
    have : norm (cross a b) * norm (cross a b) = 0 := by
      rw [hl]; have : dot a b = -1 := by linarith
      rw [this]; norm_num
    exact h (mul_self_eq_zero.mp this)
  have hn := norm_mul_self (cross a b)
  rw [mulVec_rodMat]
  simp only [rotationMatrix2, hna, hnb, div_one', real_eqb, lit0, lit1, h, decide_false,
    unitVector, Bool.false_eq_true, if_false]
  generalize dot a b = c at *
  generalize cross a b = v at *
  generalize norm v = s at *
  simp only [dot] at hn
  have key : (1 - c) / (s * s) = 1 / (1 + c) := by
    field_simp; linarith
  have e1 : M3.mulVec ((M3.eye : M3 ℝ) + ⟨⟨0, -v.z, v.y⟩, ⟨v.z, 0, -v.x⟩, ⟨-v.y, v.x, 0⟩⟩
      + M3.mul ⟨⟨0, -v.z, v.y⟩, ⟨v.z, 0, -v.x⟩, ⟨-v.y, v.x, 0⟩⟩
          ⟨⟨0, -v.z, v.y⟩, ⟨v.z, 0, -v.x⟩, ⟨-v.y, v.x, 0⟩⟩ / (1 + c)) x
      = x + cross v x + (1 / (1 + c)) * (dot v x * v - (s * s) * x) := by
    rw [hn]
    ext <;>
      simp only [M3.mulVec, M3.eye, M3.mul, M3.col0, M3.col1, M3.col2, dot, cross, add_x, add_y, add_z,
        smul_x, smul_y, smul_z, sdiv_x, sdiv_y, sdiv_z, M3.add_r0, M3.add_r1, M3.add_r2, M3.sdiv_r0,
        M3.sdiv_r1, M3.sdiv_r2, lit0, lit1, sub_x, sub_y, sub_z] <;> ring
  have e2 : c * x + s * cross (v / s) x + ((1 - c) * dot (v / s) x) * (v / s)
      = c * x + cross v x + ((1 - c) / (s * s)) * (dot v x * v) := by
    ext <;> simp only [dot, cross, add_x, add_y, add_z, smul_x, smul_y, smul_z, sdiv_x, sdiv_y, sdiv_z] <;>
      field_simp
  rw [e1, e2, key]
  have k2 : (1 / (1 + c)) * (s * s) = 1 - c := by
    rw [← key]; field_simp
  ext <;> simp only [add_x, add_y, add_z, smul_x, smul_y, smul_z, sub_x, sub_y, sub_z]
  · linear_combination (-x.x) * k2
  · linear_combination (-x.y) * k2
  · linear_combination (-x.z) * k2

/-- `rotation_matrix` away from the parallel case: it turns the *other* way. -/
theorem rotationMatrix_eq_rodMat {a b : V3 ℝ} (ha : dot a a = 1) (hb : dot b b = 1)
    (h : norm (cross a b) ≠ 0) :
    (rotationMatrix a b).1 = rodMat (unitVector (cross a b)) (dot a b) (-norm (cross a b)) := by
  have hna := norm_eq_one_iff.mpr ha
  have hnb := norm_eq_one_iff.mpr hb
  apply M3.ext_mulVec
  intro x
  rw [mulVec_rodMat]
  simp only [rotationMatrix, hna, hnb, div_one', real_eqb, lit0, h, decide_false,
    unitVector, Bool.false_eq_true, if_false]
  generalize cross a b / norm (cross a b) = d
  ext <;>
    simp only [M3.mulVec, M3.eye, M3.outer, dot, cross, add_x, add_y, add_z,
        smul_x, smul_y, smul_z, M3.add_r0, M3.add_r1, M3.add_r2, M3.smul_r0,
        M3.smul_r1, M3.smul_r2, M3.sub_r0, M3.sub_r1, M3.sub_r2, lit0, lit1, sub_x, sub_y, sub_z] <;> ring

/-- In the parallel case both matrices are `±I`. -/
theorem rotationMatrix2_parallel {a b : V3 ℝ} (ha : dot a a = 1) (hb : dot b b = 1)
    (h : norm (cross a b) = 0) :
    (rotationMatrix2 a b).1 = if dot a b > 0 then M3.eye else -M3.eye := by
  have hna := norm_eq_one_iff.mpr ha
  have hnb := norm_eq_one_iff.mpr hb
  simp only [rotationMatrix2, hna, hnb, div_one', real_eqb, lit0, h, decide_true, if_true]

theorem rotationMatrix_parallel {a b : V3 ℝ} (ha : dot a a = 1) (hb : dot b b = 1)
    (h : norm (cross a b) = 0) :
    (rotationMatrix a b).1 = if dot a b > 0 then M3.eye else -M3.eye := by
  have hna := norm_eq_one_iff.mpr ha
  have hnb := norm_eq_one_iff.mpr hb
  simp only [rotationMatrix, hna, hnb, div_one', real_eqb, lit0, h, decide_true, if_true]

/-- Both functions first normalise their arguments. -/
theorem rotationMatrix2_unit {a b : V3 ℝ} (ha : a ≠ ⟨0, 0, 0⟩) (hb : b ≠ ⟨0, 0, 0⟩) :
    rotationMatrix2 a b = rotationMatrix2 (unitVector a) (unitVector b) := by
  have h1 := unit_norm ha
  have h2 := unit_norm hb
  unfold rotationMatrix2
  rw [h1, h2, div_one', div_one']; rfl

theorem rotationMatrix_unit {a b : V3 ℝ} (ha : a ≠ ⟨0, 0, 0⟩) (hb : b ≠ ⟨0, 0, 0⟩) :
    rotationMatrix a b = rotationMatrix (unitVector a) (unitVector b) := by
  have h1 := unit_norm ha
  have h2 := unit_norm hb
  unfold rotationMatrix
  rw [h1, h2, div_one', div_one']; rfl

/-- The rotation about `a × b` by the angle from `a` to `b` maps `a` to `b`. -/
theorem rodMat_maps {a b : V3 ℝ} (ha : dot a a = 1)
    (h : norm (cross a b) ≠ 0) :
    M3.mulVec (rodMat (unitVector (cross a b)) (dot a b) (norm (cross a b))) a = b := by
  rw [mulVec_rodMat]
  have h0 : dot (unitVector (cross a b)) a = 0 := by
    rw [unitVector, dot_div_left, dot_comm, dot_cross_left, zero_div]
  rw [h0]
  have e : norm (cross a b) * cross (unitVector (cross a b)) a = cross (cross a b) a := by
    simp only [unitVector]
    generalize norm (cross a b) = s at *
    generalize cross a b = v
    ext <;> simp only [cross, smul_x, smul_y, smul_z, sdiv_x, sdiv_y, sdiv_z] <;> field_simp
  rw [e]
  simp only [dot] at ha
  ext <;> simp only [dot, cross, add_x, add_y, add_z, smul_x, smul_y, smul_z]
  · linear_combination b.x * ha
  · linear_combination b.y * ha
  · linear_combination b.z * ha

theorem rodMat_inv_maps {a b : V3 ℝ} (hb : dot b b = 1)
    (h : norm (cross a b) ≠ 0) :
    M3.mulVec (rodMat (unitVector (cross a b)) (dot a b) (-norm (cross a b))) b = a := by
  rw [mulVec_rodMat]
  have h0 : dot (unitVector (cross a b)) b = 0 := by
    rw [unitVector, dot_div_left, dot_comm, dot_cross_right, zero_div]
  rw [h0]
  have e : (-norm (cross a b)) * cross (unitVector (cross a b)) b = -cross (cross a b) b := by
    simp only [unitVector]
    generalize norm (cross a b) = s at *
    generalize cross a b = v
    ext <;> simp only [cross, smul_x, smul_y, smul_z, sdiv_x, sdiv_y, sdiv_z, neg_x, neg_y, neg_z] <;>
      field_simp
  rw [e]
  simp only [dot] at hb
  ext <;> simp only [dot, cross, add_x, add_y, add_z, smul_x, smul_y, smul_z, neg_x, neg_y, neg_z]
  · linear_combination a.x * hb
  · linear_combination a.y * hb
  · linear_combination a.z * hb

end Optics
