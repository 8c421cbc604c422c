import Verif.Model.Vec
import Mathlib.Tactic.LinearCombination
import Mathlib.Tactic.Positivity

/-!
# Vector algebra over `ℝ`: helper lemmas
-/

namespace Optics
open V3

/-- The numerals of the model, at `ℝ`. -/
theorem lit0 : (0.0 : ℝ) = 0 := by norm_num
theorem lit1 : (1.0 : ℝ) = 1 := by norm_num
theorem lit2 : (2.0 : ℝ) = 2 := by norm_num
theorem lit4 : (4.0 : ℝ) = 4 := by norm_num

namespace V3

@[simp] theorem eta' (v : V3 ℝ) : (⟨v.x, v.y, v.z⟩ : V3 ℝ) = v := rfl

theorem dot_comm (u v : V3 ℝ) : dot u v = dot v u := by simp only [dot]; ring
theorem dot_add_left (u v w : V3 ℝ) : dot (u + v) w = dot u w + dot v w := by
  simp only [dot, add_x, add_y, add_z]; ring
theorem dot_add_right (u v w : V3 ℝ) : dot u (v + w) = dot u v + dot u w := by
  simp only [dot, add_x, add_y, add_z]; ring
theorem dot_sub_left (u v w : V3 ℝ) : dot (u - v) w = dot u w - dot v w := by
  simp only [dot, sub_x, sub_y, sub_z]; ring
theorem dot_sub_right (u v w : V3 ℝ) : dot u (v - w) = dot u v - dot u w := by
  simp only [dot, sub_x, sub_y, sub_z]; ring
theorem dot_smul_left (a : ℝ) (u v : V3 ℝ) : dot (a * u) v = a * dot u v := by
  simp only [dot, smul_x, smul_y, smul_z]; ring
theorem dot_smul_right (a : ℝ) (u v : V3 ℝ) : dot u (a * v) = a * dot u v := by
  simp only [dot, smul_x, smul_y, smul_z]; ring
theorem dot_neg_left (u v : V3 ℝ) : dot (-u) v = -dot u v := by
  simp only [dot, neg_x, neg_y, neg_z]; ring
theorem dot_neg_right (u v : V3 ℝ) : dot u (-v) = -dot u v := by
  simp only [dot, neg_x, neg_y, neg_z]; ring
theorem dot_div_left (a : ℝ) (u v : V3 ℝ) : dot (u / a) v = dot u v / a := by
  simp only [dot, sdiv_x, sdiv_y, sdiv_z]; ring
theorem dot_div_right (a : ℝ) (u v : V3 ℝ) : dot u (v / a) = dot u v / a := by
  simp only [dot, sdiv_x, sdiv_y, sdiv_z]; ring

theorem dot_self_nonneg (u : V3 ℝ) : 0 ≤ dot u u := by simp only [dot]; nlinarith [sq_nonneg u.x, sq_nonneg u.y, sq_nonneg u.z]

theorem dot_self_eq_zero {u : V3 ℝ} : dot u u = 0 ↔ u = ⟨0, 0, 0⟩ := by
  constructor
  · intro h
    simp only [dot] at h
    have hx : u.x = 0 := by nlinarith [sq_nonneg u.x, sq_nonneg u.y, sq_nonneg u.z]
    have hy : u.y = 0 := by nlinarith [sq_nonneg u.x, sq_nonneg u.y, sq_nonneg u.z]
    have hz : u.z = 0 := by nlinarith [sq_nonneg u.x, sq_nonneg u.y, sq_nonneg u.z]
    ext <;> assumption
  · rintro rfl; simp [dot]

theorem norm_eq (u : V3 ℝ) : norm u = Real.sqrt (dot u u) := rfl
theorem norm_nonneg (u : V3 ℝ) : 0 ≤ norm u := Real.sqrt_nonneg _
theorem norm_mul_self (u : V3 ℝ) : norm u * norm u = dot u u := Real.mul_self_sqrt (dot_self_nonneg u)
theorem norm_sq (u : V3 ℝ) : norm u ^ 2 = dot u u := Real.sq_sqrt (dot_self_nonneg u)

theorem norm_eq_zero {u : V3 ℝ} : norm u = 0 ↔ u = ⟨0, 0, 0⟩ := by
  rw [← dot_self_eq_zero, ← norm_mul_self]; simp

theorem norm_pos {u : V3 ℝ} (h : u ≠ ⟨0, 0, 0⟩) : 0 < norm u :=
  lt_of_le_of_ne (norm_nonneg u) (fun e => h (norm_eq_zero.mp e.symm))

theorem dot_self_pos {u : V3 ℝ} (h : u ≠ ⟨0, 0, 0⟩) : 0 < dot u u :=
  lt_of_le_of_ne (dot_self_nonneg u) (fun e => h (dot_self_eq_zero.mp e.symm))

theorem norm_eq_of_sq {u : V3 ℝ} {a : ℝ} (ha : 0 ≤ a) (h : dot u u = a ^ 2) : norm u = a := by
  rw [norm_eq, h, Real.sqrt_sq ha]

theorem norm_eq_one_iff {u : V3 ℝ} : norm u = 1 ↔ dot u u = 1 := by
  rw [← norm_sq]
  constructor
  · intro h; rw [h]; norm_num
  · intro h; nlinarith [norm_nonneg u]

theorem norm_smul (a : ℝ) (u : V3 ℝ) : norm (a * u) = |a| * norm u := by
  apply norm_eq_of_sq (mul_nonneg (abs_nonneg _) (norm_nonneg _))
  rw [dot_smul_left, dot_smul_right, mul_pow, sq_abs, norm_sq]; ring

theorem norm_neg (u : V3 ℝ) : norm (-u) = norm u := by
  apply norm_eq_of_sq (norm_nonneg _); rw [dot_neg_left, dot_neg_right, norm_sq]; ring

theorem norm_div (a : ℝ) (u : V3 ℝ) : norm (u / a) = norm u / |a| := by
  apply norm_eq_of_sq (div_nonneg (norm_nonneg _) (abs_nonneg _))
  rw [dot_div_left, dot_div_right, div_pow, sq_abs, norm_sq]; ring

theorem norm_sub_comm (u v : V3 ℝ) : norm (u - v) = norm (v - u) := by
  rw [norm_eq, norm_eq]; congr 1; simp only [dot, sub_x, sub_y, sub_z]; ring

/-- Cauchy-Schwarz. -/
theorem dot_sq_le (u v : V3 ℝ) : dot u v ^ 2 ≤ dot u u * dot v v := by
  simp only [dot]
  nlinarith [sq_nonneg (u.x * v.y - u.y * v.x), sq_nonneg (u.y * v.z - u.z * v.y),
    sq_nonneg (u.x * v.z - u.z * v.x)]

theorem abs_dot_le (u v : V3 ℝ) : |dot u v| ≤ norm u * norm v := by
  apply abs_le_of_sq_le_sq _ (mul_nonneg (norm_nonneg _) (norm_nonneg _))
  rw [mul_pow, norm_sq, norm_sq]; exact dot_sq_le u v

/-- Lagrange's identity. -/
theorem cross_dot_self (u v : V3 ℝ) :
    dot (cross u v) (cross u v) = dot u u * dot v v - dot u v ^ 2 := by
  simp only [dot, cross]; ring

theorem dot_cross_left (u v : V3 ℝ) : dot u (cross u v) = 0 := by simp only [dot, cross]; ring
theorem dot_cross_right (u v : V3 ℝ) : dot v (cross u v) = 0 := by simp only [dot, cross]; ring

theorem ext_of_dot {u v : V3 ℝ} (h : dot (u - v) (u - v) = 0) : u = v := by
  have := dot_self_eq_zero.mp h
  have hx := congrArg V3.x this
  have hy := congrArg V3.y this
  have hz := congrArg V3.z this
  simp only [sub_x, sub_y, sub_z] at hx hy hz
  ext <;> linarith

theorem ne_zero_of_norm_one {u : V3 ℝ} (h : norm u = 1) : u ≠ ⟨0, 0, 0⟩ := by
  intro e; rw [norm_eq_zero.mpr e] at h; norm_num at h

theorem ne_zero_of_dot_one {u : V3 ℝ} (h : dot u u = 1) : u ≠ ⟨0, 0, 0⟩ :=
  ne_zero_of_norm_one (norm_eq_one_iff.mpr h)

theorem smul_one' (u : V3 ℝ) : (1 : ℝ) * u = u := by ext <;> simp
theorem div_one' (u : V3 ℝ) : u / (1 : ℝ) = u := by ext <;> simp
theorem neg_neg' (u : V3 ℝ) : - -u = u := by ext <;> simp
theorem div_eq_smul (u : V3 ℝ) (a : ℝ) : u / a = (1 / a) * u := by
  ext <;> simp only [sdiv_x, sdiv_y, sdiv_z, smul_x, smul_y, smul_z] <;> ring
theorem add_sub_cancel' (u v : V3 ℝ) : u + v - u = v := by ext <;> simp
theorem sub_eq_zero' {u v : V3 ℝ} : u - v = ⟨0, 0, 0⟩ ↔ u = v := by
  constructor
  · intro h
    have hx := congrArg V3.x h
    have hy := congrArg V3.y h
    have hz := congrArg V3.z h
    simp only [sub_x, sub_y, sub_z] at hx hy hz
    ext <;> linarith
  · rintro rfl; ext <;> simp

end V3
end Optics
