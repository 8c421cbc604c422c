import Mathlib.Data.Real.Basic
import Mathlib.Tactic.Ring
import Mathlib.Tactic.Linarith
import Mathlib.Tactic.Positivity

/-! # Specification: sample points along one axis -/

namespace Optics

/-- The `i`-th of `n` equally spaced points from `-s` to `s`; the middle if there is only one. -/
noncomputable def gridPoint (n : ℕ) (s : ℝ) (i : ℕ) : ℝ := if n = 1 then 0 else -s + i * (2 * s / (n - 1 : ℕ))

theorem gridPoint_le {n : ℕ} {s : ℝ} (hs : 0 ≤ s) {i : ℕ} (hi : i < n) : |gridPoint n s i| ≤ s := by
  unfold gridPoint
  split_ifs with h
  · rw [abs_zero]; exact hs
  · have hk : 0 < n - 1 := by omega
    have hk0 : (0 : ℝ) < ((n - 1 : ℕ) : ℝ) := by exact_mod_cast hk
    have hi' : (i : ℝ) ≤ ((n - 1 : ℕ) : ℝ) := by exact_mod_cast (by omega : i ≤ n - 1)
    have e : -s + (i : ℝ) * (2 * s / ((n - 1 : ℕ) : ℝ)) = s * (2 * ((i : ℝ) / ((n - 1 : ℕ) : ℝ)) - 1) := by ring
    have hq0 : 0 ≤ (i : ℝ) / ((n - 1 : ℕ) : ℝ) := by positivity
    have hq1 : (i : ℝ) / ((n - 1 : ℕ) : ℝ) ≤ 1 := (div_le_one hk0).mpr hi'
    rw [e, abs_mul, abs_of_nonneg hs]
    have : |2 * ((i : ℝ) / ((n - 1 : ℕ) : ℝ)) - 1| ≤ 1 := by rw [abs_le]; constructor <;> linarith
    nlinarith

/-- The points depend linearly on the extent. -/
theorem gridPoint_sub (n : ℕ) (s t : ℝ) (i : ℕ) : gridPoint n s i - gridPoint n t i = gridPoint n (s - t) i := by
  unfold gridPoint
  split_ifs
  · exact sub_zero _
  · ring

theorem gridPoint_neg (n : ℕ) (s : ℝ) (i : ℕ) : gridPoint n (-s) i = -gridPoint n s i := by
  unfold gridPoint
  split_ifs
  · exact neg_zero.symm
  · ring

end Optics
