import Verif.Model.General

/-!
# C73: `get_nQ`, `sackurTetrode`
-/

namespace Optics

/-- The thermal de Broglie wavelength (in cm) of a particle of mass `m` (in g) at the temperature `kT` (in eV), with
the constants of general.py. -/
noncomputable def thermalWavelength (T m : ℝ) : ℝ :=
  6.62607004e-27 / Real.sqrt (2 * Real.pi * m * (1.6021766208e-12 * T))

theorem getNQ_base (T m : ℝ) : getNQ T m =
    ((2 * Real.pi * m * (1.6021766208e-12 * T)) / (6.62607004e-27 : ℝ) ^ 2) ^ (3 / 2 : ℝ) := by
  unfold getNQ
  have hp := Real.pi_pos.ne'
  congr 1
  have : (1.6021766208e-19 * 1e7 : ℝ) = 1.6021766208e-12 := by norm_num
  simp only [this]
  have hh : (6.62607004e-27 : ℝ) ≠ 0 := by norm_num
  generalize (6.62607004e-27 : ℝ) = h at hh ⊢
  field_simp

/-- C73: the quantum concentration is the inverse cube of the thermal wavelength. -/
theorem C73_quantum_concentration (T m : ℝ) (hT : 0 < T) (hm : 0 < m) : getNQ T m * thermalWavelength T m ^ 3 = 1 := by
  rw [getNQ_base]
  unfold thermalWavelength
  have hp := Real.pi_pos
  have hh : (0 : ℝ) < 6.62607004e-27 := by norm_num
  generalize (6.62607004e-27 : ℝ) = h at hh ⊢
  have hA : 0 < 2 * Real.pi * m * (1.6021766208e-12 * T) := by positivity
  generalize 2 * Real.pi * m * (1.6021766208e-12 * T) = A at hA ⊢
  have hs : 0 < Real.sqrt A := Real.sqrt_pos.mpr hA
  have e : A / h ^ 2 = (Real.sqrt A / h) ^ (2 : ℝ) := by
    rw [show (2 : ℝ) = ((2 : ℕ) : ℝ) by norm_num, Real.rpow_natCast, div_pow, Real.sq_sqrt hA.le]
  rw [e, ← Real.rpow_mul (by positivity), show (2 : ℝ) * (3 / 2) = ((3 : ℕ) : ℝ) by norm_num, Real.rpow_natCast, ← mul_pow]
  have : Real.sqrt A / h * (h / Real.sqrt A) = 1 := by field_simp
  rw [this, one_pow]

theorem getNQ_pos (T m : ℝ) (hT : 0 < T) (hm : 0 < m) : 0 < getNQ T m := by
  rw [getNQ_base]
  have hp := Real.pi_pos
  refine Real.rpow_pos_of_pos (div_pos (by positivity) (by norm_num)) _

/-- C73: at a fixed density the entropy is additive in the volume; putting two amounts of the same gas together changes
nothing. -/
theorem C73_additive (n m V W T : ℝ) : sackurTetrode n m (V + W) T = sackurTetrode n m V T + sackurTetrode n m W T := by
  unfold sackurTetrode
  ring

/-- C73: the same particles in twice the volume have `N kB ln 2` more entropy. -/
theorem C73_expansion (n m V T : ℝ) (hn : 0 < n) (hm : 0 < m) (hT : 0 < T) :
    sackurTetrode (n / 2) m (2 * V) T - sackurTetrode n m V T = n * V * 1.38064852e-16 * Real.log 2 := by
  unfold sackurTetrode
  have h := (getNQ_pos T m hT hm).ne'
  simp only
  rw [show getNQ T m / (n / 2) = 2 * (getNQ T m / n) by field_simp, Real.log_mul (by norm_num) (div_ne_zero h hn.ne')]
  ring

/-- C73: at twice the temperature the entropy is `3/2 N kB ln 2` higher. -/
theorem C73_heating (n m V T : ℝ) (hn : 0 < n) (hm : 0 < m) (hT : 0 < T) :
    sackurTetrode n m V (2 * T) - sackurTetrode n m V T = 3 / 2 * (n * V * 1.38064852e-16 * Real.log 2) := by
  have h := (getNQ_pos T m hT hm).ne'
  have hp := Real.pi_pos
  have e : getNQ (2 * T) m = (2 : ℝ) ^ (3 / 2 : ℝ) * getNQ T m := by
    rw [getNQ_base, getNQ_base, ← Real.mul_rpow (by norm_num) (div_nonneg (by positivity) (by norm_num))]
    congr 1
    ring
  have h2 : (0 : ℝ) < 2 ^ (3 / 2 : ℝ) := Real.rpow_pos_of_pos (by norm_num) _
  unfold sackurTetrode
  simp only
  rw [e, mul_div_assoc, Real.log_mul h2.ne' (div_ne_zero h hn.ne'), Real.log_rpow (by norm_num)]
  ring

/-- C73: the entropy is positive exactly for densities below `e^(5/2)` times the quantum concentration. -/
theorem C73_positive (n m V T : ℝ) (hn : 0 < n) (hm : 0 < m) (hV : 0 < V) (hT : 0 < T) :
    0 < sackurTetrode n m V T ↔ n < Real.exp (5 / 2) * getNQ T m := by
  have h := getNQ_pos T m hT hm
  unfold sackurTetrode
  simp only
  have hk : 0 < n * V * 1.38064852e-16 := mul_pos (mul_pos hn hV) (by norm_num)
  rw [mul_pos_iff_of_pos_left hk, ← div_lt_iff₀ h, ← Real.log_lt_iff_lt_exp (div_pos hn h), ← inv_div n, Real.log_inv]
  constructor <;> intro h <;> linarith

/-- A gas at one electronvolt. -/
example : sackurTetrode 1e10 1e-24 2 2 - sackurTetrode 1e10 1e-24 2 1 = 3 / 2 * (1e10 * 2 * 1.38064852e-16 * Real.log 2) := by
  have := C73_heating 1e10 1e-24 2 1 (by norm_num) (by norm_num) (by norm_num)
  rwa [mul_one] at this

end Optics
