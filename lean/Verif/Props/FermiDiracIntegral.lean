import Verif.Lemmas.FermiDirac
import Mathlib.Analysis.SpecialFunctions.Gaussian.GaussianIntegral

/-!
# C84: what `FD_int_num` and `FD_int_approx` return against the Fermi-Dirac integral
-/

open MeasureTheory Set Filter Topology

namespace Optics

/-- C84, `eta < -20`: the value returned exceeds the Fermi-Dirac integral by at most the fraction `e^eta / 2^(j+1)`. -/
theorem C84_nondegenerate (floatCount : Bool) (eta j tol : ℝ) (Nmax : ℤ) (he : eta < -20) (hj : -1 < j) :
    ∃ y, fdIntNum floatCount eta j tol Nmax "script" = .ok (y, none, none) ∧
      fermiDirac eta j ≤ y ∧ y * (1 - Real.exp eta / 2 ^ (j + 1)) ≤ fermiDirac eta j := by
  refine ⟨Real.exp eta, ?_, fermiDirac_le eta hj, ?_⟩
  · unfold fdIntNum
    rw [if_pos he]
    rfl
  · refine le_trans (le_of_eq ?_) (fermiDirac_ge eta hj)
    rw [two_mul, Real.exp_add]
    ring

theorem gamma_three_half : Real.Gamma (3 / 2) = Real.sqrt Real.pi / 2 := by
  rw [show (3 / 2 : ℝ) = 1 / 2 + 1 by norm_num, Real.Gamma_add_one (by norm_num), Real.Gamma_one_half_eq]
  ring

theorem gamma_five_half : Real.Gamma (5 / 2) = 3 * Real.sqrt Real.pi / 4 := by
  rw [show (5 / 2 : ℝ) = 3 / 2 + 1 by norm_num, Real.Gamma_add_one (by norm_num), gamma_three_half]
  ring

theorem gamma_seven_half : Real.Gamma (7 / 2) = 15 * Real.sqrt Real.pi / 8 := by
  rw [show (7 / 2 : ℝ) = 5 / 2 + 1 by norm_num, Real.Gamma_add_one (by norm_num), gamma_five_half]
  ring

/-- C84, `eta > 20`: for the three orders with a result it is the leading term of the Sommerfeld expansion. -/
theorem C84_leading_term (floatCount : Bool) (eta j tol : ℝ) (Nmax : ℤ) (he : 20 < eta)
    (hj : j = -1 / 2 ∨ j = 1 / 2 ∨ j = 3 / 2) :
    fdIntNum floatCount eta j tol Nmax "script" = .ok (eta ^ (j + 1) / Real.Gamma (j + 2), none, none) := by
  have hp : Real.sqrt Real.pi ≠ 0 := (Real.sqrt_pos.mpr Real.pi_pos).ne'
  unfold fdIntNum
  rw [if_neg (by linarith), if_pos he]
  rcases hj with rfl | rfl | rfl
  · rw [if_pos rfl]
    simp only [Bind.bind, Except.bind, Pure.pure, Except.pure]
    rw [if_neg (by decide), show (-1 / 2 + 2 : ℝ) = 3 / 2 by norm_num, gamma_three_half,
      show (-1 / 2 + 1 : ℝ) = 0.5 by norm_num]
    congr 2
    field_simp
  · rw [if_neg (by norm_num), if_pos rfl]
    simp only [Bind.bind, Except.bind, Pure.pure, Except.pure]
    rw [if_neg (by decide), show (1 / 2 + 2 : ℝ) = 5 / 2 by norm_num, gamma_five_half,
      show (1 / 2 + 1 : ℝ) = 3 / 2 by norm_num]
    congr 2
    field_simp
  · rw [if_neg (by norm_num), if_neg (by norm_num), if_pos rfl]
    simp only [Bind.bind, Except.bind, Pure.pure, Except.pure]
    rw [if_neg (by decide), show (3 / 2 + 2 : ℝ) = 7 / 2 by norm_num, gamma_seven_half,
      show (3 / 2 + 1 : ℝ) = 5 / 2 by norm_num]
    congr 2
    field_simp

/-- C84, `eta > 20`: the relative error vanishes as `eta` grows. -/
theorem C84_degenerate (floatCount : Bool) (j tol : ℝ) (Nmax : ℤ) (hj : j = -1 / 2 ∨ j = 1 / 2 ∨ j = 3 / 2)
    (y : ℝ → ℝ) (hy : ∀ eta, 20 < eta → fdIntNum floatCount eta j tol Nmax "script" = .ok (y eta, none, none)) :
    Tendsto (fun eta => y eta / fermiDirac eta j) atTop (𝓝 1) := by
  refine (fermiDirac_degenerate (j := j) (by rcases hj with rfl | rfl | rfl <;> norm_num)).congr' ?_
  filter_upwards [eventually_gt_atTop 20] with eta he
  have h := hy eta he
  rw [C84_leading_term floatCount eta j tol Nmax he hj] at h
  simp only [Except.ok.injEq, Prod.mk.injEq] at h
  rw [h.1]

/-- C84, moderate `eta`: for the orders from -1/2 to 3/2 the value returned differs from the Fermi-Dirac integral by at
most `C / N ^ 2`, plus `1e-15` for what is cut off and for the boundary terms that the exchanged arguments of `np.trapz`
bring in. `N`: the number of intervals returned. -/
theorem C84_moderate (eta j : ℝ) (h1 : -20 ≤ eta) (h2 : eta ≤ 20) (hj : -1 / 2 ≤ j) (hj2 : j ≤ 3 / 2) :
    ∃ C, ∀ (tol : ℝ) (Nmax : ℕ), 2 ≤ Nmax → ∃ y N err,
      fdIntNum true eta j tol Nmax "script" = .ok (y, some N, some err) ∧ 2 ≤ N ∧ N ≤ Nmax ∧ (err < tol ∨ N = Nmax) ∧
        |y - fermiDirac eta j| ≤ C / N ^ 2 + 1e-15 := by
  obtain ⟨C, hC⟩ := trapezoid_error (fdIntegrand eta j) (fdIntegrand_contDiff eta j) (show (-4.5 : ℝ) < 5 by norm_num)
  have hG : 2 / 5 ≤ Real.Gamma (j + 1) := gamma_ge (by linarith) (by linarith)
  refine ⟨C / Real.Gamma (j + 1), fun tol Nmax hN => ?_⟩
  obtain ⟨N, a1, a2, a3, -, a5⟩ := C67_value eta j tol h1 h2 Nmax hN
  refine ⟨_, N, _, a3, a1, a2, a5, ?_⟩
  have e1 := hC N (by omega)
  have e2 := fermi_cut eta h2 hj hj2
  unfold fermiDirac
  rw [← sub_div, abs_div, abs_of_pos (by linarith : 0 < Real.Gamma (j + 1)), div_le_iff₀ (by linarith), add_mul]
  have e3 : C / Real.Gamma (j + 1) / (N : ℝ) ^ 2 * Real.Gamma (j + 1) = C / N ^ 2 := by
    have : Real.Gamma (j + 1) ≠ 0 := by linarith
    field_simp
  rw [e3]
  generalize hT : trapezoid (fdIntegrand eta j) (-4.5) 5 N = T at *
  generalize (∫ t in (-4.5 : ℝ)..5, fdIntegrand eta j t) = I at *
  have e4 := abs_add_le (T - I) (I - 5 * fdIntegrand eta j 5 - 4.5 * fdIntegrand eta j (-4.5)
    - ∫ x in Ioi 0, fermiIntegrand eta j x)
  rw [show T - I + (I - 5 * fdIntegrand eta j 5 - 4.5 * fdIntegrand eta j (-4.5) - ∫ x in Ioi 0, fermiIntegrand eta j x)
    = T - 5 * fdIntegrand eta j 5 - 4.5 * fdIntegrand eta j (-4.5) - ∫ x in Ioi 0, fermiIntegrand eta j x by ring] at e4
  refine e4.trans ?_
  have e5 : (1e-16 : ℝ) ≤ 1e-15 * Real.Gamma (j + 1) := by
    norm_num
    linarith
  linarith

/-- C84: the convention "roman" multiplies by `Γ(3/2)`, whatever the order. -/
theorem C84_roman (floatCount : Bool) (eta j tol : ℝ) (Nmax : ℤ) :
    fdIntNum floatCount eta j tol Nmax "roman" =
      (fdIntNum floatCount eta j tol Nmax "script").map fun r => (r.1 * Real.Gamma (3 / 2), r.2) := by
  unfold fdIntNum
  rw [gamma_three_half]
  split_ifs with hr
  all_goals first
    | exact absurd rfl hr
    | exact absurd ‹"script" = "roman"› (by decide)
    | rfl
    | (simp only [Bind.bind, Except.bind, Pure.pure, Except.pure, Except.map, mul_div_assoc]; done)
    | skip
  rcases fdLoop eta j tol Nmax.toNat 1 none with _ | ⟨y, N, _ | err⟩ <;>
    simp only [Bind.bind, Except.bind, Pure.pure, Except.pure, Except.map, mul_div_assoc]

/-- C84, `FD_int_approx` below -2: the error is at most the next term of the series. -/
theorem C84_series (eta : ℝ) (h : eta ≤ -2) : ∃ y, fdIntApprox eta (1 / 2) = some y ∧
    |y - Real.Gamma (3 / 2) * fermiDirac eta (1 / 2)| ≤ Real.Gamma (3 / 2) * (Real.exp (8 * eta) / 8 ^ (3 / 2 : ℝ)) := by
  have hG : 0 < Real.Gamma (3 / 2) := Real.Gamma_pos_of_pos (by norm_num)
  unfold fdIntApprox
  rw [if_pos rfl]
  refine ⟨_, rfl, ?_⟩
  rw [if_pos (by norm_num; exact h)]
  have hs := fermiDirac_series eta (show (-1 : ℝ) < 1 / 2 by norm_num) 7
  rw [show (1 / 2 + 1 : ℝ) = 3 / 2 by norm_num] at hs
  simp only [Finset.sum_range_succ, Finset.sum_range_zero] at hs
  norm_num at hs
  norm_num
  have hk : ∀ k : ℕ, Real.exp (k * eta) = Real.exp eta ^ k := fun k => Real.exp_nat_mul eta k
  have h2 := hk 2
  have h3 := hk 3
  have h4 := hk 4
  have h5 := hk 5
  have h6 := hk 6
  have h7 := hk 7
  push_cast at h2 h3 h4 h5 h6 h7
  rw [h2, h3, h4, h5, h6, h7] at hs
  rw [h2, h3, h4, h5, h6]
  refine le_trans (le_of_eq ?_) (mul_le_mul_of_nonneg_left hs hG.le)
  rw [← abs_of_pos hG, ← abs_mul, abs_of_pos hG, gamma_three_half]
  congr 1
  ring

/-- C84, `FD_int_approx` for large `eta`: the relative error vanishes. -/
theorem C84_approx_degenerate (y : ℝ → ℝ) (hy : ∀ eta, fdIntApprox eta (1 / 2) = some (y eta)) :
    Tendsto (fun eta => y eta / (Real.Gamma (3 / 2) * fermiDirac eta (1 / 2))) atTop (𝓝 1) := by
  have hp : Real.sqrt Real.pi ≠ 0 := (Real.sqrt_pos.mpr Real.pi_pos).ne'
  refine (fermiDirac_degenerate (j := 1 / 2) (by norm_num)).congr' ?_
  filter_upwards [eventually_gt_atTop 100000] with eta he
  have h := hy eta
  unfold fdIntApprox at h
  rw [if_pos rfl, if_neg (by norm_num; linarith), if_neg (by linarith), if_neg (by norm_num; linarith),
    if_neg (by norm_num; linarith), if_neg (by linarith)] at h
  simp only [Option.some.injEq] at h
  rw [← h, show (1 / 2 + 2 : ℝ) = 5 / 2 by norm_num, gamma_five_half, gamma_three_half,
    show (1 / 2 + 1 : ℝ) = 3 / 2 by norm_num, div_mul_eq_div_div]
  congr 1
  field_simp
  ring

/-- A case of `C84_series`. -/
example : ∃ y, fdIntApprox (-4) (1 / 2) = some y ∧
    |y - Real.Gamma (3 / 2) * fermiDirac (-4) (1 / 2)| ≤ Real.Gamma (3 / 2) * (Real.exp (8 * -4) / 8 ^ (3 / 2 : ℝ)) :=
  C84_series (-4) (by norm_num)

/-- A case of `C84_nondegenerate`: the order 0. -/
example : ∃ y, fdIntNum false (-30) 0 1e-12 600 "script" = .ok (y, none, none) ∧
    fermiDirac (-30) 0 ≤ y ∧ y * (1 - Real.exp (-30) / 2 ^ ((0 : ℝ) + 1)) ≤ fermiDirac (-30) 0 :=
  C84_nondegenerate false (-30) 0 1e-12 600 (by norm_num) (by norm_num)

/-- A case of `C84_degenerate`. -/
example : Tendsto (fun eta : ℝ => eta ^ (1 / 2 + 1 : ℝ) / Real.Gamma (1 / 2 + 2) / fermiDirac eta (1 / 2)) atTop (𝓝 1) :=
  C84_degenerate true (1 / 2) 1e-12 600 (.inr (.inl rfl)) _ fun eta he =>
    C84_leading_term true eta (1 / 2) 1e-12 600 he (.inr (.inl rfl))

/-- A case of `C84_moderate`: with a tolerance that is never undercut, more iterations bring the value as close as
`1e-15`. -/
example : ∃ C, ∀ Nmax : ℕ, 2 ≤ Nmax → ∃ y err, fdIntNum true 1 (1 / 2) (-1) Nmax "script" = .ok (y, some Nmax, some err) ∧
    |y - fermiDirac 1 (1 / 2)| ≤ C / Nmax ^ 2 + 1e-15 := by
  obtain ⟨C, hC⟩ := C84_moderate 1 (1 / 2) (by norm_num) (by norm_num) (by norm_num) (by norm_num)
  refine ⟨C, fun Nmax hN => ?_⟩
  obtain ⟨N', a1, a2, a3, -, a5⟩ := C67_value 1 (1 / 2) (-1) (by norm_num) (by norm_num) Nmax hN
  have e : N' = Nmax := a5.resolve_left (not_lt.mpr (by linarith [abs_nonneg (trapezoid (fdIntegrand 1 (1 / 2)) (-4.5) 5 N'
    - trapezoid (fdIntegrand 1 (1 / 2)) (-4.5) 5 (N' - 1))]))
  subst e
  obtain ⟨y, N, err, b1, -, -, -, b5⟩ := hC (-1) N' hN
  rw [a3] at b1
  simp only [Except.ok.injEq, Prod.mk.injEq, Option.some.injEq] at b1
  obtain ⟨rfl, rfl, rfl⟩ := b1
  exact ⟨_, _, a3, b5⟩

end Optics
