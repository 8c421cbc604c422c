import Verif.Spec.FermiDirac
import Verif.Props.FermiDirac
import Mathlib.MeasureTheory.Integral.IntervalIntegral.TrapezoidalRule
import Mathlib.MeasureTheory.Integral.IntervalIntegral.IntegrationByParts
import Mathlib.MeasureTheory.Integral.Gamma
import Mathlib.Analysis.SpecialFunctions.Gamma.BohrMollerup
import Mathlib.Analysis.Complex.ExponentialBounds

/-!
# Lemmas: the Fermi-Dirac integral
-/

open MeasureTheory Set Filter Topology

namespace Optics

theorem fermiIntegrand_nonneg (eta j : ℝ) {x : ℝ} (hx : 0 ≤ x) : 0 ≤ fermiIntegrand eta j x := by
  unfold fermiIntegrand
  have := Real.rpow_nonneg hx j
  positivity

theorem fermiIntegrand_le (eta j : ℝ) {x : ℝ} (hx : 0 ≤ x) :
    fermiIntegrand eta j x ≤ Real.exp eta * (Real.exp (-x) * x ^ j) := by
  unfold fermiIntegrand
  rw [div_le_iff₀ (by positivity)]
  have h0 := Real.rpow_nonneg hx j
  have h1 : Real.exp eta * Real.exp (-x) * Real.exp (x - eta) = 1 := by
    rw [← Real.exp_add, ← Real.exp_add, show eta + -x + (x - eta) = 0 by ring, Real.exp_zero]
  have h2 : 0 ≤ Real.exp eta * Real.exp (-x) := by positivity
  calc x ^ j = 1 * x ^ j := (one_mul _).symm
    _ ≤ (Real.exp eta * Real.exp (-x) + 1) * x ^ j := mul_le_mul_of_nonneg_right (by linarith) h0
    _ = Real.exp eta * (Real.exp (-x) * x ^ j) * (1 + Real.exp (x - eta)) := by linear_combination (-x ^ j) * h1

/-- The nondegenerate limit exceeds the integrand by at most its own square over the density of states. -/
theorem fermiIntegrand_ge (eta j : ℝ) {x : ℝ} (hx : 0 ≤ x) :
    Real.exp eta * (Real.exp (-x) * x ^ j) - fermiIntegrand eta j x
      ≤ Real.exp (2 * eta) * (Real.exp (-(2 * x)) * x ^ j) := by
  unfold fermiIntegrand
  have h0 := Real.rpow_nonneg hx j
  have e1 : Real.exp (x - eta) = (Real.exp eta * Real.exp (-x))⁻¹ := by
    rw [← Real.exp_add, ← Real.exp_neg]; congr 1; ring
  have e2 : Real.exp (2 * eta) * Real.exp (-(2 * x)) = (Real.exp eta * Real.exp (-x)) ^ 2 := by
    rw [← Real.exp_add, ← Real.exp_add, ← Real.exp_nat_mul]; congr 1; push_cast; ring
  have hz : 0 < Real.exp eta * Real.exp (-x) := by positivity
  have key : ∀ z : ℝ, 0 < z → z - 1 / (1 + z⁻¹) ≤ z ^ 2 := by
    intro z hz
    have : 1 / (1 + z⁻¹) = z / (1 + z) := by field_simp; ring
    rw [this, sub_le_iff_le_add, ← sub_le_iff_le_add', le_div_iff₀ (by linarith)]
    nlinarith [pow_pos hz 3]
  calc Real.exp eta * (Real.exp (-x) * x ^ j) - x ^ j / (1 + Real.exp (x - eta))
      = (Real.exp eta * Real.exp (-x) - 1 / (1 + Real.exp (x - eta))) * x ^ j := by ring
    _ ≤ (Real.exp (2 * eta) * Real.exp (-(2 * x))) * x ^ j := by
        refine mul_le_mul_of_nonneg_right ?_ h0
        rw [e1, e2]
        exact key _ hz
    _ = _ := by ring

/-! ## Integrals over the half line -/

theorem expPow_integral {j r : ℝ} (hj : -1 < j) (hr : 0 < r) :
    ∫ x in Ioi (0 : ℝ), Real.exp (-(r * x)) * x ^ j = (1 / r) ^ (j + 1) * Real.Gamma (j + 1) := by
  rw [← Real.integral_rpow_mul_exp_neg_mul_Ioi (by linarith : 0 < j + 1) hr]
  refine setIntegral_congr_fun measurableSet_Ioi fun x _ => ?_
  simp only [add_sub_cancel_right, mul_comm]

theorem expPow_integrable {j r : ℝ} (hj : -1 < j) (hr : 0 < r) :
    IntegrableOn (fun x : ℝ => Real.exp (-(r * x)) * x ^ j) (Ioi 0) := by
  by_contra h
  have h0 := integral_undef h
  rw [expPow_integral hj hr] at h0
  have : 0 < Real.Gamma (j + 1) := Real.Gamma_pos_of_pos (by linarith)
  have : 0 < (1 / r) ^ (j + 1) := Real.rpow_pos_of_pos (by positivity) _
  exact (mul_pos this ‹0 < Real.Gamma (j + 1)›).ne' h0

theorem fermiIntegrand_continuousOn (eta j : ℝ) : ContinuousOn (fermiIntegrand eta j) (Ioi 0) := by
  unfold fermiIntegrand
  refine ContinuousOn.div ?_ (by fun_prop) fun x _ => by positivity
  exact fun x hx => (Real.continuousAt_rpow_const x j (.inl (ne_of_gt hx))).continuousWithinAt

theorem fermiIntegrand_integrable (eta : ℝ) {j : ℝ} (hj : -1 < j) :
    IntegrableOn (fermiIntegrand eta j) (Ioi 0) := by
  have hb : IntegrableOn (fun x : ℝ => Real.exp eta * (Real.exp (-(1 * x)) * x ^ j)) (Ioi 0) :=
    (expPow_integrable hj one_pos).const_mul _
  refine Integrable.mono' hb ((fermiIntegrand_continuousOn eta j).aestronglyMeasurable measurableSet_Ioi) ?_
  refine (ae_restrict_iff' measurableSet_Ioi).mpr (ae_of_all _ fun x hx => ?_)
  rw [Real.norm_of_nonneg (fermiIntegrand_nonneg eta j (le_of_lt hx)), one_mul]
  exact fermiIntegrand_le eta j (le_of_lt hx)

/-- Above by the nondegenerate limit. -/
theorem fermiDirac_le (eta : ℝ) {j : ℝ} (hj : -1 < j) : fermiDirac eta j ≤ Real.exp eta := by
  have hG : 0 < Real.Gamma (j + 1) := Real.Gamma_pos_of_pos (by linarith)
  unfold fermiDirac
  rw [div_le_iff₀ hG]
  have hb := (expPow_integrable hj one_pos).const_mul (Real.exp eta)
  calc ∫ x in Ioi 0, fermiIntegrand eta j x
      ≤ ∫ x in Ioi (0 : ℝ), Real.exp eta * (Real.exp (-(1 * x)) * x ^ j) := by
        refine setIntegral_mono_on (fermiIntegrand_integrable eta hj) hb measurableSet_Ioi fun x hx => ?_
        rw [one_mul]
        exact fermiIntegrand_le eta j (le_of_lt hx)
    _ = _ := by rw [integral_const_mul, expPow_integral hj one_pos]; simp

/-- Below by the nondegenerate limit, up to its square. -/
theorem fermiDirac_ge (eta : ℝ) {j : ℝ} (hj : -1 < j) :
    Real.exp eta - Real.exp (2 * eta) / 2 ^ (j + 1) ≤ fermiDirac eta j := by
  have hG : 0 < Real.Gamma (j + 1) := Real.Gamma_pos_of_pos (by linarith)
  unfold fermiDirac
  rw [le_div_iff₀ hG]
  have hb := (expPow_integrable hj one_pos).const_mul (Real.exp eta)
  have hc := (expPow_integrable hj two_pos).const_mul (Real.exp (2 * eta))
  have := setIntegral_mono_on (hb.sub (fermiIntegrand_integrable eta hj)) hc measurableSet_Ioi fun x hx => by
    have := fermiIntegrand_ge eta j (le_of_lt hx)
    simp only [Pi.sub_apply, one_mul]
    exact this
  rw [integral_sub' hb (fermiIntegrand_integrable eta hj), integral_const_mul, integral_const_mul, expPow_integral hj one_pos,
    expPow_integral hj two_pos, Real.div_rpow zero_le_one one_pos.le,
    Real.div_rpow zero_le_one (by norm_num : (0 : ℝ) ≤ 2), Real.one_rpow] at this
  simp only [div_one, Real.one_rpow, one_mul] at this
  calc (Real.exp eta - Real.exp (2 * eta) / 2 ^ (j + 1)) * Real.Gamma (j + 1)
      = Real.exp eta * Real.Gamma (j + 1) - Real.exp (2 * eta) * (1 / 2 ^ (j + 1) * Real.Gamma (j + 1)) := by ring
    _ ≤ _ := by linarith

/-- The term of the series of the Fermi function in powers of `e^(eta - x)`. -/
noncomputable def fermiTerm (eta j : ℝ) (k : ℕ) (x : ℝ) : ℝ :=
  Real.exp ((k + 1) * eta) * (Real.exp (-((k + 1) * x)) * x ^ j)

theorem fermiTerm_integral (eta : ℝ) {j : ℝ} (hj : -1 < j) (k : ℕ) :
    ∫ x in Ioi (0 : ℝ), fermiTerm eta j k x = Real.exp ((k + 1) * eta) / (k + 1) ^ (j + 1) * Real.Gamma (j + 1) := by
  unfold fermiTerm
  rw [integral_const_mul, expPow_integral hj (by positivity), Real.div_rpow zero_le_one (by positivity), Real.one_rpow]
  ring

theorem fermiTerm_integrable (eta : ℝ) {j : ℝ} (hj : -1 < j) (k : ℕ) :
    IntegrableOn (fermiTerm eta j k) (Ioi 0) :=
  (expPow_integrable hj (by positivity)).const_mul _

theorem fermiTerm_sum (eta j : ℝ) (n : ℕ) {x : ℝ} (hx : 0 ≤ x) :
    |(∑ k ∈ Finset.range n, (-1) ^ k * fermiTerm eta j k x) - fermiIntegrand eta j x| ≤ fermiTerm eta j n x := by
  have h0 := Real.rpow_nonneg hx j
  have hz : 0 < Real.exp (eta - x) := Real.exp_pos _
  have ht : ∀ k, fermiTerm eta j k x = Real.exp (eta - x) ^ (k + 1) * x ^ j := by
    intro k
    unfold fermiTerm
    rw [← Real.exp_nat_mul, ← mul_assoc, ← Real.exp_add]
    congr 2
    push_cast
    ring
  have hf : fermiIntegrand eta j x = Real.exp (eta - x) / (1 + Real.exp (eta - x)) * x ^ j := by
    unfold fermiIntegrand
    rw [show x - eta = -(eta - x) by ring, Real.exp_neg]
    field_simp
    ring
  rw [hf]
  simp only [ht]
  generalize Real.exp (eta - x) = z at *
  have hs : ∀ n : ℕ, ∑ k ∈ Finset.range n, (-1) ^ k * (z ^ (k + 1) * x ^ j)
      = (z * (1 - (-z) ^ n) / (1 + z)) * x ^ j := by
    intro n
    induction n with
    | zero => simp
    | succ n ih =>
      rw [Finset.sum_range_succ, ih]
      have : 1 + z ≠ 0 := by linarith
      rw [show (-1 : ℝ) ^ n * (z ^ (n + 1) * x ^ j) = z * (-z) ^ n * x ^ j by rw [neg_pow z]; ring]
      field_simp
      ring
  rw [hs, show z * (1 - (-z) ^ n) / (1 + z) * x ^ j - z / (1 + z) * x ^ j = -(z * (-z) ^ n / (1 + z)) * x ^ j by ring, abs_mul,
    abs_neg, abs_div, abs_mul, abs_pow, abs_neg, abs_of_pos hz, abs_of_pos (by linarith : 0 < 1 + z), abs_of_nonneg h0,
    ← pow_succ']
  exact mul_le_mul_of_nonneg_right (div_le_self (by positivity) (by linarith)) h0

/-- The alternating series of the Fermi-Dirac integral, with the next term as a bound of the error. -/
theorem fermiDirac_series (eta : ℝ) {j : ℝ} (hj : -1 < j) (n : ℕ) :
    |(∑ k ∈ Finset.range n, (-1) ^ k * (Real.exp ((k + 1) * eta) / (k + 1) ^ (j + 1))) - fermiDirac eta j|
      ≤ Real.exp ((n + 1) * eta) / (n + 1) ^ (j + 1) := by
  have hG : 0 < Real.Gamma (j + 1) := Real.Gamma_pos_of_pos (by linarith)
  have hs : IntegrableOn (fun x => ∑ k ∈ Finset.range n, (-1) ^ k * fermiTerm eta j k x) (Ioi 0) :=
    integrable_finsetSum _ fun k _ => (fermiTerm_integrable eta hj k).const_mul _
  have hi : ∫ x in Ioi (0 : ℝ), ((∑ k ∈ Finset.range n, (-1) ^ k * fermiTerm eta j k x) - fermiIntegrand eta j x)
      = ((∑ k ∈ Finset.range n, (-1) ^ k * (Real.exp ((k + 1) * eta) / (k + 1) ^ (j + 1))) - fermiDirac eta j)
        * Real.Gamma (j + 1) := by
    rw [integral_sub hs (fermiIntegrand_integrable eta hj), integral_finsetSum _ fun k _ =>
      (fermiTerm_integrable eta hj k).const_mul _]
    simp only [integral_const_mul, fermiTerm_integral eta hj]
    unfold fermiDirac
    rw [sub_mul, div_mul_cancel₀ _ hG.ne', Finset.sum_mul]
    congr 1
    exact Finset.sum_congr rfl fun k _ => by ring
  have hb := norm_integral_le_of_norm_le
    (f := fun x => (∑ k ∈ Finset.range n, (-1) ^ k * fermiTerm eta j k x) - fermiIntegrand eta j x)
    (fermiTerm_integrable eta hj n)
    ((ae_restrict_iff' measurableSet_Ioi).mpr (ae_of_all _ fun x hx => fermiTerm_sum eta j n (le_of_lt hx)))
  rw [hi, fermiTerm_integral eta hj, norm_mul, Real.norm_eq_abs, Real.norm_of_nonneg hG.le] at hb
  exact le_of_mul_le_mul_right hb hG

/-! ## The degenerate limit -/

/-- The substitution `x = eta * u`. -/
theorem fermi_scaled {eta : ℝ} (he : 0 < eta) (j : ℝ) : ∫ x in Ioi 0, fermiIntegrand eta j x =
    eta ^ (j + 1) * ∫ u in Ioi (0 : ℝ), u ^ j / (1 + Real.exp (eta * (u - 1))) := by
  have h := integral_comp_mul_left_Ioi (fermiIntegrand eta j) 0 he
  rw [mul_zero, smul_eq_mul] at h
  have h2 : ∫ x in Ioi (0 : ℝ), fermiIntegrand eta j (eta * x)
      = eta ^ j * ∫ u in Ioi (0 : ℝ), u ^ j / (1 + Real.exp (eta * (u - 1))) := by
    rw [← integral_const_mul]
    refine setIntegral_congr_fun measurableSet_Ioi fun u hu => ?_
    unfold fermiIntegrand
    rw [Real.mul_rpow he.le (le_of_lt hu), show eta * u - eta = eta * (u - 1) by ring]
    ring
  rw [h2] at h
  rw [Real.rpow_add_one he.ne', mul_right_comm, h]
  field_simp

/-- In the limit of large `eta` the Fermi function is a step. -/
theorem fermi_step {j : ℝ} (hj : -1 < j) :
    Tendsto (fun eta : ℝ => ∫ u in Ioi (0 : ℝ), u ^ j / (1 + Real.exp (eta * (u - 1)))) atTop (𝓝 (1 / (j + 1))) := by
  have hlim : ∫ u in Ioi (0 : ℝ), (Ioc (0 : ℝ) 1).indicator (fun u => u ^ j) u = 1 / (j + 1) := by
    rw [setIntegral_indicator measurableSet_Ioc, inter_eq_right.mpr (fun x hx => hx.1),
      ← intervalIntegral.integral_of_le zero_le_one, integral_rpow (.inl hj), Real.one_rpow,
      Real.zero_rpow (by linarith), sub_zero]
  rw [← hlim]
  refine tendsto_integral_filter_of_dominated_convergence
    (fun u : ℝ => Real.exp 1 * (Real.exp (-(1 * u)) * u ^ j)) ?_ ?_ ((expPow_integrable hj one_pos).const_mul _) ?_
  · refine Eventually.of_forall fun eta => ContinuousOn.aestronglyMeasurable ?_ measurableSet_Ioi
    refine ContinuousOn.div ?_ (by fun_prop) fun x _ => by positivity
    exact fun x hx => (Real.continuousAt_rpow_const x j (.inl (ne_of_gt hx))).continuousWithinAt
  · filter_upwards [eventually_ge_atTop 1] with eta he
    refine (ae_restrict_iff' measurableSet_Ioi).mpr (ae_of_all _ fun u hu => ?_)
    have hu0 : (0 : ℝ) < u := hu
    have h0 := Real.rpow_nonneg hu0.le j
    rw [Real.norm_of_nonneg (by positivity), div_le_iff₀ (by positivity)]
    have key : 1 ≤ Real.exp 1 * Real.exp (-(1 * u)) * (1 + Real.exp (eta * (u - 1))) := by
      rw [← Real.exp_add, mul_add, mul_one, ← Real.exp_add]
      rcases le_total u 1 with h | h
      · have : 1 ≤ Real.exp (1 + -(1 * u)) := Real.one_le_exp (by linarith)
        have := Real.exp_pos (1 + -(1 * u) + eta * (u - 1))
        linarith
      · have : 1 ≤ Real.exp (1 + -(1 * u) + eta * (u - 1)) := Real.one_le_exp (by nlinarith)
        have := Real.exp_pos (1 + -(1 * u))
        linarith
    calc u ^ j = 1 * u ^ j := (one_mul _).symm
      _ ≤ _ := mul_le_mul_of_nonneg_right key h0
      _ = _ := by ring
  · have h1 : ∀ᵐ u ∂(volume.restrict (Ioi (0 : ℝ))), u ≠ 1 :=
      ae_restrict_of_ae (by simp [ae_iff, measure_singleton])
    filter_upwards [h1, (ae_restrict_iff' measurableSet_Ioi).mpr (ae_of_all _ fun u hu => hu)] with u hne hu
    rcases lt_or_gt_of_ne hne with h | h
    · rw [indicator_of_mem (show u ∈ Ioc (0 : ℝ) 1 from ⟨hu, h.le⟩)]
      have : Tendsto (fun eta : ℝ => Real.exp (eta * (u - 1))) atTop (𝓝 0) :=
        Real.tendsto_exp_atBot.comp (tendsto_id.atTop_mul_const_of_neg (by linarith))
      have h := (tendsto_const_nhds (x := u ^ j)).div ((tendsto_const_nhds (x := (1 : ℝ))).add this) (by norm_num)
      rw [add_zero, div_one] at h
      exact h
    · rw [indicator_of_notMem fun hm => absurd hm.2 (not_le.mpr h)]
      have : Tendsto (fun eta : ℝ => Real.exp (eta * (u - 1))) atTop atTop :=
        Real.tendsto_exp_atTop.comp (tendsto_id.atTop_mul_const (by linarith))
      exact (tendsto_const_nhds (x := u ^ j)).div_atTop (tendsto_atTop_add_const_left _ _ this)

/-- The Fermi-Dirac integral approaches `eta ^ (j + 1) / Γ (j + 2)`. -/
theorem fermiDirac_degenerate {j : ℝ} (hj : -1 < j) :
    Tendsto (fun eta => eta ^ (j + 1) / Real.Gamma (j + 2) / fermiDirac eta j) atTop (𝓝 1) := by
  have hG : 0 < Real.Gamma (j + 1) := Real.Gamma_pos_of_pos (by linarith)
  have h := (tendsto_const_nhds (x := 1 / (j + 1))).div (fermi_step hj) (one_div_ne_zero (by linarith))
  rw [div_self (one_div_ne_zero (by linarith))] at h
  refine h.congr' ?_
  filter_upwards [eventually_gt_atTop 0] with eta he
  simp only [Pi.div_apply]
  unfold fermiDirac
  rw [fermi_scaled he, show j + 2 = j + 1 + 1 by ring, Real.Gamma_add_one (by linarith)]
  have hp : eta ^ (j + 1) ≠ 0 := (Real.rpow_pos_of_pos he _).ne'
  have hj' : j + 1 ≠ 0 := by linarith
  generalize ∫ u in Ioi (0 : ℝ), u ^ j / (1 + Real.exp (eta * (u - 1))) = I
  by_cases hI : I = 0
  · simp [hI]
  · field_simp

/-! ## The trapezoidal rule -/

/-- The variable transformation of `FD_int_num`. -/
noncomputable def fdX (t : ℝ) : ℝ := Real.exp (t - Real.exp (-t))

theorem fdX_pos (t : ℝ) : 0 < fdX t := Real.exp_pos _

theorem fdX_deriv (t : ℝ) : HasDerivAt fdX (fdX t * (1 + Real.exp (-t))) t := by
  have h1 : HasDerivAt (fun t : ℝ => Real.exp (-t)) (Real.exp (-t) * -1) t := (hasDerivAt_neg t).exp
  have h2 : HasDerivAt (fun t : ℝ => t - Real.exp (-t)) (1 - Real.exp (-t) * -1) t := (hasDerivAt_id t).sub h1
  have h3 := h2.exp
  rw [show 1 - Real.exp (-t) * -1 = 1 + Real.exp (-t) by ring] at h3
  exact h3

theorem fdX_strictMono : StrictMono fdX := by
  refine strictMono_of_deriv_pos fun t => ?_
  rw [(fdX_deriv t).deriv]
  have := fdX_pos t
  positivity

theorem fdIntegrand_eq (eta j t : ℝ) :
    fdIntegrand eta j t = fermiIntegrand eta j (fdX t) * (fdX t * (1 + Real.exp (-t))) := by
  unfold fdIntegrand fermiIntegrand fdX
  ring

theorem fdIntegrand_contDiff (eta j : ℝ) : ContDiff ℝ 2 (fdIntegrand eta j) := by
  unfold fdIntegrand
  have h1 : ContDiff ℝ 2 fun t : ℝ => Real.exp (t - Real.exp (-t)) := by fun_prop
  refine ContDiff.div ?_ (by fun_prop) fun t => by positivity
  refine (h1.mul (by fun_prop)).mul ?_
  exact h1.rpow_const_of_ne fun t => (Real.exp_pos _).ne'

/-- The integral over `t` is the Fermi-Dirac integral cut off at both ends. -/
theorem fdIntegrand_integral (eta j a b : ℝ) :
    ∫ t in a..b, fdIntegrand eta j t = ∫ x in fdX a..fdX b, fermiIntegrand eta j x := by
  simp only [fdIntegrand_eq]
  refine intervalIntegral.integral_comp_mul_deriv' (g := fermiIntegrand eta j) (fun t _ => fdX_deriv t) ?_ ?_
  · have : Continuous fdX := by unfold fdX; fun_prop
    exact Continuous.continuousOn (this.mul (by fun_prop))
  · refine (fermiIntegrand_continuousOn eta j).mono ?_
    rintro _ ⟨t, -, rfl⟩
    exact fdX_pos t

/-- The trapezoidal rule of Mathlib is the one of Props/FermiDirac. -/
theorem trapezoid_eq (g : ℝ → ℝ) (a b : ℝ) (N : ℕ) (hN : 0 < N) :
    trapezoid g a b N = trapezoidal_integral g N a b := by
  have hN' : (N : ℝ) ≠ 0 := Nat.cast_ne_zero.mpr hN.ne'
  have h := sum_trapezoidal_integral_adjacent_intervals (f := g) (a := a) (h := (b - a) / N) hN
  rw [show a + N * ((b - a) / N) = b by field_simp; ring] at h
  rw [← h]
  unfold trapezoid
  refine Finset.sum_congr rfl fun i _ => ?_
  rw [trapezoidal_integral_one]
  ring

/-- The error of the trapezoidal rule falls with the square of the number of intervals. -/
theorem trapezoid_error (g : ℝ → ℝ) (hg : ContDiff ℝ 2 g) {a b : ℝ} (hab : a < b) :
    ∃ C, ∀ N : ℕ, 0 < N → |trapezoid g a b N - ∫ t in a..b, g t| ≤ C / N ^ 2 := by
  have hu : uIcc a b = Icc a b := uIcc_of_le hab.le
  have hc := (hg.contDiffOn (s := Icc a b)).continuousOn_iteratedDerivWithin (m := 2) (le_refl _) (uniqueDiffOn_Icc hab)
  obtain ⟨ζ, hζ⟩ := isCompact_Icc.exists_bound_of_continuousOn hc
  refine ⟨|b - a| ^ 3 * |ζ| / 12, fun N hN => ?_⟩
  have hb : ∀ x, |iteratedDerivWithin 2 g (uIcc a b) x| ≤ |ζ| := by
    intro x
    rw [hu]
    by_cases hx : x ∈ Icc a b
    · exact (hζ x hx).trans (le_abs_self _)
    · rw [iteratedDerivWithin_succ, derivWithin_zero_of_notMem_closure (by rwa [isClosed_Icc.closure_eq])]
      simp
  have := trapezoidal_error_le_of_c2 (f := g) (a := a) (b := b) hg.contDiffOn hb hN
  rw [trapezoid_eq g a b N hN]
  calc |trapezoidal_integral g N a b - ∫ t in a..b, g t| ≤ _ := this
    _ = _ := by ring

/-! ## What is cut off -/

theorem fermiIntegrand_le_pow (eta j : ℝ) {x : ℝ} (hx : 0 ≤ x) : fermiIntegrand eta j x ≤ x ^ j :=
  div_le_self (Real.rpow_nonneg hx j) (by linarith [Real.exp_pos (x - eta)])

theorem head_le (eta : ℝ) {j : ℝ} (hj : -1 < j) {a : ℝ} (ha : 0 ≤ a) :
    ∫ x in Ioc 0 a, fermiIntegrand eta j x ≤ a ^ (j + 1) / (j + 1) := by
  have hi : IntegrableOn (fun x : ℝ => x ^ j) (Ioc 0 a) :=
    (intervalIntegrable_iff_integrableOn_Ioc_of_le ha).mp (intervalIntegral.intervalIntegrable_rpow' hj)
  calc ∫ x in Ioc 0 a, fermiIntegrand eta j x ≤ ∫ x in Ioc 0 a, x ^ j :=
        setIntegral_mono_on ((fermiIntegrand_integrable eta hj).mono_set fun x hx => hx.1) hi measurableSet_Ioc
          fun x hx => fermiIntegrand_le_pow eta j hx.1.le
    _ = _ := by
        rw [← intervalIntegral.integral_of_le ha, integral_rpow (.inl hj), Real.zero_rpow (by linarith), sub_zero]

theorem tail_le (eta : ℝ) {j : ℝ} (hj : -1 < j) (hj2 : j ≤ 2) {b : ℝ} (hb : 1 ≤ b) :
    ∫ x in Ioi b, fermiIntegrand eta j x ≤ 16 * Real.exp (eta - b / 2) := by
  have hi : IntegrableOn (fun x : ℝ => 8 * Real.exp eta * Real.exp (-(1 / 2) * x)) (Ioi b) :=
    (integrableOn_exp_mul_Ioi (by norm_num) b).const_mul _
  have hm : Ioi b ⊆ Ioi 0 := Ioi_subset_Ioi (by linarith)
  calc ∫ x in Ioi b, fermiIntegrand eta j x ≤ ∫ x in Ioi b, 8 * Real.exp eta * Real.exp (-(1 / 2) * x) := by
        refine setIntegral_mono_on ((fermiIntegrand_integrable eta hj).mono_set hm) hi measurableSet_Ioi fun x hx => ?_
        have hx1 : 1 ≤ x := hb.trans (le_of_lt hx)
        refine (fermiIntegrand_le eta j (by linarith)).trans ?_
        have h1 : x ^ j ≤ x ^ 2 := by
          rw [← Real.rpow_two]; exact Real.rpow_le_rpow_of_exponent_le hx1 hj2
        have h2 : x ^ 2 ≤ 8 * Real.exp (x / 2) := by
          have := Real.quadratic_le_exp_of_nonneg (show 0 ≤ x / 2 by linarith)
          nlinarith
        have h3 : Real.exp (-x) * Real.exp (x / 2) = Real.exp (-(1 / 2) * x) := by
          rw [← Real.exp_add]; congr 1; ring
        calc Real.exp eta * (Real.exp (-x) * x ^ j)
            ≤ Real.exp eta * (Real.exp (-x) * (8 * Real.exp (x / 2))) := by
              have := h1.trans h2
              gcongr
          _ = _ := by rw [← h3]; ring
    _ = _ := by
        rw [integral_const_mul, integral_exp_mul_Ioi (by norm_num), sub_eq_add_neg, Real.exp_add,
          show -(b / 2) = -(1 / 2) * b by ring]
        ring

theorem exp_forty : (10 : ℝ) ^ 17 ≤ Real.exp 40 := by
  have h : Real.exp 40 = Real.exp 1 ^ 40 := by rw [← Real.exp_nat_mul]; norm_num
  rw [h]
  calc (10 : ℝ) ^ 17 ≤ 2.7 ^ 40 := by norm_num
    _ ≤ _ := pow_le_pow_left₀ (by norm_num) (by linarith [Real.exp_one_gt_d9]) _

theorem exp_half_nine : 90 ≤ Real.exp 4.5 ∧ Real.exp 4.5 ≤ 91 := by
  have h : Real.exp 4.5 ^ 2 = Real.exp 1 ^ 9 := by
    rw [← Real.exp_nat_mul, ← Real.exp_nat_mul]; norm_num
  have h0 := Real.exp_pos 4.5
  have l : (2.7182818283 : ℝ) ^ 9 ≤ Real.exp 1 ^ 9 := pow_le_pow_left₀ (by norm_num) Real.exp_one_gt_d9.le _
  have u : Real.exp 1 ^ 9 ≤ (2.7182818286 : ℝ) ^ 9 := pow_le_pow_left₀ (Real.exp_pos _).le Real.exp_one_lt_d9.le _
  have l' : 8100 ≤ Real.exp 4.5 ^ 2 := by rw [h]; exact le_trans (by norm_num) l
  have u' : Real.exp 4.5 ^ 2 ≤ 8281 := by rw [h]; exact u.trans (by norm_num)
  constructor <;> nlinarith

theorem fdX_low : fdX (-4.5) ≤ Real.exp (-94) := by
  unfold fdX
  refine Real.exp_le_exp.mpr ?_
  have := exp_half_nine.1
  rw [neg_neg]
  linarith

theorem fdX_high : 140 ≤ fdX 5 ∧ fdX 5 ≤ Real.exp 5 := by
  unfold fdX
  constructor
  · have h5 : Real.exp (-5) ≤ 1 / 100 := by
      rw [Real.exp_neg, ← one_div]
      refine one_div_le_one_div_of_le (by norm_num) ?_
      have : Real.exp 5 = Real.exp 1 ^ 5 := by rw [← Real.exp_nat_mul]; norm_num
      rw [this]
      calc (100 : ℝ) ≤ 2.7 ^ 5 := by norm_num
        _ ≤ _ := pow_le_pow_left₀ (by norm_num) (by linarith [Real.exp_one_gt_d9]) _
    have h : Real.exp 5 = Real.exp 1 ^ 5 := by rw [← Real.exp_nat_mul]; norm_num
    have h1 : (2.718 : ℝ) ^ 5 ≤ Real.exp 1 ^ 5 := pow_le_pow_left₀ (by norm_num) (by linarith [Real.exp_one_gt_d9]) _
    rw [sub_eq_add_neg, Real.exp_add, h]
    have h2 : 1 - Real.exp (-5) ≤ Real.exp (-Real.exp (-5)) := by linarith [Real.add_one_le_exp (-Real.exp (-5))]
    have h3 : (0.99 : ℝ) ≤ Real.exp (-Real.exp (-5)) := by linarith
    calc (140 : ℝ) ≤ 2.718 ^ 5 * 0.99 := by norm_num
      _ ≤ _ := mul_le_mul h1 h3 (by norm_num) (by positivity)
  · exact Real.exp_le_exp.mpr (by linarith [Real.exp_pos (-5)])

/-- For the usual orders all that is cut off, and the boundary terms of the exchanged arguments, are negligible. -/
theorem fermi_cut (eta : ℝ) {j : ℝ} (he : eta ≤ 20) (hj : -1 / 2 ≤ j) (hj2 : j ≤ 3 / 2) :
    |(∫ t in (-4.5 : ℝ)..5, fdIntegrand eta j t) - 5 * fdIntegrand eta j 5 - 4.5 * fdIntegrand eta j (-4.5)
      - ∫ x in Ioi 0, fermiIntegrand eta j x| ≤ 1e-16 := by
  have hj' : -1 < j := by linarith
  have hI := fermiIntegrand_integrable eta hj'
  obtain ⟨b1, b2⟩ := fdX_high
  have ha := fdX_low
  have ha0 := fdX_pos (-4.5)
  have hab : fdX (-4.5) ≤ fdX 5 := (fdX_strictMono (by norm_num)).le
  have g1 : fdIntegrand eta j 5 ≤ 2 * Real.exp (eta - 140 + 5 * (5 / 2)) := by
    rw [fdIntegrand_eq]
    have h1 := fermiIntegrand_le eta j (fdX_pos 5).le
    have h2 : fdX 5 ^ j * fdX 5 ≤ Real.exp (5 * (5 / 2)) := by
      rw [← Real.rpow_add_one (fdX_pos 5).ne', Real.exp_mul]
      exact (Real.rpow_le_rpow (fdX_pos 5).le b2 (by linarith)).trans
        (Real.rpow_le_rpow_of_exponent_le (Real.one_le_exp (by norm_num)) (by linarith))
    have h3 : 1 + Real.exp (-5) ≤ 2 := by linarith [Real.exp_le_one_iff.mpr (show (-5 : ℝ) ≤ 0 by norm_num)]
    have h4 : Real.exp (-fdX 5) ≤ Real.exp (-140) := Real.exp_le_exp.mpr (by linarith)
    calc fermiIntegrand eta j (fdX 5) * (fdX 5 * (1 + Real.exp (-5)))
        ≤ Real.exp eta * (Real.exp (-fdX 5) * fdX 5 ^ j) * (fdX 5 * (1 + Real.exp (-5))) := by
          refine mul_le_mul_of_nonneg_right h1 ?_
          have := fdX_pos 5
          positivity
      _ = Real.exp eta * Real.exp (-fdX 5) * (fdX 5 ^ j * fdX 5) * (1 + Real.exp (-5)) := by ring
      _ ≤ Real.exp eta * Real.exp (-140) * Real.exp (5 * (5 / 2)) * 2 := by
          have := Real.rpow_pos_of_pos (fdX_pos 5) j
          have := fdX_pos 5
          gcongr
      _ = _ := by rw [← Real.exp_add, ← Real.exp_add]; ring_nf
  have hp : fdX (-4.5) ^ (j + 1) ≤ Real.exp (-47) := by
    calc fdX (-4.5) ^ (j + 1) ≤ Real.exp (-94) ^ (j + 1) := Real.rpow_le_rpow ha0.le ha (by linarith)
      _ = Real.exp (-94 * (j + 1)) := (Real.exp_mul _ _).symm
      _ ≤ _ := Real.exp_le_exp.mpr (by linarith)
  have g2 : fdIntegrand eta j (-4.5) ≤ 92 * Real.exp (-47) := by
    rw [fdIntegrand_eq, neg_neg]
    have h1 := fermiIntegrand_le_pow eta j ha0.le
    have h3 : 1 + Real.exp 4.5 ≤ 92 := by linarith [exp_half_nine.2]
    calc fermiIntegrand eta j (fdX (-4.5)) * (fdX (-4.5) * (1 + Real.exp 4.5))
        ≤ fdX (-4.5) ^ j * (fdX (-4.5) * (1 + Real.exp 4.5)) := by
          refine mul_le_mul_of_nonneg_right h1 ?_
          positivity
      _ = fdX (-4.5) ^ (j + 1) * (1 + Real.exp 4.5) := by rw [Real.rpow_add_one ha0.ne']; ring
      _ ≤ Real.exp (-47) * 92 := by gcongr
      _ = _ := by ring
  have p1 : 0 ≤ fdIntegrand eta j 5 := by
    rw [fdIntegrand_eq]
    have := fermiIntegrand_nonneg eta j (fdX_pos 5).le
    have := fdX_pos 5
    positivity
  have p2 : 0 ≤ fdIntegrand eta j (-4.5) := by
    rw [fdIntegrand_eq]
    have := fermiIntegrand_nonneg eta j ha0.le
    positivity
  have q1 := head_le eta hj' ha0.le
  have q1' : fdX (-4.5) ^ (j + 1) / (j + 1) ≤ 2 * Real.exp (-47) := by
    rw [div_le_iff₀ (by linarith)]
    nlinarith [Real.exp_pos (-47)]
  have q2 := tail_le eta hj' (by linarith) (b := fdX 5) (by linarith)
  have q2' : 16 * Real.exp (eta - fdX 5 / 2) ≤ 16 * Real.exp (-47) := by
    have := Real.exp_le_exp.mpr (show eta - fdX 5 / 2 ≤ -47 by linarith)
    linarith
  have n1 : 0 ≤ ∫ x in Ioc 0 (fdX (-4.5)), fermiIntegrand eta j x :=
    setIntegral_nonneg measurableSet_Ioc fun x hx => fermiIntegrand_nonneg eta j hx.1.le
  have n2 : 0 ≤ ∫ x in Ioi (fdX 5), fermiIntegrand eta j x :=
    setIntegral_nonneg measurableSet_Ioi fun x hx => fermiIntegrand_nonneg eta j (by have : fdX 5 < x := hx; linarith)
  have split : ∫ x in Ioi 0, fermiIntegrand eta j x = (∫ x in Ioc 0 (fdX (-4.5)), fermiIntegrand eta j x)
      + (∫ t in (-4.5 : ℝ)..5, fdIntegrand eta j t) + ∫ x in Ioi (fdX 5), fermiIntegrand eta j x := by
    rw [fdIntegrand_integral, intervalIntegral.integral_of_le hab,
      ← setIntegral_union (Ioc_disjoint_Ioc_of_le le_rfl) measurableSet_Ioc (hI.mono_set fun x hx => hx.1)
        (hI.mono_set fun x hx => ha0.trans hx.1), Ioc_union_Ioc_eq_Ioc ha0.le hab,
      ← setIntegral_union (Ioc_disjoint_Ioi le_rfl) measurableSet_Ioi (hI.mono_set fun x hx => hx.1)
        (hI.mono_set fun x hx => (ha0.trans_le hab).trans hx), Ioc_union_Ioi_eq_Ioi (ha0.le.trans hab)]
  have g1' : Real.exp (eta - 140 + 5 * (5 / 2)) ≤ Real.exp (-47) := Real.exp_le_exp.mpr (by linarith)
  have e47 : Real.exp (-47) * 1000 ≤ 1e-17 := by
    have h1 : Real.exp (-47) = Real.exp (-40) * Real.exp (-7) := by rw [← Real.exp_add]; norm_num
    have h2 : Real.exp (-40) ≤ 1e-17 := by
      rw [Real.exp_neg]
      calc (Real.exp 40)⁻¹ ≤ ((10 : ℝ) ^ 17)⁻¹ := inv_anti₀ (by norm_num) exp_forty
        _ = _ := by norm_num
    have h3 : Real.exp (-7) ≤ 1 / 1000 := by
      rw [Real.exp_neg, ← one_div]
      refine one_div_le_one_div_of_le (by norm_num) ?_
      have : Real.exp 7 = Real.exp 1 ^ 7 := by rw [← Real.exp_nat_mul]; norm_num
      rw [this]
      calc (1000 : ℝ) ≤ 2.7 ^ 7 := by norm_num
        _ ≤ _ := pow_le_pow_left₀ (by norm_num) (by linarith [Real.exp_one_gt_d9]) _
    rw [h1]
    nlinarith [Real.exp_pos (-40), Real.exp_pos (-7)]
  rw [split, abs_le]
  have := Real.exp_pos (-47)
  constructor
  · norm_num at e47 ⊢
    linarith
  · norm_num at e47 ⊢
    linarith

theorem gamma_ge {s : ℝ} (h1 : 1 / 2 ≤ s) (h2 : s ≤ 5 / 2) : 2 / 5 ≤ Real.Gamma s := by
  have big : ∀ s : ℝ, 1 ≤ s → 1 / s ≤ Real.Gamma s := by
    intro s hs
    have h := Real.Gamma_strictMonoOn_Ici.monotoneOn (self_mem_Ici (a := (2 : ℝ)))
      (show s + 1 ∈ Ici (2 : ℝ) by simp only [mem_Ici]; linarith) (by linarith)
    rw [Real.Gamma_two, Real.Gamma_add_one (by linarith)] at h
    rw [div_le_iff₀ (by linarith)]
    linarith
  rcases le_total 1 s with h | h
  · refine le_trans ?_ (big s h)
    rw [le_div_iff₀ (by linarith)]
    linarith
  · have h3 := big (s + 1) (by linarith)
    rw [Real.Gamma_add_one (by linarith), div_le_iff₀ (by linarith)] at h3
    have hG := Real.Gamma_pos_of_pos (show 0 < s by linarith)
    have : s * (s + 1) ≤ 2 := by nlinarith
    nlinarith [mul_le_mul_of_nonneg_left this hG.le]

end Optics
