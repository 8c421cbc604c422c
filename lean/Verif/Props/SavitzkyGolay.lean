import Verif.Props.MovingAverage
import Verif.Spec.Fit
import Mathlib.Algebra.Polynomial.Taylor
import Mathlib.Algebra.Polynomial.HasseDeriv
import Mathlib.Algebra.Polynomial.Roots
import Mathlib.Algebra.BigOperators.Fin
import Mathlib.LinearAlgebra.Matrix.Notation

/-!
# C65: `savitzky_golay`
-/

namespace Optics

open Polynomial Matrix

/-! ## The fit -/

/-- A polynomial of degree at most `order` through zeros on the whole window is zero, if the window has more than
`order` points. -/
theorem windowPowers_injective (half order : ℕ) (h : order < 2 * half + 1) (c : Fin (order + 1) → ℝ)
    (hc : windowPowers half order *ᵥ c = 0) : c = 0 := by
  classical
  set p : ℝ[X] := ∑ i : Fin (order + 1), monomial (i : ℕ) (c i) with hp
  have hcoeff : ∀ i : Fin (order + 1), p.coeff i = c i := by
    intro i
    rw [hp, finsetSum_coeff, Finset.sum_eq_single i]
    · rw [coeff_monomial, if_pos rfl]
    · intro j _ hji
      rw [coeff_monomial, if_neg (fun h => hji (Fin.ext h))]
    · intro h; exact absurd (Finset.mem_univ i) h
  have hdeg : p.natDegree ≤ order := by
    rw [hp]
    refine natDegree_sum_le_of_forall_le _ _ fun i _ => ?_
    exact (natDegree_monomial_le _).trans (Nat.lt_succ_iff.mp i.2)
  have heval : ∀ k : Fin (2 * half + 1), p.eval ((k : ℝ) - half) = 0 := by
    intro k
    have := congrFun hc k
    rw [hp, eval_finsetSum]
    simp only [eval_monomial]
    simp only [mulVec, dotProduct, windowPowers, Pi.zero_apply] at this
    rw [← this]
    exact Finset.sum_congr rfl fun i _ => mul_comm _ _
  have hp0 : p = 0 := by
    refine eq_zero_of_natDegree_lt_card_of_eval_eq_zero p (f := fun k : Fin (2 * half + 1) => (k : ℝ) - half) ?_ heval ?_
    · intro a b hab
      have : (a : ℝ) = b := by simpa using hab
      exact Fin.ext (by exact_mod_cast this)
    · rw [Fintype.card_fin]; omega
  funext i
  rw [← hcoeff i, hp0, coeff_zero, Pi.zero_apply]

/-- The pseudo-inverse of the powers is a left inverse: it recovers the coefficients of a polynomial. -/
theorem pinv_left_inverse (half order : ℕ) (h : order < 2 * half + 1) (P : Matrix (Fin (order + 1)) (Fin (2 * half + 1)) ℝ)
    (hP : IsPseudoInverse (windowPowers half order) P) (c : Fin (order + 1) → ℝ) :
    P *ᵥ (windowPowers half order *ᵥ c) = c := by
  have := windowPowers_injective half order h (P *ᵥ (windowPowers half order *ᵥ c) - c) (by
    rw [mulVec_sub, mulVec_mulVec, mulVec_mulVec, hP.bpb, sub_self])
  exact sub_eq_zero.mp this

/-- The row `d` of the pseudo-inverse recovers the `d`-th Taylor coefficient from samples around `t`. -/
theorem pinv_taylor (half order : ℕ) (h : order < 2 * half + 1) (P : Matrix (Fin (order + 1)) (Fin (2 * half + 1)) ℝ)
    (hP : IsPseudoInverse (windowPowers half order) P) (f : ℝ[X]) (hf : f.natDegree ≤ order) (t : ℝ) (d : Fin (order + 1)) :
    ∑ k, P d k * f.eval (t + ((k : ℝ) - half)) = (taylor t f).coeff d := by
  have h1 := congrFun (pinv_left_inverse half order h P hP fun i => (taylor t f).coeff i) d
  rw [← h1, mulVec, dotProduct]
  refine Finset.sum_congr rfl fun k _ => ?_
  congr 1
  have : f.eval (t + ((k : ℝ) - half)) = (taylor t f).eval ((k : ℝ) - half) := by rw [taylor_eval, add_comm]
  rw [this, eval_eq_sum_range' (n := order + 1) (by rw [natDegree_taylor]; omega), Finset.sum_range]
  exact Finset.sum_congr rfl fun i _ => mul_comm _ _

/-! ## The convolution -/

/-- A `valid` convolution with a reversed filter is a sliding dot product. -/
theorem convAt_reverse (m y : List ℝ) (t : ℕ) (hm : m ≠ []) : convAt m.reverse y (m.length - 1 + t)
    = ∑ l ∈ Finset.range m.length, m.getD l 0 * y.getD (t + l) 0 := by
  have hl : 0 < m.length := List.length_pos_iff.mpr hm
  rw [convAt_real, show m.length - 1 + t + 1 = m.length + t by omega, Finset.sum_range_add, Finset.sum_eq_zero (s := Finset.range t),
    add_zero, ← Finset.sum_range_reflect]
  · refine Finset.sum_congr rfl fun l hl' => ?_
    have := Finset.mem_range.mp hl'
    rw [List.getD_eq_getElem?_getD, List.getD_eq_getElem?_getD (l := m), List.getElem?_reverse (by omega)]
    congr 3 <;> omega
  · intro l _
    rw [List.getD_eq_getElem?_getD, List.getElem?_eq_none (by simp), Option.getD_none, zero_mul]

/-- The padded signal, when there are enough samples to pad with: `half` values on either side. -/
theorem savgolPad_eq (y : List ℝ) (half : ℕ) (hy : half < y.length) : ∃ a b : List ℝ, a.length = half ∧ b.length = half ∧
    savgolPad y half = .ok (a ++ y ++ b) := by
  cases hy' : y with
  | nil => rw [hy'] at hy; simp at hy
  | cons y0 ys =>
    rw [← hy']
    have h1 : y.head? = some y0 := by rw [hy']; rfl
    obtain ⟨yl, h2⟩ : ∃ yl, y.getLast? = some yl := by
      cases h : y.getLast? with
      | none => rw [List.getLast?_eq_none_iff] at h; rw [h] at hy'; cases hy'
      | some yl => exact ⟨yl, rfl⟩
    unfold savgolPad
    rw [h1, h2]
    refine ⟨_, _, ?_, ?_, rfl⟩
    · simp; omega
    · simp [lastBut]; omega

/-! ## C65 -/

/-- The call, with the padding spelled out. -/
theorem savgol_call (y : List ℝ) (half order : ℕ) (hord : order + 2 ≤ 2 * half + 1) (deriv : ℕ) (hd : deriv ≤ order) (rate : ℝ)
    (rows : ℕ → List ℝ) : savitzkyGolay y (2 * half + 1 : ℕ) order deriv rate rows =
      (savgolPad y half).bind fun y =>
        convolveValid ((rows deriv).map fun c => c * rate ^ deriv * (deriv.factorial : ℝ)).reverse y := by
  unfold savitzkyGolay
  simp only [Int.natAbs_natCast]
  rw [if_neg (by omega), if_neg (by omega), if_neg (by omega), show (2 * half + 1 - 1) / 2 = half by omega]
  rfl

/-- C65, length: with more samples than half the window the result has as many entries as the signal. What is missing:
shorter signals (`C65_short`, `C65_counterexample`). -/
theorem C65_length_partial (y : List ℝ) (half order : ℕ) (hord : order + 2 ≤ 2 * half + 1) (deriv : ℕ) (hd : deriv ≤ order)
    (rate : ℝ) (rows : ℕ → List ℝ) (hrows : (rows deriv).length = 2 * half + 1) (hy : half < y.length) :
    ∃ out, savitzkyGolay y (2 * half + 1 : ℕ) order deriv rate rows = .ok out ∧ out.length = y.length := by
  obtain ⟨a, b, ha, hb, hpad⟩ := savgolPad_eq y half hy
  rw [savgol_call y half order hord deriv hd, hpad]
  simp only [Except.bind, convolveValid]
  rw [if_neg (by simp only [List.length_reverse, List.length_map, hrows, List.length_append, ha, hb]; omega)]
  refine ⟨_, rfl, ?_⟩
  rw [convRange_length]
  simp only [List.length_reverse, List.length_map, hrows, List.length_append, ha, hb]
  omega

/-- Wherever the padded signal is a polynomial of degree at most `order` over the window, the result is its derivative. -/
theorem savgol_window (half order : ℕ) (hord : order + 2 ≤ 2 * half + 1) (deriv : ℕ) (hd : deriv ≤ order) (rate : ℝ)
    (P : Matrix (Fin (order + 1)) (Fin (2 * half + 1)) ℝ) (hP : IsPseudoInverse (windowPowers half order) P)
    (rows : ℕ → List ℝ) (hrows : rows deriv = List.ofFn (P ⟨deriv, Nat.lt_succ_of_le hd⟩))
    (f : ℝ[X]) (hf : f.natDegree ≤ order) (y pad : List ℝ) (hpad : savgolPad y half = .ok pad)
    (hplen : pad.length = y.length + 2 * half) (out : List ℝ)
    (hout : savitzkyGolay y (2 * half + 1 : ℕ) order deriv rate rows = .ok out) (t : ℕ) (ht : t < y.length)
    (hw : ∀ l, l < 2 * half + 1 → pad.getD (t + l) 0 = f.eval ((t : ℝ) + ((l : ℝ) - half))) :
    out[t]? = some (rate ^ deriv * (derivative^[deriv] f).eval (t : ℝ)) := by
  set m := (rows deriv).map fun c => c * rate ^ deriv * (deriv.factorial : ℝ) with hm
  have hml : m.length = 2 * half + 1 := by simp [hm, hrows]
  rw [savgol_call _ half order hord deriv hd, hpad] at hout
  simp only [Except.bind, convolveValid] at hout
  rw [if_neg (by rw [List.length_reverse, ← hm, hml, hplen]; omega)] at hout
  injection hout with hout
  rw [← hout, ← hm, List.length_reverse, hml, hplen, min_eq_left (by omega), max_eq_right (by omega),
    convRange_getD _ _ _ _ _ (by omega)]
  have hne : m ≠ [] := by intro h; rw [h] at hml; simp at hml
  have := convAt_reverse m pad t hne
  rw [hml] at this
  rw [this, Finset.sum_range]
  congr 1
  have hterm : ∀ l : Fin (2 * half + 1), m.getD l 0 * pad.getD (t + l) 0
      = rate ^ deriv * (deriv.factorial : ℝ) * (P ⟨deriv, Nat.lt_succ_of_le hd⟩ l * f.eval ((t : ℝ) + ((l : ℝ) - half))) := by
    intro l
    have e1 : m.getD l 0 = P ⟨deriv, Nat.lt_succ_of_le hd⟩ l * rate ^ deriv * (deriv.factorial : ℝ) := by
      rw [List.getD_eq_getElem?_getD, hm, hrows, List.getElem?_map, List.getElem?_ofFn, dif_pos l.2]
      rfl
    rw [e1, hw l l.2]
    ring
  rw [Finset.sum_congr rfl fun l _ => hterm l, ← Finset.mul_sum, pinv_taylor half order (by omega) P hP f hf, taylor_coeff]
  have := congrArg (fun g => g f) (factorial_smul_hasseDeriv (R := ℝ) deriv)
  simp only [LinearMap.smul_apply] at this
  rw [← this, mul_assoc]
  congr 1
  simp [nsmul_eq_mul]

/-- C65: samples of a polynomial of degree at most `order` are returned unchanged (or, with `deriv`, replaced by the
derivative of that order, times `rate ** deriv`) wherever the window lies within the signal. -/
theorem C65_polynomial (half order : ℕ) (hord : order + 2 ≤ 2 * half + 1) (deriv : ℕ) (hd : deriv ≤ order) (rate : ℝ)
    (P : Matrix (Fin (order + 1)) (Fin (2 * half + 1)) ℝ) (hP : IsPseudoInverse (windowPowers half order) P)
    (rows : ℕ → List ℝ) (hrows : rows deriv = List.ofFn (P ⟨deriv, Nat.lt_succ_of_le hd⟩))
    (f : ℝ[X]) (hf : f.natDegree ≤ order) (n : ℕ) (out : List ℝ)
    (hout : savitzkyGolay (samples f n) (2 * half + 1 : ℕ) order deriv rate rows = .ok out) (t : ℕ)
    (h1 : half ≤ t) (h2 : t + half < n) :
    out[t]? = some (rate ^ deriv * (derivative^[deriv] f).eval (t : ℝ)) := by
  have hlen : (samples f n).length = n := by simp [samples]
  obtain ⟨a, b, ha, hb, hpad⟩ := savgolPad_eq (samples f n) half (by omega)
  refine savgol_window half order hord deriv hd rate P hP rows hrows f hf _ _ hpad
    (by simp only [List.length_append, ha, hb, hlen]; omega) out hout t (by omega) fun l hl => ?_
  rw [List.getD_eq_getElem?_getD, List.append_assoc, List.getElem?_append_right (by omega),
    List.getElem?_append_left (by omega), samples, List.getElem?_map, List.getElem?_range (by omega)]
  simp only [Option.map_some, Option.getD_some, ha]
  rw [Nat.cast_sub (by omega)]
  congr 1
  push_cast
  ring

/-- The padding continues a rising line. -/
theorem savgolPad_line (half n : ℕ) (hn : half < n) {a : ℝ} (ha : 0 ≤ a) (b : ℝ) :
    ∃ pad, savgolPad (samples (C a * X + C b) n) half = .ok pad ∧ pad.length = n + 2 * half ∧
      ∀ i, i < n + 2 * half → pad.getD i 0 = a * ((i : ℝ) - half) + b := by
  set y := samples (C a * X + C b) n with hy
  have hlen : y.length = n := by simp [hy, samples]
  have hget : ∀ i, i < n → y[i]? = some (a * i + b) := by
    intro i hi
    rw [hy, samples, List.getElem?_map, List.getElem?_range hi]
    simp
  have h1 : y.head? = some b := by
    rw [List.head?_eq_getElem?, hget 0 (by omega)]; simp
  have h2 : y.getLast? = some (a * (n - 1 : ℕ) + b) := by
    rw [List.getLast?_eq_getElem?, hlen, hget _ (by omega)]
  unfold savgolPad
  rw [h1, h2]
  refine ⟨_, rfl, by simp [lastBut, hlen]; omega, fun i hi => ?_⟩
  rw [List.getD_eq_getElem?_getD]
  by_cases c1 : i < half
  · rw [List.append_assoc, List.getElem?_append_left (by simp [hlen]; omega), List.getElem?_map,
      List.getElem?_reverse (by simp [hlen]; omega)]
    simp only [List.length_take, List.length_drop, hlen]
    rw [List.getElem?_take_of_lt (by omega), List.getElem?_drop, hget _ (by omega)]
    simp only [Option.map_some, Option.getD_some, real_abs]
    rw [show 1 + (min half (n - 1) - 1 - i) = half - i by omega, Nat.cast_sub c1.le]
    have : (i : ℝ) ≤ half := by exact_mod_cast c1.le
    rw [abs_of_nonneg (by nlinarith)]
    ring
  · by_cases c2 : i < half + n
    · rw [List.append_assoc, List.getElem?_append_right (by simp [hlen]; omega),
        List.getElem?_append_left (by simp [hlen]; omega), hget _ (by simp [hlen]; omega)]
      simp only [List.length_map, List.length_reverse, List.length_take, List.length_drop, hlen, Option.getD_some]
      rw [show i - min half (n - 1) = i - half by omega, Nat.cast_sub (by omega)]
    · rw [List.getElem?_append_right (by simp [hlen]; omega), List.getElem?_map,
        List.getElem?_reverse (by simp [hlen, lastBut]; omega)]
      simp only [lastBut, List.length_map, List.length_reverse, List.length_take, List.length_drop, List.length_append, hlen]
      rw [List.getElem?_drop, List.getElem?_take_of_lt (by omega), hget _ (by omega)]
      simp only [Option.map_some, Option.getD_some, real_abs]
      have e : ((n - (half + 1) + (min (n - 1) n - (n - (half + 1)) - 1 - (i - (min half (n - 1) + n))) : ℕ) : ℝ)
          = 2 * n + half - 2 - i := by
        rw [eq_sub_iff_add_eq, eq_sub_iff_add_eq]
        have : n - (half + 1) + (min (n - 1) n - (n - (half + 1)) - 1 - (i - (min half (n - 1) + n))) + i + 2 = 2 * n + half := by
          omega
        exact_mod_cast this
      rw [e, Nat.cast_sub (by omega)]
      push_cast
      have : (n : ℝ) + half ≤ i := by exact_mod_cast (by omega : n + half ≤ i)
      rw [abs_of_nonpos (by nlinarith)]
      ring

/-- C65, the ends: a rising (or constant) line is returned unchanged to its very ends, its slope is found there too. -/
theorem C65_rising_line (half order : ℕ) (h0 : 1 ≤ order) (hord : order + 2 ≤ 2 * half + 1) (deriv : ℕ) (hd : deriv ≤ order)
    (rate : ℝ) (P : Matrix (Fin (order + 1)) (Fin (2 * half + 1)) ℝ) (hP : IsPseudoInverse (windowPowers half order) P)
    (rows : ℕ → List ℝ) (hrows : rows deriv = List.ofFn (P ⟨deriv, Nat.lt_succ_of_le hd⟩))
    (a b : ℝ) (ha : 0 ≤ a) (n : ℕ) (hn : half < n) (out : List ℝ)
    (hout : savitzkyGolay (samples (C a * X + C b) n) (2 * half + 1 : ℕ) order deriv rate rows = .ok out) (t : ℕ)
    (ht : t < n) : out[t]? = some (rate ^ deriv * (derivative^[deriv] (C a * X + C b)).eval (t : ℝ)) := by
  have hlen : (samples (C a * X + C b) n).length = n := by simp [samples]
  obtain ⟨pad, hp, hl, hv⟩ := savgolPad_line half n hn ha b
  refine savgol_window half order hord deriv hd rate P hP rows hrows _ ((by compute_degree : natDegree _ ≤ 1).trans h0) _ _ hp
    (by rw [hl, hlen]) out hout t (by omega) fun l hl' => ?_
  rw [hv _ (by omega)]
  simp only [eval_add, eval_mul, eval_C, eval_X, Nat.cast_add]
  ring

/-- C65, short signals: with at most `half` samples the result has `|3n - 2 - window| + 1` entries. -/
theorem C65_short (y : List ℝ) (half order : ℕ) (hord : order + 2 ≤ 2 * half + 1) (deriv : ℕ) (hd : deriv ≤ order) (rate : ℝ)
    (rows : ℕ → List ℝ) (hrows : (rows deriv).length = 2 * half + 1) (h0 : y ≠ []) (hy : y.length ≤ half) :
    ∃ out, savitzkyGolay y (2 * half + 1 : ℕ) order deriv rate rows = .ok out ∧
      (out.length : Int) = |3 * (y.length : Int) - 2 - (2 * half + 1)| + 1 := by
  have hl : 0 < y.length := List.length_pos_iff.mpr h0
  obtain ⟨a, b, ha, hb, hpad⟩ : ∃ a b : List ℝ, a.length = y.length - 1 ∧ b.length = y.length - 1 ∧
      savgolPad y half = .ok (a ++ y ++ b) := by
    cases hy' : y with
    | nil => exact absurd hy' h0
    | cons y0 ys =>
      rw [← hy']
      have h1 : y.head? = some y0 := by rw [hy']; rfl
      obtain ⟨yl, h2⟩ : ∃ yl, y.getLast? = some yl := by
        cases h : y.getLast? with
        | none => rw [List.getLast?_eq_none_iff] at h; exact absurd h h0
        | some yl => exact ⟨yl, rfl⟩
      unfold savgolPad
      rw [h1, h2]
      refine ⟨_, _, ?_, ?_, rfl⟩
      · simp; omega
      · simp [lastBut]; omega
  rw [savgol_call y half order hord deriv hd, hpad]
  simp only [Except.bind, convolveValid]
  rw [if_neg (by simp only [List.length_reverse, List.length_map, hrows, List.length_append, ha, hb]; omega)]
  refine ⟨_, rfl, ?_⟩
  rw [convRange_length]
  simp only [List.length_reverse, List.length_map, hrows, List.length_append, ha, hb]
  rcases le_total (2 * half + 1) (y.length - 1 + y.length + (y.length - 1)) with h | h
  · rw [max_eq_right h, min_eq_left h, abs_of_nonneg (by omega)]; omega
  · rw [max_eq_left h, min_eq_right h, abs_of_nonpos (by omega)]; omega

/-- C65 fails for short signals: one sample and a window of 3 give three entries. -/
theorem C65_counterexample (v rate : ℝ) (rows : ℕ → List ℝ) (hrows : (rows 0).length = 3) :
    ∃ out, savitzkyGolay [v] 3 1 0 rate rows = .ok out ∧ out.length = 3 := by
  obtain ⟨out, h1, h2⟩ := C65_short [v] 1 1 (by norm_num) 0 (by norm_num) rate rows hrows (by simp) (by simp)
  refine ⟨out, h1, ?_⟩
  norm_num at h2
  exact_mod_cast h2

/-- C65: windows that are even or too small for the order raise `TypeError`. -/
theorem C65_bad_window (y : List ℝ) (window order : Int) (deriv : ℕ) (rate : ℝ) (rows : ℕ → List ℝ)
    (h : window.natAbs % 2 = 0 ∨ window.natAbs < order.natAbs + 2) :
    savitzkyGolay y window order deriv rate rows = .error .typeError := by
  unfold savitzkyGolay
  simp only
  split_ifs <;> first | rfl | omega

/-- C65: derivatives beyond the order and empty signals raise `IndexError`. -/
theorem C65_bad_input (y : List ℝ) (window order : Int) (hw : window.natAbs % 2 = 1) (ho : order.natAbs + 2 ≤ window.natAbs)
    (deriv : ℕ) (rate : ℝ) (rows : ℕ → List ℝ) (h : order.natAbs < deriv ∨ y = []) :
    savitzkyGolay y window order deriv rate rows = .error .indexError := by
  unfold savitzkyGolay
  simp only
  rw [if_neg (by omega), if_neg (by omega)]
  split_ifs with hd
  · rfl
  · rcases h with h | rfl
    · omega
    · rfl

/-! ## A concrete case -/

/-- The pseudo-inverse for window 3 and order 1. -/
noncomputable def pinv31 : Matrix (Fin 2) (Fin 3) ℝ := !![1 / 3, 1 / 3, 1 / 3; -1 / 2, 0, 1 / 2]

theorem windowPowers_11 : windowPowers 1 1 = !![1, -1; 1, 0; 1, 1] := by
  ext i j
  fin_cases i <;> fin_cases j <;> norm_num [windowPowers]

theorem pinv31_spec : IsPseudoInverse (windowPowers 1 1) pinv31 := by
  rw [windowPowers_11]
  constructor <;> · ext i j; fin_cases i <;> fin_cases j <;> norm_num [pinv31, Matrix.mul_apply, Fin.sum_univ_succ]

/-- The slope filter on the line `2 t + 5` gives 2 away from the ends. -/
example : ∃ out, savitzkyGolay (samples (C 2 * X + C 5) 7) 3 1 1 1 (fun d => if h : d < 2 then List.ofFn (pinv31 ⟨d, h⟩) else [])
    = .ok out ∧ out.length = 7 ∧ out[4]? = some 2 := by
  obtain ⟨out, h1, h2⟩ := C65_length_partial (samples (C 2 * X + C 5) 7) 1 1 (by norm_num) 1 (by norm_num) 1
    (fun d => if h : d < 2 then List.ofFn (pinv31 ⟨d, h⟩) else []) (by simp) (by simp [samples])
  refine ⟨out, h1, by rw [h2]; simp [samples], ?_⟩
  rw [C65_polynomial 1 1 (by norm_num) 1 (by norm_num) 1 pinv31 pinv31_spec _ (by simp) (C 2 * X + C 5)
    (by compute_degree) 7 out h1 4 (by norm_num) (by norm_num)]
  simp

/-- The line `2 t + 5` is returned unchanged at its ends as well ... -/
example : ∃ out, savitzkyGolay (samples (C 2 * X + C 5) 7) 3 1 0 1 (fun d => if h : d < 2 then List.ofFn (pinv31 ⟨d, h⟩) else [])
    = .ok out ∧ out[0]? = some 5 ∧ out[6]? = some 17 := by
  obtain ⟨out, h1, h2⟩ := C65_length_partial (samples (C 2 * X + C 5) 7) 1 1 (by norm_num) 0 (by norm_num) 1
    (fun d => if h : d < 2 then List.ofFn (pinv31 ⟨d, h⟩) else []) (by simp) (by simp [samples])
  have := C65_rising_line 1 1 le_rfl (by norm_num) 0 (by norm_num) 1 pinv31 pinv31_spec _ (by simp) 2 5 (by norm_num) 7
    (by norm_num) out h1
  refine ⟨out, h1, ?_, ?_⟩
  · rw [this 0 (by norm_num)]; simp
  · rw [this 6 (by norm_num)]; norm_num

/-- ... but a falling line is not: the padding rises again. -/
theorem C65_falling_line : ∃ out, savitzkyGolay (samples (C (-1) * X) 3) 3 1 0 1
    (fun d => if h : d < 2 then List.ofFn (pinv31 ⟨d, h⟩) else []) = .ok out ∧ out = [-(2 / 3), -1, -(4 / 3)] := by
  have hs : samples (C (-1) * X) 3 = [0, -1, -2] := by
    simp [samples, List.range_succ]
  refine ⟨_, ?_, rfl⟩
  rw [hs]
  rw [show (3 : Int) = ((2 * 1 + 1 : ℕ) : Int) by norm_num, show (1 : Int) = ((1 : ℕ) : Int) by norm_num,
    savgol_call [0, -1, -2] 1 1 (by norm_num) 0 (by norm_num) 1]
  have hm : (((fun d => if h : d < 2 then List.ofFn (pinv31 ⟨d, h⟩) else []) 0 : List ℝ).map
      fun c => c * 1 ^ 0 * (Nat.factorial 0 : ℝ)).reverse = [1 / 3, 1 / 3, 1 / 3] := by
    norm_num [pinv31, List.ofFn_succ]
  have hp : savgolPad ([0, -1, -2] : List ℝ) 1 = .ok [-1, 0, -1, -2, -1] := by
    norm_num [savgolPad, lastBut]
  rw [hm, hp]
  have c2 : convAt ([1 / 3, 1 / 3, 1 / 3] : List ℝ) [-1, 0, -1, -2, -1] 2 = -(2 / 3) := by
    norm_num [convAt_real, Finset.sum_range_succ]
  have c3 : convAt ([1 / 3, 1 / 3, 1 / 3] : List ℝ) [-1, 0, -1, -2, -1] 3 = -1 := by
    norm_num [convAt_real, Finset.sum_range_succ]
  have c4 : convAt ([1 / 3, 1 / 3, 1 / 3] : List ℝ) [-1, 0, -1, -2, -1] 4 = -(4 / 3) := by
    norm_num [convAt_real, Finset.sum_range_succ]
  show Except.ok [convAt ([1 / 3, 1 / 3, 1 / 3] : List ℝ) [-1, 0, -1, -2, -1] 2, convAt _ _ 3, convAt _ _ 4] = _
  rw [c2, c3, c4]

end Optics
