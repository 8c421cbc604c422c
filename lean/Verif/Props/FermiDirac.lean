import Verif.Model.General
import Verif.Lemmas.Vec
import Verif.Props.Bundles

/-!
# C67, C74: `FD_int_num`, `FD_int_approx`
-/

namespace Optics

/-! ## The loop of `FD_int_num` -/

/-- The loop after its first round: it stops at the first `N` with a change below the tolerance, else at the last. -/
theorem fdLoop_spec (eta j tol : ℝ) : ∀ (m n : ℕ) (old : FdVars), 0 < m → old.y = fdSum eta j (n - 1) →
    ∃ N, n ≤ N ∧ N < n + m ∧
      fdLoop eta j tol m n (some old) = some ⟨fdSum eta j N, N, some |fdSum eta j N - fdSum eta j (N - 1)|⟩ ∧
      (∀ k, n ≤ k → k < N → ¬ |fdSum eta j k - fdSum eta j (k - 1)| < tol) ∧
      (|fdSum eta j N - fdSum eta j (N - 1)| < tol ∨ N + 1 = n + m)
  | m + 1, n, old, _, ho => by
    unfold fdLoop
    simp only [ho]
    split_ifs with h
    · exact ⟨n, le_refl _, by omega, rfl, fun k h1 h2 => absurd h2 (by omega), .inl h⟩
    · cases m with
      | zero => exact ⟨n, le_refl _, by omega, rfl, fun k h1 h2 => absurd h2 (by omega), .inr rfl⟩
      | succ m =>
        obtain ⟨N, h1, h2, h3, h4, h5⟩ := fdLoop_spec eta j tol (m + 1) (n + 1)
          ⟨fdSum eta j n, n, some |fdSum eta j n - fdSum eta j (n - 1)|⟩ (by omega) (by simp)
        refine ⟨N, by omega, by omega, h3, ?_, ?_⟩
        · intro k hk1 hk2
          rcases Nat.eq_or_lt_of_le hk1 with rfl | hk
          · exact h
          · exact h4 k hk hk2
        · rcases h5 with h5 | h5
          · exact .inl h5
          · exact .inr (by omega)

/-- The whole loop. -/
theorem fdLoop_start (eta j tol : ℝ) (m : ℕ) (hm : 2 ≤ m) : ∃ N, 2 ≤ N ∧ N ≤ m ∧
    fdLoop eta j tol m 1 none = some ⟨fdSum eta j N, N, some |fdSum eta j N - fdSum eta j (N - 1)|⟩ ∧
    (∀ k, 2 ≤ k → k < N → ¬ |fdSum eta j k - fdSum eta j (k - 1)| < tol) ∧
    (|fdSum eta j N - fdSum eta j (N - 1)| < tol ∨ N = m) := by
  obtain ⟨m, rfl⟩ : ∃ k, m = k + 1 := ⟨m - 1, by omega⟩
  unfold fdLoop
  obtain ⟨N, h1, h2, h3, h4, h5⟩ := fdLoop_spec eta j tol m 2 ⟨fdSum eta j 1, 1, none⟩ (by omega) (by simp)
  exact ⟨N, h1, by omega, h3, h4, h5.imp_right (by omega)⟩

theorem trapz_cons (y0 y1 x0 x1 : ℝ) (ys xs : List ℝ) : trapz (y0 :: y1 :: ys) (x0 :: x1 :: xs) =
    (x1 - x0) * (y1 + y0) / 2 + trapz (y1 :: ys) (x1 :: xs) := by
  conv_lhs => unfold trapz

/-- Swapping the arguments of `np.trapz` integrates by parts. -/
theorem trapz_swap (f : ℝ → ℝ) : ∀ (a : ℝ) (l : List ℝ), trapz (a :: l) ((a :: l).map f) =
    (a :: l).getLast (List.cons_ne_nil _ _) * f ((a :: l).getLast (List.cons_ne_nil _ _)) - a * f a
      - trapz ((a :: l).map f) (a :: l)
  | a, [] => by simp [trapz]
  | a, b :: l => by
    have ih := trapz_swap f b l
    simp only [List.map_cons] at ih ⊢
    rw [trapz_cons, trapz_cons, ih, List.getLast_cons (List.cons_ne_nil _ _)]
    ring

/-- The integrand of `FD_int_num`, in the variable `t`. -/
noncomputable def fdIntegrand (eta j t : ℝ) : ℝ :=
  Real.exp (t - Real.exp (-t)) * (1 + Real.exp (-t)) * Real.exp (t - Real.exp (-t)) ^ j
    / (1 + Real.exp (Real.exp (t - Real.exp (-t)) - eta))

/-- The trapezoidal rule with `N` intervals. -/
noncomputable def trapezoid (g : ℝ → ℝ) (a b : ℝ) (N : ℕ) : ℝ :=
  ∑ i ∈ Finset.range N, (b - a) / N * (g (a + i * ((b - a) / N)) + g (a + (i + 1) * ((b - a) / N))) / 2

theorem linspace_range' (a b : ℝ) (N : ℕ) (hN : 0 < N) :
    linspace a b (N + 1) = (List.range' 0 (N + 1)).map fun i : ℕ => a + i * ((b - a) / N) := by
  unfold linspace
  rw [List.range_eq_range']
  refine List.map_congr_left fun i _ => ?_
  have hN' : (N : ℝ) ≠ 0 := Nat.cast_ne_zero.mpr hN.ne'
  simp only [real_ofNat, Nat.add_sub_cancel]
  split_ifs with h
  · have : (i : ℝ) = N := by exact_mod_cast (Nat.succ.inj h)
    rw [this]; field_simp; ring
  · ring

theorem trapz_range' (g t : ℕ → ℝ) : ∀ k s : ℕ, trapz ((List.range' s (k + 1)).map g) ((List.range' s (k + 1)).map t) =
    ∑ i ∈ Finset.range k, (t (s + i + 1) - t (s + i)) * (g (s + i + 1) + g (s + i)) / 2
  | 0, s => by simp [List.range', trapz]
  | k + 1, s => by
    have ih := trapz_range' g t k (s + 1)
    rw [List.range'_succ, List.range'_succ] at *
    simp only [List.map_cons] at *
    rw [trapz_cons, ih, Finset.sum_range_succ']
    rw [add_comm]
    congr 1
    refine Finset.sum_congr rfl fun i _ => ?_
    rw [show s + 1 + i + 1 = s + (i + 1) + 1 by omega, show s + 1 + i = s + (i + 1) by omega]

theorem trapz_linspace (g : ℝ → ℝ) (a b : ℝ) (N : ℕ) (hN : 0 < N) :
    trapz ((linspace a b (N + 1)).map g) (linspace a b (N + 1)) = trapezoid g a b N := by
  rw [linspace_range' a b N hN, List.map_map, trapz_range']
  refine Finset.sum_congr rfl fun i _ => ?_
  simp only [Function.comp]
  push_cast
  rw [zero_add]
  ring_nf

/-- `FD_int_num` calls `np.trapz` with its arguments exchanged: what the loop computes is minus the trapezoidal sum, plus
the boundary term of the integration by parts. -/
theorem fdSum_by_parts (eta j : ℝ) (N : ℕ) (hN : 0 < N) : fdSum eta j N =
    5 * fdIntegrand eta j 5 + 4.5 * fdIntegrand eta j (-4.5) - trapezoid (fdIntegrand eta j) (-4.5) 5 N := by
  have hf : fdSum eta j N = trapz (linspace (-4.5 : ℝ) 5 (N + 1)) ((linspace (-4.5 : ℝ) 5 (N + 1)).map (fdIntegrand eta j)) := rfl
  rw [hf, ← trapz_linspace _ _ _ _ hN]
  have hN' : (N : ℝ) ≠ 0 := Nat.cast_ne_zero.mpr hN.ne'
  have hlast : ∀ h, (linspace (-4.5 : ℝ) 5 (N + 1)).getLast h = 5 := by
    intro h
    rw [List.getLast_eq_getElem]
    simp [linspace]
  have hhead : ∃ l, linspace (-4.5 : ℝ) 5 (N + 1) = -4.5 :: l := by
    rw [linspace_range' _ _ _ hN, List.range'_succ, List.map_cons]
    exact ⟨_, by rw [Nat.cast_zero, zero_mul, add_zero]⟩
  obtain ⟨l, hl⟩ := hhead
  rw [hl] at hlast ⊢
  rw [trapz_swap, hlast]
  ring

/-! ## C67 -/

/-- C67: which calls of `FD_int_num` return a triple: all for `eta < -20`; the three half-integer orders for
`eta > 20`; for `eta` in between those with at least two iterations, on numpy versions that accept the float count of
line 79. What is missing: the other calls raise (`C67_counterexample`, `C67_new_numpy`). -/
theorem C67_returns_partial (floatCount : Bool) (eta j tol : ℝ) (Nmax : ℤ) (fType : String) :
    (∃ r, fdIntNum floatCount eta j tol Nmax fType = .ok r) ↔
      (eta < -20 ∨ (20 < eta ∧ (j = -1 / 2 ∨ j = 1 / 2 ∨ j = 3 / 2)) ∨
        (-20 ≤ eta ∧ eta ≤ 20 ∧ 2 ≤ Nmax ∧ floatCount = true)) := by
  unfold fdIntNum
  by_cases h1 : eta < -20
  · simp [h1, bind, Except.bind, pure, Except.pure]
  rw [if_neg h1]
  by_cases h2 : eta > 20
  · rw [if_pos h2]
    by_cases j1 : j = -1 / 2
    · simp [j1, h2, bind, Except.bind, pure, Except.pure]
    by_cases j2 : j = 1 / 2
    · rw [if_neg j1, if_pos j2]
      simp [j2, h2, bind, Except.bind, pure, Except.pure]
    by_cases j3 : j = 3 / 2
    · rw [if_neg j1, if_neg j2, if_pos j3]
      simp [j3, h2, bind, Except.bind, pure, Except.pure]
    rw [if_neg j1, if_neg j2, if_neg j3]
    simp only [bind, Except.bind, j1, j2, j3, h1, not_le.mpr h2, or_self, and_false, false_and, reduceCtorEq, exists_false]
  rw [if_neg h2]
  have h1' := not_lt.mp h1
  have h2' := not_lt.mp h2
  have hiff : (eta < -20 ∨ (20 < eta ∧ (j = -1 / 2 ∨ j = 1 / 2 ∨ j = 3 / 2)) ∨
      (-20 ≤ eta ∧ eta ≤ 20 ∧ 2 ≤ Nmax ∧ floatCount = true)) ↔ (2 ≤ Nmax ∧ floatCount = true) := by
    constructor
    · rintro (h | ⟨h, -⟩ | ⟨-, -, h⟩)
      · exact absurd h h1
      · exact absurd h h2
      · exact h
    · exact fun h => .inr (.inr ⟨h1', h2', h⟩)
  rw [hiff]
  by_cases c1 : Nmax < 0
  · rw [if_pos c1]
    simp only [bind, Except.bind, reduceCtorEq, exists_false, false_iff]
    omega
  rw [if_neg c1]
  by_cases c2 : Nmax = 0
  · rw [if_pos c2]
    simp only [bind, Except.bind, reduceCtorEq, exists_false, false_iff]
    omega
  rw [if_neg c2]
  cases floatCount with
  | false => simp [bind, Except.bind]
  | true =>
    by_cases c3 : Nmax = 1
    · subst c3
      simp [bind, Except.bind, fdLoop]
    · obtain ⟨N, -, -, h, -, -⟩ := fdLoop_start eta j tol Nmax.toNat (by omega)
      simp only [Bool.not_true, Bool.false_eq_true, if_false, h, bind, Except.bind, pure, Except.pure]
      exact ⟨fun _ => ⟨by omega, trivial⟩, fun _ => ⟨_, rfl⟩⟩

/-- C67: what is returned for moderate `eta`: the trapezoidal approximation of the Fermi-Dirac integral over
`Γ(j + 1)` (up to the integrand at the ends), for the first number of intervals at which it changes by less than the
tolerance, or the last. -/
theorem C67_value (eta j tol : ℝ) (h1 : -20 ≤ eta) (h2 : eta ≤ 20) (Nmax : ℕ) (hN : 2 ≤ Nmax) :
    ∃ N, 2 ≤ N ∧ N ≤ Nmax ∧
      fdIntNum true eta j tol Nmax "script" = .ok
        ((trapezoid (fdIntegrand eta j) (-4.5) 5 N - 5 * fdIntegrand eta j 5 - 4.5 * fdIntegrand eta j (-4.5)) / Real.Gamma (j + 1),
          some N, some |trapezoid (fdIntegrand eta j) (-4.5) 5 N - trapezoid (fdIntegrand eta j) (-4.5) 5 (N - 1)|) ∧
      (∀ k, 2 ≤ k → k < N →
        tol ≤ |trapezoid (fdIntegrand eta j) (-4.5) 5 k - trapezoid (fdIntegrand eta j) (-4.5) 5 (k - 1)|) ∧
      (|trapezoid (fdIntegrand eta j) (-4.5) 5 N - trapezoid (fdIntegrand eta j) (-4.5) 5 (N - 1)| < tol ∨ N = Nmax) := by
  have hd : ∀ k, 2 ≤ k → |fdSum eta j k - fdSum eta j (k - 1)|
      = |trapezoid (fdIntegrand eta j) (-4.5) 5 k - trapezoid (fdIntegrand eta j) (-4.5) 5 (k - 1)| := by
    intro k hk
    rw [fdSum_by_parts eta j k (by omega), fdSum_by_parts eta j (k - 1) (by omega), ← abs_neg]
    congr 1; ring
  obtain ⟨N, a1, a2, h, a3, a4⟩ := fdLoop_start eta j tol Nmax hN
  refine ⟨N, a1, a2, ?_, fun k k1 k2 => by rw [← hd k k1]; exact not_lt.mp (a3 k k1 k2), by rw [← hd N a1]; exact a4⟩
  unfold fdIntNum
  rw [if_neg (not_lt.mpr h1), if_neg (not_lt.mpr h2), if_neg (by omega), if_neg (by omega)]
  simp only [Bool.not_true, Bool.false_eq_true, if_false, Int.toNat_natCast, h, bind, Except.bind, pure, Except.pure]
  rw [if_neg (by decide), hd N a1, fdSum_by_parts eta j N (by omega)]
  congr 4
  ring

/-- C67 fails: `eta = 21`, `j = 0` leaves `y` unbound. -/
theorem C67_counterexample (floatCount : Bool) (tol : ℝ) (Nmax : ℤ) (fType : String) :
    fdIntNum floatCount 21 0 tol Nmax fType = .error .unboundLocalError := by
  unfold fdIntNum
  rw [if_neg (by norm_num), if_pos (by norm_num), if_neg (by norm_num), if_neg (by norm_num), if_neg (by norm_num)]
  rfl

/-- C67 fails: numpy from 1.18 on rejects the float count for every `eta` of moderate size. -/
theorem C67_new_numpy (eta j tol : ℝ) (h1 : -20 ≤ eta) (h2 : eta ≤ 20) (Nmax : ℕ) (hN : 1 ≤ Nmax) (fType : String) :
    fdIntNum false eta j tol Nmax fType = .error .typeError := by
  unfold fdIntNum
  rw [if_neg (not_lt.mpr h1), if_neg (not_lt.mpr h2), if_neg (by omega), if_neg (by omega)]
  rfl

/-! ## C74 -/

/-- C74: only the order 1/2 is computed. -/
theorem C74_order (eta j : ℝ) : fdIntApprox eta j = none ↔ j ≠ 1 / 2 := by
  unfold fdIntApprox
  split_ifs with h
  · exact ⟨fun h' => absurd h' (by simp), fun h' => absurd h h'⟩
  · exact ⟨fun _ => h, fun _ => rfl⟩

theorem root_pow_mono (a b : ℝ) (ha : 1 ≤ a) (hab : a ≤ b) : 1 ≤ a ^ (1.5 : ℝ) ∧ a ^ (1.5 : ℝ) ≤ b ^ (1.5 : ℝ) :=
  ⟨Real.one_le_rpow ha (by norm_num), Real.rpow_le_rpow (by linarith) hab (by norm_num)⟩

/-- An alternating sum of decreasing terms lies between zero and its first term. -/
theorem series_bounds (z a b c d e f : ℝ) (hz : 0 < z) (hz1 : z < 1) (ha : 1 ≤ a) (hab : a ≤ b) (hbc : b ≤ c) (hcd : c ≤ d)
    (hde : d ≤ e) (hef : e ≤ f) : 0 < 1 - z / a + z ^ 2 / b - z ^ 3 / c + z ^ 4 / d - z ^ 5 / e + z ^ 6 / f ∧
      1 - z / a + z ^ 2 / b - z ^ 3 / c + z ^ 4 / d - z ^ 5 / e + z ^ 6 / f ≤ 1 := by
  have step : ∀ (k : ℕ) (p q : ℝ), 1 ≤ p → p ≤ q → z ^ (k + 1) / q ≤ z ^ k / p := by
    intro k p q hp hpq
    refine div_le_div₀ (by positivity) ?_ (by linarith) hpq
    rw [pow_succ]
    exact mul_le_of_le_one_right (by positivity) hz1.le
  have h1 : z / a < 1 := by rw [div_lt_one (by linarith)]; linarith
  have h2 := step 1 a b ha hab
  have h3 := step 2 b c (by linarith) hbc
  have h4 := step 3 c d (by linarith) hcd
  have h5 := step 4 d e (by linarith) hde
  have h6 := step 5 e f (by linarith) hef
  have h7 : 0 < z ^ 6 / f := div_pos (by positivity) (by linarith)
  rw [pow_one] at h2
  constructor <;> linarith

/-- C74: the value is positive for every `eta`. -/
theorem C74_positive (eta : ℝ) : ∃ y, fdIntApprox eta (1 / 2) = some y ∧ 0 < y := by
  unfold fdIntApprox
  rw [if_pos rfl]
  refine ⟨_, rfl, ?_⟩
  split_ifs with c1 c2 c3 c4 c5
  · have hz : Real.exp eta < 1 := by rw [Real.exp_lt_one_iff]; norm_num at c1 ⊢; linarith
    have := (series_bounds (Real.exp eta) _ _ _ _ _ _ (Real.exp_pos _) hz (root_pow_mono 2 3 (by norm_num) (by norm_num)).1
      (root_pow_mono 2 3 (by norm_num) (by norm_num)).2 (root_pow_mono 3 4 (by norm_num) (by norm_num)).2
      (root_pow_mono 4 5 (by norm_num) (by norm_num)).2 (root_pow_mono 5 6 (by norm_num) (by norm_num)).2
      (root_pow_mono 6 7 (by norm_num) (by norm_num)).2).1
    simp only [← Real.exp_nat_mul] at this
    have hp := Real.pi_pos
    refine mul_pos (by positivity) ?_
    exact_mod_cast this
  · norm_num at c1
    nlinarith [sq_nonneg (eta + 2.2), sq_nonneg eta, mul_nonneg (sq_nonneg eta) (by linarith : 0 ≤ eta + 2),
      mul_nonneg (mul_nonneg (sq_nonneg eta) (by linarith : 0 ≤ eta + 2)) (by linarith : 0 ≤ -eta),
      mul_nonneg (sq_nonneg (eta ^ 2)) (by linarith : 0 ≤ -eta)]
  · have h0 : 0 < eta := not_le.mp c2
    have h3 : eta ^ 4 ≤ 3 * eta ^ 3 := by
      norm_num at c3
      nlinarith [pow_pos h0 3]
    have := pow_pos h0 2
    have := pow_pos h0 3
    have := pow_pos h0 5
    linarith
  · have h0 : 0 < eta := not_le.mp c2
    norm_num at c4
    have h3 : eta ^ 3 ≤ 10 * eta ^ 2 := by nlinarith [pow_pos h0 2]
    have h5 : eta ^ 5 ≤ 10 * eta ^ 4 := by nlinarith [pow_pos h0 4]
    have := pow_pos h0 2
    have := pow_pos h0 4
    linarith
  · have h0 : 0 < eta := not_le.mp c2
    have := Real.rpow_pos_of_pos h0 (3 / 2)
    positivity
  · have h0 : 0 < eta := not_le.mp c2
    have := Real.rpow_pos_of_pos h0 (3 / 2)
    positivity

/-- C74: at most the nondegenerate limit. -/
theorem C74_nondegenerate (eta : ℝ) (h : eta ≤ -2) : ∃ y, fdIntApprox eta (1 / 2) = some y ∧
    y ≤ Real.sqrt Real.pi / 2 * Real.exp eta := by
  unfold fdIntApprox
  rw [if_pos rfl]
  refine ⟨_, rfl, ?_⟩
  rw [if_pos (by norm_num; exact h)]
  have hz : Real.exp eta < 1 := by rw [Real.exp_lt_one_iff]; linarith
  have := (series_bounds (Real.exp eta) _ _ _ _ _ _ (Real.exp_pos _) hz (root_pow_mono 2 3 (by norm_num) (by norm_num)).1
    (root_pow_mono 2 3 (by norm_num) (by norm_num)).2 (root_pow_mono 3 4 (by norm_num) (by norm_num)).2
    (root_pow_mono 4 5 (by norm_num) (by norm_num)).2 (root_pow_mono 5 6 (by norm_num) (by norm_num)).2
    (root_pow_mono 6 7 (by norm_num) (by norm_num)).2).2
  simp only [← Real.exp_nat_mul] at this
  have hp := Real.pi_pos
  refine mul_le_of_le_one_right (by positivity) ?_
  exact_mod_cast this

/-- C74: at least the degenerate limit. -/
theorem C74_degenerate (eta : ℝ) (h : 10 < eta) : ∃ y, fdIntApprox eta (1 / 2) = some y ∧
    2 / 3 * eta ^ (3 / 2 : ℝ) ≤ y := by
  unfold fdIntApprox
  rw [if_pos rfl]
  refine ⟨_, rfl, ?_⟩
  have h0 : 0 < eta := by linarith
  rw [if_neg (by norm_num; linarith), if_neg (by linarith), if_neg (by norm_num; linarith), if_neg (by norm_num; linarith)]
  split_ifs
  · have := Real.rpow_pos_of_pos h0 (3 / 2)
    refine le_mul_of_one_le_right (by positivity) ?_
    have : 0 ≤ 1.2337005 / eta ^ 2 + 1.0654119 / eta ^ 4 + 9.7015185 / eta ^ 6 + 242.71502 / eta ^ 8 + 12313.691 / eta ^ 10 := by
      positivity
    linarith
  · exact le_refl _

/-- C74: no jump at `eta = 0`. -/
theorem C74_continuous_at_zero : ContinuousAt (fun eta => (fdIntApprox eta (1 / 2)).getD 0) 0 := by
  have e : (fun eta => (fdIntApprox eta (1 / 2)).getD 0) =ᶠ[nhds 0] fun eta : ℝ => if eta ≤ 0 then
        0.678091 + 0.53619667 * eta + 0.16909748 * eta ^ 2 + 0.018780823 * eta ^ 3 - 0.0023575446 * eta ^ 4
          - 0.000639610797 * eta ^ 5
      else 0.678091 + 0.53638000 * eta + 0.16682350 * eta ^ 2 + 0.020606700 * eta ^ 3 - 0.0060149100 * eta ^ 4
          + 0.000490398 * eta ^ 5 := by
    have : Set.Ioo (-1 : ℝ) 1 ∈ nhds (0 : ℝ) := Ioo_mem_nhds (by norm_num) (by norm_num)
    filter_upwards [this] with eta h
    unfold fdIntApprox
    rw [if_pos rfl, if_neg (by have := h.1; norm_num; linarith), if_pos (show eta ≤ 3.0 by have := h.2; norm_num; linarith)]
    rfl
  refine ContinuousAt.congr ?_ e.symm
  refine Continuous.continuousAt (Continuous.if_le ?_ ?_ continuous_id continuous_const ?_)
  · fun_prop
  · fun_prop
  · rintro x rfl; norm_num

end Optics
