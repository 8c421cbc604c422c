import Verif.Model.Rounded

/-! # Doubles satisfy the laws of `Rounding` -/

namespace Optics

theorem roundEven_int (k : ℤ) : roundEven k = k := by
  unfold roundEven; norm_num

theorem roundEven_err (q : ℝ) : |(roundEven q : ℝ) - q| ≤ 1 / 2 := by
  have h1 := Int.floor_le q
  have h2 := Int.lt_floor_add_one q
  unfold roundEven
  rw [abs_le]
  split_ifs <;> push_cast <;> constructor <;> linarith

theorem roundEven_mono {p q : ℝ} (h : p ≤ q) : roundEven p ≤ roundEven q := by
  have h1 := Int.floor_le q
  have h2 := Int.lt_floor_add_one q
  have h3 := Int.floor_le p
  have h4 := Int.lt_floor_add_one p
  have hf : ⌊p⌋ ≤ ⌊q⌋ := Int.floor_mono h
  rcases hf.eq_or_lt with e | hlt
  · unfold roundEven
    rw [e] at *
    split_ifs <;> first | omega | (exfalso; linarith)
  · have hp : roundEven p ≤ ⌊p⌋ + 1 := by unfold roundEven; split_ifs <;> omega
    have hq : ⌊q⌋ ≤ roundEven q := by unfold roundEven; split_ifs <;> omega
    omega

theorem spacing64_pos (x : ℝ) : 0 < spacing64 x := by unfold spacing64; positivity

theorem nearest64_err (x : ℝ) : |nearest64 x - x| ≤ spacing64 x / 2 := by
  have hs := spacing64_pos x
  have h := roundEven_err (x / spacing64 x)
  have e : nearest64 x - x = ((roundEven (x / spacing64 x) : ℝ) - x / spacing64 x) * spacing64 x := by
    unfold nearest64; field_simp
  rw [e, abs_mul, abs_of_pos hs]
  nlinarith

/-- A number between two multiples of both spacings separates the rounded values. -/
theorem nearest64_le_of_multiple {x t : ℝ} (h : x ≤ t) {k : ℤ} (ht : t = k * spacing64 x) : nearest64 x ≤ t := by
  have hs := spacing64_pos x
  have : roundEven (x / spacing64 x) ≤ k := by
    rw [← roundEven_int k]
    apply roundEven_mono
    rw [div_le_iff₀ hs, ← ht]; exact h
  unfold nearest64
  calc (roundEven (x / spacing64 x) : ℝ) * spacing64 x ≤ k * spacing64 x := by
        apply mul_le_mul_of_nonneg_right _ hs.le; exact_mod_cast this
    _ = t := ht.symm

theorem le_nearest64_of_multiple {x t : ℝ} (h : t ≤ x) {k : ℤ} (ht : t = k * spacing64 x) : t ≤ nearest64 x := by
  have hs := spacing64_pos x
  have : k ≤ roundEven (x / spacing64 x) := by
    rw [← roundEven_int k]
    apply roundEven_mono
    rw [le_div_iff₀ hs, ← ht]; exact h
  unfold nearest64
  calc t = k * spacing64 x := ht
    _ ≤ (roundEven (x / spacing64 x) : ℝ) * spacing64 x := by
        apply mul_le_mul_of_nonneg_right _ hs.le; exact_mod_cast this

/-- A power of two at least the spacing is a multiple of the spacing. -/
theorem zpow_multiple {a b : ℤ} (h : a ≤ b) : ∃ k : ℤ, (2 : ℝ) ^ b = k * 2 ^ a := by
  refine ⟨2 ^ (b - a).toNat, ?_⟩
  push_cast
  rw [← zpow_natCast, Int.toNat_of_nonneg (by omega), ← zpow_add₀ (by norm_num)]
  congr 1; omega

theorem nearest64_fixed {x : ℝ} {k : ℤ} (h : x = k * spacing64 x) : nearest64 x = x :=
  le_antisymm (nearest64_le_of_multiple le_rfl h) (le_nearest64_of_multiple le_rfl h)

theorem nearest64_nonneg {x : ℝ} (h : 0 ≤ x) : 0 ≤ nearest64 x :=
  le_nearest64_of_multiple (k := 0) h (by simp)

theorem nearest64_nonpos {x : ℝ} (h : x ≤ 0) : nearest64 x ≤ 0 :=
  nearest64_le_of_multiple (k := 0) h (by simp)

theorem nearest64_same {x y : ℝ} (h : x ≤ y) (e : spacing64 x = spacing64 y) : nearest64 x ≤ nearest64 y := by
  unfold nearest64
  rw [e]
  apply mul_le_mul_of_nonneg_right _ (spacing64_pos y).le
  exact_mod_cast roundEven_mono (div_le_div_of_nonneg_right h (spacing64_pos y).le)

/-- Numbers of different spacing are separated by the power of two at which the larger binade begins. -/
theorem spacing64_jump {x y : ℝ} (hx : 0 < x) (h : x ≤ y) (e : spacing64 x ≠ spacing64 y) :
    ∃ (b : ℤ), x ≤ (2 : ℝ) ^ b ∧ (2 : ℝ) ^ b ≤ y ∧ (∃ k : ℤ, (2 : ℝ) ^ b = k * spacing64 x) ∧
      (∃ k : ℤ, (2 : ℝ) ^ b = k * spacing64 y) := by
  have hy : 0 < y := by linarith
  have hl : Int.log 2 x ≤ Int.log 2 y := Int.log_mono_right hx h
  have hne : max (Int.log 2 x) (-1022) ≠ max (Int.log 2 y) (-1022) := by
    intro h'; apply e; unfold spacing64; rw [abs_of_pos hx, abs_of_pos hy, h']
  have hlt : Int.log 2 x < Int.log 2 y := by
    rcases hl.eq_or_lt with h' | h'
    · rw [h'] at hne; exact absurd rfl hne
    · exact h'
  have hlo : (-1022 : ℤ) ≤ Int.log 2 y := by
    by_contra hc
    push_neg at hc
    apply hne
    rw [max_eq_right (by omega), max_eq_right (by omega)]
  refine ⟨Int.log 2 y, ?_, ?_, ?_, ?_⟩
  · have := Int.lt_zpow_succ_log_self (b := 2) (by norm_num) x
    refine this.le.trans ?_
    push_cast
    exact zpow_le_zpow_right₀ (by norm_num) (by omega)
  · exact_mod_cast Int.zpow_log_le_self (b := 2) (by norm_num) hy
  · unfold spacing64; rw [abs_of_pos hx]; exact zpow_multiple (by have := max_le hlt.le hlo; omega)
  · unfold spacing64; rw [abs_of_pos hy, max_eq_left hlo]; exact zpow_multiple (by omega)

theorem spacing64_neg (x : ℝ) : spacing64 (-x) = spacing64 x := by unfold spacing64; rw [abs_neg]

theorem nearest64_mono {x y : ℝ} (h : x ≤ y) : nearest64 x ≤ nearest64 y := by
  by_cases e : spacing64 x = spacing64 y
  · exact nearest64_same h e
  rcases le_or_gt 0 y with hy | hy
  · rcases le_or_gt x 0 with hx | hx
    · exact (nearest64_nonpos hx).trans (nearest64_nonneg hy)
    · obtain ⟨b, h1, h2, ⟨k, hk⟩, ⟨l, hl⟩⟩ := spacing64_jump hx h e
      exact (nearest64_le_of_multiple h1 hk).trans (le_nearest64_of_multiple h2 hl)
  · obtain ⟨b, h1, h2, ⟨k, hk⟩, ⟨l, hl⟩⟩ := spacing64_jump (x := -y) (y := -x) (by linarith) (by linarith)
      (by rw [spacing64_neg, spacing64_neg]; exact fun h => e h.symm)
    rw [spacing64_neg] at hk hl
    refine (nearest64_le_of_multiple (t := -(2 : ℝ) ^ b) (k := -l) (by linarith) (by push_cast; linarith)).trans
      (le_nearest64_of_multiple (k := -k) (by linarith) (by push_cast; linarith))

theorem ten300 : (10 : ℝ) ^ 300 ≤ 2 ^ 1000 := by
  rw [show (300 : ℕ) = 3 * 100 from rfl, show (1000 : ℕ) = 10 * 100 from rfl, pow_mul, pow_mul]
  exact pow_le_pow_left₀ (by norm_num) (by norm_num) 100

theorem tiny64 : (2 : ℝ) ^ (-1022 : ℤ) ≤ 1 / 10 ^ 300 := by
  have h : (10 : ℝ) ^ 300 ≤ 2 ^ 1022 := ten300.trans (pow_le_pow_right₀ (by norm_num) (by norm_num))
  rw [zpow_neg, one_div]
  exact inv_anti₀ (by positivity) (by exact_mod_cast h)

theorem spacing64_le {x : ℝ} (hx : x ≠ 0) : spacing64 x ≤ 2 / 2 ^ 53 * (|x| + 1 / 10 ^ 300) := by
  have h0 : 0 < |x| := abs_pos.mpr hx
  unfold spacing64
  rw [zpow_sub₀ (by norm_num)]
  have hb : (2 : ℝ) ^ max (Int.log 2 |x|) (-1022) ≤ |x| + 1 / 10 ^ 300 := by
    rcases max_cases (Int.log 2 |x|) (-1022) with ⟨e, hle⟩ | ⟨e, hle⟩
    · rw [e]
      have h1 := Int.zpow_log_le_self (b := 2) (by norm_num) h0
      push_cast at h1
      have : (0 : ℝ) < 1 / 10 ^ 300 := by positivity
      linarith
    · rw [e]
      have := tiny64
      linarith
  have : (2 : ℝ) ^ (52 : ℤ) = 2 ^ 53 / 2 := by norm_num
  rw [this]
  calc (2 : ℝ) ^ max (Int.log 2 |x|) (-1022) / (2 ^ 53 / 2) = 2 / 2 ^ 53 * 2 ^ max (Int.log 2 |x|) (-1022) := by ring
    _ ≤ _ := by apply mul_le_mul_of_nonneg_left hb (by positivity)

theorem nearest64_zero : nearest64 0 = 0 := nearest64_fixed (k := 0) (by simp)

theorem nearest64_near (x : ℝ) : |nearest64 x - x| ≤ 1 / 2 ^ 53 * (|x| + 1 / 10 ^ 300) := by
  by_cases h : x = 0
  · rw [h, nearest64_zero]; simp
  · have h1 := nearest64_err x
    have h2 := spacing64_le h
    have e : (2 : ℝ) / 2 ^ 53 * (|x| + 1 / 10 ^ 300) = 2 * (1 / 2 ^ 53 * (|x| + 1 / 10 ^ 300)) := by ring
    linarith

theorem rnd64_fin {x : ℝ} (h : |nearest64 x| < 2 ^ 1024) : rnd64 x = .fin (nearest64 x) := by
  rw [abs_lt] at h
  unfold rnd64
  rw [if_neg (not_le.mpr h.2), if_neg (not_le.mpr h.1)]

theorem rnd64_near {x : ℝ} (h : |x| ≤ 10 ^ 300) : rnd64 x = .fin (nearest64 x) := by
  apply rnd64_fin
  have h1 := nearest64_near x
  have h2 : (10 : ℝ) ^ 300 + 10 ^ 300 + 1 < 2 ^ 1024 := by
    have h1 := ten300
    have h2 : (1 : ℝ) ≤ 2 ^ 1000 := one_le_pow₀ (by norm_num)
    have h3 : (2 : ℝ) ^ 1024 = 2 ^ 1000 * 2 ^ 24 := by rw [← pow_add]
    rw [h3]
    clear h3
    generalize (2 : ℝ) ^ 1000 = a at *
    generalize (10 : ℝ) ^ 300 = b at *
    norm_num
    linarith
  have h3 : |nearest64 x| ≤ |nearest64 x - x| + |x| := by
    have := abs_add_le (nearest64 x - x) x; simpa using this
  have h4 : (1 : ℝ) / 10 ^ 300 ≤ 1 := by
    rw [div_le_one (by positivity)]; exact one_le_pow₀ (by norm_num)
  have h5 : (1 : ℝ) / 2 ^ 53 * (|x| + 1 / 10 ^ 300) ≤ 1 * (|x| + 1 / 10 ^ 300) := by
    apply mul_le_mul_of_nonneg_right _ (by positivity)
    norm_num
  generalize (10 : ℝ) ^ 300 = a at *
  generalize (2 : ℝ) ^ 1024 = b at *
  linarith

theorem rnd64_mono {x y : ℝ} (h : x ≤ y) : XR.le (rnd64 x) (rnd64 y) := by
  have hm := nearest64_mono h
  have hb : (0 : ℝ) < 2 ^ 1024 := by positivity
  unfold rnd64
  generalize (2 : ℝ) ^ 1024 = b at *
  split_ifs <;> first
    | exact trivial
    | exact hm
    | (exfalso; linarith)

/-- IEEE 754 doubles. -/
noncomputable def binary64 : Rounding where
  rnd := rnd64
  u := 1 / 2 ^ 53
  u_pos := by positivity
  u_small := by norm_num
  zero := by rw [rnd64_near (by rw [abs_zero]; positivity), nearest64_zero]
  mono _ _ := rnd64_mono
  near x h := ⟨nearest64 x, rnd64_near h, nearest64_near x⟩

/-- Numbers with at most 53 significant bits are doubles. -/
theorem rnd64_exact {x : ℝ} {k : ℤ} (h : x = k * spacing64 x) (hx : |x| < 2 ^ 1024) : rnd64 x = .fin x := by
  rw [rnd64_fin (by rw [nearest64_fixed h]; exact hx), nearest64_fixed h]

end Optics
