import Verif.Lemmas.Resonator64
import Verif.Lemmas.Dyadic64
/-!
Results of rounding to doubles are doubles. Used by `Lemmas/RoundedCylinder.lean`.
-/

namespace Optics

/-- A rounding whose results round to themselves, with a few exact constants and a small range. -/
structure Proper (R : Rounding) : Prop where
  one : R.rnd 1 = .fin 1
  two : R.rnd 2 = .fin 2
  four : R.rnd 4 = .fin 4
  again : ∀ x y, R.rnd x = .fin y → R.rnd y = .fin y
  fine : 1 / 10 ^ 100 ≤ R.u

theorem multiple64 {y : ℝ} {k a : ℤ} (h : y = k * 2 ^ a) (hk : |(k : ℝ)| ≤ 2 ^ 53) (ha : -1074 ≤ a) :
    ∃ j : ℤ, y = j * spacing64 y := by
  by_cases y0 : y = 0
  · exact ⟨0, by rw [y0]; simp⟩
  have ypos : 0 < |y| := abs_pos.mpr y0
  obtain ⟨b, hb⟩ : ∃ b, b = max (Int.log 2 |y|) (-1022) - 52 := ⟨_, rfl⟩
  have hs : spacing64 y = 2 ^ b := by unfold spacing64; rw [hb]
  rw [hs]
  by_cases hba : b ≤ a
  · obtain ⟨m, hm⟩ := zpow_multiple hba
    refine ⟨k * m, ?_⟩
    rw [h, hm]; push_cast; ring
  · have hlog : b = Int.log 2 |y| - 52 := by
      rcases le_total (Int.log 2 |y|) (-1022) with hl | hl
      · rw [max_eq_right hl] at hb; omega
      · rw [max_eq_left hl] at hb; exact hb
    have h1 : (2 : ℝ) ^ (b + 52) ≤ |y| := by
      have := Int.zpow_log_le_self (b := 2) (by norm_num) ypos
      rw [hlog]; simpa using this
    have h2 : |y| ≤ 2 ^ (53 + a) := by
      rw [h, abs_mul, abs_of_pos (by positivity : (0 : ℝ) < 2 ^ a), zpow_add₀ (by norm_num)]
      exact mul_le_mul_of_nonneg_right (by exact_mod_cast hk) (by positivity)
    have h3 : b + 52 ≤ 53 + a := (zpow_le_zpow_iff_right₀ (by norm_num : (1 : ℝ) < 2)).mp (h1.trans h2)
    have hb' : b = a + 1 := by omega
    have h4 : |y| = 2 ^ (53 + a) := le_antisymm h2 (by rw [hb', show a + 1 + 52 = 53 + a by ring] at h1; exact h1)
    have e : (2 : ℝ) ^ (53 + a) = ((2 ^ 52 : ℤ) : ℝ) * 2 ^ b := by
      rw [hb']; push_cast
      rw [show (53 + a : ℤ) = 52 + (a + 1) by ring, zpow_add₀ (by norm_num)]; norm_cast
    rcases abs_choice y with hy | hy
    · exact ⟨2 ^ 52, by rw [← hy, h4, e]⟩
    · refine ⟨-2 ^ 52, ?_⟩
      have : y = -(2 ^ (53 + a)) := by rw [← h4, hy, neg_neg]
      rw [this, e]; push_cast; ring

/-- **Doubles round to themselves.** -/
theorem rnd64_again {x y : ℝ} (h : rnd64 x = .fin y) : rnd64 y = .fin y := by
  have hy : nearest64 x = y ∧ |y| < 2 ^ 1024 := by
    unfold rnd64 at h
    by_cases h1 : 2 ^ 1024 ≤ nearest64 x
    · rw [if_pos h1] at h; cases h
    by_cases h2 : nearest64 x ≤ -2 ^ 1024
    · rw [if_neg h1, if_pos h2] at h; cases h
    rw [if_neg h1, if_neg h2] at h
    have e : nearest64 x = y := by injection h
    rw [← e, abs_lt]
    exact ⟨rfl, not_le.mp h2, not_le.mp h1⟩
  obtain ⟨e, hb⟩ := hy
  obtain ⟨b, hb'⟩ : ∃ b, b = max (Int.log 2 |x|) (-1022) - 52 := ⟨_, rfl⟩
  have hs : spacing64 x = 2 ^ b := by unfold spacing64; rw [hb']
  have hp : (0 : ℝ) < 2 ^ b := by positivity
  have hq : |x / 2 ^ b| ≤ 2 ^ 53 := by
    rw [abs_div, abs_of_pos hp, div_le_iff₀ hp]
    have h1 := (Int.lt_zpow_succ_log_self (b := 2) (by norm_num) |x|).le
    have h2 : ((2 : ℕ) : ℝ) ^ (Int.log 2 |x| + 1) ≤ 2 ^ (53 + b) := by
      push_cast
      apply zpow_le_zpow_right₀ (by norm_num)
      have := le_max_left (Int.log 2 |x|) (-1022)
      omega
    have h3 : (2 : ℝ) ^ (53 + b) = 2 ^ 53 * 2 ^ b := by rw [zpow_add₀ (by norm_num)]; norm_cast
    rw [h3] at h2
    exact h1.trans h2
  have hk : |((roundEven (x / 2 ^ b) : ℤ) : ℝ)| ≤ 2 ^ 53 := by
    rw [abs_le] at hq ⊢
    have h1 := roundEven_mono hq.1
    have h2 := roundEven_mono hq.2
    rw [show (-(2 : ℝ) ^ 53) = (((-2 ^ 53 : ℤ)) : ℝ) by push_cast; ring, roundEven_int] at h1
    rw [show ((2 : ℝ) ^ 53) = (((2 ^ 53 : ℤ)) : ℝ) by push_cast; ring, roundEven_int] at h2
    constructor
    · exact_mod_cast h1
    · exact_mod_cast h2
  obtain ⟨j, hj⟩ := multiple64 (y := y) (k := roundEven (x / 2 ^ b)) (a := b) (by
    rw [← e]; unfold nearest64; rw [hs]) hk (by rw [hb']; have := le_max_right (Int.log 2 |x|) (-1022); omega)
  exact rnd64_exact hj hb

theorem binary64_proper : Proper binary64 where
  one := by have := rnd64_int (k := 1) (by norm_num); exact_mod_cast this
  two := by have := rnd64_int (k := 2) (by norm_num); exact_mod_cast this
  four := by have := rnd64_int (k := 4) (by norm_num); exact_mod_cast this
  again _ _ := rnd64_again
  fine := by show (1 : ℝ) / 10 ^ 100 ≤ 1 / 2 ^ 53; norm_num

end Optics
