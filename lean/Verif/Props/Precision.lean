import Verif.Model.General
import Verif.Spec.Decimal
import Mathlib.Data.Nat.Digits.Lemmas
import Mathlib.Analysis.SpecialFunctions.Log.Base

/-!
# C61: `to_precision`
-/

namespace Optics

/-! ## Digit strings -/

theorem digitChar_toNat (d : ℕ) (h : d < 10) : (Nat.digitChar d).toNat - '0'.toNat = d ∧ (Nat.digitChar d).isDigit := by
  interval_cases d <;> decide

theorem digitChar_zero_iff (d : ℕ) (h : d < 10) : Nat.digitChar d = '0' ↔ d = 0 := by
  interval_cases d <;> decide

theorem natStr_digits (n : ℕ) : ∀ c ∈ natStr n, c.isDigit := by
  unfold natStr
  split_ifs
  · intro c hc; rw [List.mem_singleton] at hc; subst hc; decide
  · intro c hc
    obtain ⟨d, hd, rfl⟩ := List.mem_map.mp hc
    exact (digitChar_toNat d (Nat.digits_lt_base (by norm_num) (List.mem_reverse.mp hd))).2

theorem natStr_ne (n : ℕ) : natStr n ≠ [] := by
  unfold natStr
  split_ifs with h
  · exact List.cons_ne_nil _ _
  · rw [Ne, List.map_eq_nil_iff, List.reverse_eq_nil_iff]
    exact Nat.digits_ne_nil_iff_ne_zero.mpr h

theorem natStr_value (n : ℕ) : digitsValue (natStr n) = n := by
  unfold natStr digitsValue
  split_ifs with h
  · subst h; decide
  · rw [← List.map_reverse, List.reverse_reverse, List.map_map]
    have : List.map ((fun c : Char => c.toNat - '0'.toNat) ∘ Nat.digitChar) (Nat.digits 10 n) = Nat.digits 10 n := by
      conv_rhs => rw [← List.map_id (Nat.digits 10 n)]
      refine List.map_congr_left fun d hd => ?_
      exact (digitChar_toNat d (Nat.digits_lt_base (by norm_num) hd)).1
    rw [this, Nat.ofDigits_digits]

theorem natStr_length (n p : ℕ) (hp : 0 < p) (h1 : 10 ^ (p - 1) ≤ n) (h2 : n < 10 ^ p) : (natStr n).length = p := by
  have h0 : n ≠ 0 := by have := Nat.pow_pos (n := p - 1) (show 0 < 10 by norm_num); omega
  unfold natStr
  rw [if_neg h0, List.length_map, List.length_reverse]
  have a := (Nat.digits_length_le_iff (b := 10) (k := p) (by norm_num) n).mpr h2
  have b := (Nat.lt_digits_length_iff (b := 10) (k := p - 1) (by norm_num) n).mpr h1
  omega

/-- The first digit of a positive number is not zero. -/
theorem natStr_dropWhile (n : ℕ) (h : n ≠ 0) : (natStr n).dropWhile (· = '0') = natStr n := by
  unfold natStr
  rw [if_neg h]
  have hne : Nat.digits 10 n ≠ [] := Nat.digits_ne_nil_iff_ne_zero.mpr h
  have hl := Nat.getLast_digit_ne_zero 10 h
  have hr : (Nat.digits 10 n).reverse = (Nat.digits 10 n).getLast hne :: ((Nat.digits 10 n).dropLast).reverse := by
    conv_lhs => rw [← List.dropLast_append_getLast hne]
    rw [List.reverse_append]; rfl
  rw [hr, List.map_cons, List.dropWhile_cons_of_neg]
  simpa using fun hc => hl ((digitChar_zero_iff _ (Nat.digits_lt_base (by norm_num) (List.getLast_mem hne))).mp hc)

theorem digitsValue_zero_cons (l : List Char) : digitsValue ('0' :: l) = digitsValue l := by
  unfold digitsValue
  rw [List.reverse_cons, List.map_append]
  exact Nat.ofDigits_append_zero _

theorem digitsValue_zeros (k : ℕ) (l : List Char) : digitsValue (List.replicate k '0' ++ l) = digitsValue l := by
  induction k with
  | zero => rfl
  | succ k ih => rw [List.replicate_succ, List.cons_append, digitsValue_zero_cons, ih]

theorem dropWhile_zeros (k : ℕ) (l : List Char) :
    (List.replicate k '0' ++ l).dropWhile (· = '0') = l.dropWhile (· = '0') := by
  induction k with
  | zero => rfl
  | succ k ih => rw [List.replicate_succ, List.cons_append, List.dropWhile_cons_of_pos (by simp), ih]

/-! ## The digits -/

/-- Rounding `x` to `p` digits: `10 ^ E ≤ x < 10 ^ (E + 1)`, and the digits are the nearest multiple of the unit in the
last place, the upper one of two. -/
theorem precisionDigits_spec (x : ℝ) (hx : 0 < x) (p : ℕ) (hp : 0 < p) (E : ℤ) (hE : (10 : ℝ) ^ E ≤ x)
    (hE' : x < (10 : ℝ) ^ (E + 1)) : ∃ n : ℕ, ∃ e : ℤ, precisionDigits x p = ((n : ℤ), e) ∧ 10 ^ (p - 1) ≤ n ∧ n < 10 ^ p ∧
      |(n : ℝ) * 10 ^ (e - p + 1) - x| ≤ 10 ^ (E - p + 1) / 2 ∧
      (|(n : ℝ) * 10 ^ (e - p + 1) - x| = 10 ^ (E - p + 1) / 2 → x ≤ (n : ℝ) * 10 ^ (e - p + 1)) := by
  have ten : (0 : ℝ) < 10 := by norm_num
  have ten1 : (1 : ℝ) < 10 := by norm_num
  have hlog : ⌊Real.logb 10 x⌋ = E := by
    rw [Int.floor_eq_iff]
    constructor
    · rw [Real.le_logb_iff_rpow_le ten1 hx, Real.rpow_intCast]; exact hE
    · rw [Real.logb_lt_iff_lt_rpow ten1 hx, show ((E : ℝ) + 1) = ((E + 1 : ℤ) : ℝ) by push_cast; rfl, Real.rpow_intCast]
      exact hE'
  have he : truncInt (Real.logb 10 x) = E ∨ truncInt (Real.logb 10 x) = E + 1 := by
    unfold truncInt
    split_ifs
    · exact .inl hlog
    · have a := Int.ceil_le_floor_add_one (Real.logb 10 x)
      have b := Int.floor_le_ceil (Real.logb 10 x)
      omega
  set tens := (10 : ℝ) ^ (E - p + 1) with htens
  have htpos : 0 < tens := zpow_pos ten _
  -- the integer part of `x / tens`
  have hpow : ((10 : ℝ) ^ ((p : ℤ) - 1)) * tens = 10 ^ E := by
    rw [htens, ← zpow_add₀ ten.ne']; congr 1; ring
  have hpow' : ((10 : ℝ) ^ (p : ℤ)) * tens = 10 ^ (E + 1) := by
    rw [htens, ← zpow_add₀ ten.ne']; congr 1; ring
  have hq1 : (10 : ℝ) ^ ((p : ℤ) - 1) ≤ x / tens := by rw [le_div_iff₀ htpos, hpow]; exact hE
  have hq2 : x / tens < (10 : ℝ) ^ (p : ℤ) := by rw [div_lt_iff₀ htpos, hpow']; exact hE'
  have hcast : (10 : ℝ) ^ ((p : ℤ) - 1) = ((10 ^ (p - 1) : ℕ) : ℝ) := by
    rw [show (p : ℤ) - 1 = ((p - 1 : ℕ) : ℤ) by omega, zpow_natCast]; push_cast; rfl
  have hcast' : (10 : ℝ) ^ (p : ℤ) = ((10 ^ p : ℕ) : ℝ) := by rw [zpow_natCast]; push_cast; rfl
  obtain ⟨n0, hn0⟩ : ∃ n0 : ℕ, ⌊x / tens⌋ = (n0 : ℤ) :=
    ⟨⌊x / tens⌋.toNat, (Int.toNat_of_nonneg (Int.floor_nonneg.mpr (div_nonneg hx.le htpos.le))).symm⟩
  have hlo : 10 ^ (p - 1) ≤ n0 := by
    have : ((10 ^ (p - 1) : ℕ) : ℤ) ≤ ⌊x / tens⌋ := Int.le_floor.mpr (by rw [hcast] at hq1; exact_mod_cast hq1)
    rw [hn0] at this; exact_mod_cast this
  have hhi : n0 < 10 ^ p := by
    have : ⌊x / tens⌋ < ((10 ^ p : ℕ) : ℤ) := Int.floor_lt.mpr (by rw [hcast'] at hq2; exact_mod_cast hq2)
    rw [hn0] at this; exact_mod_cast this
  have hf1 : (n0 : ℝ) * tens ≤ x := by
    have := Int.floor_le (x / tens)
    rw [hn0, le_div_iff₀ htpos] at this; exact_mod_cast this
  have hf2 : x < ((n0 : ℝ) + 1) * tens := by
    have := Int.lt_floor_add_one (x / tens)
    rw [hn0, div_lt_iff₀ htpos] at this; exact_mod_cast this
  -- the digits before rounding
  have key : precisionDigits x p =
      let n : ℤ := if |((n0 : ℝ) + 1) * tens - x| ≤ |(n0 : ℝ) * tens - x| then (n0 : ℤ) + 1 else n0
      if (n : ℝ) ≥ (10 : ℝ) ^ p then (n / 10, E + 1) else (n, E) := by
    have hsmall' : ¬ (n0 : ℝ) < (10 : ℝ) ^ ((p : ℤ) - 1) := by
      rw [hcast, not_lt]; exact_mod_cast hlo
    unfold precisionDigits
    rcases he with he | he
    · simp only [he, ← htens, hn0, Int.cast_natCast, hsmall', decide_eq_true_eq, if_false]
    · have hsmall : ((⌊x / (10 : ℝ) ^ (E + 1 - p + 1)⌋ : ℤ) : ℝ) < (10 : ℝ) ^ ((p : ℤ) - 1) := by
        refine lt_of_le_of_lt (Int.floor_le _) ?_
        rw [div_lt_iff₀ (zpow_pos ten _), ← zpow_add₀ ten.ne', show (p : ℤ) - 1 + (E + 1 - p + 1) = E + 1 by ring]
        exact hE'
      simp only [he, hsmall, decide_eq_true_eq, if_true, show E + 1 - 1 = E by ring, ← htens, hn0, Int.cast_natCast]
  rw [key]
  simp only
  have habs1 : |((n0 : ℝ) + 1) * tens - x| = (n0 + 1) * tens - x := abs_of_nonneg (by linarith)
  have habs0 : |(n0 : ℝ) * tens - x| = x - n0 * tens := by rw [abs_of_nonpos (by linarith)]; ring
  have hcp : (10 : ℝ) ^ p = ((10 ^ p : ℕ) : ℝ) := by push_cast; rfl
  rw [habs1, habs0]
  split_ifs with hr hbig hbig
  · -- rounded up to the next power of ten
    have hn : n0 + 1 = 10 ^ p := by
      rw [hcp] at hbig
      have : 10 ^ p ≤ n0 + 1 := by exact_mod_cast hbig
      omega
    have hten : (10 : ℕ) ^ p = 10 ^ (p - 1) * 10 := by rw [← pow_succ]; congr 1; omega
    have hval : ((10 ^ (p - 1) : ℕ) : ℝ) * 10 ^ (E + 1 - p + 1) = (n0 + 1) * tens := by
      have : ((n0 : ℝ) + 1) = ((10 ^ p : ℕ) : ℝ) := by exact_mod_cast hn
      rw [this, hten, htens, show E + 1 - (p : ℤ) + 1 = 1 + (E - p + 1) by ring, zpow_add₀ ten.ne']
      push_cast; ring
    refine ⟨10 ^ (p - 1), E + 1, ?_, le_refl _, Nat.pow_lt_pow_right (by norm_num) (by omega), ?_, ?_⟩
    · rw [Prod.mk.injEq]
      refine ⟨?_, rfl⟩
      have : (n0 : ℤ) + 1 = ((10 ^ (p - 1) : ℕ) : ℤ) * 10 := by
        have := hn.trans hten; exact_mod_cast this
      rw [this, Int.mul_ediv_cancel _ (by norm_num)]
    · rw [hval, habs1]; linarith
    · intro _; rw [hval]; linarith
  · refine ⟨n0 + 1, E, by push_cast; rfl, by omega, ?_, ?_, ?_⟩
    · rw [hcp, ge_iff_le, not_le] at hbig
      exact_mod_cast hbig
    · rw [← htens]; push_cast; rw [habs1]; linarith
    · intro _; rw [← htens]; push_cast; linarith
  · exfalso
    rw [hcp] at hbig
    have : 10 ^ p ≤ n0 := by exact_mod_cast hbig
    omega
  · refine ⟨n0, E, rfl, hlo, hhi, ?_, ?_⟩
    · rw [← htens, habs0]; linarith
    · rw [← htens, habs0]; intro h; exfalso; apply hr; linarith

/-! ## The text -/

/-- The text of `p` digits and an exponent is a numeral showing these digits. -/
theorem precisionText_spec (neg : Bool) (n p : ℕ) (e : ℤ) (hp : 0 < p) (h1 : 10 ^ (p - 1) ≤ n) (h2 : n < 10 ^ p) :
    ∃ N : Numeral, N.Valid ∧ N.neg = neg ∧ N.text = (if neg then ['-'] else []) ++ precisionText n e p ∧
      N.significant.length = p ∧ N.value = (if neg then -1 else 1) * ((n : ℝ) * 10 ^ (e - p + 1)) := by
  have h0 : n ≠ 0 := by have := Nat.pow_pos (n := p - 1) (show 0 < 10 by norm_num); omega
  have hlen := natStr_length n p hp h1 h2
  have hdig := natStr_digits n
  have hval := natStr_value n
  have hdrop := natStr_dropWhile n h0
  set m := natStr n with hm
  unfold precisionText
  rw [Int.natAbs_natCast, ← hm]
  have htake : ∀ k c, c ∈ m.take k → c.isDigit := fun k c hc => hdig c (List.mem_of_mem_take hc)
  have hdr : ∀ k c, c ∈ m.drop k → c.isDigit := fun k c hc => hdig c (List.mem_of_mem_drop hc)
  have hsplit : ∀ k, m.take k ++ m.drop k = m := fun k => List.take_append_drop k m
  simp only
  by_cases c1 : e < -2 ∨ e ≥ p
  · -- scientific notation
    rw [if_pos c1, List.take_of_length_le hlen.le]
    refine ⟨⟨neg, m.take 1, decide (p > 1), m.drop 1, some (if e > 0 then ['+'] else ['-'], natStr e.natAbs)⟩,
      ⟨htake 1, ?_, hdr 1, ?_, ?_⟩, rfl, ?_, ?_, ?_⟩
    · intro h
      rw [List.take_eq_nil_iff] at h
      rcases h with h | h
      · cases h
      · rw [h] at hlen; simp at hlen; omega
    · intro h
      simp only [ne_eq, List.drop_eq_nil_iff, hlen] at h
      exact decide_eq_true (by omega)
    · intro s' e' h
      simp only [Option.some.injEq, Prod.mk.injEq] at h
      obtain ⟨rfl, rfl⟩ := h
      refine ⟨?_, natStr_ne _, natStr_digits _⟩
      split_ifs <;> simp
    · simp only [Numeral.text, decide_eq_true_eq, intStr]
      split_ifs <;> first | omega | simp
    · simp only [Numeral.significant, hsplit, hdrop, hlen]
    · simp only [Numeral.value, Numeral.exponentValue, hsplit, hval, natStr_value, List.length_drop, hlen]
      congr 3
      split_ifs with h1 h2 h2
      · simp at h2
      · omega
      · omega
      · simp at h2
  rw [if_neg c1]
  by_cases c2 : e = p - 1
  · -- an integer
    rw [if_pos c2]
    refine ⟨⟨neg, m, false, [], none⟩, ⟨hdig, hm ▸ natStr_ne n, by simp, by simp, by simp⟩, rfl, by simp [Numeral.text], ?_, ?_⟩
    · simp only [Numeral.significant, List.append_nil, hdrop, hlen]
    · simp only [Numeral.value, Numeral.exponentValue, List.append_nil, hval, List.length_nil]
      congr 3
      omega
  rw [if_neg c2]
  by_cases c3 : e ≥ 0
  · -- a decimal point within the digits
    rw [if_pos c3, if_pos (show (e + 1).toNat < m.length by omega)]
    refine ⟨⟨neg, m.take (e + 1).toNat, true, m.drop (e + 1).toNat, none⟩, ⟨htake _, ?_, hdr _, by simp, by simp⟩, rfl,
      by simp [Numeral.text], ?_, ?_⟩
    · intro h
      rw [List.take_eq_nil_iff] at h
      rcases h with h | h
      · omega
      · rw [h] at hlen; simp at hlen; omega
    · simp only [Numeral.significant, hsplit, hdrop, hlen]
    · simp only [Numeral.value, Numeral.exponentValue, hsplit, hval, List.length_drop, hlen]
      congr 3
      omega
  · -- zeros after the decimal point
    rw [if_neg c3]
    refine ⟨⟨neg, ['0'], true, List.replicate (-(e + 1)).toNat '0' ++ m, none⟩, ⟨by simp, by simp, ?_, by simp, by simp⟩, rfl,
      by simp [Numeral.text], ?_, ?_⟩
    · intro c hc
      rcases List.mem_append.mp hc with h | h
      · rw [(List.mem_replicate.mp h).2]; decide
      · exact hdig c h
    · simp only [Numeral.significant, List.singleton_append]
      rw [List.dropWhile_cons_of_pos (by simp), dropWhile_zeros, hdrop, hlen]
    · simp only [Numeral.value, Numeral.exponentValue, List.singleton_append, digitsValue_zero_cons, digitsValue_zeros, hval,
        List.length_append, List.length_replicate, hlen]
      congr 3
      push_cast
      omega

/-! ## C61 -/

/-- The decade of a nonzero number. -/
theorem exists_decade (x : ℝ) (hx : x ≠ 0) : ∃ E : ℤ, (10 : ℝ) ^ E ≤ |x| ∧ |x| < (10 : ℝ) ^ (E + 1) :=
  exists_mem_Ico_zpow (abs_pos.mpr hx) (by norm_num)

/-- C61: `to_precision(x, p)` is the text of a decimal number with `p` significant digits, within half a unit in the
last place of `x` (the unit being that of `x`, also when rounding reaches the next power of ten); of two equally near
ones it is the one further from zero. -/
theorem C61_to_precision (x : ℝ) (hx : x ≠ 0) (p : ℕ) (hp : 0 < p) (E : ℤ) (hE : (10 : ℝ) ^ E ≤ |x|)
    (hE' : |x| < (10 : ℝ) ^ (E + 1)) : ∃ N : Numeral, N.Valid ∧ toPrecision (.fin x) p = .ok N.text ∧
      (N.neg = true ↔ x < 0) ∧ N.significant.length = p ∧ |N.value - x| ≤ 10 ^ (E - p + 1) / 2 ∧
      (|N.value - x| = 10 ^ (E - p + 1) / 2 → |x| ≤ |N.value|) := by
  obtain ⟨n, e, hd, h1, h2, h3, h4⟩ := precisionDigits_spec |x| (abs_pos.mpr hx) p hp E hE hE'
  obtain ⟨N, hN, hneg, htext, hsig, hval⟩ := precisionText_spec (decide (x < 0)) n p e hp h1 h2
  have hpos : (0 : ℝ) ≤ (n : ℝ) * 10 ^ (e - p + 1) := mul_nonneg (Nat.cast_nonneg n) (zpow_nonneg (by norm_num) _)
  have hd' : |N.value - x| = |(n : ℝ) * 10 ^ (e - p + 1) - (|x|)| := by
    rw [hval]
    rcases lt_or_gt_of_ne hx with h | h
    · rw [decide_eq_true h, if_pos rfl, abs_of_neg h, ← abs_neg]; congr 1; ring
    · rw [decide_eq_false h.not_gt, if_neg (by simp), abs_of_pos h, one_mul]
  have hv' : |N.value| = (n : ℝ) * 10 ^ (e - p + 1) := by
    rw [hval, abs_mul, abs_of_nonneg hpos]
    split_ifs <;> simp
  refine ⟨N, hN, ?_, ?_, hsig, ?_, ?_⟩
  · rw [htext]
    unfold toPrecision
    simp only [if_neg hx, hd, decide_eq_true_eq]
  · rw [hneg, decide_eq_true_eq]
  · rw [hd']; exact h3
  · rw [hd', hv']; exact h4

/-- C61, zero: a numeral denoting zero. -/
theorem C61_zero (p : ℕ) : ∃ N : Numeral, N.Valid ∧ toPrecision (.fin 0) p = .ok N.text ∧ N.value = 0 ∧
    N.fp.length = p - 1 := by
  refine ⟨⟨false, ['0'], true, List.replicate (p - 1) '0', none⟩, ⟨by simp, by simp, ?_, by simp, by simp⟩, ?_, ?_, by simp⟩
  · intro c hc
    rw [(List.mem_replicate.mp hc).2]; decide
  · simp [toPrecision, Numeral.text]
  · have : digitsValue (List.replicate (p - 1) '0') = 0 := by
      have := digitsValue_zeros (p - 1) []
      rw [List.append_nil] at this
      rw [this]; rfl
    simp [Numeral.value, digitsValue_zero_cons, this]

/-- C61, what is not a number: NaN is printed, infinities raise. -/
theorem C61_not_finite (p : ℕ) : toPrecision .nan p = .ok "NaN".toList ∧ toPrecision .inf p = .error .overflowError ∧
    toPrecision .ninf p = .error .overflowError := ⟨rfl, rfl, rfl⟩

/-- 0.0996 to two digits: `0.10`, in the decade below the one of the result. -/
example : ∃ N : Numeral, N.Valid ∧ toPrecision (.fin 0.0996) 2 = .ok N.text ∧ N.significant.length = 2 ∧
    |N.value - 0.0996| ≤ 10 ^ (-2 - (2 : ℕ) + 1 : ℤ) / 2 := by
  obtain ⟨N, h1, h2, -, h3, h4, -⟩ := C61_to_precision 0.0996 (by norm_num) 2 (by norm_num) (-2)
    (by rw [abs_of_pos (by norm_num)]; norm_num) (by rw [abs_of_pos (by norm_num)]; norm_num)
  exact ⟨N, h1, h2, h3, h4⟩

end Optics
