import Verif.Lemmas.Resonator64

/-!
# Computing with doubles

A double is written `dy m e`, for `m * 2^e`.  The lemmas check the result of an operation: `E` the result is exact, `N` it
is the nearest double, `T` a tie goes to the even one, `P` the result is a power of two, where the spacing changes.
-/

namespace Optics
open V3

/-- The double `m * 2^e`. -/
noncomputable def dy (m e : ℤ) : D64 := Fl.fin ((m : ℝ) * 2 ^ e)

theorem roundEven_near {q : ℝ} {k : ℤ} (h : |q - k| < 1 / 2) : roundEven q = k := by
  have h1 := roundEven_err q
  have : |((roundEven q - k : ℤ) : ℝ)| < 1 := by
    push_cast
    calc |(roundEven q : ℝ) - k| = |((roundEven q : ℝ) - q) + (q - k)| := by ring_nf
      _ ≤ |(roundEven q : ℝ) - q| + |q - k| := abs_add_le _ _
      _ < 1 := by linarith
  rw [← Int.cast_abs] at this
  have h2 : |roundEven q - k| < 1 := by exact_mod_cast this
  have := Int.abs_lt_one_iff.mp h2
  omega

theorem roundEven_tie {q : ℝ} {k : ℤ} (h : |q - k| ≤ 1 / 2) (he : Even k) : roundEven q = k := by
  rcases h.lt_or_eq with h | h
  · exact roundEven_near h
  · rcases abs_eq (by norm_num : (0 : ℝ) ≤ 1 / 2) |>.mp h with h | h
    · have hq : q = k + 1 / 2 := by linarith
      have hf : ⌊q⌋ = k := by rw [Int.floor_eq_iff, hq]; constructor <;> norm_num
      unfold roundEven
      rw [hf, if_neg (by rw [hq]; norm_num), if_neg (by rw [hq]; norm_num), if_pos he]
    · have hq : q = k - 1 / 2 := by linarith
      have hf : ⌊q⌋ = k - 1 := by rw [Int.floor_eq_iff, hq]; push_cast; constructor <;> linarith
      have ho : ¬ Even (k - 1) := by
        rw [Int.not_even_iff_odd]; exact he.sub_odd odd_one
      unfold roundEven
      rw [hf, if_neg (by rw [hq]; push_cast; norm_num), if_neg (by rw [hq]; push_cast; norm_num), if_neg ho]
      ring

theorem log2_eq {x : ℝ} {k : ℤ} (h1 : 2 ^ k ≤ |x|) (h2 : |x| < 2 ^ (k + 1)) : Int.log 2 |x| = k := by
  have h0 : 0 < |x| := lt_of_lt_of_le (by positivity) h1
  have a := (Int.zpow_le_iff_le_log (b := 2) (x := k) (by norm_num) h0).mp (by exact_mod_cast h1)
  have b := (Int.lt_zpow_iff_log_lt (b := 2) (x := k + 1) (by norm_num) h0).mp (by exact_mod_cast h2)
  omega

/-- Rounding in the binade of `2^52 * 2^e`. -/
theorem rnd64_at {x : ℝ} {m e : ℤ} (he : -1000 ≤ e) (he' : e ≤ 900) (h1 : 2 ^ (52 + e) ≤ |x|) (h2 : |x| < 2 ^ (53 + e))
    (hr : roundEven (x / 2 ^ e) = m) : rnd64 x = .fin ((m : ℝ) * 2 ^ e) := by
  have hs : spacing64 x = 2 ^ e := by
    unfold spacing64
    rw [log2_eq h1 (by rwa [show (52 + e + 1 : ℤ) = 53 + e by ring]), max_eq_left (by omega),
      show (52 + e - 52 : ℤ) = e by ring]
  have hn : nearest64 x = (m : ℝ) * 2 ^ e := by unfold nearest64; rw [hs, hr]
  rw [rnd64_fin, hn]
  rw [hn]
  have hp : (0 : ℝ) < 2 ^ e := by positivity
  have hx : |x| / 2 ^ e < 2 ^ 53 := by
    rw [div_lt_iff₀ hp]
    rw [zpow_add₀ (by norm_num)] at h2
    exact_mod_cast h2
  have herr := roundEven_err (x / 2 ^ e)
  rw [hr] at herr
  have hm : |(m : ℝ)| < 2 ^ 54 := by
    have e1 : |x / 2 ^ e| = |x| / 2 ^ e := by rw [abs_div, abs_of_pos hp]
    have := abs_sub_abs_le_abs_sub (m : ℝ) (x / 2 ^ e)
    rw [e1] at this
    have : (2 : ℝ) ^ 54 = 2 * 2 ^ 53 := by norm_num
    have : (1 : ℝ) ≤ 2 ^ 53 := by norm_num
    linarith
  rw [abs_mul, abs_of_pos hp]
  calc |(m : ℝ)| * 2 ^ e < 2 ^ 54 * 2 ^ e := by apply mul_lt_mul_of_pos_right hm hp
    _ = 2 ^ (54 + e) := by rw [zpow_add₀ (by norm_num)]; norm_cast
    _ ≤ 2 ^ (1024 : ℤ) := zpow_le_zpow_right₀ (by norm_num) (by omega)
    _ = 2 ^ 1024 := zpow_natCast (2 : ℝ) 1024

theorem rnd64_dyE {x : ℝ} {m e : ℤ} (hx : x = m * 2 ^ e) (hm : |m| < 2 ^ 53) (he : -1000 ≤ e) (he' : e ≤ 900) :
    rnd64 x = .fin ((m : ℝ) * 2 ^ e) := by
  have hp : (0 : ℝ) < 2 ^ e := by positivity
  by_cases hx0 : x = 0
  · rw [← hx, hx0]; exact binary64.zero
  have hmr : |(m : ℝ)| < 2 ^ 53 := by exact_mod_cast hm
  have hax : |x| < 2 ^ (53 + e) := by
    rw [hx, abs_mul, abs_of_pos hp, zpow_add₀ (by norm_num)]
    exact mul_lt_mul_of_pos_right (by exact_mod_cast hmr) hp
  rw [← hx]
  have hlog : max (Int.log 2 |x|) (-1022) - 52 ≤ e := by
    have : Int.log 2 |x| ≤ 52 + e := by
      have := (Int.lt_zpow_iff_log_lt (b := 2) (x := 53 + e) (by norm_num) (abs_pos.mpr hx0)).mp (by exact_mod_cast hax)
      omega
    have := max_le this (show (-1022 : ℤ) ≤ 52 + e by omega)
    omega
  obtain ⟨k, hk⟩ := zpow_multiple hlog
  apply rnd64_exact (k := m * k)
  · unfold spacing64; push_cast; rw [mul_assoc, ← hk, hx]
  · refine hax.trans_le ?_
    calc (2 : ℝ) ^ (53 + e) ≤ 2 ^ (1024 : ℤ) := zpow_le_zpow_right₀ (by norm_num) (by omega)
      _ = 2 ^ 1024 := zpow_natCast (2 : ℝ) 1024

theorem binade {x : ℝ} {m e : ℤ} (h1 : (2 : ℤ) ^ 52 < |m|) (h2 : |m| < 2 ^ 53) (h : |x - m * 2 ^ e| ≤ 2 ^ e / 2) :
    2 ^ (52 + e) ≤ |x| ∧ |x| < 2 ^ (53 + e) ∧ |x / 2 ^ e - m| ≤ 1 / 2 := by
  have hp : (0 : ℝ) < 2 ^ e := by positivity
  have e1 : x / 2 ^ e - m = (x - m * 2 ^ e) / 2 ^ e := by field_simp
  have h3 : |x / 2 ^ e - m| ≤ 1 / 2 := by
    rw [e1, abs_div, abs_of_pos hp, div_le_iff₀ hp]; linarith
  have hm1 : (2 : ℝ) ^ 52 + 1 ≤ |(m : ℝ)| := by exact_mod_cast h1
  have hm2 : |(m : ℝ)| + 1 ≤ 2 ^ 53 := by exact_mod_cast h2
  have e2 : |x| = |x / 2 ^ e| * 2 ^ e := by rw [abs_div, abs_of_pos hp]; field_simp
  have a := abs_sub_abs_le_abs_sub (m : ℝ) (x / 2 ^ e)
  have b := abs_sub_abs_le_abs_sub (x / 2 ^ e) (m : ℝ)
  rw [abs_sub_comm] at a
  refine ⟨?_, ?_, h3⟩
  · rw [e2, zpow_add₀ (by norm_num)]
    apply mul_le_mul_of_nonneg_right _ hp.le
    have : (2 : ℝ) ^ (52 : ℤ) = 2 ^ 52 := by norm_cast
    linarith
  · rw [e2, zpow_add₀ (by norm_num)]
    apply mul_lt_mul_of_pos_right _ hp
    have : (2 : ℝ) ^ (53 : ℤ) = 2 ^ 53 := by norm_cast
    linarith

theorem rnd64_dyN {x : ℝ} {m e : ℤ} (h1 : (2 : ℤ) ^ 52 < |m|) (h2 : |m| < 2 ^ 53) (he : -1000 ≤ e) (he' : e ≤ 900)
    (lo : (m - 1 / 2) * 2 ^ e < x) (hi : x < (m + 1 / 2) * 2 ^ e) : rnd64 x = .fin ((m : ℝ) * 2 ^ e) := by
  have hp : (0 : ℝ) < 2 ^ e := by positivity
  obtain ⟨a, b, -⟩ := binade (x := x) (e := e) h1 h2 (by rw [abs_le]; constructor <;> linarith)
  apply rnd64_at he he' a b
  apply roundEven_near
  rw [abs_lt, ← sub_pos, sub_lt_iff_lt_add, div_lt_iff₀ hp]
  constructor
  · rw [sub_pos, lt_sub_iff_add_lt, lt_div_iff₀ hp]; linarith
  · linarith

theorem rnd64_dyT {x : ℝ} {m e : ℤ} (h1 : (2 : ℤ) ^ 52 < |m|) (h2 : |m| < 2 ^ 53) (he : -1000 ≤ e) (he' : e ≤ 900)
    (hm : Even m) (lo : (m - 1 / 2) * 2 ^ e ≤ x) (hi : x ≤ (m + 1 / 2) * 2 ^ e) :
    rnd64 x = .fin ((m : ℝ) * 2 ^ e) := by
  obtain ⟨a, b, c⟩ := binade (x := x) (e := e) h1 h2 (by rw [abs_le]; constructor <;> linarith)
  exact rnd64_at he he' a b (roundEven_tie c hm)

theorem rnd64_dyP {x : ℝ} {e : ℤ} (he : -1000 < e) (he' : e ≤ 900)
    (lo : (2 ^ 52 - 1 / 4) * 2 ^ e ≤ x) (hi : x ≤ (2 ^ 52 + 1 / 2) * 2 ^ e) :
    rnd64 x = .fin (((4503599627370496 : ℤ) : ℝ) * 2 ^ e) := by
  rw [show (4503599627370496 : ℤ) = 2 ^ 52 by norm_num]
  have hp : (0 : ℝ) < 2 ^ e := by positivity
  have hx : 0 < x := lt_of_lt_of_le (mul_pos (by norm_num) hp) lo
  rcases le_or_gt (2 ^ 52 * 2 ^ e) x with h | h
  · apply rnd64_at he.le he'
    · rw [abs_of_pos hx, zpow_add₀ (by norm_num)]; exact_mod_cast h
    · rw [abs_of_pos hx, zpow_add₀ (by norm_num)]
      refine lt_of_le_of_lt hi (mul_lt_mul_of_pos_right (by norm_num) hp)
    · apply roundEven_tie _ (by decide)
      rw [abs_le]; push_cast
      constructor
      · rw [neg_le_sub_iff_le_add, ← sub_le_iff_le_add, le_div_iff₀ hp]; nlinarith
      · rw [sub_le_iff_le_add, div_le_iff₀ hp]; linarith
  · have e2 : (2 : ℝ) ^ e = 2 * 2 ^ (e - 1) := by rw [zpow_sub_one₀ (by norm_num)]; ring
    have hq : (0 : ℝ) < 2 ^ (e - 1) := by positivity
    have key : rnd64 x = .fin (((2 ^ 53 : ℤ) : ℝ) * 2 ^ (e - 1)) := by
      rw [e2] at lo hi h
      apply rnd64_at (by omega) (by omega)
      · rw [abs_of_pos hx, zpow_add₀ (by norm_num)]
        refine le_trans (b := (2 ^ 52 - 1 / 4) * (2 * 2 ^ (e - 1))) ?_ lo
        rw [← mul_assoc]
        exact mul_le_mul_of_nonneg_right (by norm_num) hq.le
      · rw [abs_of_pos hx, zpow_add₀ (by norm_num)]
        refine lt_of_lt_of_le h ?_
        rw [← mul_assoc]
        exact mul_le_mul_of_nonneg_right (by norm_num) hq.le
      · apply roundEven_tie _ (by decide)
        rw [abs_le]; push_cast
        constructor
        · rw [neg_le_sub_iff_le_add, ← sub_le_iff_le_add, le_div_iff₀ hq]; nlinarith
        · rw [sub_le_iff_le_add, div_le_iff₀ hq]; nlinarith
    rw [key, e2]; push_cast; norm_num [← mul_assoc]

/-! ## Operations -/

/-- The rounded result of an operation whose exact result is `x` is `m * 2^e`. -/
def Rounds (x : ℝ) (m e : ℤ) : Prop := rnd64 x = .fin ((m : ℝ) * 2 ^ e)

theorem dy_add {a b c d m e : ℤ} (h : Rounds (a * 2 ^ b + c * 2 ^ d) m e) : dy a b + dy c d = dy m e := by
  unfold dy; rw [fl_add]; exact congrArg Fl.mk h

theorem dy_sub {a b c d m e : ℤ} (h : Rounds (a * 2 ^ b - c * 2 ^ d) m e) : dy a b - dy c d = dy m e := by
  unfold dy; rw [fl_sub]; exact congrArg Fl.mk h

theorem dy_mul {a b c d m e : ℤ} (h : Rounds (a * 2 ^ b * (c * 2 ^ d)) m e) : dy a b * dy c d = dy m e := by
  unfold dy; rw [fl_mul]; exact congrArg Fl.mk h

theorem dy_div {a b c d m e : ℤ} (hc : c ≠ 0) (h : Rounds (a * 2 ^ b / (c * 2 ^ d)) m e) : dy a b / dy c d = dy m e := by
  unfold dy
  rw [fl_div _ _ (mul_ne_zero (by exact_mod_cast hc) (by positivity))]; exact congrArg Fl.mk h

theorem dy_sqrt {a b m e : ℤ} (ha : 0 ≤ a) (h : Rounds (Real.sqrt (a * 2 ^ b)) m e) : PyNum.sqrt (dy a b) = dy m e := by
  unfold dy
  rw [fl_sqrt _ (mul_nonneg (by exact_mod_cast ha) (by positivity))]; exact congrArg Fl.mk h

theorem dy_neg {a b c : ℤ} (h : -a = c) : -dy a b = dy c b := by
  unfold dy; rw [fl_neg, ← h]; push_cast; rw [neg_mul]

theorem dy_lt {a b c d : ℤ} : (dy a b < dy c d) = ((a : ℝ) * 2 ^ b < c * 2 ^ d) := rfl

theorem dy_lit {m : ℕ} {s : Bool} {k : ℕ} {a b : ℤ} (h : Rounds (OfScientific.ofScientific m s k) a b) :
    (OfScientific.ofScientific m s k : D64) = dy a b := by
  rw [fl_lit]; exact congrArg Fl.mk h

theorem sqrt_rounds {x lo hi : ℝ} (hlo : 0 ≤ lo) (hhi : 0 < hi) (h1 : lo * lo < x) (h2 : x < hi * hi) :
    lo < Real.sqrt x ∧ Real.sqrt x < hi := by
  constructor
  · exact Real.lt_sqrt_of_sq_lt (by rwa [sq])
  · rw [Real.sqrt_lt' hhi]; rwa [sq]

theorem dy_sqrtE {a b m e : ℤ} (ha : 0 ≤ a) (hm : 0 ≤ m) (hm' : |m| < 2 ^ 53) (he : -1000 ≤ e) (he' : e ≤ 900)
    (h : (a : ℝ) * 2 ^ b = m * 2 ^ e * (m * 2 ^ e)) : PyNum.sqrt (dy a b) = dy m e := by
  apply dy_sqrt ha
  have hm0 : (0 : ℝ) ≤ m := by exact_mod_cast hm
  rw [h, Real.sqrt_mul_self (by positivity)]
  exact rnd64_dyE rfl hm' he he'

theorem dy_sqrtN {a b m e : ℤ} (ha : 0 ≤ a) (h0 : 0 ≤ m) (h1 : (2 : ℤ) ^ 52 < |m|) (h2 : |m| < 2 ^ 53) (he : -1000 ≤ e)
    (he' : e ≤ 900) (lo : (m - 1 / 2) * 2 ^ e * ((m - 1 / 2) * 2 ^ e) < (a : ℝ) * 2 ^ b)
    (hi : (a : ℝ) * 2 ^ b < (m + 1 / 2) * 2 ^ e * ((m + 1 / 2) * 2 ^ e)) : PyNum.sqrt (dy a b) = dy m e := by
  apply dy_sqrt ha
  have hm0 : (1 : ℝ) ≤ m := by
    rw [abs_of_nonneg h0] at h1
    have : (1 : ℤ) ≤ m := by omega
    exact_mod_cast this
  have hp : (0 : ℝ) < 2 ^ e := by positivity
  obtain ⟨x, y⟩ := sqrt_rounds (mul_nonneg (by linarith) hp.le) (mul_pos (by linarith) hp) lo hi
  exact rnd64_dyN h1 h2 he he' x y

theorem dy_sqrtP {a b e : ℤ} (ha : 0 ≤ a) (he : -1000 < e) (he' : e ≤ 900)
    (lo : (2 ^ 52 - 1 / 4) * 2 ^ e * ((2 ^ 52 - 1 / 4) * 2 ^ e) < (a : ℝ) * 2 ^ b)
    (hi : (a : ℝ) * 2 ^ b < (2 ^ 52 + 1 / 2) * 2 ^ e * ((2 ^ 52 + 1 / 2) * 2 ^ e)) :
    PyNum.sqrt (dy a b) = dy 4503599627370496 e := by
  apply dy_sqrt ha
  have hp : (0 : ℝ) < 2 ^ e := by positivity
  obtain ⟨x, y⟩ := sqrt_rounds (mul_nonneg (by norm_num) hp.le) (mul_pos (by norm_num) hp) lo hi
  exact rnd64_dyP he he' x.le y.le

/-- Check a rounding, given the kind of rounding. -/
macro "dyE" : tactic => `(tactic| exact rnd64_dyE (by norm_num) (by norm_num) (by norm_num) (by norm_num))
macro "dyN" : tactic => `(tactic| exact rnd64_dyN (by norm_num) (by norm_num) (by norm_num) (by norm_num) (by norm_num) (by norm_num))
macro "dyT" : tactic => `(tactic| exact rnd64_dyT (by norm_num) (by norm_num) (by norm_num) (by norm_num) (by decide) (by norm_num) (by norm_num))
macro "dyP" : tactic => `(tactic| exact rnd64_dyP (by norm_num) (by norm_num) (by norm_num) (by norm_num))

end Optics
