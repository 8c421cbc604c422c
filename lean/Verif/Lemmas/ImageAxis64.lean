import Verif.Props.Bundles
import Verif.Props.RoundedGratingRuns
import Verif.Model.Scripts
import Verif.Spec.SampleGrid

/-! # The samples of image_rays with doubles -/

namespace Optics
open V3

theorem ofNat64 {n : ℕ} (hn : n ≤ 2 ^ 52) : (ofNat n : D64) = Fl.fin (n : ℝ) := by
  have h : (OfScientific.ofScientific n false 0 : ℝ) = (n : ℝ) := real_ofNat n
  unfold ofNat
  rw [fl_lit, h, lit64 hn]

/-- One sample of `np.linspace(-s, s, n)` with doubles. -/
theorem sample64 {s : ℝ} (hs : 0 ≤ s) (hs10 : s ≤ 10) {i k : ℕ} (hk : 0 < k) (hk2 : k ≤ 2 ^ 50) (hi : i ≤ k) :
    ∃ y, (ofNat i : D64) * (((Fl.fin s : D64) - Fl.fin (-s)) / ofNat k) + Fl.fin (-s) = Fl.fin y ∧
      |y - (-s + (i : ℝ) * (2 * s / (k : ℝ)))| ≤ 1 / 10 ^ 13 := by
  have hu : binary64.u = 1 / 2 ^ 53 := rfl
  have hk0 : (0 : ℝ) < k := by exact_mod_cast hk
  have hk1 : (1 : ℝ) ≤ k := by exact_mod_cast hk
  have hik : (i : ℝ) ≤ k := by exact_mod_cast hi
  have hi0 : (0 : ℝ) ≤ i := Nat.cast_nonneg i
  have hkb : (k : ℝ) ≤ 2 ^ 50 := by exact_mod_cast hk2
  have t0 : (1 : ℝ) / 10 ^ 250 ≤ 1 / 10 ^ 40 := one_div_le_one_div_of_le (by norm_num) (pow_le_pow_right₀ (by norm_num) (by norm_num))
  obtain ⟨d, hd, ed⟩ := rnd_near (R := binary64) (x := s - -s) (e := 20) (by rw [abs_le]; constructor <;> linarith) (by norm_num)
  have ed' : |d - 2 * s| ≤ 1 / 10 ^ 14 := by
    rw [show s - -s = 2 * s by ring] at ed
    exact ed.trans (by rw [hu]; norm_num)
  have ed2 := abs_le.mp ed'
  have hdk : |d / k| ≤ 21 / k := by
    rw [abs_div, abs_of_pos hk0]
    exact div_le_div_of_nonneg_right (by rw [abs_le]; constructor <;> norm_num at ed2 ⊢ <;> linarith) hk0.le
  obtain ⟨t, ht, et⟩ := rnd_near (R := binary64) (x := d / k) hdk (by
    have : (21 : ℝ) / k ≤ 21 := div_le_self (by norm_num) hk1
    exact this.trans (by norm_num))
  -- the step times the number
  have eit : |(i : ℝ) * t - i * (d / k)| ≤ 22 * binary64.u := by
    rw [← mul_sub, abs_mul, abs_of_nonneg hi0]
    refine (mul_le_mul hik et (abs_nonneg _) hk0.le).trans ?_
    have e : (k : ℝ) * (binary64.u * (21 / k + 1 / 10 ^ 250)) = binary64.u * (21 + k * (1 / 10 ^ 250)) := by field_simp
    rw [e, mul_comm 22]
    refine mul_le_mul_of_nonneg_left ?_ binary64.u_pos.le
    have : (k : ℝ) * (1 / 10 ^ 250) ≤ 2 ^ 50 * (1 / 10 ^ 40) := mul_le_mul hkb t0 (by positivity) (by norm_num)
    norm_num at this ⊢
    linarith
  have hq0 : 0 ≤ (i : ℝ) / k := by positivity
  have hq1 : (i : ℝ) / k ≤ 1 := (div_le_one hk0).mpr hik
  have eid : |(i : ℝ) * (d / k) - i * (2 * s / k)| ≤ 1 / 10 ^ 14 := by
    have e : (i : ℝ) * (d / k) - i * (2 * s / k) = (i / k) * (d - 2 * s) := by ring
    rw [e, abs_mul, abs_of_nonneg hq0]
    calc (i : ℝ) / k * |d - 2 * s| ≤ 1 * (1 / 10 ^ 14) := mul_le_mul hq1 ed' (abs_nonneg _) zero_le_one
      _ = _ := one_mul _
  have his : 0 ≤ (i : ℝ) * (2 * s / k) ∧ (i : ℝ) * (2 * s / k) ≤ 20 := by
    have e : (i : ℝ) * (2 * s / k) = (i / k) * (2 * s) := by ring
    rw [e]
    refine ⟨by positivity, ?_⟩
    calc (i : ℝ) / k * (2 * s) ≤ 1 * 20 := mul_le_mul hq1 (by linarith) (by linarith) zero_le_one
      _ = _ := one_mul _
  rw [hu] at eit
  have a1 := abs_le.mp eit
  have a2 := abs_le.mp eid
  norm_num at a1 a2
  obtain ⟨v, hv, ev⟩ := rnd_near (R := binary64) (x := (i : ℝ) * t) (e := 21) (by rw [abs_le]; constructor <;> linarith [his.1, his.2]) (by norm_num)
  have ev' : |v - (i : ℝ) * t| ≤ 22 * binary64.u := ev.trans (by rw [hu]; norm_num)
  rw [hu] at ev'
  have a3 := abs_le.mp ev'
  norm_num at a3
  obtain ⟨y, hy, ey⟩ := rnd_near (R := binary64) (x := v + -s) (e := 22) (by rw [abs_le]; constructor <;> linarith [his.1, his.2]) (by norm_num)
  have ey' : |y - (v + -s)| ≤ 23 * binary64.u := ey.trans (by rw [hu]; norm_num)
  rw [hu] at ey'
  have a4 := abs_le.mp ey'
  norm_num at a4
  refine ⟨y, ?_, ?_⟩
  · rw [ofNat64 (hi.trans (hk2.trans (by norm_num))), ofNat64 (hk2.trans (by norm_num)), fl_sub, hd, fl_div _ _ hk0.ne', ht, fl_mul, hv, fl_add, hy]
  · rw [abs_le]; constructor <;> norm_num <;> linarith

/-- The samples along one axis, with doubles, are close to the exact ones. -/
theorem imageAxis64 {res : ℤ} (h1 : 1 ≤ res) (h2 : res ≤ 2 ^ 50) {s : ℝ} (hs : 0 ≤ s) (hs10 : s ≤ 10) :
    ∃ g : ℕ → ℝ, imageAxis res (Fl.fin (-s) : D64) (Fl.fin s) = .ok ((List.range res.toNat).map fun i => Fl.fin (g i)) ∧
      ∀ i < res.toNat, |g i - gridPoint res.toNat s i| ≤ 1 / 10 ^ 13 := by
  unfold imageAxis
  have h1' : ¬ res < 1 := by omega
  simp only [h1', if_false]
  by_cases h3 : res = 1
  · subst h3
    refine ⟨fun _ => 0, ?_, fun i _ => ?_⟩
    · rw [fl_lit0]; rfl
    · show |(0 : ℝ) - gridPoint 1 s i| ≤ _
      rw [gridPoint, if_pos rfl, sub_zero, abs_zero]; norm_num
  · simp only [h3, if_false]
    obtain ⟨n, hn⟩ : ∃ n, n = res.toNat := ⟨_, rfl⟩
    rw [← hn]
    have hn2 : 2 ≤ n := by omega
    have hnb : n - 1 ≤ 2 ^ 50 := by omega
    have hk : 0 < n - 1 := by omega
    have key : ∀ i < n, ∃ y, (if i + 1 = n then (Fl.fin s : D64) else ofNat i * (((Fl.fin s : D64) - Fl.fin (-s)) / ofNat (n - 1)) + Fl.fin (-s)) = Fl.fin y ∧
        |y - gridPoint n s i| ≤ 1 / 10 ^ 13 := by
      intro i hi
      have hg : gridPoint n s i = -s + (i : ℝ) * (2 * s / ((n - 1 : ℕ) : ℝ)) := by
        rw [gridPoint, if_neg (by omega)]
      split_ifs with hl
      · refine ⟨s, rfl, ?_⟩
        have : i = n - 1 := by omega
        have hk0 : ((n - 1 : ℕ) : ℝ) ≠ 0 := by exact_mod_cast hk.ne'
        rw [hg, this]
        have e : s - (-s + ((n - 1 : ℕ) : ℝ) * (2 * s / ((n - 1 : ℕ) : ℝ))) = 0 := by field_simp; ring
        rw [e, abs_zero]; norm_num
      · rw [hg]
        exact sample64 hs hs10 hk hnb (by omega)
    choose! g hg1 hg2 using key
    refine ⟨g, ?_, hg2⟩
    unfold linspace
    congr 1
    apply List.map_congr_left
    intro i hi
    exact hg1 i (List.mem_range.mp hi)

end Optics
