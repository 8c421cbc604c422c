import Verif.Lemmas.NearBallLeave

/-! # A glass ball near a ray, with rounding: the way through the ball -/

namespace Optics
open V3

variable {R : Rounding}

theorem inside_num {h v δ Δ r : ℝ} (hh : 0 < h) (hv : 99 / 100 * h ≤ v) (hδ : |δ| ≤ Δ) (hΔ : Δ ≤ h ^ 2 / 1000)
    (hr : 0 ≤ r) (hr2 : r ^ 2 = v ^ 2 - δ) : 985 / 1000 * h ≤ r ∧ (v + -r) * (1975 / 1000 * h) ≤ Δ := by
  have hδ' := abs_le.mp hδ
  have a : 985 / 1000 * h ≤ r := by
    refine abs_le_of_sq_le_sq' ?_ hr |>.2
    rw [hr2]
    nlinarith
  refine ⟨a, ?_⟩
  have hΔ0 : 0 ≤ Δ := (abs_nonneg _).trans hδ
  by_cases hs : v + -r ≤ 0
  · nlinarith
  · have : (v + -r) * (v + r) ≤ Δ := by
      rw [show (v + -r) * (v + r) = v ^ 2 - r ^ 2 by ring, hr2]; linarith [hδ'.2]
    refine le_trans (mul_le_mul_of_nonneg_left ?_ (le_of_lt (not_le.mp hs))) this
    linarith

/-- The error of the computed larger root, and what it does to the radius. -/
theorem chord_num {U ρ k h T i δ : ℝ} (hU : 0 < U) (hρ : 0 < ρ) (hh : 0 < h) (hk : 985 / 1000 * h ≤ k) (hkρ : k ≤ 101 / 100 * ρ)
    (hsm : 16 * (U * ρ ^ 2) ≤ h ^ 2 / 1000) (hδ : δ = T - (i + k))
    (he : |δ| ≤ 671 / 100 * (U * ρ) + 51 / 100 * (151 / 10 * (U * ρ ^ 2) / k)) :
    |(T - i) ^ 2 - k ^ 2| ≤ 30 * (U * ρ ^ 2) ∧ |δ| * h ≤ 15 * (U * ρ ^ 2) := by
  have hk0 : 0 < k := by linarith
  have c0 : 0 < U * ρ ^ 2 := by positivity
  have g0 : 0 < U * ρ := by positivity
  have e1 : |δ| * k ≤ 1451 / 100 * (U * ρ ^ 2) := by
    have := mul_le_mul_of_nonneg_right he hk0.le
    have e2 : 51 / 100 * (151 / 10 * (U * ρ ^ 2) / k) * k = 51 / 100 * (151 / 10 * (U * ρ ^ 2)) := by field_simp
    have e3 : U * ρ * k ≤ 101 / 100 * (U * ρ ^ 2) := by
      have := mul_le_mul_of_nonneg_left hkρ g0.le
      rw [show 101 / 100 * (U * ρ ^ 2) = U * ρ * (101 / 100 * ρ) by ring]; exact this
    rw [add_mul, e2] at this
    linarith
  have hδ0 := abs_nonneg δ
  have e4 : |δ| * h ≤ 15 * (U * ρ ^ 2) := by nlinarith
  refine ⟨?_, e4⟩
  have e5 : |δ| ≤ h / 1000 := by
    have : |δ| * h ≤ h / 1000 * h := by nlinarith
    exact le_of_mul_le_mul_right this hh
  have e6 : |δ| * |δ| ≤ 15 / 1000 * (U * ρ ^ 2) := by
    have := mul_le_mul_of_nonneg_left e5 hδ0
    nlinarith
  rw [show (T - i) ^ 2 - k ^ 2 = δ * (2 * k + δ) by rw [hδ]; ring, abs_mul]
  have e7 : |2 * k + δ| ≤ 2 * k + |δ| := by
    have := abs_add_le (2 * k) δ
    rwa [abs_of_pos (by linarith : 0 < 2 * k)] at this
  have := mul_le_mul_of_nonneg_left e7 hδ0
  nlinarith

/-- The sphere test from inside: one root is behind or within the clipping floor, the other is a chord away. -/
theorem inside_root {w q : V3 ℝ} {ρ h Δ : ℝ} (hw : ‖w.toE‖ ≤ 1 + 1 / 100000) (hh : 1 / 1000 ≤ h) (z1 : h ≤ ρ) (hρ : 1 ≤ ρ)
    (hr : ρ ≤ 10 ^ 40) (hnear' : 508 / 1000 * Δ + 127 / 10 * (R.u * ρ ^ 2) ≤ h / 10 ^ 12)
    (hqb : ‖q.toE‖ ≤ (1 + 2 / 1000) * ρ) (hδ : |‖q.toE‖ ^ 2 - ρ ^ 2| ≤ Δ)
    (hv2 : 99 / 100 * h ≤ inner ℝ w.toE q.toE) :
    ∃ v D r t₀ t₁ f : ℝ, dot (w.fl : V3 (Fl R)) q.fl = Fl.fin v ∧
      (Fl.fin v : Fl R) * Fl.fin v - (dot (q.fl : V3 (Fl R)) q.fl - (Fl.fin ρ : Fl R) * Fl.fin ρ) = Fl.fin D ∧ 0 < D ∧
      PyNum.sqrt (Fl.fin D : Fl R) = Fl.fin r ∧ (Fl.fin v : Fl R) - Fl.fin r = Fl.fin t₀ ∧
      (Fl.fin v : Fl R) + Fl.fin r = Fl.fin t₁ ∧ (clippingFloor : Fl R) = Fl.fin f ∧ t₀ ≤ f ∧ f ≤ 11 / 10 ^ 13 ∧
      t₁ ≤ 204 / 100 * ρ ∧ |t₁ ^ 2 - 2 * t₁ * inner ℝ w.toE q.toE + (‖q.toE‖ ^ 2 - ρ ^ 2)| ≤ 30 * (R.u * ρ ^ 2) ∧
      |t₁ - 2 * inner ℝ w.toE q.toE| * h ≤ 15 * (R.u * ρ ^ 2) + 11 / 10 * Δ := by
  have hu := R.u_pos
  have huρ : 0 < R.u * ρ := by positivity
  have huρρ : 0 < R.u * ρ ^ 2 := by positivity
  have uh : R.u * ρ * h ≤ R.u * ρ ^ 2 := by
    rw [sq, ← mul_assoc]; exact mul_le_mul_of_nonneg_left z1 huρ.le
  have hd2 : discr w q ρ = inner ℝ w.toE q.toE ^ 2 - (‖q.toE‖ ^ 2 - ρ ^ 2) := rfl
  have hh0 : 0 < h := by linarith
  have hΔ0 : 0 ≤ Δ := (abs_nonneg _).trans hδ
  have ht := tiny_of hh
  have hΔs : Δ ≤ h ^ 2 / 1000 := by linarith [sq_nonneg h]
  have hdp : 0 ≤ discr w q ρ := by
    rw [hd2]
    have := (abs_le.mp hδ).2
    nlinarith
  obtain ⟨n1, n2⟩ := inside_num hh0 hv2 hδ hΔs (Real.sqrt_nonneg (discr w q ρ)) (by rw [Real.sq_sqrt hdp, hd2])
  have hsm : 16 * (R.u * ρ ^ 2) ≤ h ^ 2 / 1000 := by linarith [sq_nonneg h]
  obtain ⟨v, D, r, hv, hD, hD0, hr', ev, er, hvb, hr0, hrb, hkρ⟩ := root_pair (R := R) hw hh0 hρ hr hqb hdp n1 hsm
  have hsq : Real.sqrt (discr w q ρ) ^ 2 = inner ℝ w.toE q.toE ^ 2 - (‖q.toE‖ ^ 2 - ρ ^ 2) := by rw [Real.sq_sqrt hdp, hd2]
  generalize Real.sqrt (discr w q ρ) = k at *
  generalize inner ℝ w.toE q.toE = i at *
  have er' := abs_le.mp er
  have ev' := abs_le.mp ev
  have hvb' := abs_le.mp hvb
  have hsum : v + -r ≤ 1 / 10 ^ 12 :=
    sum_small hh0 n1 n2 huρρ (by linarith only [ev'.2]) (by linarith only [er'.1]) uh hnear' hΔ0
  have b200 : 203 / 100 * ρ ≤ 10 ^ 200 := by
    have : 4 * (10 : ℝ) ^ 40 ≤ 10 ^ 200 := by norm_num
    linarith
  obtain ⟨t₀, ht₀, -⟩ := rnd_big (R := R) (x := v - r) (e := 203 / 100 * ρ) (by rw [abs_le]; constructor <;> linarith) b200
  obtain ⟨t₁, ht₁, et₁⟩ := rnd_big (R := R) (x := v + r) (e := 203 / 100 * ρ) (by rw [abs_le]; constructor <;> linarith) b200
  obtain ⟨f, f1, f2, hf, hf'⟩ := fl_floor (R := R)
  have m0 : t₀ ≤ f := by
    have := R.mono _ _ (show v - r ≤ 1 / 10 ^ 12 by linarith)
    rw [show R.rnd (v - r) = .fin t₀ from congrArg Fl.val ht₀, hf'] at this
    exact this
  have et₁' := abs_le.mp et₁
  have huu : R.u ≤ R.u * ρ := le_mul_of_one_le_right hu.le hρ
  have uρs : R.u * ρ ≤ ρ / 1000000 := by
    have hus := (five_u (R := R)).2
    nlinarith
  obtain ⟨c1, c2⟩ := chord_num (U := R.u) (T := t₁) (i := i) (δ := t₁ - (i + k)) hu (by linarith) hh0 n1 hkρ hsm rfl (by
    rw [abs_le]; constructor <;> linarith only [er'.1, er'.2, ev'.1, ev'.2, et₁'.1, et₁'.2, huu, huρ])
  refine ⟨v, D, r, t₀, t₁, f, hv, hD, hD0, hr', by rw [fl_sub, ht₀], by rw [fl_add, ht₁], hf, m0, f2,
    by linarith only [et₁'.2, hvb'.2, hrb, uρs, huu, hρ], ?_, ?_⟩
  · rw [show t₁ ^ 2 - 2 * t₁ * i + (‖q.toE‖ ^ 2 - ρ ^ 2) = (t₁ - i) ^ 2 - k ^ 2 by rw [hsq]; ring]
    exact c1
  · have e1 : |k - i| * (k + i) ≤ Δ := by
      rw [← abs_of_pos (show 0 < k + i by linarith), ← abs_mul,
        show (k - i) * (k + i) = -(‖q.toE‖ ^ 2 - ρ ^ 2) by linear_combination hsq, abs_neg]
      exact hδ
    have e2 : |k - i| * h ≤ 11 / 10 * Δ := by
      have : |k - i| * h ≤ |k - i| * (k + i) := mul_le_mul_of_nonneg_left (by linarith) (abs_nonneg _)
      linarith
    have e3 := abs_add_le (t₁ - (i + k)) (k - i)
    rw [show t₁ - (i + k) + (k - i) = t₁ - 2 * i by ring] at e3
    have := mul_le_mul_of_nonneg_right e3 hh0.le
    linarith

end Optics
