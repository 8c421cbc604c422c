import Verif.Lemmas.RoundedPath
import Verif.Lemmas.RoundedSnell

/-!
# The sphere test with rounding

The error of the discriminant, its root and the distances along the ray in `Sphere.test_intersect` (shapes.py:305-356).
-/

namespace Optics
open V3

variable {R : Rounding}

theorem rnd_big {x e : ℝ} (hx : |x| ≤ e) (he : e ≤ 10 ^ 200) :
    ∃ y, (⟨R.rnd x⟩ : Fl R) = Fl.fin y ∧ |y - x| ≤ R.u * (e + 1 / 1000) := by
  have hb : (10 : ℝ) ^ 200 ≤ 10 ^ 250 := pow_le_pow_right₀ (by norm_num) (by norm_num)
  obtain ⟨y, h1, h2⟩ := rnd_near (R := R) hx (he.trans hb)
  refine ⟨y, h1, h2.trans (mul_le_mul_of_nonneg_left ?_ R.u_pos.le)⟩
  have : (1 : ℝ) / 10 ^ 250 ≤ 1 / 1000 := one_div_le_one_div_of_le (by norm_num)
    (le_trans (by norm_num : (1000 : ℝ) ≤ 10 ^ 3) (pow_le_pow_right₀ (by norm_num) (by norm_num)))
  linarith

/-- The exact discriminant. -/
noncomputable def discr (d q : V3 ℝ) (ρ : ℝ) : ℝ := inner ℝ d.toE q.toE ^ 2 - (‖q.toE‖ ^ 2 - ρ ^ 2)

theorem NearUnit.sq {d : V3 ℝ} (h : NearUnit R d) : |‖d.toE‖ ^ 2 - 1| ≤ 101 / 10 * R.u := by
  have hb := h.bounds
  have hu := R.u_pos
  rw [show ‖d.toE‖ ^ 2 - 1 = (‖d.toE‖ - 1) * (‖d.toE‖ + 1) by ring]
  refine (abs_mul_le' h (B := 202 / 100) ?_).trans (by linarith)
  rw [abs_le]; constructor <;> linarith [_root_.norm_nonneg d.toE]

theorem discr_bounds {d q : V3 ℝ} {ρ Q : ℝ} (hd : ‖d.toE‖ ≤ 1 + 1 / 100000) (hq : ‖q.toE‖ ≤ Q) (hρ0 : 0 ≤ ρ) (hρ : ρ ≤ Q) :
    |inner ℝ d.toE q.toE| ≤ (1 + 1 / 100000) * Q ∧ discr d q ρ ≤ ρ ^ 2 + 1 / 10000 * Q ^ 2 ∧
      |discr d q ρ| ≤ (1 + 1 / 1000) * Q ^ 2 := by
  have hq0 := _root_.norm_nonneg q.toE
  have hQ0 : 0 ≤ Q := hq0.trans hq
  have h1 : |inner ℝ d.toE q.toE| ≤ ‖d.toE‖ * ‖q.toE‖ := abs_real_inner_le_norm _ _
  have h2 : ‖d.toE‖ * ‖q.toE‖ ≤ (1 + 1 / 100000) * Q := mul_le_mul hd hq hq0 (by norm_num)
  have hqq : ‖q.toE‖ ^ 2 ≤ Q ^ 2 := pow_le_pow_left₀ hq0 hq 2
  have hρρ : ρ ^ 2 ≤ Q ^ 2 := pow_le_pow_left₀ hρ0 hρ 2
  have h3 : inner ℝ d.toE q.toE ^ 2 ≤ ‖d.toE‖ ^ 2 * ‖q.toE‖ ^ 2 := by
    rw [← mul_pow, ← sq_abs (inner ℝ d.toE q.toE)]
    exact pow_le_pow_left₀ (abs_nonneg _) h1 2
  have h4 : ‖d.toE‖ ^ 2 * ‖q.toE‖ ^ 2 ≤ (1 + 1 / 10000) * ‖q.toE‖ ^ 2 := by
    refine mul_le_mul_of_nonneg_right ?_ (by positivity)
    nlinarith [_root_.norm_nonneg d.toE]
  have h7 : discr d q ρ ≤ ρ ^ 2 + 1 / 10000 * Q ^ 2 := by unfold discr; linarith
  refine ⟨h1.trans h2, h7, ?_⟩
  rw [abs_le]
  constructor
  · unfold discr
    have := sq_nonneg (inner ℝ d.toE q.toE)
    have := sq_nonneg ρ
    have := sq_nonneg Q
    linarith
  · have := sq_nonneg Q
    linarith

/-- The computed discriminant. -/
theorem discr_near {d q : V3 ℝ} {ρ Q : ℝ} (hd : ‖d.toE‖ ≤ 1 + 1 / 100000) (hq : ‖q.toE‖ ≤ Q) (hρ0 : 0 ≤ ρ) (hρ : ρ ≤ Q)
    (hQ : 1 ≤ Q) (hQ' : Q ≤ 10 ^ 50) :
    ∃ v D : ℝ, dot (d.fl : V3 (Fl R)) q.fl = Fl.fin v ∧ |v - inner ℝ d.toE q.toE| ≤ 36 / 10 * (R.u * Q) ∧
      |v| ≤ (1 + 1 / 10000) * Q ∧
      (Fl.fin v : Fl R) * Fl.fin v - (dot (q.fl : V3 (Fl R)) q.fl - (Fl.fin ρ : Fl R) * Fl.fin ρ) = Fl.fin D ∧
      |D - discr d q ρ| ≤ 15 * (R.u * Q ^ 2) := by
  have hu := R.u_pos
  have hus := (five_u (R := R)).2
  have hq0 := _root_.norm_nonneg q.toE
  obtain ⟨b1, -, b3⟩ := discr_bounds hd hq hρ0 hρ
  have hQ2 : Q ≤ Q ^ 2 := by nlinarith
  have hQQ : Q ^ 2 ≤ 10 ^ 100 := by
    calc Q ^ 2 ≤ (10 ^ 50) ^ 2 := pow_le_pow_left₀ (by linarith) hQ' 2
      _ = 10 ^ 100 := by norm_num
  have big : (2 : ℝ) * 10 ^ 100 ≤ 10 ^ 200 := by norm_num
  have hqq : ‖q.toE‖ ^ 2 ≤ Q ^ 2 := pow_le_pow_left₀ hq0 hq 2
  have hρρ : ρ ^ 2 ≤ Q ^ 2 := pow_le_pow_left₀ hρ0 hρ 2
  have huQ : R.u * Q ≤ 1 / 1000000 * Q := mul_le_mul_of_nonneg_right hus (by linarith)
  have huQ2 : R.u * Q ^ 2 ≤ 1 / 1000000 * Q ^ 2 := mul_le_mul_of_nonneg_right hus (by positivity)
  have huQ0 : 0 < R.u * Q := by positivity
  have huu : R.u ≤ R.u * Q ^ 2 := le_mul_of_one_le_right hu.le (by linarith)
  obtain ⟨v, hv, ev⟩ := dot_near' (R := R) (a := d) (b := q) (A := (1 + 1 / 100000) * Q)
    (mul_le_mul hd hq hq0 (by norm_num)) (by linarith) (by linarith)
  have ev' : |v - inner ℝ d.toE q.toE| ≤ 351 / 100 * (R.u * Q) := ev.trans (by linarith)
  have hvb : |v| ≤ (1 + 1 / 10000) * Q := by
    have := abs_sub_abs_le_abs_sub v (inner ℝ d.toE q.toE)
    linarith
  obtain ⟨qq, hqq', eqq⟩ := dot_near' (R := R) (a := q) (b := q) (A := Q ^ 2)
    (by rw [← sq]; exact hqq) (by linarith) (by linarith)
  rw [real_inner_self_eq_norm_sq] at eqq
  obtain ⟨rr, hrr, err⟩ := rnd_big (R := R) (x := ρ * ρ) (e := Q ^ 2)
    (by rw [abs_of_nonneg (by positivity), ← sq]; exact hρρ) (by linarith)
  have hvv : |v * v| ≤ (1 + 1 / 1000) * Q ^ 2 := by
    refine (abs_mul_le' hvb hvb).trans ?_
    nlinarith [sq_nonneg Q]
  obtain ⟨vv, hvv', evv⟩ := rnd_big (R := R) hvv (by linarith)
  have sq1 : |v * v - inner ℝ d.toE q.toE ^ 2| ≤ 703 / 100 * (R.u * Q ^ 2) := by
    rw [show v * v - inner ℝ d.toE q.toE ^ 2 = (v - inner ℝ d.toE q.toE) * (v + inner ℝ d.toE q.toE) by ring]
    refine (abs_mul_le' ev' (B := (2 + 2 / 10000) * Q) ?_).trans ?_
    · have := abs_add_le v (inner ℝ d.toE q.toE)
      linarith
    · rw [show 351 / 100 * (R.u * Q) * ((2 + 2 / 10000) * Q) = 351 / 100 * (2 + 2 / 10000) * (R.u * Q ^ 2) by ring]
      have : 0 < R.u * Q ^ 2 := by positivity
      linarith
  have sq2 : |(qq - rr) - (‖q.toE‖ ^ 2 - ρ ^ 2)| ≤ 451 / 100 * (R.u * Q ^ 2) := by
    rw [abs_le] at eqq err ⊢
    constructor <;> linarith [eqq.1, eqq.2, err.1, err.2, sq ρ]
  have sq2b : |qq - rr| ≤ (1 + 1 / 1000) * Q ^ 2 := by
    have := abs_sub_abs_le_abs_sub (qq - rr) (‖q.toE‖ ^ 2 - ρ ^ 2)
    have h2 : |‖q.toE‖ ^ 2 - ρ ^ 2| ≤ Q ^ 2 := by
      rw [abs_le]; constructor <;> linarith [sq_nonneg ρ, sq_nonneg ‖q.toE‖]
    linarith
  obtain ⟨s, hs, es⟩ := rnd_big (R := R) sq2b (by linarith)
  have hdd : |(vv - s) - discr d q ρ| ≤ 1375 / 100 * (R.u * Q ^ 2) := by
    unfold discr
    have t := abs_add_three (vv - v * v) (v * v - inner ℝ d.toE q.toE ^ 2) (-((s - (qq - rr)) + ((qq - rr) - (‖q.toE‖ ^ 2 - ρ ^ 2))))
    rw [abs_neg] at t
    have t2 := abs_add_le (s - (qq - rr)) ((qq - rr) - (‖q.toE‖ ^ 2 - ρ ^ 2))
    rw [show (vv - s) - (inner ℝ d.toE q.toE ^ 2 - (‖q.toE‖ ^ 2 - ρ ^ 2)) = (vv - v * v) + (v * v - inner ℝ d.toE q.toE ^ 2)
      + (-((s - (qq - rr)) + ((qq - rr) - (‖q.toE‖ ^ 2 - ρ ^ 2)))) by ring]
    linarith
  have hdb : |vv - s| ≤ (1 + 2 / 1000) * Q ^ 2 := by
    have := abs_sub_abs_le_abs_sub (vv - s) (discr d q ρ)
    linarith
  obtain ⟨D, hD, eD⟩ := rnd_big (R := R) hdb (by linarith)
  refine ⟨v, D, hv, by linarith, hvb, ?_, ?_⟩
  · rw [hqq', fl_mul, fl_mul, hvv', hrr, fl_sub, hs, fl_sub, hD]
  · have t := abs_add_le (D - (vv - s)) ((vv - s) - discr d q ρ)
    rw [show D - discr d q ρ = (D - (vv - s)) + ((vv - s) - discr d q ρ) by ring]
    linarith

/-- The computed root of a discriminant that is not too small. -/
theorem root_near {D h e H : ℝ} (hh : 0 < h) (hH : h ≤ H) (hH1 : 1 ≤ H) (hH' : H ≤ 10 ^ 60) (he : |D - h ^ 2| ≤ e) (hs : e ≤ h ^ 2 / 100) :
    0 < D ∧ ∃ r, PyNum.sqrt (Fl.fin D : Fl R) = Fl.fin r ∧ |r - h| ≤ 51 / 100 * (e / h) + 103 / 100 * (R.u * H) := by
  have hu := R.u_pos
  have he' := abs_le.mp he
  have hD : 99 / 100 * h ^ 2 ≤ D := by linarith
  have hD0 : 0 < D := lt_of_lt_of_le (by positivity) hD
  refine ⟨hD0, ?_⟩
  have hsq := Real.sq_sqrt hD0.le
  have hs0 := Real.sqrt_nonneg D
  have hlow : 99 / 100 * h ≤ Real.sqrt D := by
    apply Real.le_sqrt_of_sq_le
    nlinarith
  have hdiff : |Real.sqrt D - h| ≤ 51 / 100 * (e / h) := by
    have h1 : |Real.sqrt D - h| * (Real.sqrt D + h) ≤ e := by
      rw [← abs_of_pos (show 0 < Real.sqrt D + h by linarith), ← abs_mul,
        show (Real.sqrt D - h) * (Real.sqrt D + h) = Real.sqrt D ^ 2 - h ^ 2 by ring, hsq]
      exact he
    have h2 : |Real.sqrt D - h| * (199 / 100 * h) ≤ e :=
      le_trans (mul_le_mul_of_nonneg_left (by linarith) (abs_nonneg _)) h1
    rw [show 51 / 100 * (e / h) = (51 / 100 * e) / h by ring, le_div_iff₀ hh]
    nlinarith [abs_nonneg (Real.sqrt D - h)]
  have heh : e / h ≤ h / 100 := by
    rw [div_le_iff₀ hh]; nlinarith
  have hsb : |Real.sqrt D| ≤ 102 / 100 * H := by
    rw [abs_of_nonneg hs0]
    have := (abs_le.mp hdiff).2
    linarith
  obtain ⟨r, hr, er⟩ := rnd_big (R := R) hsb (by
    have : (102 : ℝ) / 100 * 10 ^ 60 ≤ 10 ^ 200 := by norm_num
    linarith)
  refine ⟨r, ?_, ?_⟩
  · rw [fl_sqrt _ hD0.le, hr]
  · have t := abs_add_le (r - Real.sqrt D) (Real.sqrt D - h)
    rw [show r - h = (r - Real.sqrt D) + (Real.sqrt D - h) by ring]
    have : R.u * (102 / 100 * H + 1 / 1000) ≤ 103 / 100 * (R.u * H) := by nlinarith
    linarith

end Optics
