import Verif.Lemmas.RoundedPath
import Verif.Lemmas.NearBallRun
import Verif.Spec.RoundedLens

/-! # Ideal lenses with rounded arithmetic -/

namespace Optics
variable {R : Rounding}
open V3

/-- The literal `2.0`. -/
theorem fl_two : ∃ τ : ℝ, (2.0 : Fl R) = Fl.fin τ ∧ |τ - 2| ≤ 201 / 100 * R.u := by
  have hu := R.u_pos
  obtain ⟨τ, hτ, eτ⟩ := rnd_near (R := R) (x := 2) (e := 2) (by norm_num) (by norm_num)
  refine ⟨τ, by rw [fl_lit, show (OfScientific.ofScientific 20 true 1 : ℝ) = 2 by norm_num, hτ], eτ.trans ?_⟩
  have : R.u * (2 + 1 / 10 ^ 250) ≤ R.u * (201 / 100) := mul_le_mul_of_nonneg_left (by norm_num) hu.le
  linarith

/-- The right hand side of `np.isclose(a, b, rtol=1e-10)`. -/
theorem fl_tolerance {b : ℝ} (hb : |b| ≤ 2) :
    ∃ y, (atolDefault : Fl R) + (1e-10 : Fl R) * PyNum.abs (Fl.fin b : Fl R) = Fl.fin y ∧ y ≤ 103 / 10 ^ 10 := by
  have hu := R.u_pos
  have hus := (five_u (R := R)).2
  obtain ⟨p, hp, ep⟩ := rnd_near (R := R) (x := (1e-8 : ℝ)) (e := 1 / 10 ^ 8) (by norm_num [abs_of_pos]) (by norm_num)
  obtain ⟨q, hq, eq⟩ := rnd_near (R := R) (x := (1e-10 : ℝ)) (e := 1 / 10 ^ 10) (by norm_num [abs_of_pos]) (by norm_num)
  have hlp : (atolDefault : Fl R) = Fl.fin p := by rw [← hp]; rfl
  have hlq : (1e-10 : Fl R) = Fl.fin q := by rw [← hq]; rfl
  have ht : (1 : ℝ) / 10 ^ 250 ≤ 1 / 10 ^ 20 := by norm_num
  have hp' := abs_le.mp ep
  have hq' := abs_le.mp eq
  have b1 : R.u * (1 / 10 ^ 8 + 1 / 10 ^ 250) ≤ 1 / 1000000 * (1 / 10 ^ 8 + 1 / 10 ^ 20) :=
    mul_le_mul hus (by linarith) (by positivity) (by norm_num)
  have b2 : R.u * (1 / 10 ^ 10 + 1 / 10 ^ 250) ≤ 1 / 1000000 * (1 / 10 ^ 10 + 1 / 10 ^ 20) :=
    mul_le_mul hus (by linarith) (by positivity) (by norm_num)
  have p1 : |p| ≤ 10001 / 10 ^ 12 := by
    rw [abs_le]
    norm_num at hp' b1 ⊢
    constructor <;> linarith [hp'.1, hp'.2]
  have q1 : |q| ≤ 10001 / 10 ^ 14 := by
    rw [abs_le]
    norm_num at hq' b2 ⊢
    constructor <;> linarith [hq'.1, hq'.2]
  have qb : |q * (|b|)| ≤ 20002 / 10 ^ 14 := by
    rw [abs_mul, abs_abs]
    refine (mul_le_mul q1 hb (abs_nonneg _) (by norm_num)).trans (by norm_num)
  obtain ⟨z, hz, ez⟩ := rnd_near (R := R) qb (by norm_num)
  have b3 : R.u * (20002 / 10 ^ 14 + 1 / 10 ^ 250) ≤ 1 / 1000000 * (20002 / 10 ^ 14 + 1 / 10 ^ 20) :=
    mul_le_mul hus (by linarith) (by positivity) (by norm_num)
  have z1 : |z| ≤ 20003 / 10 ^ 14 := by
    have := abs_add_le (z - q * (|b|)) (q * (|b|))
    rw [sub_add_cancel] at this
    norm_num at this ez qb b3 ⊢
    linarith
  have s1 : |p + z| ≤ 10202 / 10 ^ 12 := by
    have := abs_add_le p z
    norm_num at this p1 z1 ⊢
    linarith
  obtain ⟨y, hy, ey⟩ := rnd_near (R := R) s1 (by norm_num)
  have b4 : R.u * (10202 / 10 ^ 12 + 1 / 10 ^ 250) ≤ 1 / 1000000 * (10202 / 10 ^ 12 + 1 / 10 ^ 20) :=
    mul_le_mul hus (by linarith) (by positivity) (by norm_num)
  refine ⟨y, by rw [hlp, hlq, fl_abs, fl_mul, hz, fl_add, hy], ?_⟩
  have h1 := (abs_le.mp ey).2
  have h2 := (abs_le.mp s1).2
  norm_num at h1 h2 b4 ⊢
  linarith

/-- `np.isclose(a, b, rtol=1e-10)` of numbers that are not large: they are close. -/
theorem fl_isclose {a b : ℝ} (ha : |a| ≤ 2) (hb : |b| ≤ 2)
    (h : isclose (Fl.fin a : Fl R) (Fl.fin b) 1e-10 atolDefault = true) : |a - b| ≤ 104 / 10 ^ 10 := by
  have hu := R.u_pos
  have hus := (five_u (R := R)).2
  obtain ⟨y, hy, ey⟩ := fl_tolerance (R := R) hb
  have e1 : |a - b| ≤ |a - b| := le_rfl
  have e2 : |a - b| ≤ 4 := by have := abs_sub a b; linarith
  obtain ⟨d, hd, ed⟩ := rnd_near (R := R) e1 (e2.trans (by norm_num))
  unfold isclose at h
  rw [hy, fl_sub, hd, fl_abs] at h
  have h1 : |d| ≤ y := of_decide_eq_true h
  have h2 := abs_sub_abs_le_abs_sub (a - b) d
  rw [abs_sub_comm (a - b) d] at h2
  have h3 : R.u * (|a - b| + 1 / 10 ^ 250) ≤ 1 / 1000000 * (|a - b| + 1 / 10 ^ 20) :=
    mul_le_mul hus (by linarith [show (1 : ℝ) / 10 ^ 250 ≤ 1 / 10 ^ 20 by norm_num]) (by positivity) (by norm_num)
  norm_num at h1 h2 h3 ed ey ⊢
  linarith

theorem fl_allclose {v w : V3 ℝ} (hv : ‖v.toE‖ ≤ 2) (hw : ‖w.toE‖ ≤ 2)
    (h : allclose (v.fl : V3 (Fl R)) w.fl 1e-10 atolDefault = true) : ‖v.toE - w.toE‖ ≤ 188 / 10 ^ 10 := by
  obtain ⟨vx, vy, vz⟩ := comp_le v
  obtain ⟨wx, wy, wz⟩ := comp_le w
  simp only [allclose, Bool.and_eq_true] at h
  obtain ⟨⟨h1, h2⟩, h3⟩ := h
  rw [← toE_sub]
  refine (normE_le (e := 104 / 10 ^ 10) (by norm_num) (fl_isclose (vx.trans hv) (wx.trans hw) h1)
    (fl_isclose (vy.trans hv) (wy.trans hw) h2) (fl_isclose (vz.trans hv) (wz.trans hw) h3)).trans (by norm_num)

/-- The normal turned to the side the ray goes to, and the computed cosine, when the ray is not nearly in the plane of
the lens. -/
theorem thin_facing {d n : V3 ℝ} {M : E3} (hd : NearUnit R d) (hM : ‖M‖ = 1) (hn : ‖n.toE - M‖ ≤ 5 * R.u) {c : ℝ}
    (hc : |inner ℝ M d.toE| = c) (hc0 : 1 / 1000 ≤ c) :
    ∃ (m : V3 ℝ) (M' : E3) (a b : ℝ), orientedNormal (n.fl : V3 (Fl R)) d.fl = m.fl ∧ (M' = M ∨ M' = -M) ∧
      ‖m.toE - M'‖ ≤ 5 * R.u ∧ inner ℝ M' d.toE = c ∧ dot (m.fl : V3 (Fl R)) d.fl = Fl.fin a ∧ |a - c| ≤ 87 / 10 * R.u ∧
      dot (d.fl : V3 (Fl R)) m.fl = Fl.fin b ∧ |b - c| ≤ 87 / 10 * R.u := by
  have hu := R.u_pos
  obtain ⟨h5, hus⟩ := five_u (R := R)
  obtain ⟨hd1, -⟩ := hd.bounds
  -- any vector near a unit vector
  have key : ∀ (m : V3 ℝ) (M' : E3), ‖M'‖ = 1 → ‖m.toE - M'‖ ≤ 5 * R.u →
      ∃ a b : ℝ, dot (m.fl : V3 (Fl R)) d.fl = Fl.fin a ∧ |a - inner ℝ M' d.toE| ≤ 87 / 10 * R.u ∧
      dot (d.fl : V3 (Fl R)) m.fl = Fl.fin b ∧ |b - inner ℝ M' d.toE| ≤ 87 / 10 * R.u := by
    intro m M' hM' hm
    obtain ⟨m1, -⟩ := (nearUnit_of hM' hm).bounds
    have hA : ‖m.toE‖ * ‖d.toE‖ ≤ 1 + 1 / 10000 :=
      (mul_le_mul m1 hd1 (_root_.norm_nonneg _) (by norm_num)).trans (by norm_num)
    obtain ⟨a, h1, h2⟩ := dot_near' (R := R) hA (by norm_num) (by norm_num)
    obtain ⟨b, h3, h4⟩ := dot_near' (R := R) ((mul_comm _ _).trans_le hA) (by norm_num) (by norm_num)
    rw [real_inner_comm] at h4
    have h5 : |inner ℝ m.toE d.toE - inner ℝ M' d.toE| ≤ 5 * R.u * (1 + 1 / 100000) := by
      rw [← inner_sub_left]
      exact (abs_real_inner_le_norm _ _).trans (mul_le_mul hm hd1 (_root_.norm_nonneg _) (by positivity))
    refine ⟨a, b, h1, ?_, h3, ?_⟩
    · have := abs_sub_le a (inner ℝ m.toE d.toE) (inner ℝ M' d.toE); linarith
    · have := abs_sub_le b (inner ℝ m.toE d.toE) (inner ℝ M' d.toE); linarith
  obtain ⟨a, b, h1, h2, h3, h4⟩ := key n M hM hn
  have h2' := abs_le.mp h2
  unfold orientedNormal
  rw [h1, fl_lit0]
  by_cases hneg : a < 0
  · rw [if_pos (show (Fl.fin a : Fl R) < Fl.fin 0 from hneg)]
    have hin : inner ℝ M d.toE = -c := by
      rcases abs_choice (inner ℝ M d.toE) with e | e
      · rw [e] at hc; linarith [h2'.1]
      · linarith
    have hm' : ‖(-n : V3 ℝ).toE - -M‖ ≤ 5 * R.u := by
      rw [toE_neg, show -n.toE - -M = -(n.toE - M) by abel, _root_.norm_neg]; exact hn
    obtain ⟨a', b', k1, k2, k3, k4⟩ := key (-n) (-M) (by rw [_root_.norm_neg, hM]) hm'
    have hin' : inner ℝ (-M) d.toE = c := by rw [inner_neg_left, hin, neg_neg]
    rw [hin'] at k2 k4
    exact ⟨-n, -M, a', b', rfl, Or.inr rfl, hm', hin', k1, k2, k3, k4⟩
  · rw [if_neg (show ¬ (Fl.fin a : Fl R) < Fl.fin 0 from hneg)]
    have hin : inner ℝ M d.toE = c := by
      rcases abs_choice (inner ℝ M d.toE) with e | e
      · linarith
      · rw [e] at hc; linarith [h2'.2]
    rw [hin] at h2 h4
    exact ⟨n, M, a, b, rfl, Or.inl rfl, hn, hin, h1, h2, h3, h4⟩

/-- The scale factor `2 f / cos`. -/
theorem thin_scale {f B c b : ℝ} (hf : 0 < f) (hfB : f ≤ B) (hB : 1 ≤ B) (hB' : B ≤ 10 ^ 50) (hc0 : 1 / 1000 ≤ c)
    (hc1 : c ≤ 1 + 1 / 10000) (hb : |b - c| ≤ 87 / 10 * R.u) :
    ∃ s, (2.0 : Fl R) * Fl.fin f / Fl.fin b = Fl.fin s ∧ |s - 2 * (f / c)| ≤ 25 * (R.u * (B / c ^ 2)) := by
  have hu := R.u_pos
  have hus := (five_u (R := R)).2
  have hcp : 0 < c := by linarith
  have hb' := abs_le.mp hb
  have hblo : 99 / 100 * c ≤ b := by linarith [hb'.1]
  have hbp : 0 < b := by linarith
  obtain ⟨τ, hτ, eτ⟩ := fl_two (R := R)
  have huB : R.u ≤ R.u * B := by nlinarith
  have huB0 : 0 < R.u * B := by positivity
  have e1 : |τ * f - 2 * f| ≤ 201 / 100 * (R.u * B) := by
    rw [← sub_mul, abs_mul, abs_of_pos hf]
    refine (mul_le_mul eτ hfB hf.le (by positivity)).trans_eq (by ring)
  have e2 : |τ * f| ≤ 201 / 100 * B := by
    have := abs_add_le (τ * f - 2 * f) (2 * f)
    rw [sub_add_cancel, abs_of_pos (show 0 < 2 * f by linarith)] at this
    have h3 := mul_le_mul_of_nonneg_right hus (show 0 ≤ B by linarith)
    linarith
  have big : (10 : ℝ) ^ 50 * 3 ≤ 10 ^ 250 := by norm_num
  obtain ⟨a, ha, ea⟩ := rnd_near (R := R) e2 (by linarith)
  have ea' : |a - 2 * f| ≤ 41 / 10 * (R.u * B) := by
    have h1 := abs_sub_le a (τ * f) (2 * f)
    have h2 : R.u * (201 / 100 * B + 1 / 10 ^ 250) ≤ 202 / 100 * (R.u * B) := by
      have : (1 : ℝ) / 10 ^ 250 ≤ 1 / 100 * B := le_trans (by norm_num) (by linarith : (1 : ℝ) / 100 ≤ 1 / 100 * B)
      have := mul_le_mul_of_nonneg_left (show 201 / 100 * B + 1 / 10 ^ 250 ≤ 202 / 100 * B by linarith) hu.le
      linarith
    linarith
  -- the quotient
  obtain ⟨X, hX⟩ : ∃ X, X = B / c ^ 2 := ⟨_, rfl⟩
  have hXp : 0 < X := by rw [hX]; positivity
  have hBX : B / c ≤ (1 + 1 / 10000) * X := by
    rw [hX]
    have : B / c = c * (B / c ^ 2) := by field_simp
    rw [this]; exact mul_le_mul_of_nonneg_right hc1 (by positivity)
  have q1 : |a / b - 2 * (f / c)| ≤ 22 * (R.u * X) := by
    have e : a / b - 2 * (f / c) = (a - 2 * f) / b + 2 * f * ((c - b) / (b * c)) := by field_simp; ring
    rw [e]
    refine (abs_add_le _ _).trans ?_
    have i1 : |(a - 2 * f) / b| ≤ 416 / 100 * (R.u * X) := by
      rw [abs_div, abs_of_pos hbp, div_le_iff₀ hbp]
      have h1 : R.u * B ≤ (1 + 1 / 10000) * (R.u * X) * (c * 1) := by
        have := mul_le_mul_of_nonneg_left hBX (show 0 ≤ R.u * c by positivity)
        have e : R.u * c * (B / c) = R.u * B := by field_simp
        rw [e] at this
        linarith
      have h2 : 416 / 100 * (R.u * X) * (99 / 100 * c) ≤ 416 / 100 * (R.u * X) * b :=
        mul_le_mul_of_nonneg_left hblo (by positivity)
      have h3 : 0 < R.u * X * c := by positivity
      nlinarith
    have i2 : |2 * f * ((c - b) / (b * c))| ≤ 177 / 10 * (R.u * X) := by
      rw [abs_mul, abs_div, abs_of_pos (show 0 < 2 * f by linarith), abs_of_pos (show 0 < b * c by positivity),
        abs_sub_comm c b]
      have h1 : |b - c| / (b * c) ≤ 87 / 10 * R.u / (99 / 100 * c * c) := by
        apply div_le_div₀ (by positivity) hb (by positivity)
        exact mul_le_mul_of_nonneg_right hblo hcp.le
      refine (mul_le_mul (show 2 * f ≤ 2 * B by linarith) h1 (by positivity) (by positivity)).trans ?_
      rw [hX]
      have : 2 * B * (87 / 10 * R.u / (99 / 100 * c * c)) = 2 * (87 / 10) / (99 / 100) * (R.u * (B / c ^ 2)) := by
        field_simp
      rw [this]
      apply mul_le_mul_of_nonneg_right (by norm_num) (by positivity)
    have : 0 < R.u * X := by positivity
    linarith
  have q2 : |a / b| ≤ 21 / 10 * X := by
    have h1 := abs_add_le (a / b - 2 * (f / c)) (2 * (f / c))
    rw [sub_add_cancel, abs_of_pos (show 0 < 2 * (f / c) by positivity)] at h1
    have h2 : f / c ≤ B / c := div_le_div_of_nonneg_right hfB hcp.le
    have h3 := mul_le_mul_of_nonneg_right hus hXp.le
    linarith
  have hX1 : 9 / 10 ≤ X := by
    rw [hX, le_div_iff₀ (by positivity)]
    nlinarith
  have hXb : X ≤ 10 ^ 56 := by
    rw [hX, div_le_iff₀ (by positivity)]
    have : (1 : ℝ) / 10 ^ 6 ≤ c ^ 2 := by
      have := mul_le_mul hc0 hc0 (by norm_num) hcp.le
      norm_num at this ⊢
      nlinarith
    have := mul_le_mul_of_nonneg_left this (show (0 : ℝ) ≤ 10 ^ 56 by positivity)
    have e : (10 : ℝ) ^ 56 * (1 / 10 ^ 6) = 10 ^ 50 := by norm_num
    linarith
  obtain ⟨s, hs, es⟩ := rnd_near (R := R) q2 (by
    have : (10 : ℝ) ^ 56 * 3 ≤ 10 ^ 250 := by norm_num
    linarith)
  refine ⟨s, by rw [hτ, fl_mul, ha, fl_div _ _ hbp.ne', hs], ?_⟩
  rw [← hX]
  have h1 := abs_sub_le s (a / b) (2 * (f / c))
  have h2 : R.u * (21 / 10 * X + 1 / 10 ^ 250) ≤ 22 / 10 * (R.u * X) := by
    have : (1 : ℝ) / 10 ^ 250 ≤ 1 / 10 * X := le_trans (by norm_num) (by linarith : (1 : ℝ) / 100 ≤ 1 / 10 * X)
    have := mul_le_mul_of_nonneg_left (show 21 / 10 * X + 1 / 10 ^ 250 ≤ 22 / 10 * X by linarith) hu.le
    linarith
  have : 0 < R.u * X := by positivity
  linarith

/-- A vector's direction, scaled to the length of a vector near it. -/
theorem dirE_scaled {w : V3 ℝ} (hw : 0 < ‖w.toE‖) (x : E3) : ‖‖x‖ • w.dirE - x‖ ≤ 2 * ‖w.toE - x‖ := by
  have e : ‖w.toE‖ • w.dirE = w.toE := by
    unfold V3.dirE; rw [smul_smul, mul_one_div_cancel hw.ne', one_smul]
  have h1 : ‖x‖ • w.dirE - x = (‖x‖ - ‖w.toE‖) • w.dirE + (w.toE - x) := by
    rw [sub_smul, e]; abel
  rw [h1]
  refine (norm_add_le _ _).trans ?_
  rw [_root_.norm_smul, dirE_norm hw, mul_one, Real.norm_eq_abs]
  have := abs_norm_sub_norm_le x w.toE
  rw [norm_sub_rev] at this
  linarith

theorem ThinSizes.f_pos {f B c : ℝ} (h : ThinSizes R f B c) : 0 < f := lt_of_lt_of_le (by positivity) h.f_lo

theorem ThinSizes.facts {f B c : ℝ} (h : ThinSizes R f B c) :
    0 < B / c ^ 2 ∧ B ≤ (1 + 3 / 10000) * (B / c ^ 2) ∧ f / c ≤ (1 + 1 / 10000) * (B / c ^ 2) ∧ B / c ^ 2 ≤ 10 ^ 56 ∧
      R.u * (B / c ^ 2) ≤ B / c ^ 2 / 1000000 ∧ R.u * B ≤ (1 + 3 / 10000) * (R.u * (B / c ^ 2)) ∧
      R.u ≤ (1 + 3 / 10000) * (R.u * (B / c ^ 2)) := by
  have hu := R.u_pos
  have hus := (five_u (R := R)).2
  have hcp : 0 < c := by linarith [h.lo]
  have hB := h.one_le
  have hX : 0 < B / c ^ 2 := by positivity
  have hc2 : c ^ 2 ≤ 1 + 3 / 10000 := by nlinarith [h.hi]
  have h1 : B ≤ (1 + 3 / 10000) * (B / c ^ 2) := by
    have e : B = c ^ 2 * (B / c ^ 2) := by field_simp
    nth_rewrite 1 [e]
    exact mul_le_mul_of_nonneg_right hc2 hX.le
  have h2 : R.u * B ≤ (1 + 3 / 10000) * (R.u * (B / c ^ 2)) := by
    have := mul_le_mul_of_nonneg_left h1 hu.le; linarith
  refine ⟨hX, h1, ?_, ?_, ?_, h2, ?_⟩
  · have e : B / c = c * (B / c ^ 2) := by field_simp
    refine (div_le_div_of_nonneg_right h.f_le hcp.le).trans ?_
    rw [e]; exact mul_le_mul_of_nonneg_right h.hi hX.le
  · rw [div_le_iff₀ (by positivity)]
    have : (1 : ℝ) / 10 ^ 6 ≤ c ^ 2 := by
      have := mul_le_mul h.lo h.lo (by norm_num) hcp.le
      norm_num at this ⊢
      nlinarith
    have := mul_le_mul_of_nonneg_left this (show (0 : ℝ) ≤ 10 ^ 56 by positivity)
    have e : (10 : ℝ) ^ 56 * (1 / 10 ^ 6) = 10 ^ 50 := by norm_num
    linarith [h.le_big]
  · have := mul_le_mul_of_nonneg_right hus hX.le; linarith
  · have : R.u ≤ R.u * B := by nlinarith
    linarith

/-- The vector the code normalises, for a ray that is not along the axis. -/
theorem thin_vector {f B c b : ℝ} (hs : ThinSizes R f B c) (hb : |b - c| ≤ 87 / 10 * R.u) {d P pt : V3 ℝ}
    (hd : NearUnit R d) (hr : ‖pt.toE - P.toE‖ ≤ B) :
    ∃ v : V3 ℝ, (-((pt.fl - P.fl) + ((2.0 : Fl R) * Fl.fin f / Fl.fin b) * (-(d.fl : V3 (Fl R)))) - (pt.fl - P.fl)) = v.fl ∧
      ‖v.toE - (2 : ℝ) • ((f / c) • d.toE - (pt.toE - P.toE))‖ ≤ 38 * (R.u * (B / c ^ 2)) := by
  have hu := R.u_pos
  obtain ⟨hX, hBX, hGX, hXb, huX, huBX, huX1⟩ := hs.facts
  have hcp : 0 < c := by linarith [hs.lo]
  have hG : 0 < f / c := div_pos hs.f_pos hcp
  obtain ⟨hd1, -⟩ := hd.bounds
  obtain ⟨s, hs', es⟩ := thin_scale hs.f_pos hs.f_le hs.one_le hs.le_big hs.lo hs.hi hb
  have hB1 := hs.one_le
  have hBb := hs.le_big
  obtain ⟨X, hXe⟩ : ∃ X, X = B / c ^ 2 := ⟨_, rfl⟩
  obtain ⟨G, hGe⟩ : ∃ G, G = f / c := ⟨_, rfl⟩
  rw [← hXe] at hX hBX hGX hXb huX huBX huX1 es ⊢
  rw [← hGe] at hGX hG es ⊢
  have big : (10 : ℝ) ^ 56 * 10 ≤ 10 ^ 200 := by norm_num
  have big' : (10 : ℝ) ^ 50 ≤ 10 ^ 56 := by norm_num
  have huX0 : 0 < R.u * X := by positivity
  -- the radius vector
  obtain ⟨r, hr', er⟩ := vsub_near (R := R) hr (by linarith only [hBb, big, big'])
  have er' : ‖r.toE - (pt.toE - P.toE)‖ ≤ 101 / 100 * (R.u * X) := by
    refine er.trans ?_
    have : R.u * (B + 1 / 1000) = R.u * B + R.u / 1000 := by ring
    linarith only [this, huBX, huX1, huX0]
  have nr : ‖r.toE‖ ≤ 101 / 100 * X := by
    have := norm_le_norm_add_norm_sub' r.toE (pt.toE - P.toE)
    linarith only [this, hr, er', hBX, huX, hX]
  -- the vector back
  have s1 : |s| ≤ 201 / 100 * X := by
    have := abs_add_le (s - 2 * G) (2 * G)
    rw [sub_add_cancel, abs_of_pos (show 0 < 2 * G by linarith only [hG])] at this
    linarith only [this, es, hGX, huX, hX]
  have n1 : ‖s • (-d : V3 ℝ).toE‖ ≤ 202 / 100 * X := by
    rw [_root_.norm_smul, Real.norm_eq_abs, toE_neg, _root_.norm_neg]
    have := mul_le_mul s1 hd1 (_root_.norm_nonneg _) (by linarith only [hX])
    linarith only [this, hX]
  obtain ⟨q, hq, eq⟩ := vsmul_near (R := R) n1 (by linarith only [hXb, big])
  have eq' : ‖q.toE - -((2 * G) • d.toE)‖ ≤ 274 / 10 * (R.u * X) := by
    have e : q.toE - -((2 * G) • d.toE) = (q.toE - s • (-d : V3 ℝ).toE) - (s - 2 * G) • d.toE := by
      rw [toE_neg, sub_smul, smul_neg]; abel
    rw [e]
    refine (norm_sub_le _ _).trans ?_
    rw [_root_.norm_smul, Real.norm_eq_abs]
    have h1 := mul_le_mul es hd1 (_root_.norm_nonneg _) (by linarith only [huX0])
    have h2 : R.u * (202 / 100 * X + 1 / 1000) = 202 / 100 * (R.u * X) + R.u / 1000 := by ring
    linarith only [h1, h2, eq, huX1, huX0]
  have n2G : ‖(2 * G) • d.toE‖ ≤ 201 / 100 * X := by
    rw [_root_.norm_smul, Real.norm_of_nonneg (by linarith only [hG])]
    have := mul_le_mul (show 2 * G ≤ 2 * ((1 + 1 / 10000) * X) by linarith only [hGX]) hd1 (_root_.norm_nonneg _)
      (by linarith only [hX])
    linarith only [this, hX]
  have nq : ‖q.toE‖ ≤ 202 / 100 * X := by
    have := norm_le_norm_add_norm_sub' q.toE (-((2 * G) • d.toE))
    rw [_root_.norm_neg] at this
    linarith only [this, n2G, eq', huX, hX]
  -- the object point
  have n3 : ‖r.toE + q.toE‖ ≤ 304 / 100 * X := by
    have := norm_add_le r.toE q.toE; linarith only [this, nr, nq, hX]
  obtain ⟨o, ho, eo⟩ := vadd_near (R := R) n3 (by linarith only [hXb, big])
  have eo' : ‖o.toE - (r.toE + q.toE)‖ ≤ 305 / 100 * (R.u * X) := by
    refine eo.trans ?_
    have : R.u * (304 / 100 * X + 1 / 1000) = 304 / 100 * (R.u * X) + R.u / 1000 := by ring
    linarith only [this, huX1, huX0]
  have no : ‖o.toE‖ ≤ 305 / 100 * X := by
    have := norm_le_norm_add_norm_sub' o.toE (r.toE + q.toE)
    linarith only [this, n3, eo', huX, hX]
  -- from the image point back
  have n4 : ‖(-o : V3 ℝ).toE - r.toE‖ ≤ 407 / 100 * X := by
    rw [toE_neg]
    have := norm_sub_le (-o.toE) r.toE
    rw [_root_.norm_neg] at this
    linarith only [this, nr, no, hX]
  obtain ⟨v, hv, ev⟩ := vsub_near (R := R) n4 (by linarith only [hXb, big])
  have ev' : ‖v.toE - ((-o : V3 ℝ).toE - r.toE)‖ ≤ 408 / 100 * (R.u * X) := by
    refine ev.trans ?_
    have : R.u * (407 / 100 * X + 1 / 1000) = 407 / 100 * (R.u * X) + R.u / 1000 := by ring
    linarith only [this, huX1, huX0]
  refine ⟨v, ?_, ?_⟩
  · rw [hs', hr', fl_vneg, hq, ho, fl_vneg, hv]
  · have e : v.toE - (2 : ℝ) • (G • d.toE - (pt.toE - P.toE)) =
        (v.toE - ((-o : V3 ℝ).toE - r.toE)) - (o.toE - (r.toE + q.toE)) - (q.toE - -((2 * G) • d.toE))
          - (2 : ℝ) • (r.toE - (pt.toE - P.toE)) := by
      rw [toE_neg]; module
    rw [e]
    have a1 := norm_sub_le ((v.toE - ((-o : V3 ℝ).toE - r.toE)) - (o.toE - (r.toE + q.toE)) - (q.toE - -((2 * G) • d.toE)))
      ((2 : ℝ) • (r.toE - (pt.toE - P.toE)))
    have a2 := norm_sub_le ((v.toE - ((-o : V3 ℝ).toE - r.toE)) - (o.toE - (r.toE + q.toE))) (q.toE - -((2 * G) • d.toE))
    have a3 := norm_sub_le (v.toE - ((-o : V3 ℝ).toE - r.toE)) (o.toE - (r.toE + q.toE))
    rw [_root_.norm_smul, Real.norm_of_nonneg (show (0 : ℝ) ≤ 2 by norm_num)] at a1
    linarith only [a1, a2, a3, ev', eo', eq', er', huX0]

/-- The vector the code normalises, for a ray within the tolerance of the axis. -/
theorem axial_vector {f B c : ℝ} (hs : ThinSizes R f B c) {d m P pos : V3 ℝ} {M : E3} (hM : ‖M‖ = 1)
    (hm : ‖m.toE - M‖ ≤ 5 * R.u) (hd : NearUnit R d) (hMd : inner ℝ M d.toE = c) (hclose : ‖d.toE - m.toE‖ ≤ 188 / 10 ^ 10)
    (hP : ‖P.toE‖ ≤ B) (hr : ‖pos.toE - P.toE‖ ≤ B) :
    ∃ v : V3 ℝ, (P.fl + (Fl.fin f : Fl R) * (m.fl : V3 (Fl R))) - pos.fl = v.fl ∧
      ‖v.toE - ((f / c) • d.toE - (pos.toE - P.toE))‖ ≤ 25 * (R.u * (B / c ^ 2)) + 4 / 10 ^ 8 * f := by
  have hu := R.u_pos
  have hus := (five_u (R := R)).2
  obtain ⟨hX, hBX, hGX, hXb, huX, huBX, huX1⟩ := hs.facts
  have hcp : 0 < c := by linarith [hs.lo]
  have hf := hs.f_pos
  have hfB := hs.f_le
  have hB1 := hs.one_le
  have hBb := hs.le_big
  obtain ⟨hd1, -⟩ := hd.bounds
  obtain ⟨hm1, -⟩ := (nearUnit_of hM hm).bounds
  have huB : R.u ≤ R.u * B := by nlinarith
  have huB1 : R.u * B ≤ B / 1000000 := by
    have := mul_le_mul_of_nonneg_right hus (by linarith : 0 ≤ B); linarith
  have huf : R.u * f ≤ R.u * B := mul_le_mul_of_nonneg_left hfB hu.le
  have big : (10 : ℝ) ^ 50 * 10 ≤ 10 ^ 200 := by norm_num
  -- `f n`
  have n1 : ‖f • m.toE‖ ≤ 101 / 100 * B := by
    rw [_root_.norm_smul, Real.norm_of_nonneg hf.le]
    have := mul_le_mul hfB hm1 (_root_.norm_nonneg _) (by linarith only [hB1])
    linarith only [this, hB1]
  obtain ⟨q, hq, eq⟩ := vsmul_near (R := R) n1 (by linarith only [hBb, big, hB1])
  have n2 : ‖P.toE + q.toE‖ ≤ 202 / 100 * B := by
    have h1 := norm_add_le P.toE q.toE
    have h2 := norm_le_norm_add_norm_sub' q.toE (f • m.toE)
    have h3 : R.u * (101 / 100 * B + 1 / 1000) = 101 / 100 * (R.u * B) + R.u / 1000 := by ring
    linarith only [h1, h2, h3, n1, eq, hP, huB1, huB, hB1]
  obtain ⟨F, hF, eF⟩ := vadd_near (R := R) n2 (by linarith only [hBb, big, hB1])
  have n3 : ‖F.toE - pos.toE‖ ≤ 203 / 100 * B := by
    have e : F.toE - pos.toE = (F.toE - (P.toE + q.toE)) + (q.toE - f • m.toE) + f • m.toE - (pos.toE - P.toE) := by abel
    rw [e]
    have h1 := norm_sub_le ((F.toE - (P.toE + q.toE)) + (q.toE - f • m.toE) + f • m.toE) (pos.toE - P.toE)
    have h2 := norm_add_le ((F.toE - (P.toE + q.toE)) + (q.toE - f • m.toE)) (f • m.toE)
    have h3 := norm_add_le (F.toE - (P.toE + q.toE)) (q.toE - f • m.toE)
    have h4 : R.u * (101 / 100 * B + 1 / 1000) = 101 / 100 * (R.u * B) + R.u / 1000 := by ring
    have h5 : R.u * (202 / 100 * B + 1 / 1000) = 202 / 100 * (R.u * B) + R.u / 1000 := by ring
    linarith only [h1, h2, h3, h4, h5, n1, eq, eF, hr, huB1, huB, hB1]
  obtain ⟨v, hv, ev⟩ := vsub_near (R := R) n3 (by linarith only [hBb, big, hB1])
  refine ⟨v, by rw [hq, hF, hv], ?_⟩
  -- the exact vector along the ray
  have hcl : ‖d.toE - M‖ ≤ 188 / 10 ^ 10 + 5 * R.u := by
    have := norm_sub_le_norm_sub_add_norm_sub d.toE m.toE M
    linarith only [this, hclose, hm]
  have hc1 : |1 - c| ≤ 188 / 10 ^ 10 + 5 * R.u := by
    have e : 1 - c = inner ℝ M (M - d.toE) := by
      rw [inner_sub_right, hMd, real_inner_self_eq_norm_sq, hM]; norm_num
    rw [e]
    refine (abs_real_inner_le_norm _ _).trans ?_
    rw [hM, one_mul, norm_sub_rev]; exact hcl
  have hclo : 999 / 1000 ≤ c := by
    have := (abs_le.mp hc1).2
    norm_num at this
    linarith only [this, hus]
  have k1 : ‖f • m.toE - (f / c) • d.toE‖ ≤ 4 / 10 ^ 8 * f + 51 / 10 * (R.u * f) := by
    have e : f • m.toE - (f / c) • d.toE = f • ((m.toE - d.toE) + (-((1 - c) / c)) • d.toE) := by
      have : f / c = f * ((1 - c) / c) + f := by field_simp; ring
      rw [this]; module
    rw [e, _root_.norm_smul, Real.norm_of_nonneg hf.le]
    have h1 := norm_add_le (m.toE - d.toE) ((-((1 - c) / c)) • d.toE)
    rw [_root_.norm_smul, Real.norm_eq_abs, abs_neg, abs_div, abs_of_pos hcp, norm_sub_rev] at h1
    have h2 : |1 - c| / c ≤ (188 / 10 ^ 10 + 5 * R.u) * (1002 / 1000) := by
      rw [div_le_iff₀ hcp]
      have := mul_le_mul_of_nonneg_left hclo (show 0 ≤ (188 / 10 ^ 10 + 5 * R.u) * (1002 / 1000) by positivity)
      norm_num at this hc1 ⊢
      linarith only [this, hc1, hu]
    have h3 := mul_le_mul h2 hd1 (_root_.norm_nonneg _) (by positivity)
    have h4 : ‖(m.toE - d.toE) + (-((1 - c) / c)) • d.toE‖ ≤ 4 / 10 ^ 8 + 51 / 10 * R.u := by
      norm_num at h1 h3 hclose ⊢
      linarith only [h1, h3, hclose, hu]
    have := mul_le_mul_of_nonneg_left h4 hf.le
    linarith only [this]
  have e : v.toE - ((f / c) • d.toE - (pos.toE - P.toE)) = (v.toE - (F.toE - pos.toE)) + (F.toE - (P.toE + q.toE))
      + (q.toE - f • m.toE) + (f • m.toE - (f / c) • d.toE) := by abel
  rw [e]
  have a1 := norm_add_le ((v.toE - (F.toE - pos.toE)) + (F.toE - (P.toE + q.toE)) + (q.toE - f • m.toE))
    (f • m.toE - (f / c) • d.toE)
  have a2 := norm_add_le ((v.toE - (F.toE - pos.toE)) + (F.toE - (P.toE + q.toE))) (q.toE - f • m.toE)
  have a3 := norm_add_le (v.toE - (F.toE - pos.toE)) (F.toE - (P.toE + q.toE))
  have h4 : R.u * (101 / 100 * B + 1 / 1000) = 101 / 100 * (R.u * B) + R.u / 1000 := by ring
  have h5 : R.u * (202 / 100 * B + 1 / 1000) = 202 / 100 * (R.u * B) + R.u / 1000 := by ring
  have h6 : R.u * (203 / 100 * B + 1 / 1000) = 203 / 100 * (R.u * B) + R.u / 1000 := by ring
  linarith only [a1, a2, a3, h4, h5, h6, k1, eq, eF, ev, huB, huf, huBX, hu]

/-- The computed direction of a vector near `k x`. -/
theorem scaled_unit {v : V3 ℝ} {x : E3} {k e L : ℝ} (hk : 0 < k) (hv : SaneLength v) (he : ‖v.toE - k • x‖ ≤ e) (hx : ‖x‖ ≤ L) :
    ∃ d' : V3 ℝ, unitVector (v.fl : V3 (Fl R)) = d'.fl ∧ NearUnit R d' ∧ ‖‖x‖ • d'.toE - x‖ ≤ 2 * e / k + 5 * R.u * L := by
  have hu := R.u_pos
  obtain ⟨d', h1, h2⟩ := unitVector_near (R := R) hv
  refine ⟨d', h1, nearUnit_of (dirE_norm hv.pos) h2, ?_⟩
  have h3 := (dirE_scaled hv.pos (k • x)).trans (mul_le_mul_of_nonneg_left he (by norm_num))
  rw [_root_.norm_smul, Real.norm_of_nonneg hk.le, mul_smul, ← smul_sub, _root_.norm_smul, Real.norm_of_nonneg hk.le] at h3
  have h4 : ‖‖x‖ • v.dirE - x‖ ≤ 2 * e / k := by rw [le_div_iff₀ hk]; linarith
  have e : ‖x‖ • d'.toE - x = (‖x‖ • v.dirE - x) + ‖x‖ • (d'.toE - v.dirE) := by rw [smul_sub]; abel
  rw [e]
  refine (norm_add_le _ _).trans (add_le_add h4 ?_)
  rw [_root_.norm_smul, Real.norm_of_nonneg (_root_.norm_nonneg _), mul_comm]
  exact mul_le_mul h2 hx (_root_.norm_nonneg _) (by positivity)

/-- The new direction points from the ray to the point of the focal plane that the parallel ray through the centre of the
lens goes to. -/
theorem thin_near {f B c : ℝ} (hs : ThinSizes R f B c) {d n P pos pt : V3 ℝ} {M : E3} (hM : ‖M‖ = 1)
    (hn : ‖n.toE - M‖ ≤ 5 * R.u) (hd : NearUnit R d) (hc : |inner ℝ M d.toE| = c) (hP : ‖P.toE‖ ≤ B)
    (hr : ‖pt.toE - P.toE‖ ≤ B) (hr' : ‖pos.toE - P.toE‖ ≤ B) (hp : |inner ℝ M (pt.toE - P.toE)| ≤ f / 2)
    (hp' : |inner ℝ M (pos.toE - P.toE)| ≤ f / 2) :
    ∃ d' : V3 ℝ, thinLensDirection pos.fl d.fl P.fl n.fl (some (Fl.fin f : Fl R)) pt.fl = .ok d'.fl ∧ NearUnit R d' ∧
      (‖‖(f / c) • d.toE - (pt.toE - P.toE)‖ • d'.toE - ((f / c) • d.toE - (pt.toE - P.toE))‖ ≤ 50 * (R.u * (B / c ^ 2)) ∨
      ((‖d.toE - M‖ ≤ 2 / 10 ^ 8 + 5 * R.u ∨ ‖d.toE + M‖ ≤ 2 / 10 ^ 8 + 5 * R.u) ∧
        ‖‖(f / c) • d.toE - (pos.toE - P.toE)‖ • d'.toE - ((f / c) • d.toE - (pos.toE - P.toE))‖ ≤
          62 * (R.u * (B / c ^ 2)) + 8 / 10 ^ 8 * f)) := by
  have hu := R.u_pos
  have hus := (five_u (R := R)).2
  obtain ⟨hX, hBX, hGX, hXb, huX, huBX, huX1⟩ := hs.facts
  have hcp : 0 < c := by linarith [hs.lo]
  have hf := hs.f_pos
  have hflo := hs.f_lo
  have hfine := hs.fine
  obtain ⟨hd1, -⟩ := hd.bounds
  obtain ⟨m, M', a, b, hm, hMM, hmM, hMd, ha, ea, hb, eb⟩ := thin_facing hd hM hn hc hs.lo
  have hM' : ‖M'‖ = 1 := by rcases hMM with e | e <;> rw [e]; exacts [hM, by rw [_root_.norm_neg, hM]]
  obtain ⟨hm1, -⟩ := (nearUnit_of hM' hmM).bounds
  have huX0 : 0 < R.u * (B / c ^ 2) := by positivity
  -- the exact vectors
  have nG : ‖(f / c) • d.toE‖ ≤ 1001 / 1000 * (B / c ^ 2) := by
    rw [_root_.norm_smul, Real.norm_of_nonneg (div_pos hf hcp).le]
    have := mul_le_mul hGX hd1 (_root_.norm_nonneg _) (by positivity)
    linarith only [this, hX]
  have hup : ∀ q : E3, ‖q - P.toE‖ ≤ B → ‖(f / c) • d.toE - (q - P.toE)‖ ≤ 201 / 100 * (B / c ^ 2) := by
    intro q hq
    have := norm_sub_le ((f / c) • d.toE) (q - P.toE)
    linarith only [this, hq, nG, hBX, hX]
  have hlo : ∀ q : E3, |inner ℝ M (q - P.toE)| ≤ f / 2 → f / 2 ≤ ‖(f / c) • d.toE - (q - P.toE)‖ := by
    intro q hq
    have h1 := real_inner_le_norm M' ((f / c) • d.toE - (q - P.toE))
    rw [hM', one_mul, inner_sub_right, real_inner_smul_right, hMd, div_mul_cancel₀ _ hcp.ne'] at h1
    have h2 : inner ℝ M' (q - P.toE) ≤ f / 2 := by
      rcases hMM with e | e <;> rw [e]
      · exact (abs_le.mp hq).2
      · rw [inner_neg_left]; linarith only [(abs_le.mp hq).1]
    linarith only [h1, h2]
  have hnot : isclose (Fl.fin a : Fl R) 0.0 1e-10 atolDefault = false := by
    rw [fl_lit0]
    cases h : isclose (Fl.fin a : Fl R) (Fl.fin 0) 1e-10 atolDefault with
    | false => rfl
    | true =>
      have h1 := abs_le.mp ea
      have h2 : |a| ≤ 2 := by rw [abs_le]; constructor <;> linarith only [h1.1, h1.2, hs.lo, hs.hi, hus]
      have := (abs_le.mp (fl_isclose h2 (by norm_num) h)).2
      norm_num at this
      linarith only [this, h1.1, hs.lo, hus]
  have sane : ∀ {v : V3 ℝ} {x : E3}, f / 2 ≤ ‖x‖ → ‖x‖ ≤ 5 * (B / c ^ 2) → ‖v.toE - x‖ ≤ f / 10 → SaneLength v := by
    intro v x h1 h2 h3
    have h4 := norm_le_norm_add_norm_sub' x v.toE
    rw [norm_sub_rev] at h4
    have h5 := norm_le_norm_add_norm_sub' v.toE x
    constructor
    · have : (1 : ℝ) / 10 ^ 100 ≤ 1 / 10 ^ 90 * (4 / 10) := by norm_num
      linarith only [this, hflo, h1, h3, h4]
    · have b1 : (10 : ℝ) ^ 56 * 10 ≤ 10 ^ 100 := by norm_num
      have b2 : (10 : ℝ) ^ 50 ≤ 10 ^ 56 := by norm_num
      linarith only [b1, b2, h5, h2, h3, hXb, hs.f_le, hs.le_big, hf]
  cases hal : allclose (d.fl : V3 (Fl R)) m.fl 1e-10 atolDefault || allclose (d.fl : V3 (Fl R)) (-m.fl) 1e-10 atolDefault with
  | true =>
    have hcl : ‖d.toE - m.toE‖ ≤ 188 / 10 ^ 10 := by
      rw [Bool.or_eq_true] at hal
      rcases hal with h | h
      · exact fl_allclose (by linarith only [hd1]) (by linarith only [hm1]) h
      · rw [fl_vneg] at h
        have h1 := fl_allclose (R := R) (v := d) (w := -m) (by linarith only [hd1])
          (by rw [toE_neg, _root_.norm_neg]; linarith only [hm1]) h
        rw [toE_neg, sub_neg_eq_add] at h1
        exfalso
        have h2 : ‖d.toE + M'‖ ≤ 188 / 10 ^ 10 + 5 * R.u := by
          have e : d.toE + M' = (d.toE + m.toE) - (m.toE - M') := by abel
          rw [e]
          exact (norm_sub_le _ _).trans (add_le_add h1 hmM)
        have h3 := real_inner_le_norm M' (d.toE + M')
        rw [hM', one_mul, inner_add_right, hMd, real_inner_self_eq_norm_sq, hM'] at h3
        norm_num at h2 h3
        linarith only [h2, h3, hcp, hus]
    obtain ⟨v, hv, ev⟩ := axial_vector hs hM' hmM hd hMd hcl hP hr'
    have hx := hup pos.toE hr'
    have hxl := hlo pos.toE hp'
    have hsane : SaneLength v := sane hxl (by linarith only [hx, hX]) (by
      norm_num at ev ⊢
      linarith only [ev, hfine, hf])
    obtain ⟨d', k1, k2, k3⟩ := scaled_unit (R := R) (k := 1) one_pos hsane
      (e := 25 * (R.u * (B / c ^ 2)) + 4 / 10 ^ 8 * f) (x := (f / c) • d.toE - (pos.toE - P.toE)) ((one_smul ℝ ((f / c) • d.toE - (pos.toE - P.toE))).symm ▸ ev) hx
    refine ⟨d', ?_, k2, Or.inr ⟨?_, ?_⟩⟩
    · unfold thinLensDirection
      simp only [hm, ha, hnot, hal, need, bind, Except.bind, pure, Except.pure, if_true]
      rw [hv]
      exact congrArg Except.ok k1
    · have h1 : ‖d.toE - M'‖ ≤ 2 / 10 ^ 8 + 5 * R.u := by
        have := norm_sub_le_norm_sub_add_norm_sub d.toE m.toE M'
        norm_num at this hcl ⊢
        linarith only [this, hcl, hmM]
      rcases hMM with e | e <;> rw [e] at h1
      · exact Or.inl h1
      · rw [sub_neg_eq_add] at h1; exact Or.inr h1
    · refine k3.trans ?_
      norm_num
      linarith only [huX0]
  | false =>
    obtain ⟨v, hv, ev⟩ := thin_vector hs eb hd hr
    have hx := hup pt.toE hr
    have hxl := hlo pt.toE hp
    have hsane : SaneLength v := by
      refine sane (x := (2 : ℝ) • ((f / c) • d.toE - (pt.toE - P.toE))) ?_ ?_ (by linarith only [ev, hfine, hf])
      · rw [_root_.norm_smul, Real.norm_of_nonneg (show (0 : ℝ) ≤ 2 by norm_num)]; linarith only [hxl, hf]
      · rw [_root_.norm_smul, Real.norm_of_nonneg (show (0 : ℝ) ≤ 2 by norm_num)]; linarith only [hx, hX]
    obtain ⟨d', k1, k2, k3⟩ := scaled_unit (R := R) (k := 2) two_pos hsane ev hx
    refine ⟨d', ?_, k2, Or.inl ?_⟩
    · unfold thinLensDirection
      simp only [hm, ha, hb, hnot, hal, need, bind, Except.bind, pure, Except.pure, Bool.false_eq_true, if_false]
      rw [hv]
      exact congrArg Except.ok k1
    · refine k3.trans ?_
      linarith only [huX0]

end Optics
