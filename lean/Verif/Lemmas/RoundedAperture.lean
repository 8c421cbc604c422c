import Verif.Lemmas.RoundedGrating
import Verif.Lemmas.RoundedPath
/-! # The outlines of flat shapes, with rounded arithmetic -/

namespace Optics
open V3

section generic
variable {α : Type} [PyNum α]

/-- What the constructor of a rectangle stores. -/
theorem rectangle_built {c n₀ t₀ : V3 α} {h w : α} {r : Rectangle α} (hr : Rectangle.new c n₀ t₀ (some h) (some w) = .ok r) :
    r.plane = Plane.new c n₀ ∧
      r.bounds0 = c + (h / 2.0) * unitVector t₀ - (w / 2.0) * cross (unitVector n₀) (unitVector t₀) ∧
      r.bounds1 = c + (h / 2.0) * unitVector t₀ + (w / 2.0) * cross (unitVector n₀) (unitVector t₀) ∧
      r.bounds2 = c - (h / 2.0) * unitVector t₀ + (w / 2.0) * cross (unitVector n₀) (unitVector t₀) := by
  unfold Rectangle.new checkHAndW at hr
  simp only [bind, Except.bind, pure, Except.pure] at hr
  split_ifs at hr <;> cases hr
  exact ⟨rfl, rfl, rfl, rfl⟩

end generic

variable {R : Rounding}

/-- Half of a size. -/
theorem halved_near {x B : ℝ} (h0 : 0 ≤ x) (hx : x ≤ B) (hB : 1 ≤ B) (hB' : B ≤ 10 ^ 50) :
    ∃ y, (Fl.fin x : Fl R) / 2.0 = Fl.fin y ∧ |y - x / 2| ≤ 11 / 10 * (R.u * B) := by
  have hu := R.u_pos
  obtain ⟨h5, h6⟩ := five_u (R := R)
  obtain ⟨l, hl, el⟩ := two_near (R := R)
  have hl2 : 199 / 100 ≤ l := by linarith [(abs_le.mp el).1]
  have hl0 : l ≠ 0 := by intro h; rw [h] at hl2; norm_num at hl2
  have hlp : 0 < l := by linarith
  have hd : |x / l - x / 2| ≤ 52 / 100 * (R.u * B) := by
    have e : x / l - x / 2 = x * (2 - l) / (2 * l) := by field_simp
    rw [e, abs_div, abs_mul, abs_of_nonneg h0, abs_of_pos (show 0 < 2 * l by linarith), div_le_iff₀ (by linarith), abs_sub_comm]
    have a1 : x * |l - 2| ≤ B * (201 / 100 * R.u) := mul_le_mul hx el (abs_nonneg _) (by linarith)
    have a2 : 52 / 100 * (R.u * B) * (398 / 100) ≤ 52 / 100 * (R.u * B) * (2 * l) :=
      mul_le_mul_of_nonneg_left (by linarith) (by positivity)
    linarith [show (0:ℝ) ≤ R.u * B by positivity]
  have hxl : |x / l| ≤ 51 / 100 * B := by
    rw [abs_div, abs_of_nonneg h0, abs_of_pos hlp, div_le_iff₀ hlp]
    have : 51 / 100 * B * (199 / 100) ≤ 51 / 100 * B * l := mul_le_mul_of_nonneg_left hl2 (by linarith)
    linarith
  obtain ⟨y, hy, ey⟩ := rnd_big (R := R) hxl (by
    have : (10 : ℝ) ^ 50 ≤ 10 ^ 200 := pow_le_pow_right₀ (by norm_num) (by norm_num)
    linarith)
  refine ⟨y, by rw [hl, fl_div _ _ hl0, hy], ?_⟩
  have a3 : R.u * (51 / 100 * B + 1 / 1000) ≤ 52 / 100 * (R.u * B) := by
    have : R.u ≤ R.u * B := le_mul_of_one_le_right hu.le hB
    linarith
  have := abs_add_le (y - x / l) (x / l - x / 2)
  rw [sub_add_sub_cancel] at this
  linarith [show (0:ℝ) ≤ R.u * B by positivity]

/-- A vector scaled by a stored size. -/
theorem side_near {x y B k : ℝ} {t : V3 ℝ} {T : E3} (hT : ‖T‖ = 1) (ht : ‖t.toE - T‖ ≤ k) (hk : k ≤ 1 / 1000) (h0 : 0 ≤ x) (hx : x ≤ B) (hB : 1 ≤ B)
    (hB' : B ≤ 10 ^ 50) (hy : |y - x / 2| ≤ 11 / 10 * (R.u * B)) :
    ∃ v : V3 ℝ, (Fl.fin y : Fl R) * (t.fl : V3 (Fl R)) = v.fl ∧ ‖v.toE - (x / 2) • T‖ ≤ 1 / 2 * (k * B) + 17 / 10 * (R.u * B) := by
  have hu := R.u_pos
  obtain ⟨h5, h6⟩ := five_u (R := R)
  have huB : 0 < R.u * B := by positivity
  have huB1 : R.u * B ≤ 1 / 1000000 * B := mul_le_mul_of_nonneg_right h6 (by linarith)
  have ht1 : ‖t.toE‖ ≤ 1001 / 1000 := by
    have := norm_le_norm_add_norm_sub' t.toE T
    rw [hT] at this; linarith
  have e : y • t.toE - (x / 2) • T = (y - x / 2) • t.toE + (x / 2) • (t.toE - T) := by
    rw [sub_smul, smul_sub]; abel
  have d : ‖y • t.toE - (x / 2) • T‖ ≤ 11 / 10 * (R.u * B) * (1001 / 1000) + B / 2 * k := by
    rw [e]
    refine (norm_add_le _ _).trans (add_le_add ?_ ?_)
    · rw [_root_.norm_smul, Real.norm_eq_abs]
      exact mul_le_mul hy ht1 (_root_.norm_nonneg _) (by positivity)
    · rw [_root_.norm_smul, Real.norm_of_nonneg (by linarith)]
      exact mul_le_mul (by linarith) ht (_root_.norm_nonneg _) (by linarith)
  have ny : ‖y • t.toE‖ ≤ 51 / 100 * B := by
    rw [_root_.norm_smul, Real.norm_eq_abs]
    have : |y| ≤ 501 / 1000 * B := by
      have := abs_add_le (y - x / 2) (x / 2)
      rw [sub_add_cancel, abs_of_nonneg (show 0 ≤ x / 2 by linarith)] at this
      linarith
    refine (mul_le_mul this ht1 (_root_.norm_nonneg _) (by linarith)).trans ?_
    linarith
  obtain ⟨v, hv, ev⟩ := vsmul_near (R := R) ny (by
    have : (10 : ℝ) ^ 50 ≤ 10 ^ 200 := pow_le_pow_right₀ (by norm_num) (by norm_num)
    linarith)
  refine ⟨v, hv, ?_⟩
  have a3 : R.u * (51 / 100 * B + 1 / 1000) ≤ 52 / 100 * (R.u * B) := by
    have : R.u ≤ R.u * B := le_mul_of_one_le_right hu.le hB
    linarith
  have := norm_sub_le_norm_sub_add_norm_sub v.toE (y • t.toE) ((x / 2) • T)
  linarith

/-- The second tangent. -/
theorem tangent2_near {n t N T : V3 ℝ} {ν : ℝ} (S : StoredFrame R n t N T ν) (hν : ν ≤ 1 / 10000) :
    ∃ c : V3 ℝ, cross (n.fl : V3 (Fl R)) t.fl = c.fl ∧ ‖c.toE - (cross N T).toE‖ ≤ 31 / 10 * ν := by
  have hu := R.u_pos
  have hn1 : ‖n.toE‖ ≤ 1 + 1 / 1000 := by
    have := norm_le_norm_add_norm_sub' n.toE N.toE
    rw [S.normal_unit] at this; linarith [S.normal]
  have ht1 : ‖t.toE‖ ≤ 1 + 1 / 1000 := by
    have := norm_le_norm_add_norm_sub' t.toE T.toE
    rw [S.tangent_unit] at this; linarith [S.tangent, S.coarse]
  obtain ⟨c, hc, ec⟩ := cross_near (R := R) hn1 ht1
  refine ⟨c, hc, ?_⟩
  have e : (cross n t).toE - (cross N T).toE = (cross (n - N) t).toE + (cross N (t - T)).toE := by
    rw [← toE_sub, ← toE_add]; congr 1
    ext <;> simp [cross] <;> ring
  have a1 := norm_cross_le (n - N) t
  have a2 := norm_cross_le N (t - T)
  rw [toE_sub] at a1 a2
  rw [S.normal_unit, one_mul] at a2
  have a3 : ‖n.toE - N.toE‖ * ‖t.toE‖ ≤ ν * (1 + 1 / 1000) := mul_le_mul S.normal ht1 (_root_.norm_nonneg _) (by linarith [S.coarse])
  have a4 := norm_add_le (cross (n - N) t).toE (cross N (t - T)).toE
  rw [← e] at a4
  have := norm_sub_le_norm_sub_add_norm_sub c.toE (cross n t).toE (cross N T).toE
  linarith [S.tangent, S.coarse]

/-- A corner: `c ± a ± b`. -/
theorem corner_near {C a b : V3 ℝ} {A₀ B₀ : E3} {B η : ℝ} (hC : ‖C.toE‖ ≤ B) (hA : ‖A₀‖ ≤ 1 / 2 * B) (hB₀ : ‖B₀‖ ≤ 1 / 2 * B) (hB : 1 ≤ B)
    (hB' : B ≤ 10 ^ 50) (hη : R.u * B ≤ 1 / 5 * η) (hηB : η ≤ 1 / 10000 * B) (ea : ‖a.toE - A₀‖ ≤ 9 / 10 * η) (eb : ‖b.toE - B₀‖ ≤ 39 / 20 * η) :
    (∃ v : V3 ℝ, (C.fl + a.fl - b.fl : V3 (Fl R)) = v.fl ∧ ‖v.toE - (C.toE + A₀ - B₀)‖ ≤ 4 * η) ∧
    (∃ v : V3 ℝ, (C.fl + a.fl + b.fl : V3 (Fl R)) = v.fl ∧ ‖v.toE - (C.toE + A₀ + B₀)‖ ≤ 4 * η) ∧
    (∃ v : V3 ℝ, (C.fl - a.fl + b.fl : V3 (Fl R)) = v.fl ∧ ‖v.toE - (C.toE - A₀ + B₀)‖ ≤ 4 * η) := by
  have hu := R.u_pos
  have hb : (10 : ℝ) ^ 50 * 10 ≤ 10 ^ 200 := by norm_num
  have huB : R.u ≤ R.u * B := le_mul_of_one_le_right hu.le hB
  have huB0 : 0 < R.u * B := by positivity
  have na : ‖a.toE‖ ≤ 51 / 100 * B := by
    have := norm_le_norm_add_norm_sub' a.toE A₀; linarith
  have nb : ‖b.toE‖ ≤ 51 / 100 * B := by
    have := norm_le_norm_add_norm_sub' b.toE B₀; linarith
  have r1 : R.u * (151 / 100 * B + 1 / 1000) ≤ 31 / 100 * η := by linarith
  have r2 : R.u * (203 / 100 * B + 1 / 1000) ≤ 41 / 100 * η := by linarith
  have plus : ∃ p : V3 ℝ, (C.fl + a.fl : V3 (Fl R)) = p.fl ∧ ‖p.toE - (C.toE + A₀)‖ ≤ 121 / 100 * η ∧ ‖p.toE‖ ≤ 152 / 100 * B := by
    obtain ⟨p, hp, ep⟩ := vadd_near (R := R) (a := C) (b := a) (X := 151 / 100 * B) ((norm_add_le _ _).trans (by linarith)) (by linarith)
    refine ⟨p, hp, ?_, ?_⟩
    · have := norm_sub_le_norm_sub_add_norm_sub p.toE (C.toE + a.toE) (C.toE + A₀)
      rw [add_sub_add_left_eq_sub] at this
      linarith
    · have := norm_le_norm_add_norm_sub' p.toE (C.toE + a.toE)
      have := norm_add_le C.toE a.toE
      linarith
  have minus : ∃ p : V3 ℝ, (C.fl - a.fl : V3 (Fl R)) = p.fl ∧ ‖p.toE - (C.toE - A₀)‖ ≤ 121 / 100 * η ∧ ‖p.toE‖ ≤ 152 / 100 * B := by
    obtain ⟨p, hp, ep⟩ := vsub_near (R := R) (a := C) (b := a) (X := 151 / 100 * B) ((norm_sub_le _ _).trans (by linarith)) (by linarith)
    refine ⟨p, hp, ?_, ?_⟩
    · have := norm_sub_le_norm_sub_add_norm_sub p.toE (C.toE - a.toE) (C.toE - A₀)
      rw [sub_sub_sub_cancel_left, norm_sub_rev A₀] at this
      linarith
    · have := norm_le_norm_add_norm_sub' p.toE (C.toE - a.toE)
      have := norm_sub_le C.toE a.toE
      linarith
  obtain ⟨p, hp, ep, np⟩ := plus
  obtain ⟨m, hm, em, nm⟩ := minus
  refine ⟨?_, ?_, ?_⟩
  · obtain ⟨v, hv, ev⟩ := vsub_near (R := R) (a := p) (b := b) (X := 203 / 100 * B) ((norm_sub_le _ _).trans (by linarith)) (by linarith)
    refine ⟨v, by rw [hp, hv], ?_⟩
    have e : v.toE - (C.toE + A₀ - B₀) = (v.toE - (p.toE - b.toE)) + (p.toE - (C.toE + A₀)) - (b.toE - B₀) := by abel
    rw [e]
    refine (norm_sub_le _ _).trans ?_
    have := norm_add_le (v.toE - (p.toE - b.toE)) (p.toE - (C.toE + A₀))
    linarith
  · obtain ⟨v, hv, ev⟩ := vadd_near (R := R) (a := p) (b := b) (X := 203 / 100 * B) ((norm_add_le _ _).trans (by linarith)) (by linarith)
    refine ⟨v, by rw [hp, hv], ?_⟩
    have e : v.toE - (C.toE + A₀ + B₀) = (v.toE - (p.toE + b.toE)) + (p.toE - (C.toE + A₀)) + (b.toE - B₀) := by abel
    rw [e]
    refine (norm_add_le _ _).trans ?_
    have := norm_add_le (v.toE - (p.toE + b.toE)) (p.toE - (C.toE + A₀))
    linarith
  · obtain ⟨v, hv, ev⟩ := vadd_near (R := R) (a := m) (b := b) (X := 203 / 100 * B) ((norm_add_le _ _).trans (by linarith)) (by linarith)
    refine ⟨v, by rw [hm, hv], ?_⟩
    have e : v.toE - (C.toE - A₀ + B₀) = (v.toE - (m.toE + b.toE)) + (m.toE - (C.toE - A₀)) + (b.toE - B₀) := by abel
    rw [e]
    refine (norm_add_le _ _).trans ?_
    have := norm_add_le (v.toE - (m.toE + b.toE)) (m.toE - (C.toE - A₀))
    linarith

/-- One of the two tests `0 <= AB.AM <= AB.AB`: `A` and `B` are the computed ends of a side of length `x` along `T`,
`M` is the point, and `z` its coordinate along the side, from `A`. -/
theorem side_test {A B' M : V3 ℝ} {A₀ B₀ T : E3} {B η x : ℝ} (hT : ‖T‖ = 1) (hx0 : 0 ≤ x) (hx : x ≤ B) (hAB : B₀ - A₀ = x • T)
    (hA : ‖A.toE - A₀‖ ≤ 4 * η) (hB₀ : ‖B'.toE - B₀‖ ≤ 4 * η) (hM : ‖M.toE - A₀‖ ≤ 3 * B) (hB1 : 1 ≤ B) (hB2 : B ≤ 10 ^ 50)
    (hη : R.u * B ≤ 1 / 5 * η) (hηB : η ≤ 1 / 10000 * B) :
    ∃ (s l : ℝ) (ab am : V3 ℝ), (B'.fl - A.fl : V3 (Fl R)) = ab.fl ∧ (M.fl - A.fl : V3 (Fl R)) = am.fl ∧
      dot (ab.fl : V3 (Fl R)) am.fl = Fl.fin s ∧ dot (ab.fl : V3 (Fl R)) ab.fl = Fl.fin l ∧
      |s - x * inner ℝ T (M.toE - A₀)| ≤ 34 * (η * B) ∧ |l - x ^ 2| ≤ 18 * (η * B) := by
  have hu := R.u_pos
  have hb : (10 : ℝ) ^ 50 * 10 ≤ 10 ^ 200 := by norm_num
  have huB : R.u ≤ R.u * B := le_mul_of_one_le_right hu.le hB1
  have huB0 : 0 < R.u * B := by positivity
  have hη0 : 0 < η := by linarith
  have dAB : ‖(B'.toE - A.toE) - x • T‖ ≤ 8 * η := by
    rw [← hAB, show (B'.toE - A.toE) - (B₀ - A₀) = (B'.toE - B₀) - (A.toE - A₀) by abel]
    exact (norm_sub_le _ _).trans (by linarith)
  have nxT : ‖x • T‖ ≤ B := by rw [_root_.norm_smul, hT, mul_one, Real.norm_of_nonneg hx0]; exact hx
  have nAB : ‖B'.toE - A.toE‖ ≤ 101 / 100 * B := by
    have := norm_le_norm_add_norm_sub' (B'.toE - A.toE) (x • T); linarith
  obtain ⟨ab, hab, eab⟩ := vsub_near (R := R) nAB (by linarith)
  have dM : ‖(M.toE - A.toE) - (M.toE - A₀)‖ ≤ 4 * η := by
    rw [sub_sub_sub_cancel_left, norm_sub_rev]; exact hA
  have nM : ‖M.toE - A.toE‖ ≤ 301 / 100 * B := by
    have := norm_le_norm_add_norm_sub' (M.toE - A.toE) (M.toE - A₀); linarith
  obtain ⟨am, ham, eam⟩ := vsub_near (R := R) nM (by linarith)
  have r1 : R.u * (101 / 100 * B + 1 / 1000) ≤ 21 / 100 * η := by linarith
  have r2 : R.u * (301 / 100 * B + 1 / 1000) ≤ 61 / 100 * η := by linarith
  have fab : ‖ab.toE - x • T‖ ≤ 83 / 10 * η := by
    have := norm_sub_le_norm_sub_add_norm_sub ab.toE (B'.toE - A.toE) (x • T); linarith
  have fam : ‖am.toE - (M.toE - A₀)‖ ≤ 47 / 10 * η := by
    have := norm_sub_le_norm_sub_add_norm_sub am.toE (M.toE - A.toE) (M.toE - A₀); linarith
  have mab : ‖ab.toE‖ ≤ 102 / 100 * B := by
    have := norm_le_norm_add_norm_sub' ab.toE (x • T); linarith
  have mam : ‖am.toE‖ ≤ 302 / 100 * B := by
    have := norm_le_norm_add_norm_sub' am.toE (M.toE - A₀); linarith
  have hBB : B ≤ B * B := le_mul_of_one_le_right (by linarith) hB1
  have hBB' : B * B ≤ 10 ^ 100 := (mul_le_mul hB2 hB2 (by linarith) (by positivity)).trans_eq (by norm_num)
  have hb2 : (10 : ℝ) ^ 100 * 10 ≤ 10 ^ 200 := by norm_num
  have p1 : ‖ab.toE‖ * ‖am.toE‖ ≤ 31 / 10 * (B * B) := by
    refine (mul_le_mul mab mam (_root_.norm_nonneg _) (by linarith)).trans ?_
    nlinarith
  have p2 : ‖ab.toE‖ * ‖ab.toE‖ ≤ 11 / 10 * (B * B) := by
    refine (mul_le_mul mab mab (_root_.norm_nonneg _) (by linarith)).trans ?_
    nlinarith
  obtain ⟨s, hs, es⟩ := dot_near' (R := R) p1 (by linarith) (by linarith)
  obtain ⟨l, hl, el⟩ := dot_near' (R := R) p2 (by linarith) (by linarith)
  have huBB : R.u * (B * B) ≤ 1 / 5 * (η * B) := by
    have := mul_le_mul_of_nonneg_right hη (by linarith : 0 ≤ B)
    linarith
  have hηB0 : 0 < η * B := by positivity
  refine ⟨s, l, ab, am, hab, ham, hs, hl, ?_, ?_⟩
  · have e : inner ℝ ab.toE am.toE - x * inner ℝ T (M.toE - A₀) =
        inner ℝ (ab.toE - x • T) am.toE + inner ℝ (x • T) (am.toE - (M.toE - A₀)) := by
      generalize M.toE - A₀ = V
      rw [inner_sub_left, inner_sub_right, inner_smul_left, inner_smul_left]; simp
    have i1 := abs_real_inner_le_norm (ab.toE - x • T) am.toE
    have i2 := abs_real_inner_le_norm (x • T) (am.toE - (M.toE - A₀))
    have j1 : ‖ab.toE - x • T‖ * ‖am.toE‖ ≤ 83 / 10 * η * (302 / 100 * B) := mul_le_mul fab mam (_root_.norm_nonneg _) (by positivity)
    have j2 : ‖x • T‖ * ‖am.toE - (M.toE - A₀)‖ ≤ B * (47 / 10 * η) := mul_le_mul nxT fam (_root_.norm_nonneg _) (by linarith)
    have k1 := abs_add_le (inner ℝ (ab.toE - x • T) am.toE) (inner ℝ (x • T) (am.toE - (M.toE - A₀)))
    rw [← e] at k1
    have k2 := abs_add_le (s - inner ℝ ab.toE am.toE) (inner ℝ ab.toE am.toE - x * inner ℝ T (M.toE - A₀))
    rw [sub_add_sub_cancel] at k2
    linarith
  · have hTT : inner ℝ T T = (1 : ℝ) := by rw [real_inner_self_eq_norm_sq, hT, one_pow]
    have e : inner ℝ ab.toE ab.toE - x ^ 2 = inner ℝ (ab.toE - x • T) ab.toE + inner ℝ (x • T) (ab.toE - x • T) := by
      rw [inner_sub_left, inner_sub_right, inner_smul_left, inner_smul_left, inner_smul_right, hTT]
      simp; ring
    have i1 := abs_real_inner_le_norm (ab.toE - x • T) ab.toE
    have i2 := abs_real_inner_le_norm (x • T) (ab.toE - x • T)
    have j1 : ‖ab.toE - x • T‖ * ‖ab.toE‖ ≤ 83 / 10 * η * (102 / 100 * B) := mul_le_mul fab mab (_root_.norm_nonneg _) (by positivity)
    have j2 : ‖x • T‖ * ‖ab.toE - x • T‖ ≤ B * (83 / 10 * η) := mul_le_mul nxT fab (_root_.norm_nonneg _) (by linarith)
    have k1 := abs_add_le (inner ℝ (ab.toE - x • T) ab.toE) (inner ℝ (x • T) (ab.toE - x • T))
    rw [← e] at k1
    have k2 := abs_add_le (l - inner ℝ ab.toE ab.toE) (inner ℝ ab.toE ab.toE - x ^ 2)
    rw [sub_add_sub_cancel] at k2
    linarith

/-- The sizes of a rectangle, for which the bounds are proved. -/
structure RectangleSizes (R : Rounding) (C : V3 ℝ) (h w B ν : ℝ) : Prop where
  centre : ‖C.toE‖ ≤ B
  height : 0 ≤ h
  height_le : h ≤ B
  width : 0 ≤ w
  width_le : w ≤ B
  one_le : 1 ≤ B
  le_big : B ≤ 10 ^ 50
  fine : ν ≤ 1 / 10000

theorem cross_unit {n t N T : V3 ℝ} {ν : ℝ} (S : StoredFrame R n t N T ν) :
    ‖(cross N T).toE‖ = 1 ∧ inner ℝ (cross N T).toE T.toE = (0 : ℝ) ∧ inner ℝ T.toE (cross N T).toE = (0 : ℝ) := by
  have e0 : dot (cross N T) T = 0 := by simp [cross, dot]; ring
  refine ⟨?_, by rw [inner_toE, e0], by rw [real_inner_comm, inner_toE, e0]⟩
  have h := cross_dot_self N T
  rw [unit_dot_self S.normal_unit, unit_dot_self S.tangent_unit, S.perp] at h
  rw [norm_toE, norm_eq, h]; norm_num

/-- The two tests of a rectangle, for a point of its plane. -/
theorem rectangle_tests {C n₀ t₀ n t N T q : V3 ℝ} {h w B ν : ℝ} (hs : RectangleSizes R C h w B ν) {r : Rectangle (Fl R)}
    (hr : Rectangle.new C.fl n₀.fl t₀.fl (some (Fl.fin h)) (some (Fl.fin w)) = .ok r) (hn : unitVector (n₀.fl : V3 (Fl R)) = n.fl)
    (ht : unitVector (t₀.fl : V3 (Fl R)) = t.fl) (S : StoredFrame R n t N T ν) (hq : ‖q.toE - C.toE‖ ≤ 2 * B) :
    ∃ s1 l1 s2 l2 : ℝ, dot (r.bounds1 - r.bounds0) (q.fl - r.bounds0) = Fl.fin s1 ∧
      dot (r.bounds1 - r.bounds0) (r.bounds1 - r.bounds0) = Fl.fin l1 ∧
      dot (r.bounds2 - r.bounds1) (q.fl - r.bounds1) = Fl.fin s2 ∧
      dot (r.bounds2 - r.bounds1) (r.bounds2 - r.bounds1) = Fl.fin l2 ∧
      |s1 - w * (inner ℝ (cross N T).toE (q.toE - C.toE) + w / 2)| ≤ 34 * (ν * B * B) ∧ |l1 - w ^ 2| ≤ 18 * (ν * B * B) ∧
      |s2 - h * (h / 2 - inner ℝ T.toE (q.toE - C.toE))| ≤ 34 * (ν * B * B) ∧ |l2 - h ^ 2| ≤ 18 * (ν * B * B) := by
  have hu := R.u_pos
  obtain ⟨hC, hh, hhB, hw, hwB, hB, hB', hν⟩ := hs
  obtain ⟨-, b0, b1, b2⟩ := rectangle_built hr
  obtain ⟨hT2, hp1, hp2⟩ := cross_unit S
  have hTT : inner ℝ T.toE T.toE = (1 : ℝ) := by rw [real_inner_self_eq_norm_sq, S.tangent_unit, one_pow]
  have hT2T2 : inner ℝ (cross N T).toE (cross N T).toE = (1 : ℝ) := by rw [real_inner_self_eq_norm_sq, hT2, one_pow]
  obtain ⟨h', hh', eh⟩ := halved_near (R := R) hh hhB hB hB'
  obtain ⟨w', hw', ew⟩ := halved_near (R := R) hw hwB hB hB'
  obtain ⟨c, hc, ec⟩ := tangent2_near S hν
  have hνu := S.coarse
  have huν : R.u * B ≤ 1 / 5 * (ν * B) := by
    have := mul_le_mul_of_nonneg_right hνu (by linarith : 0 ≤ B); linarith
  have hηB : ν * B ≤ 1 / 10000 * B := mul_le_mul_of_nonneg_right hν (by linarith)
  have hη0 : 0 < ν * B := mul_pos (by linarith) (by linarith)
  obtain ⟨a, ha, ea⟩ := side_near (R := R) S.tangent_unit S.tangent (by linarith) hh hhB hB hB' eh
  obtain ⟨b, hb, eb⟩ := side_near (R := R) hT2 ec (by linarith) hw hwB hB hB' ew
  have ea' : ‖a.toE - (h / 2) • T.toE‖ ≤ 9 / 10 * (ν * B) := by
    refine ea.trans ?_
    linarith [show 5 * R.u * B = 5 * (R.u * B) by ring]
  have eb' : ‖b.toE - (w / 2) • (cross N T).toE‖ ≤ 39 / 20 * (ν * B) := by
    refine eb.trans ?_
    linarith [show 31 / 10 * ν * B = 31 / 10 * (ν * B) by ring]
  have nA : ‖(h / 2) • T.toE‖ ≤ 1 / 2 * B := by
    rw [_root_.norm_smul, S.tangent_unit, mul_one, Real.norm_of_nonneg (by linarith)]; linarith
  have nB : ‖(w / 2) • (cross N T).toE‖ ≤ 1 / 2 * B := by
    rw [_root_.norm_smul, hT2, mul_one, Real.norm_of_nonneg (by linarith)]; linarith
  obtain ⟨⟨v0, hv0, e0⟩, ⟨v1, hv1, e1⟩, ⟨v2, hv2, e2⟩⟩ := corner_near (R := R) hC nA nB hB hB' huν hηB ea' eb'
  rw [hn, ht, hc, hh', hw', ha, hb] at b0 b1 b2
  rw [hv0] at b0
  rw [hv1] at b1
  rw [hv2] at b2
  have dq : ∀ X Y : E3, ‖X‖ ≤ 1 / 2 * B → ‖Y‖ ≤ 1 / 2 * B → ‖(q.toE - C.toE) - X - Y‖ ≤ 3 * B := by
    intro X Y hX hY
    have := norm_sub_le ((q.toE - C.toE) - X) Y
    have := norm_sub_le (q.toE - C.toE) X
    linarith
  obtain ⟨s1, l1, ab, am, h1, h2, h3, h4, h5, h6⟩ := side_test (R := R) (M := q) (x := w) hT2 hw hwB
    (show (C.toE + (h / 2) • T.toE + (w / 2) • (cross N T).toE) - (C.toE + (h / 2) • T.toE - (w / 2) • (cross N T).toE) = w • (cross N T).toE by
      rw [add_sub_sub_cancel, ← add_smul]; congr 1; ring) e0 e1 (by
      have := dq ((h / 2) • T.toE) (-((w / 2) • (cross N T).toE)) nA (by rw [_root_.norm_neg]; exact nB)
      rwa [show q.toE - (C.toE + (h / 2) • T.toE - (w / 2) • (cross N T).toE)
        = (q.toE - C.toE) - (h / 2) • T.toE - -((w / 2) • (cross N T).toE) by abel]) hB hB' huν hηB
  obtain ⟨s2, l2, bc, bm, k1, k2, k3, k4, k5, k6⟩ := side_test (R := R) (M := q) (x := h) (T := -T.toE) (by rw [_root_.norm_neg, S.tangent_unit]) hh hhB
    (show (C.toE - (h / 2) • T.toE + (w / 2) • (cross N T).toE) - (C.toE + (h / 2) • T.toE + (w / 2) • (cross N T).toE) = h • -T.toE by
      rw [smul_neg, show h • T.toE = (h / 2) • T.toE + (h / 2) • T.toE by rw [← add_smul, add_halves]]
      abel) e1 e2 (by
      have := dq ((h / 2) • T.toE) ((w / 2) • (cross N T).toE) nA nB
      rwa [show q.toE - (C.toE + (h / 2) • T.toE + (w / 2) • (cross N T).toE)
        = (q.toE - C.toE) - (h / 2) • T.toE - (w / 2) • (cross N T).toE by abel]) hB hB' huν hηB
  refine ⟨s1, l1, s2, l2, by rw [b0, b1, h1, h2, h3], by rw [b0, b1, h1, h4], by rw [b1, b2, k1, k2, k3], by rw [b1, b2, k1, k4], ?_, h6, ?_, k6⟩
  · have e : inner ℝ (cross N T).toE (q.toE - (C.toE + (h / 2) • T.toE - (w / 2) • (cross N T).toE)) =
        inner ℝ (cross N T).toE (q.toE - C.toE) + w / 2 := by
      rw [show q.toE - (C.toE + (h / 2) • T.toE - (w / 2) • (cross N T).toE)
        = (q.toE - C.toE) - (h / 2) • T.toE + (w / 2) • (cross N T).toE by abel, inner_add_right, inner_sub_right _ (q.toE - C.toE),
        inner_smul_right, inner_smul_right, hp1, hT2T2]
      ring
    rw [e] at h5
    exact h5
  · have e : inner ℝ (-T.toE) (q.toE - (C.toE + (h / 2) • T.toE + (w / 2) • (cross N T).toE)) =
        h / 2 - inner ℝ T.toE (q.toE - C.toE) := by
      rw [show q.toE - (C.toE + (h / 2) • T.toE + (w / 2) • (cross N T).toE)
        = (q.toE - C.toE) - (h / 2) • T.toE - (w / 2) • (cross N T).toE by abel, inner_neg_left, inner_sub_right _ (q.toE - C.toE - _),
        inner_sub_right _ (q.toE - C.toE), inner_smul_right, inner_smul_right, hp2, hTT]
      ring
    rw [e] at k5
    exact k5

end Optics
