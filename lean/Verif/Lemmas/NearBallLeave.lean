import Verif.Lemmas.NearBall

/-! # A ball near a ray, with rounding: after the reflection the ball is not hit again -/

namespace Optics
open V3

variable {R : Rounding} {C P : V3 ℝ} {e : E3} {ρ t h L : ℝ}

theorem inner_mirrorImage {N : V3 ℝ} (hN : 0 < ‖N.toE‖) (x : E3) : inner ℝ (mirrorImage N x) N.toE = -inner ℝ x N.toE := by
  rw [mirrorImage_apply hN]
  unfold V3.dirE
  rw [inner_sub_left, inner_smul_left, inner_smul_left, inner_smul_right, real_inner_self_eq_norm_sq]
  simp only [RCLike.conj_to_real]
  field_simp
  ring

/-- The reflected direction leads away from the centre. -/
theorem BallAhead.outward (H : BallAhead R C P e ρ t h L) {d c w N : V3 ℝ} (hd : ‖d.toE - e‖ ≤ 5 * R.u) {ε : ℝ}
    (hε : ε = R.u * L ^ 2 / h) (hc : ‖c.toE - (C.toE - (P.toE + t • e))‖ ≤ 39 * ε) (hN : N.toE = -c.toE)
    (hw : ‖w.toE - mirrorImage N d.toE‖ ≤ 300 * R.u) :
    inner ℝ w.toE (C.toE - (P.toE + t • e)) ≤ -h + 390 * ε := by
  obtain ⟨z1, z2, z3, z4⟩ := H.sizes
  obtain ⟨u1, u2, u3, u4, u5, u6, u7, u8⟩ := H.units hε
  have hn : ‖C.toE - (P.toE + t • e)‖ = ρ := by rw [norm_sub_rev]; exact H.on
  have hρ := H.radius
  set x := C.toE - (P.toE + t • e) with hx
  have hcn : 0 < ‖N.toE‖ := by
    rw [hN, _root_.norm_neg]
    have := norm_sub_norm_le x c.toE
    rw [hn, norm_sub_rev] at this
    linarith
  have e1 : inner ℝ w.toE x = inner ℝ (w.toE - mirrorImage N d.toE) x + inner ℝ (mirrorImage N (d.toE - e)) x
      + (inner ℝ (mirrorImage N e) (x - c.toE) + inner ℝ (mirrorImage N e) c.toE) := by
    rw [← mirrorImage_sub, inner_sub_left, inner_sub_left, inner_sub_right (mirrorImage N e) x]; ring
  have a1 := (le_abs_self _).trans (abs_real_inner_le_norm (w.toE - mirrorImage N d.toE) x)
  have a2 := (le_abs_self _).trans (abs_real_inner_le_norm (mirrorImage N (d.toE - e)) x)
  have a3 := (le_abs_self _).trans (abs_real_inner_le_norm (mirrorImage N e) (x - c.toE))
  rw [mirrorImage_norm, hn] at a2
  rw [mirrorImage_norm, H.unit, one_mul, norm_sub_rev] at a3
  rw [hn] at a1
  have b1 := mul_le_mul_of_nonneg_right hw (show 0 ≤ ρ by linarith)
  have b2 := mul_le_mul_of_nonneg_right hd (show 0 ≤ ρ by linarith)
  have a4 : inner ℝ (mirrorImage N e) c.toE = -inner ℝ e c.toE := by
    have := inner_mirrorImage hcn e
    rw [hN, inner_neg_right, inner_neg_right] at this
    linarith
  have a5 : inner ℝ e c.toE = h + inner ℝ e (c.toE - x) := by
    rw [inner_sub_right, H.cosine]; ring
  have a6 := neg_abs_le (inner ℝ e (c.toE - x))
  have a7 := abs_real_inner_le_norm e (c.toE - x)
  rw [H.unit, one_mul] at a7
  rw [e1, a4, a5]
  linarith

theorem leave_num {h v δ Δ r : ℝ} (hh : 0 < h) (hv : v ≤ -(99 / 100 * h)) (hδ : |δ| ≤ Δ) (hΔ : Δ ≤ h ^ 2 / 1000)
    (hr : 0 ≤ r) (hr2 : r ^ 2 = v ^ 2 - δ) : 985 / 1000 * h ≤ r ∧ (v + r) * (1975 / 1000 * h) ≤ Δ := by
  have hδ' := abs_le.mp hδ
  have a : 985 / 1000 * h ≤ r := by
    refine abs_le_of_sq_le_sq' ?_ hr |>.2
    rw [hr2]
    nlinarith
  refine ⟨a, ?_⟩
  have hΔ0 : 0 ≤ Δ := (abs_nonneg _).trans hδ
  by_cases hs : v + r ≤ 0
  · nlinarith
  · have : (v + r) * (r - v) ≤ Δ := by
      rw [show (v + r) * (r - v) = r ^ 2 - v ^ 2 by ring, hr2]; linarith [hδ'.1]
    refine le_trans (mul_le_mul_of_nonneg_left ?_ (le_of_lt (not_le.mp hs))) this
    linarith

theorem tiny_of {h : ℝ} (hh : 1 / 1000 ≤ h) : h / 10 ^ 12 ≤ h ^ 2 / 10 ^ 9 := by
  rw [show h ^ 2 / 10 ^ 9 = h * (h / 10 ^ 9) by ring, show h / 10 ^ 12 = h * (1 / 10 ^ 12) by ring]
  exact mul_le_mul_of_nonneg_left (by linarith) (by linarith)

theorem sum_small {Δ c g h v i r j k : ℝ} (hh : 0 < h) (n1 : 985 / 1000 * h ≤ k)
    (n2 : (i + j) * (1975 / 1000 * h) ≤ Δ) (hc : 0 < c)
    (ev : v ≤ i + 361 / 100 * g) (er : r ≤ j + (51 / 100 * (151 / 10 * c / k) + 105 / 100 * g)) (uh : g * h ≤ c)
    (hnear : 508 / 1000 * Δ + 127 / 10 * c ≤ h / 10 ^ 12) (hΔ : 0 ≤ Δ) : v + r ≤ 1 / 10 ^ 12 := by
  have hk0 : 0 < k := by linarith
  have hkh : 151 / 10 * c / k * h ≤ 1534 / 100 * c := by
    rw [div_mul_eq_mul_div, div_le_iff₀ hk0]
    have := mul_le_mul_of_nonneg_left n1 hc.le
    have := mul_pos hc hh
    linarith
  have m : v + r ≤ (i + j) + (361 / 100 * g + (51 / 100 * (151 / 10 * c / k) + 105 / 100 * g)) := by linarith
  have m2 := mul_le_mul_of_nonneg_right m hh.le
  have m3 : (v + r) * h ≤ 1 / 10 ^ 12 * h := by linarith
  exact le_of_mul_le_mul_right m3 hh

/-- What the sphere test computes for a line that cuts the ball. -/
theorem root_pair {w q : V3 ℝ} {ρ h : ℝ} (hw : ‖w.toE‖ ≤ 1 + 1 / 100000) (hh : 0 < h) (hρ : 1 ≤ ρ)
    (hr : ρ ≤ 10 ^ 40) (hqb : ‖q.toE‖ ≤ (1 + 2 / 1000) * ρ) (hdp : 0 ≤ discr w q ρ)
    (hk : 985 / 1000 * h ≤ Real.sqrt (discr w q ρ)) (hsm : 16 * (R.u * ρ ^ 2) ≤ h ^ 2 / 1000) :
    ∃ v D r : ℝ, dot (w.fl : V3 (Fl R)) q.fl = Fl.fin v ∧
      (Fl.fin v : Fl R) * Fl.fin v - (dot (q.fl : V3 (Fl R)) q.fl - (Fl.fin ρ : Fl R) * Fl.fin ρ) = Fl.fin D ∧ 0 < D ∧
      PyNum.sqrt (Fl.fin D : Fl R) = Fl.fin r ∧ |v - inner ℝ w.toE q.toE| ≤ 361 / 100 * (R.u * ρ) ∧
      |r - Real.sqrt (discr w q ρ)| ≤ 51 / 100 * (151 / 10 * (R.u * ρ ^ 2) / Real.sqrt (discr w q ρ)) + 105 / 100 * (R.u * ρ) ∧
      |v| ≤ 101 / 100 * ρ ∧ 0 ≤ r ∧ r ≤ 102 / 100 * ρ ∧ Real.sqrt (discr w q ρ) ≤ 101 / 100 * ρ := by
  have hu := R.u_pos
  have hus := (five_u (R := R)).2
  have huρ : 0 < R.u * ρ := by positivity
  have huρρ : 0 < R.u * ρ ^ 2 := by positivity
  have b50 : (1 + 2 / 1000) * ρ ≤ 10 ^ 50 := by
    have : 2 * (10 : ℝ) ^ 40 ≤ 10 ^ 50 := by norm_num
    linarith
  have uρs : R.u * ρ ≤ ρ / 1000000 := by nlinarith
  obtain ⟨v, D, hv, ev, hvb, hD, eD⟩ := discr_near (R := R) (ρ := ρ) hw hqb (by linarith) (by linarith) (by linarith) b50
  obtain ⟨-, c2, -⟩ := discr_bounds (ρ := ρ) hw hqb (by linarith) (by linarith)
  have hsq := Real.sq_sqrt hdp
  set k := Real.sqrt (discr w q ρ) with hkd
  have hk0 : 0 < k := by linarith
  have hkρ : k ≤ 101 / 100 * ρ := by
    refine abs_le_of_sq_le_sq' ?_ (by linarith) |>.2
    rw [hsq]
    nlinarith [sq_nonneg ρ]
  have eD' : |D - k ^ 2| ≤ 151 / 10 * (R.u * ρ ^ 2) := by
    rw [hsq]
    refine eD.trans ?_
    rw [show R.u * ((1 + 2 / 1000) * ρ) ^ 2 = (1 + 2 / 1000) ^ 2 * (R.u * ρ ^ 2) by ring]
    linarith
  have hsm' : 151 / 10 * (R.u * ρ ^ 2) ≤ k ^ 2 / 100 := by
    have a1 : (985 / 1000 * h) ^ 2 ≤ k ^ 2 := pow_le_pow_left₀ (by linarith) hk 2
    linarith [sq_nonneg h]
  have b60 : 101 / 100 * ρ ≤ 10 ^ 60 := by
    have : 2 * (10 : ℝ) ^ 40 ≤ 10 ^ 60 := by norm_num
    linarith
  obtain ⟨hD0, r, hr', er⟩ := root_near (R := R) hk0 hkρ (by linarith) b60 eD' hsm'
  have er' := abs_le.mp er
  have hg1 : 103 / 100 * (R.u * (101 / 100 * ρ)) ≤ 105 / 100 * (R.u * ρ) := by linarith only [huρ]
  have hg2 : 36 / 10 * (R.u * ((1 + 2 / 1000) * ρ)) ≤ 361 / 100 * (R.u * ρ) := by linarith only [huρ]
  have hb : 151 / 10 * (R.u * ρ ^ 2) / k ≤ k / 100 := by
    rw [div_le_iff₀ hk0]; linarith only [hsm', sq k]
  have hr0 : 0 ≤ r := by
    have h1 := hr'
    rw [fl_sqrt _ hD0.le] at h1
    exact rnd_nonneg (Real.sqrt_nonneg D) (congrArg Fl.val h1)
  refine ⟨v, D, r, hv, hD, hD0, hr', ev.trans hg2, er.trans (by linarith only [hg1]), hvb.trans (by linarith only [hρ]), hr0, ?_, hkρ⟩
  linarith only [er'.2, hb, hg1, uρs, hk0, hkρ, hρ]

/-- The roots of the second sphere test. -/
theorem second_root {w q : V3 ℝ} {ρ h Δ : ℝ} (hw : ‖w.toE‖ ≤ 1 + 1 / 100000) (hh : 1 / 1000 ≤ h) (z1 : h ≤ ρ) (hρ : 1 ≤ ρ)
    (hr : ρ ≤ 10 ^ 40) (hnear' : 508 / 1000 * Δ + 127 / 10 * (R.u * ρ ^ 2) ≤ h / 10 ^ 12)
    (hqb : ‖q.toE‖ ≤ (1 + 2 / 1000) * ρ) (hδ : |‖q.toE‖ ^ 2 - ρ ^ 2| ≤ Δ)
    (hv2 : inner ℝ w.toE q.toE ≤ -(99 / 100 * h)) :
    ∃ v D r : ℝ, dot (w.fl : V3 (Fl R)) q.fl = Fl.fin v ∧
      (Fl.fin v : Fl R) * Fl.fin v - (dot (q.fl : V3 (Fl R)) q.fl - (Fl.fin ρ : Fl R) * Fl.fin ρ) = Fl.fin D ∧ 0 < D ∧
      PyNum.sqrt (Fl.fin D : Fl R) = Fl.fin r ∧ v - r ≤ v + r ∧ v + r ≤ 1 / 10 ^ 12 ∧ |v| ≤ 2 * ρ ∧ |r| ≤ 2 * ρ := by
  have hu := R.u_pos
  have huρ : 0 < R.u * ρ := by positivity
  have huρρ : 0 < R.u * ρ ^ 2 := by positivity
  have uh : R.u * ρ * h ≤ R.u * ρ ^ 2 := by
    rw [sq, ← mul_assoc]; exact mul_le_mul_of_nonneg_left z1 huρ.le
  have hd2 : discr w q ρ = inner ℝ w.toE q.toE ^ 2 - (‖q.toE‖ ^ 2 - ρ ^ 2) := rfl
  have hh0 : 0 < h := by linarith
  have hΔ0 : 0 ≤ Δ := (abs_nonneg _).trans hδ
  have ht := tiny_of hh
  have hΔs : Δ ≤ h ^ 2 / 1000 := by linarith [sq_nonneg h]
  have hdp : 0 ≤ discr w q ρ := by
    rw [hd2]
    have := (abs_le.mp hδ).2
    nlinarith
  obtain ⟨n1, n2⟩ := leave_num hh0 hv2 hδ hΔs (Real.sqrt_nonneg (discr w q ρ)) (by rw [Real.sq_sqrt hdp, hd2])
  obtain ⟨v, D, r, hv, hD, hD0, hr', ev, er, hvb, hr0, hrb, -⟩ := root_pair (R := R) hw hh0 hρ hr hqb hdp n1
    (by linarith [sq_nonneg h])
  have er' := abs_le.mp er
  have ev' := abs_le.mp ev
  have hsum : v + r ≤ 1 / 10 ^ 12 :=
    sum_small hh0 n1 n2 huρρ (by linarith only [ev'.2]) (by linarith only [er'.2]) uh hnear' hΔ0
  exact ⟨v, D, r, hv, hD, hD0, hr', by linarith, hsum, hvb.trans (by linarith), by rw [abs_of_nonneg hr0]; linarith⟩

/-- The second sphere test. -/
theorem BallAhead.second (H : BallAhead R C P e ρ t h L) {w P' : V3 ℝ} (hw : NearUnit R w) {ε : ℝ}
    (hε : ε = R.u * L ^ 2 / h) (hP' : ‖P'.toE - (P.toE + t • e)‖ ≤ 50 * ε)
    (hrad : |‖C.toE - P'.toE‖ ^ 2 - ρ ^ 2| ≤ 31 * (R.u * L ^ 2) + 67 * (R.u * L * ρ))
    (hout : inner ℝ w.toE (C.toE - (P.toE + t • e)) ≤ -h + 390 * ε) :
    ∃ (q : V3 ℝ) (v D r : ℝ), (C.fl : V3 (Fl R)) - P'.fl = q.fl ∧ dot (w.fl : V3 (Fl R)) q.fl = Fl.fin v ∧
      (Fl.fin v : Fl R) * Fl.fin v - (dot (q.fl : V3 (Fl R)) q.fl - (Fl.fin ρ : Fl R) * Fl.fin ρ) = Fl.fin D ∧ 0 < D ∧
      PyNum.sqrt (Fl.fin D : Fl R) = Fl.fin r ∧ v - r ≤ v + r ∧ v + r ≤ 1 / 10 ^ 12 ∧ |v| ≤ 2 * ρ ∧ |r| ≤ 2 * ρ := by
  obtain ⟨z1, z2, z3, z4⟩ := H.sizes
  obtain ⟨u1, u2, u3, u4, u5, u6, u7, u8⟩ := H.units hε
  have hu := R.u_pos
  have hus := (five_u (R := R)).2
  have hh := H.steep
  have hρ := H.radius
  have hr := H.range
  have hnear := H.near
  have hn : ‖C.toE - (P.toE + t • e)‖ = ρ := by rw [norm_sub_rev]; exact H.on
  have hwb := hw.bounds
  have huρ : 0 < R.u * ρ := by positivity
  have huu : R.u ≤ R.u * ρ := le_mul_of_one_le_right hu.le hρ
  have huρρ : 0 < R.u * ρ ^ 2 := by positivity
  have huLρ : 0 < R.u * L * ρ := by positivity
  have huLL : 0 < R.u * L ^ 2 := by positivity
  have uh : R.u * ρ * h ≤ R.u * ρ ^ 2 := by
    rw [sq, ← mul_assoc]; exact mul_le_mul_of_nonneg_left z1 huρ.le
  have hnear' : 16 * (R.u * L ^ 2) + 35 * (R.u * L * ρ) + 15 * (R.u * ρ ^ 2) ≤ h / 10 ^ 12 := by linarith
  -- the vector to the centre
  have hCP : ‖C.toE - P'.toE‖ ≤ (1 + 1 / 1000) * ρ := by
    have : C.toE - P'.toE = (C.toE - (P.toE + t • e)) - (P'.toE - (P.toE + t • e)) := by abel
    rw [this]
    have := norm_sub_le (C.toE - (P.toE + t • e)) (P'.toE - (P.toE + t • e))
    linarith
  have b200 : (1 + 1 / 1000) * ρ ≤ 10 ^ 200 := by
    have : 2 * (10 : ℝ) ^ 40 ≤ 10 ^ 200 := by norm_num
    linarith
  have b50 : (1 + 2 / 1000) * ρ ≤ 10 ^ 50 := by
    have : 2 * (10 : ℝ) ^ 40 ≤ 10 ^ 50 := by norm_num
    linarith
  obtain ⟨q, hq, eq⟩ := vsub_near (R := R) hCP b200
  have eq' : ‖q.toE - (C.toE - P'.toE)‖ ≤ 1002 / 1000 * (R.u * ρ) := eq.trans (by linarith)
  have hqn : |‖q.toE‖ - ‖C.toE - P'.toE‖| ≤ 1002 / 1000 * (R.u * ρ) := (abs_norm_sub_norm_le _ _).trans eq'
  have hqn' := abs_le.mp hqn
  have uρs : R.u * ρ ≤ ρ / 1000000 := by nlinarith
  have hqb : ‖q.toE‖ ≤ (1 + 2 / 1000) * ρ := by linarith
  have hδ : |‖q.toE‖ ^ 2 - ρ ^ 2| ≤ 31 * (R.u * L ^ 2) + 67 * (R.u * L * ρ) + 201 / 100 * (R.u * ρ ^ 2) := by
    have b2 : |‖q.toE‖ ^ 2 - ‖C.toE - P'.toE‖ ^ 2| ≤ 1002 / 1000 * (R.u * ρ) * ((2 + 3 / 1000) * ρ) := by
      rw [show ‖q.toE‖ ^ 2 - ‖C.toE - P'.toE‖ ^ 2 = (‖q.toE‖ - ‖C.toE - P'.toE‖) * (‖q.toE‖ + ‖C.toE - P'.toE‖) by ring]
      refine abs_mul_le' hqn ?_
      rw [abs_le]; constructor <;> linarith [_root_.norm_nonneg q.toE, _root_.norm_nonneg (C.toE - P'.toE)]
    have b3 := abs_add_le (‖q.toE‖ ^ 2 - ‖C.toE - P'.toE‖ ^ 2) (‖C.toE - P'.toE‖ ^ 2 - ρ ^ 2)
    rw [sub_add_sub_cancel] at b3
    have b4 : 1002 / 1000 * (R.u * ρ) * ((2 + 3 / 1000) * ρ) = 1002 / 1000 * (2 + 3 / 1000) * (R.u * ρ ^ 2) := by ring
    rw [b4] at b2
    linarith
  -- the cosine
  have hv2 : inner ℝ w.toE q.toE ≤ -(99 / 100 * h) := by
    have a0 : q.toE = (C.toE - (P.toE + t • e)) + ((q.toE - (C.toE - P'.toE)) - (P'.toE - (P.toE + t • e))) := by abel
    have a1 := (le_abs_self _).trans (abs_real_inner_le_norm w.toE ((q.toE - (C.toE - P'.toE)) - (P'.toE - (P.toE + t • e))))
    have a2 := norm_sub_le (q.toE - (C.toE - P'.toE)) (P'.toE - (P.toE + t • e))
    have a3 : ‖w.toE‖ * ‖(q.toE - (C.toE - P'.toE)) - (P'.toE - (P.toE + t • e))‖ ≤ 2 * (52 * ε) :=
      mul_le_mul (by linarith) (by linarith) (_root_.norm_nonneg _) (by norm_num)
    rw [a0, inner_add_right]
    linarith
  obtain ⟨v, D, r, a⟩ := second_root (R := R) hwb.1 hh z1 hρ (z2.trans hr) (by linarith only [hnear', huLL, huLρ, huρρ]) hqb hδ hv2
  exact ⟨q, v, D, r, hq, a⟩

end Optics
