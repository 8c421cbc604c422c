import Verif.Lemmas.RoundedThinRun
import Verif.Lemmas.RelayBench

/-! The directions `ideal_collimate` and `ideal_focus` compute with rounded arithmetic. -/

namespace Optics
open V3

variable {R : Rounding}

/-- The direction after a collimating lens. -/
theorem collimate_near {d n : V3 ℝ} {M : E3} (hd : NearUnit R d) (hM : ‖M‖ = 1) (hn : ‖n.toE - M‖ ≤ 5 * R.u)
    (hc : 1 / 1000 ≤ |inner ℝ M d.toE|) :
    ∃ (d' : V3 ℝ) (σ : ℝ), collimateDirection (d.fl : V3 (Fl R)) n.fl = d'.fl ∧ NearUnit R d' ∧ (σ = 1 ∨ σ = -1) ∧
      0 < inner ℝ (σ • M) d.toE ∧ ‖d'.toE - σ • M‖ ≤ 15 * R.u := by
  obtain ⟨m, M', a, b, hm, hMM, hmM, hMd, -⟩ := thin_facing hd hM hn rfl hc
  have hM' : ‖M'‖ = 1 := by rcases hMM with e | e <;> rw [e]; exacts [hM, by rw [_root_.norm_neg, hM]]
  have hmu := nearUnit_of hM' hmM
  obtain ⟨d', h1, h2⟩ := unitVector_near (R := R) hmu.sane
  obtain ⟨σ, hσ, eσ⟩ : ∃ σ : ℝ, (σ = 1 ∨ σ = -1) ∧ σ • M = M' := by
    rcases hMM with e | e
    · exact ⟨1, .inl rfl, by rw [e, one_smul]⟩
    · exact ⟨-1, .inr rfl, by rw [e, neg_one_smul]⟩
  refine ⟨d', σ, by rw [collimateDirection, hm, h1], nearUnit_of (dirE_norm hmu.sane.pos) h2, hσ, ?_, ?_⟩
  · rw [eσ, hMd]; linarith
  · rw [eσ]
    have h3 := near_dirE hmu
    rw [norm_sub_rev] at h3
    have e : d'.toE - M' = (d'.toE - m.dirE) + (m.dirE - m.toE) + (m.toE - M') := by abel
    rw [e]
    have a1 := norm_add_le ((d'.toE - m.dirE) + (m.dirE - m.toE)) (m.toE - M')
    have a2 := norm_add_le (d'.toE - m.dirE) (m.dirE - m.toE)
    linarith

/-- The direction after a focusing lens: from the ray to the focal point. -/
theorem focus_near {d n P pos : V3 ℝ} {M : E3} {f B : ℝ} (hd : NearUnit R d) (hM : ‖M‖ = 1) (hn : ‖n.toE - M‖ ≤ 5 * R.u)
    (hc : 1 / 1000 ≤ |inner ℝ M d.toE|) (hs : ThinSizes R f B 1) (hP : ‖P.toE‖ ≤ B) (hr : ‖pos.toE - P.toE‖ ≤ B)
    (hp : |inner ℝ M (pos.toE - P.toE)| ≤ f / 2) :
    ∃ (d' : V3 ℝ) (σ : ℝ), focusDirection pos.fl (d.fl : V3 (Fl R)) P.fl n.fl (Fl.fin f) = d'.fl ∧ NearUnit R d' ∧
      (σ = 1 ∨ σ = -1) ∧ 0 < inner ℝ (σ • M) d.toE ∧
      f / 2 ≤ ‖P.toE + (f * σ) • M - pos.toE‖ ∧
      ‖‖P.toE + (f * σ) • M - pos.toE‖ • d'.toE - (P.toE + (f * σ) • M - pos.toE)‖ ≤ 32 * (R.u * B) := by
  have hu := R.u_pos
  have hus := (five_u (R := R)).2
  have hf := hs.f_pos
  have hfB := hs.f_le
  have hflo := hs.f_lo
  have hB1 := hs.one_le
  have hBb := hs.le_big
  have hfine : 1000 * (R.u * B) ≤ f := by have := hs.fine; norm_num at this; exact this
  obtain ⟨m, M', a, b, hm, hMM, hmM, hMd, -⟩ := thin_facing hd hM hn rfl hc
  have hM' : ‖M'‖ = 1 := by rcases hMM with e | e <;> rw [e]; exacts [hM, by rw [_root_.norm_neg, hM]]
  obtain ⟨hm1, -⟩ := (nearUnit_of hM' hmM).bounds
  obtain ⟨σ, hσ, eσ⟩ : ∃ σ : ℝ, (σ = 1 ∨ σ = -1) ∧ σ • M = M' := by
    rcases hMM with e | e
    · exact ⟨1, .inl rfl, by rw [e, one_smul]⟩
    · exact ⟨-1, .inr rfl, by rw [e, neg_one_smul]⟩
  have huB : R.u ≤ R.u * B := by nlinarith
  have huB1 : R.u * B ≤ B / 1000000 := by
    have := mul_le_mul_of_nonneg_right hus (by linarith : 0 ≤ B); linarith
  have huf : R.u * f ≤ R.u * B := mul_le_mul_of_nonneg_left hfB hu.le
  have big : (10 : ℝ) ^ 50 * 10 ≤ 10 ^ 200 := by norm_num
  have h4 : R.u * (101 / 100 * B + 1 / 1000) = 101 / 100 * (R.u * B) + R.u / 1000 := by ring
  have h5 : R.u * (202 / 100 * B + 1 / 1000) = 202 / 100 * (R.u * B) + R.u / 1000 := by ring
  have h6 : R.u * (203 / 100 * B + 1 / 1000) = 203 / 100 * (R.u * B) + R.u / 1000 := by ring
  have n1 : ‖f • m.toE‖ ≤ 101 / 100 * B := by
    rw [_root_.norm_smul, Real.norm_of_nonneg hf.le]
    have := mul_le_mul hfB hm1 (_root_.norm_nonneg _) (by linarith only [hB1])
    linarith only [this, hB1]
  obtain ⟨q, hq, eq⟩ := vsmul_near (R := R) n1 (by linarith only [hBb, big, hB1])
  have n2 : ‖P.toE + q.toE‖ ≤ 202 / 100 * B := by
    have h1 := norm_add_le P.toE q.toE
    have h2 := norm_le_norm_add_norm_sub' q.toE (f • m.toE)
    linarith only [h1, h2, h4, n1, eq, hP, huB1, huB, hB1]
  obtain ⟨F, hF, eF⟩ := vadd_near (R := R) n2 (by linarith only [hBb, big, hB1])
  have n3 : ‖F.toE - pos.toE‖ ≤ 203 / 100 * B := by
    have e : F.toE - pos.toE = (F.toE - (P.toE + q.toE)) + (q.toE - f • m.toE) + f • m.toE - (pos.toE - P.toE) := by abel
    rw [e]
    have h1 := norm_sub_le ((F.toE - (P.toE + q.toE)) + (q.toE - f • m.toE) + f • m.toE) (pos.toE - P.toE)
    have h2 := norm_add_le ((F.toE - (P.toE + q.toE)) + (q.toE - f • m.toE)) (f • m.toE)
    have h3 := norm_add_le (F.toE - (P.toE + q.toE)) (q.toE - f • m.toE)
    linarith only [h1, h2, h3, h4, h5, n1, eq, eF, hr, huB1, huB, hB1]
  obtain ⟨v, hv, ev⟩ := vsub_near (R := R) n3 (by linarith only [hBb, big, hB1])
  have k1 : ‖f • m.toE - f • M'‖ ≤ 5 * (R.u * f) := by
    rw [← smul_sub, _root_.norm_smul, Real.norm_of_nonneg hf.le]
    have := mul_le_mul_of_nonneg_left hmM hf.le
    linarith only [this]
  set x : E3 := P.toE + f • M' - pos.toE with hx
  have dv : ‖v.toE - x‖ ≤ 102 / 10 * (R.u * B) := by
    have e : v.toE - x = (v.toE - (F.toE - pos.toE)) + (F.toE - (P.toE + q.toE)) + (q.toE - f • m.toE) + (f • m.toE - f • M') := by
      rw [hx]; abel
    rw [e]
    have a1 := norm_add_le ((v.toE - (F.toE - pos.toE)) + (F.toE - (P.toE + q.toE)) + (q.toE - f • m.toE)) (f • m.toE - f • M')
    have a2 := norm_add_le ((v.toE - (F.toE - pos.toE)) + (F.toE - (P.toE + q.toE))) (q.toE - f • m.toE)
    have a3 := norm_add_le (v.toE - (F.toE - pos.toE)) (F.toE - (P.toE + q.toE))
    linarith only [a1, a2, a3, h4, h5, h6, k1, eq, eF, ev, huB, huf, hu]
  have xlo : f / 2 ≤ ‖x‖ := by
    have h1 := real_inner_le_norm M' x
    have e : x = f • M' - (pos.toE - P.toE) := by rw [hx]; abel
    have h2 : inner ℝ M' x = f - inner ℝ M' (pos.toE - P.toE) := by
      rw [e, inner_sub_right, real_inner_smul_right, real_inner_self_eq_norm_sq, hM']; ring
    rw [hM', one_mul, h2] at h1
    have h3 : inner ℝ M' (pos.toE - P.toE) ≤ f / 2 := by
      rcases hMM with e | e <;> rw [e]
      · exact (abs_le.mp hp).2
      · rw [inner_neg_left]; linarith only [(abs_le.mp hp).1]
    linarith only [h1, h3]
  have xhi : ‖x‖ ≤ 2 * B := by
    have e : x = f • M' - (pos.toE - P.toE) := by rw [hx]; abel
    rw [e]
    refine (norm_sub_le _ _).trans ?_
    rw [_root_.norm_smul, Real.norm_of_nonneg hf.le, hM']
    linarith only [hr, hfB]
  have sane : SaneLength v := by
    have a4 := norm_le_norm_add_norm_sub' x v.toE
    rw [norm_sub_rev x v.toE] at a4
    have a5 := norm_le_norm_add_norm_sub' v.toE x
    constructor
    · have : (1 : ℝ) / 10 ^ 100 ≤ 1 / 10 ^ 90 * (4 / 10) := by norm_num
      linarith only [this, hflo, xlo, dv, a4, hfine]
    · have b1 : (10 : ℝ) ^ 50 * 10 ≤ 10 ^ 100 := by norm_num
      linarith only [b1, a5, xhi, dv, hBb, huB1, hB1]
  obtain ⟨d', t1, t2, t3⟩ := scaled_unit (R := R) (k := 1) (e := 102 / 10 * (R.u * B)) one_pos sane (by rw [one_smul]; exact dv) xhi
  refine ⟨d', σ, ?_, t2, hσ, by rw [eσ, hMd]; linarith, ?_, ?_⟩
  · unfold focusDirection
    simp only [hm, hq, hF, hv]
    exact t1
  · rw [mul_smul, eσ]; exact xlo
  · rw [mul_smul, eσ]
    refine t3.trans ?_
    have : 2 * (102 / 10 * (R.u * B)) / 1 + 5 * R.u * (2 * B) = 304 / 10 * (R.u * B) := by ring
    rw [this]
    linarith only [huB, hu]

end Optics
