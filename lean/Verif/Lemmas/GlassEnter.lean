import Verif.Lemmas.GlassSnell

/-! # A glass ball near a ray, with rounding: entering -/

namespace Optics
open V3

variable {R : Rounding} {C P : V3 ℝ} {e : E3} {ρ t h L η : ℝ}

/-- How small the errors are. -/
theorem GlassAhead.small (H : GlassAhead R C P e ρ t h L η) {ε k : ℝ} (hε : ε = R.u * L ^ 2 / h) (hk : h ≤ k) :
    10 ^ 8 * (ε * ρ ^ 2) ≤ h ^ 3 ∧ 10 ^ 8 * (ε * ρ) ≤ h ^ 2 ∧ 10 ^ 8 * (R.u * ρ ^ 2) ≤ h ^ 2 ∧ R.u ≤ 1 / 10 ^ 12 ∧
      h ^ 2 ≤ k ^ 2 ∧ h ^ 2 ≤ h * k := by
  obtain ⟨z1, z2, z3, z4⟩ := H.sizes
  obtain ⟨u1, u2, u3, u4, u5, u6, u7, u8⟩ := H.units hε
  have hu := R.u_pos
  have hh := H.steep
  have hh0 : 0 < h := by linarith
  have hρ := H.radius
  have hρ0 : 0 < ρ := by linarith
  have g := H.grazing
  have a : 10 ^ 8 * (ε * ρ ^ 2) ≤ h ^ 3 := by
    refine le_of_mul_le_mul_right ?_ hh0
    rw [show 10 ^ 8 * (ε * ρ ^ 2) * h = 10 ^ 8 * (ε * h * ρ ^ 2) by ring, u2]
    linarith
  have b : 10 ^ 8 * (ε * ρ) ≤ h ^ 2 := by
    refine le_of_mul_le_mul_right ?_ hρ0
    have : h ^ 3 ≤ h ^ 2 * ρ := by
      rw [show h ^ 3 = h ^ 2 * h by ring]; exact mul_le_mul_of_nonneg_left z1 (by positivity)
    linarith
  have c : 10 ^ 8 * (R.u * ρ ^ 2) ≤ h ^ 2 := by
    have : R.u * ρ ^ 2 ≤ ε * ρ := by
      rw [show R.u * ρ ^ 2 = R.u * ρ * ρ by ring]; exact mul_le_mul_of_nonneg_right (u5.trans u4) hρ0.le
    linarith
  refine ⟨a, b, c, ?_, by nlinarith, by nlinarith⟩
  have n := H.inside
  have n1 : R.u * (6 * L * ρ) ≤ ρ / 10 ^ 12 := by
    have : 0 ≤ R.u * (230 * ρ ^ 2) := by positivity
    linarith
  have n2 : R.u * ρ ≤ R.u * (6 * L * ρ) := mul_le_mul_of_nonneg_left (by nlinarith) hu.le
  have : R.u * ρ ≤ 1 / 10 ^ 12 * ρ := by linarith
  exact le_of_mul_le_mul_right this hρ0

/-- The refraction on entering the ball. -/
theorem GlassAhead.enter (H : GlassAhead R C P e ρ t h L η) (hone : R.rnd 1 = .fin 1) {d P₀ : V3 ℝ} {e₁ : E3} {ε k : ℝ}
    (hd : ‖d.toE - e‖ ≤ 5 * R.u) (hε : ε = R.u * L ^ 2 / h) (hP₀ : ‖P₀.toE - (P.toE + t • e)‖ ≤ 37 * ε)
    (s₁ : SnellExact 1 η (ρ⁻¹ • (P.toE + t • e - C.toE)) e e₁) (hk : inner ℝ e₁ (C.toE - (P.toE + t • e)) = k) (hkh : h ≤ k) (hkρ : k ≤ ρ) :
    ∃ w : V3 ℝ, snellDirection (d.fl : V3 (Fl R)) (-unitVector ((C.fl : V3 (Fl R)) - P₀.fl)) (Fl.fin 1) (Fl.fin η) = .ok w.fl ∧
      ‖w.toE - e₁‖ ≤ 1211 * ε / k ∧ |‖w.toE‖ ^ 2 - 1| ≤ 50 * R.u := by
  obtain ⟨z1, z2, z3, z4⟩ := H.sizes
  obtain ⟨u1, u2, u3, u4, u5, u6, u7, u8⟩ := H.units hε
  obtain ⟨g1, g2, g3, g4, g5, g6⟩ := H.small hε hkh
  have hu := R.u_pos
  have hh := H.steep
  have hρ := H.radius
  have hρ0 : 0 < ρ := by linarith
  have hk0 : 0 < k := by linarith
  have hr := H.range
  have hη := H.glass
  have hη' := H.dense
  have hn : ‖C.toE - (P.toE + t • e)‖ = ρ := by rw [norm_sub_rev]; exact H.on
  have huρ : R.u ≤ R.u * ρ := le_mul_of_one_le_right hu.le hρ
  have e1 : C.toE - P₀.toE = (C.toE - (P.toE + t • e)) - (P₀.toE - (P.toE + t • e)) := by abel
  have hCP : ‖C.toE - P₀.toE‖ ≤ (1 + 1 / 1000) * ρ := by
    rw [e1]
    have := norm_sub_le (C.toE - (P.toE + t • e)) (P₀.toE - (P.toE + t • e))
    linarith
  have b200 : (1 + 1 / 1000) * ρ ≤ 10 ^ 200 := by
    have : 2 * (10 : ℝ) ^ 40 ≤ 10 ^ 200 := by norm_num
    linarith
  obtain ⟨c, hc, ec⟩ := vsub_near (R := R) hCP b200
  have hcX : ‖c.toE - (C.toE - (P.toE + t • e))‖ ≤ 39 * ε := by
    have : c.toE - (C.toE - (P.toE + t • e)) = (c.toE - (C.toE - P₀.toE)) - (P₀.toE - (P.toE + t • e)) := by abel
    rw [this]
    have := norm_sub_le (c.toE - (C.toE - P₀.toE)) (P₀.toE - (P.toE + t • e))
    linarith
  obtain ⟨n, hn', hnu, hn0, en⟩ := normal_near (R := R) hρ (z2.trans hr) hn hcX (by linarith)
  have hν : ρ⁻¹ • (C.toE - (P.toE + t • e)) = -(ρ⁻¹ • (P.toE + t • e - C.toE)) := by
    rw [← smul_neg, neg_sub]
  have hM1 : ‖ρ⁻¹ • (P.toE + t • e - C.toE)‖ = 1 := by
    rw [_root_.norm_smul, H.on, Real.norm_of_nonneg (by positivity), inv_mul_cancel₀ hρ0.ne']
  have hcosM : ∀ x : E3, inner ℝ x (ρ⁻¹ • (P.toE + t • e - C.toE)) = -(inner ℝ x (C.toE - (P.toE + t • e)) / ρ) := by
    intro x
    rw [inner_smul_right, ← neg_sub (C.toE), inner_neg_right]; ring
  have hE := hcosM e
  have hE1 := hcosM e₁
  rw [H.cosine] at hE
  rw [hk] at hE1
  generalize ρ⁻¹ • (P.toE + t • e - C.toE) = M at *
  have hεk : ε / ρ * (k / ρ) = ε * k / ρ ^ 2 := by field_simp
  have hερ : 0 < ε / ρ := by positivity
  have huε : R.u ≤ ε / ρ := by rw [le_div_iff₀ hρ0]; linarith
  have hb : ‖(-n).dirE - M‖ ≤ 88 * (ε / ρ) := by
    rw [dirE_neg, show -n.dirE - M = -(n.dirE - -M) by abel, _root_.norm_neg, ← hν]
    refine en.trans ?_
    rw [show 2 * (39 * ε) / ρ = 78 * (ε / ρ) by ring]; linarith
  have hnu' : NearUnit R (-n) := by unfold NearUnit; rw [toE_neg, _root_.norm_neg]; exact hnu
  have hn0' : 0 < ‖(-n).toE‖ := by rw [toE_neg, _root_.norm_neg]; exact hn0
  have hsmall : 5 * R.u + 88 * (ε / ρ) + 5 * R.u ≤ h / ρ := by
    have : 98 * (ε / ρ) ≤ h / ρ := by
      rw [← mul_div_assoc]; exact div_le_div_of_nonneg_right (by linarith) hρ0.le
    linarith
  obtain ⟨-, hlt⟩ := faces H.unit hd hnu' hn0' hb (μ := h / ρ) (by rw [hE]) hsmall
  obtain ⟨r, hr'⟩ : ∃ r, r = 1 / η := ⟨_, rfl⟩
  have hr1 : r ≤ 1 := by rw [hr', div_le_one (by linarith)]; exact hη
  have hr0 : 0 ≤ r := by rw [hr']; positivity
  have hκ0 : 0 < k / ρ := by positivity
  have hdiv : ε / ρ / (k / ρ) = ε / k := by field_simp
  have hkk : 10 ^ 8 * (ε / k) ≤ k / ρ := by
    rw [le_div_iff₀ hρ0, mul_div_assoc', div_mul_eq_mul_div, div_le_iff₀ hk0]; linarith only [g2, g5, sq k]
  have hεε : ε / ρ ≤ ε / k := div_le_div_of_nonneg_left u1.le hk0 hkρ
  obtain ⟨w, hw, ew⟩ := snell_near hone (d := d) (n := -n) (m := -n) (a := 5 * R.u) (b := 88 * (ε / ρ)) (κ := k / ρ) (r := r)
    (S := 475 * (ε / ρ)) le_rfl (by norm_num) hη hη' s₁ hM1 H.unit hd (by linarith) hnu' (.inl rfl) hn0' hb hlt
    (by nlinarith [sq_nonneg (inner ℝ d.toE (-n).dirE)]) (by rw [hE1]; ring) hκ0 hr'
    (by
      have q1 : r * (5 * R.u) ≤ 5 * R.u := mul_le_of_le_one_left (by linarith) hr1
      have q2 : r * (88 * (ε / ρ)) ≤ 88 * (ε / ρ) := mul_le_of_le_one_left (by linarith) hr1
      have q3 : r ^ 2 * (202 / 100 * (5 * R.u) + 205 / 100 * (88 * (ε / ρ))) ≤ 202 / 100 * (5 * R.u) + 205 / 100 * (88 * (ε / ρ)) :=
        mul_le_of_le_one_left (by positivity) (pow_le_one₀ hr0 hr1)
      linarith only [q1, q2, q3, huε, hερ])
    (by
      rw [mul_div_assoc, hdiv]
      linarith only [hkk, hεε, hκ0, hερ])
    (by
      rw [div_pow, div_div, le_div_iff₀ (by positivity)]
      linarith only [g3, g5, sq_nonneg k])
  refine ⟨w, by rw [hc, hn', fl_vneg]; exact hw, ew.trans ?_, snell_enter hone hη hη' (nearUnit_of H.unit hd) hnu' hw⟩
  have : (475 * (ε / ρ) + 736 * R.u) / (k / ρ) ≤ 1211 * (ε / ρ) / (k / ρ) :=
    div_le_div_of_nonneg_right (by linarith only [huε]) hκ0.le
  refine this.trans_eq ?_
  rw [mul_div_assoc, hdiv, mul_div_assoc]

end Optics
