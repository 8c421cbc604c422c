import Verif.Lemmas.GlassCross

/-! # A glass ball near a ray, with rounding: leaving -/

namespace Optics
open V3

variable {R : Rounding} {C P : V3 ℝ} {e : E3} {ρ t h L η : ℝ}

theorem fl_injective {v w : V3 ℝ} (h : (v.fl : V3 (Fl R)) = w.fl) : v = w := by
  have inj : ∀ a b : ℝ, (Fl.fin a : Fl R) = Fl.fin b → a = b := fun a b h => XR.fin.inj (congrArg Fl.val h)
  exact V3.ext (inj _ _ (congrArg V3.x h)) (inj _ _ (congrArg V3.y h)) (inj _ _ (congrArg V3.z h))

/-- The length of the direction outside. -/
theorem leave_length (hone : R.rnd 1 = .fin 1) (hη : 1 ≤ η) (hη' : η ≤ 4) {d n w : V3 ℝ} (hd : |‖d.toE‖ ^ 2 - 1| ≤ 50 * R.u)
    (hus : R.u ≤ 1 / 10 ^ 12) (hn : NearUnit R n) (hw : snellDirection (d.fl : V3 (Fl R)) n.fl (Fl.fin η) (Fl.fin 1) = .ok w.fl) :
    |‖w.toE‖ ^ 2 - 1| ≤ 1391 * R.u := by
  have hu := R.u_pos
  have hd1 : |‖d.toE‖ - 1| ≤ 1 / 1000 := by
    have e1 : |‖d.toE‖ - 1| ≤ |‖d.toE‖ ^ 2 - 1| := by
      rw [show ‖d.toE‖ ^ 2 - 1 = (‖d.toE‖ - 1) * (‖d.toE‖ + 1) by ring, abs_mul,
        abs_of_nonneg (show 0 ≤ ‖d.toE‖ + 1 by positivity)]
      exact le_mul_of_one_le_right (abs_nonneg _) (by linarith [_root_.norm_nonneg d.toE])
    linarith
  obtain ⟨w', hw', hcase⟩ := C103_snell hone hη hη' le_rfl (by norm_num) hd1 hn
  obtain rfl : w = w' := fl_injective (Except.ok.inj (hw.symm.trans hw'))
  rcases hcase with ⟨-, -, hl, -⟩ | ⟨-, -, hnu, -⟩
  · rw [one_pow, one_mul] at hl
    have hη2 : η ^ 2 ≤ 16 := by nlinarith
    have a : |η ^ 2 * (‖d.toE‖ ^ 2 - 1)| ≤ 16 * (50 * R.u) := by
      rw [abs_mul, abs_of_nonneg (sq_nonneg η)]
      exact mul_le_mul hη2 hd (abs_nonneg _) (by norm_num)
    have := abs_add_le (‖w.toE‖ ^ 2 - 1 - η ^ 2 * (‖d.toE‖ ^ 2 - 1)) (η ^ 2 * (‖d.toE‖ ^ 2 - 1))
    rw [sub_add_cancel] at this
    linarith
  · exact hnu.sq.trans (by linarith)

theorem exit_num {ε k ρ h η i : ℝ} (u1 : 0 < ε) (hk0 : 0 < k) (hρ0 : 0 < ρ) (hη : 1 ≤ η) (hη' : η ≤ 4)
    (hkk : 10 ^ 8 * (ε / k) ≤ k / ρ) (hface : i ≤ -(k / ρ - 1211 * (ε / k) - 10614 * (ε / k)))
    (hcos : η ^ 2 * (ρ ^ 2 - k ^ 2) = ρ ^ 2 - h ^ 2) (g2 : 10 ^ 8 * (ε * ρ) ≤ h ^ 2) : η ^ 2 * (1 - i ^ 2) ≤ 1 ^ 2 := by
  have hψ0 : 0 < ε / k := by positivity
  have i1 : (k / ρ) ^ 2 - 23650 * (ε / ρ) ≤ i ^ 2 := by
    have q1 : ε / k * (k / ρ) = ε / ρ := by field_simp
    have q2 : (k / ρ - 1211 * (ε / k) - 10614 * (ε / k)) ^ 2 ≤ i ^ 2 := by
      rw [← neg_sq i]
      refine pow_le_pow_left₀ (by linarith only [hkk, hψ0]) (by linarith only [hface]) 2
    have q3 := sq_nonneg (11825 * (ε / k))
    nlinarith only [q1, q2, q3]
  have i2 : η ^ 2 * (1 - (k / ρ) ^ 2) = 1 - (h / ρ) ^ 2 := by
    rw [div_pow, div_pow]; field_simp; linarith only [hcos]
  have i3 : η ^ 2 ≤ 16 := by nlinarith only [hη, hη']
  have i4 : η ^ 2 * (23650 * (ε / ρ)) ≤ 16 * (23650 * (ε / ρ)) := mul_le_mul_of_nonneg_right i3 (by positivity)
  have i5 : 10 ^ 8 * (ε / ρ) ≤ (h / ρ) ^ 2 := by
    rw [div_pow, le_div_iff₀ (by positivity), show 10 ^ 8 * (ε / ρ) * ρ ^ 2 = 10 ^ 8 * (ε * ρ) by field_simp]
    exact g2
  have i6 := mul_le_mul_of_nonneg_left i1 (sq_nonneg η)
  have i7 : 0 < ε / ρ := by positivity
  linarith only [i2, i4, i5, i6, i7]

/-- The refraction on leaving the ball. -/
theorem GlassAhead.exit (H : GlassAhead R C P e ρ t h L η) (hone : R.rnd 1 = .fin 1) {w P₂ : V3 ℝ} {e₁ e₂ B : E3} {ε k : ℝ}
    (hε : ε = R.u * L ^ 2 / h) (hw : ‖w.toE - e₁‖ ≤ 1211 * ε / k) (hwl : |‖w.toE‖ ^ 2 - 1| ≤ 50 * R.u) (he₁ : ‖e₁‖ = 1)
    (hkh : h ≤ k) (hkρ : k ≤ ρ) (hBn : ‖B - C.toE‖ = ρ) (hBe₁ : inner ℝ e₁ (B - C.toE) = k) (hout : inner ℝ e₂ (B - C.toE) = h)
    (hcos : η ^ 2 * (ρ ^ 2 - k ^ 2) = ρ ^ 2 - h ^ 2) (s₂ : SnellExact η 1 (-(ρ⁻¹ • (B - C.toE))) e₁ e₂)
    (hP₂ : ‖P₂.toE - B‖ ≤ 5300 * (ε * ρ / k)) :
    ∃ w₂ : V3 ℝ, snellDirection (w.fl : V3 (Fl R)) (- -unitVector ((C.fl : V3 (Fl R)) - P₂.fl)) (Fl.fin η) (Fl.fin 1) = .ok w₂.fl ∧
      ‖w₂.toE - e₂‖ ≤ 497000 * (ε * ρ / (k * h)) ∧ |‖w₂.toE‖ ^ 2 - 1| ≤ 1391 * R.u := by
  obtain ⟨z1, z2, z3, z4⟩ := H.sizes
  obtain ⟨u1, u2, u3, u4, u5, u6, u7, u8⟩ := H.units hε
  obtain ⟨g1, g2, g3, g4, g5, g6⟩ := H.small hε hkh
  have hu := R.u_pos
  have hh := H.steep
  have hh0 : 0 < h := by linarith
  have hρ := H.radius
  have hρ0 : 0 < ρ := by linarith
  have hk0 : 0 < k := by linarith
  have hr := H.range
  have hη := H.glass
  have hη' := H.dense
  have hn : ‖C.toE - B‖ = ρ := by rw [norm_sub_rev]; exact hBn
  have huρ : R.u ≤ R.u * ρ := le_mul_of_one_le_right hu.le hρ
  have hθ : ε ≤ ε * ρ / k := by rw [le_div_iff₀ hk0]; exact mul_le_mul_of_nonneg_left hkρ u1.le
  have hθk : 10 ^ 8 * (ε * ρ / k) ≤ k := by
    rw [mul_div_assoc', div_le_iff₀ hk0]; linarith only [g2, g5, sq k]
  have e1 : C.toE - P₂.toE = (C.toE - B) - (P₂.toE - B) := by abel
  have hCP : ‖C.toE - P₂.toE‖ ≤ (1 + 1 / 1000) * ρ := by
    rw [e1]
    have := norm_sub_le (C.toE - B) (P₂.toE - B)
    linarith only [this, hn, hP₂, hθk, hkρ, hk0]
  have b200 : (1 + 1 / 1000) * ρ ≤ 10 ^ 200 := by
    have : 2 * (10 : ℝ) ^ 40 ≤ 10 ^ 200 := by norm_num
    linarith
  obtain ⟨c, hc, ec⟩ := vsub_near (R := R) hCP b200
  have hcX : ‖c.toE - (C.toE - B)‖ ≤ 5302 * (ε * ρ / k) := by
    have : c.toE - (C.toE - B) = (c.toE - (C.toE - P₂.toE)) - (P₂.toE - B) := by abel
    rw [this]
    have := norm_sub_le (c.toE - (C.toE - P₂.toE)) (P₂.toE - B)
    linarith only [this, ec, hP₂, huρ, u5, u4, hθ, u1]
  obtain ⟨n, hn', hnu, hn0, en⟩ := normal_near (R := R) hρ (z2.trans hr) hn hcX (by linarith only [hθk, hkρ, hk0])
  have hM1 : ‖-(ρ⁻¹ • (B - C.toE))‖ = 1 := by
    rw [_root_.norm_neg, _root_.norm_smul, hBn, Real.norm_of_nonneg (by positivity), inv_mul_cancel₀ hρ0.ne']
  have hν : ρ⁻¹ • (C.toE - B) = -(ρ⁻¹ • (B - C.toE)) := by
    rw [← smul_neg, neg_sub]
  have hcosM : ∀ x : E3, inner ℝ x (-(ρ⁻¹ • (B - C.toE))) = -(inner ℝ x (B - C.toE) / ρ) := by
    intro x
    rw [inner_neg_right, inner_smul_right]; ring
  have hE := hcosM e₁
  have hE2 := hcosM e₂
  rw [hBe₁] at hE
  rw [hout] at hE2
  rw [hν] at en
  generalize -(ρ⁻¹ • (B - C.toE)) = M at *
  have hψ0 : 0 < ε / k := by positivity
  have huψ : R.u ≤ ε / k := by
    rw [le_div_iff₀ hk0]
    have := mul_le_mul_of_nonneg_left hkρ hu.le
    linarith only [this, u5, u4]
  have hb : ‖n.dirE - M‖ ≤ 10614 * (ε / k) := by
    refine en.trans ?_
    rw [show 2 * (5302 * (ε * ρ / k)) / ρ = 10604 * (ε / k) by field_simp; ring]
    linarith only [huψ]
  have hw' : ‖w.toE - e₁‖ ≤ 1211 * (ε / k) := by rw [← mul_div_assoc]; exact hw
  have hkk : 10 ^ 8 * (ε / k) ≤ k / ρ := by
    rw [le_div_iff₀ hρ0, mul_div_assoc', div_mul_eq_mul_div, div_le_iff₀ hk0]; linarith only [g2, g5, sq k]
  have hkρ1 : k / ρ ≤ 1 := by rw [div_le_one hρ0]; exact hkρ
  obtain ⟨hface, hlt⟩ := faces he₁ hw' hnu hn0 hb (μ := k / ρ) (by rw [hE]) (by linarith only [hkk, huψ, hψ0])
  have hcrit : η ^ 2 * (1 - inner ℝ w.toE n.dirE ^ 2) ≤ 1 ^ 2 :=
    exit_num u1 hk0 hρ0 hη hη' hkk hface hcos g2
  have hκ0 : 0 < h / ρ := by positivity
  have hdiv : ε / k / (h / ρ) = ε * ρ / (k * h) := by field_simp
  have hhh : 10 ^ 8 * (ε * ρ / (k * h)) ≤ h / ρ := by
    rw [le_div_iff₀ hρ0, mul_div_assoc', div_mul_eq_mul_div, div_le_iff₀ (by positivity)]
    have : h * h ^ 2 ≤ h * (h * k) := mul_le_mul_of_nonneg_left g6 hh0.le
    linarith only [this, g1]
  have hψh : ε / k ≤ ε * ρ / (k * h) := by
    rw [div_le_div_iff₀ hk0 (by positivity)]
    have := mul_le_mul_of_nonneg_left z1 (mul_pos u1 hk0).le
    linarith only [this]
  obtain ⟨r, hr'⟩ : ∃ r, r = η / 1 := ⟨_, rfl⟩
  have hr4 : r ≤ 4 := by rw [hr', div_one]; exact hη'
  have hr0 : 0 ≤ r := by rw [hr', div_one]; linarith
  obtain ⟨w₂, hw₂, ew₂⟩ := snell_near hone (d := w) (n := n) (m := n) (a := 1211 * (ε / k)) (b := 10614 * (ε / k)) (κ := h / ρ) (r := r)
    (S := 496000 * (ε / k)) hη hη' le_rfl (by norm_num) s₂ hM1 he₁ hw' (by linarith only [hkk, hkρ1]) hnu (.inl rfl) hn0 hb hlt
    hcrit (by rw [hE2]; ring) hκ0 hr'
    (by
      have q1 : r * (1211 * (ε / k)) ≤ 4 * (1211 * (ε / k)) := mul_le_mul_of_nonneg_right hr4 (by positivity)
      have q2 : r * (10614 * (ε / k)) ≤ 4 * (10614 * (ε / k)) := mul_le_mul_of_nonneg_right hr4 (by positivity)
      have q4 : r ^ 2 ≤ 16 := by nlinarith only [hr4, hr0]
      have q3 : r ^ 2 * (202 / 100 * (1211 * (ε / k)) + 205 / 100 * (10614 * (ε / k))) ≤
          16 * (202 / 100 * (1211 * (ε / k)) + 205 / 100 * (10614 * (ε / k))) :=
        mul_le_mul_of_nonneg_right q4 (by positivity)
      linarith only [q1, q2, q3, hψ0])
    (by
      rw [mul_div_assoc, hdiv]
      linarith only [hhh, hψh, hψ0, hκ0])
    (by
      rw [div_pow, div_div, le_div_iff₀ (by positivity)]
      linarith only [g3, sq_nonneg h])
  refine ⟨w₂, ?_, ew₂.trans ?_, leave_length hone hη hη' hwl g4 hnu hw₂⟩
  · rw [hc, hn', fl_vneg, fl_vneg, show - -n = n from V3.ext (neg_neg _) (neg_neg _) (neg_neg _)]; exact hw₂
  · have : (496000 * (ε / k) + 736 * R.u) / (h / ρ) ≤ 497000 * (ε / k) / (h / ρ) :=
      div_le_div_of_nonneg_right (by linarith only [huψ, hu]) hκ0.le
    refine this.trans_eq ?_
    rw [mul_div_assoc, hdiv]

/-- Outside again, the sphere test finds nothing. -/
theorem GlassAhead.gone (H : GlassAhead R C P e ρ t h L η) {w₂ P' : V3 ℝ} {e₂ B : E3} {ε k : ℝ}
    (hε : ε = R.u * L ^ 2 / h) (hkh : h ≤ k) (hkρ : k ≤ ρ) (hw₂ : ‖w₂.toE - e₂‖ ≤ 497000 * (ε * ρ / (k * h)))
    (hl : |‖w₂.toE‖ ^ 2 - 1| ≤ 1391 * R.u) (hBn : ‖B - C.toE‖ = ρ) (hout : inner ℝ e₂ (B - C.toE) = h)
    (hP' : ‖P'.toE - B‖ ≤ 5300 * (ε * ρ / k))
    (hrad : |‖C.toE - P'.toE‖ ^ 2 - ρ ^ 2| ≤ 395 * (R.u * ρ ^ 2) + 10 * (R.u * L * ρ))
    {s : Sphere (Fl R)} (hsC : s.center = C.fl) (hsR : s.R = Fl.fin ρ) {ray : Ray (Fl R)}
    (hp : ray.position = P'.fl) (hrd : ray.direction = w₂.fl) : s.testIntersect ray = Hit6.miss 0 := by
  obtain ⟨z1, z2, z3, z4⟩ := H.sizes
  obtain ⟨u1, u2, u3, u4, u5, u6, u7, u8⟩ := H.units hε
  obtain ⟨g1, g2, g3, g4, g5, g6⟩ := H.small hε hkh
  have hu := R.u_pos
  have hh := H.steep
  have hh0 : 0 < h := by linarith
  have hρ := H.radius
  have hρ0 : 0 < ρ := by linarith
  have hk0 : 0 < k := by linarith
  have hn : ‖C.toE - B‖ = ρ := by rw [norm_sub_rev]; exact hBn
  have hθ : ε ≤ ε * ρ / k := by rw [le_div_iff₀ hk0]; exact mul_le_mul_of_nonneg_left hkρ u1.le
  have hθh : 10 ^ 8 * (ε * ρ / k) ≤ h := by
    rw [mul_div_assoc', div_le_iff₀ hk0]; linarith only [g2, g6]
  have hθρ : 10 ^ 8 * (ε * ρ / (k * h) * ρ) ≤ h := by
    rw [show 10 ^ 8 * (ε * ρ / (k * h) * ρ) = 10 ^ 8 * (ε * ρ ^ 2) / (k * h) by ring, div_le_iff₀ (by positivity)]
    have : h * h ^ 2 ≤ h * (h * k) := mul_le_mul_of_nonneg_left g6 hh0.le
    linarith only [this, g1]
  obtain ⟨q, hq, eq, hqb, hδ⟩ := to_centre (R := R) hρ (z2.trans H.range) hn hP' (by linarith only [hθh, z1, hh0]) hrad
  have hw1 : ‖w₂.toE‖ ≤ 1 + 1 / 100000 := by
    refine abs_le_of_sq_le_sq' ?_ (by norm_num) |>.2
    linarith [(abs_le.mp hl).2]
  have hv : inner ℝ w₂.toE q.toE ≤ -(99 / 100 * h) := by
    have a0 : inner ℝ w₂.toE q.toE = -h + inner ℝ (w₂.toE - e₂) (C.toE - B) + inner ℝ w₂.toE ((q.toE - (C.toE - P'.toE)) - (P'.toE - B)) := by
      have : inner ℝ e₂ (C.toE - B) = -h := by rw [← neg_sub B, inner_neg_right, hout]
      rw [show (q.toE - (C.toE - P'.toE)) - (P'.toE - B) = q.toE - (C.toE - B) by abel, inner_sub_right w₂.toE q.toE,
        inner_sub_left w₂.toE, this]; ring
    have a1 := (le_abs_self _).trans (abs_real_inner_le_norm (w₂.toE - e₂) (C.toE - B))
    have a2 := (le_abs_self _).trans (abs_real_inner_le_norm w₂.toE ((q.toE - (C.toE - P'.toE)) - (P'.toE - B)))
    have a3 := norm_sub_le (q.toE - (C.toE - P'.toE)) (P'.toE - B)
    have a4 : ‖(q.toE - (C.toE - P'.toE)) - (P'.toE - B)‖ ≤ 5302 * (ε * ρ / k) := by
      linarith only [a3, eq, hP', u5, u4, hθ, u1]
    have a5 : ‖w₂.toE‖ * ‖(q.toE - (C.toE - P'.toE)) - (P'.toE - B)‖ ≤ (1 + 1 / 100000) * (5302 * (ε * ρ / k)) :=
      mul_le_mul hw1 a4 (_root_.norm_nonneg _) (by norm_num)
    rw [hn] at a1
    have a6 := mul_le_mul_of_nonneg_right hw₂ hρ0.le
    rw [a0]
    linarith only [a1, a2, a5, a6, hθh, hθρ, hh0]
  have hins := H.inside
  have huρρ : 0 < R.u * ρ ^ 2 := by positivity
  have huLρ : 0 < R.u * L * ρ := by positivity
  obtain ⟨v, D, r, hv', hD, hD0, hr', hle, hfl, hvb, hrb⟩ := second_root (R := R) hw1 hh z1 hρ (z2.trans H.range)
    (by linarith only [hins, huρρ, huLρ]) hqb hδ hv
  exact sphere_left (z2.trans H.range) hq hv' hD hD0 hr' hle hfl hvb hrb hsC hsR hp hrd

end Optics
