import Verif.Lemmas.ThinImage
import Verif.Lemmas.GlassRun

/-! # A ray and one ideal lens -/

namespace Optics
open V3

section generic
variable {α : Type} [PyNum α]

/-- A round lens whose plane is hit inside its rim. -/
theorem biconvex_reports {P N : V3 α} {D : α} {w h f : Option α} {type : String} {index : α} {l : Lens α}
    (hl : Lens.new P (some N) "spherical_biconvex" (some D) w h f type index = .ok l) {ray : Ray α} {pt : V3 α} {n : V3 α}
    (hp : (Plane.new P N).testIntersect ray = ⟨true, some pt, some n⟩) (hin : distanceBetween pt P < D / 2.0)
    (hfin : PyNum.ltInf (distanceBetween ray.position pt) = true) :
    l.testIntersect ray = .ok ⟨true, some pt, some n, .bool true⟩ := by
  obtain ⟨-, -, hshape, -, -, c, hsurf, hcc, hplane, hR⟩ := biconvex_built hl
  have hR' : c.R = D / 2.0 := by
    have := Except.ok.inj hR
    exact (congrArg Prod.fst this).symm
  unfold Lens.testIntersect
  rw [if_pos hshape, hsurf]
  simp only [List.foldlM_cons, List.foldlM_nil, flatStep, Shape.testIntersect, Circle.testIntersect, hplane, bind, Except.bind,
    pure, Except.pure, hp, hcc, hR', if_pos hin, asHit3, if_true, need, ltMin, hfin, bound, Bool.false_eq_true, if_false]

/-- A round lens whose plane is missed. -/
theorem biconvex_misses {P N : V3 α} {D w h f : Option α} {type : String} {index : α} {l : Lens α}
    (hl : Lens.new P (some N) "spherical_biconvex" D w h f type index = .ok l) {ray : Ray α}
    (hp : ((Plane.new P N).testIntersect ray).hit = false) :
    l.testIntersect ray = .ok ⟨false, none, none, .bool true⟩ := by
  obtain ⟨-, -, hshape, -, -, c, hsurf, hcc, hplane, hR⟩ := biconvex_built hl
  unfold Lens.testIntersect
  rw [if_pos hshape, hsurf]
  simp only [List.foldlM_cons, List.foldlM_nil, flatStep, Shape.testIntersect, Circle.testIntersect, hplane, bind, Except.bind,
    pure, Except.pure]
  generalize (Plane.new P N).testIntersect ray = z at *
  obtain ⟨zh, zp, zn⟩ := z
  simp only at hp
  subst hp
  cases zp <;> rfl

/-- A pass of the loop with one ideal lens that is hit. -/
theorem ideal_enter {l : Lens α} (ht : l.type = "ideal") {ln : V3 α} (hln : l.normal = some ln) {md : α} {s : RunState α}
    {p n w : V3 α} (hm : l.testIntersect s.ray = .ok ⟨true, some p, some n, .bool true⟩) (htype : s.ray.type ≠ "faerie_fire")
    (h1 : ¬ distanceBetween s.ray.position p > s.remaining) (h2 : distanceBetween s.ray.position p > clippingFloor)
    (h3 : PyNum.ltInf (distanceBetween s.ray.position p) = true)
    (hw : thinLensDirection (s.ray.position + distanceBetween s.ray.position p * s.ray.direction) s.ray.direction l.position ln l.f p =
      .ok w) : runStep md [.lens l] s = .next (lensNext l s p n w true) := by
  unfold runStep
  rw [lens_scan hm h1 h2 h3]
  simp only [Bool.not_true, Bool.false_eq_true, if_false, Ray.fly, htype, Optic.doIntersect, Lens.doIntersect, ht,
    if_true, Ray.refract, need, bind, Except.bind, pure, Except.pure, hln, hw, lensNext]

end generic

variable {R : Rounding}

/-- The computed length of a short vector is short. -/
theorem norm_below {v : V3 ℝ} {Y : ℝ} (hv : ‖v.toE‖ ≤ Y) (hY : 1 / 10 ^ 100 ≤ Y) (hY' : Y ≤ 10 ^ 100) :
    ∃ r, V3.norm (v.fl : V3 (Fl R)) = Fl.fin r ∧ r ≤ Y + 3 * (R.u * Y) := by
  have hu := R.u_pos
  have hus := (five_u (R := R)).2
  have hY0 : 0 < Y := lt_of_lt_of_le (by positivity) hY
  have hN := normE_sq v
  have hd : dot v v = ‖v.toE‖ ^ 2 := by rw [hN]; unfold dot; ring
  have hsq : ‖v.toE‖ ^ 2 ≤ Y ^ 2 := pow_le_pow_left₀ (_root_.norm_nonneg _) hv 2
  have hY2 : 1 / 10 ^ 200 ≤ Y ^ 2 := (by norm_num : (1 : ℝ) / 10 ^ 200 ≤ (1 / 10 ^ 100) ^ 2).trans
    (pow_le_pow_left₀ (by positivity) hY 2)
  have hY2' : Y ^ 2 ≤ 10 ^ 200 := (pow_le_pow_left₀ hY0.le hY' 2).trans (by norm_num)
  have hA : |v.x * v.x| + |v.y * v.y| + |v.z * v.z| ≤ Y ^ 2 := by
    rw [abs_mul_self, abs_mul_self, abs_mul_self]; exact (le_of_eq hd).trans hsq
  obtain ⟨s, hs, es⟩ := dot_near (R := R) hA hY2 (hY2'.trans (by norm_num))
  have hs0 : 0 ≤ s := by
    rw [abs_mul_self, abs_mul_self, abs_mul_self] at hA
    have q1 := mul_self_nonneg v.x
    have q2 := mul_self_nonneg v.y
    have q3 := mul_self_nonneg v.z
    have hbig : (10 : ℝ) ^ 200 * 10 ≤ 10 ^ 250 := by norm_num
    have f1 : ∀ x : ℝ, 0 ≤ x → x ≤ 4 * 10 ^ 200 → ∃ y, (⟨R.rnd x⟩ : Fl R) = Fl.fin y ∧ 0 ≤ y ∧ y ≤ x + (x + 1) / 1000 := by
      intro x h0 h1
      obtain ⟨y, hy, ey⟩ := rnd_near (R := R) (x := x) (e := x) (by rw [abs_of_nonneg h0]) (by linarith)
      refine ⟨y, hy, rnd_nonneg h0 (congrArg Fl.val hy), ?_⟩
      have : R.u * (x + 1 / 10 ^ 250) ≤ 1 / 1000 * (x + 1) :=
        mul_le_mul (by linarith) (by linarith [show (1 : ℝ) / 10 ^ 250 ≤ 1 by norm_num]) (by positivity) (by norm_num)
      linarith [(abs_le.mp ey).2]
    have one : (1 : ℝ) ≤ 10 ^ 200 / 1000 := by norm_num
    obtain ⟨a, ha, ha0, ha1⟩ := f1 (v.x * v.x) q1 (by linarith)
    obtain ⟨b, hb, hb0, hb1⟩ := f1 (v.y * v.y) q2 (by linarith)
    obtain ⟨c, hc, hc0, hc1⟩ := f1 (v.z * v.z) q3 (by linarith)
    obtain ⟨g, hg, hg0, hg1⟩ := f1 (a + b) (by linarith) (by linarith)
    obtain ⟨k, hk, hk0, hk1⟩ := f1 (g + c) (by linarith) (by linarith)
    have : dot (v.fl : V3 (Fl R)) v.fl = Fl.fin k := by
      show (Fl.fin v.x * Fl.fin v.x + Fl.fin v.y * Fl.fin v.y + Fl.fin v.z * Fl.fin v.z : Fl R) = _
      rw [fl_mul, fl_mul, fl_mul, ha, hb, hc, fl_add, hg, fl_add, hk]
    rw [this] at hs
    have hks : k = s := XR.fin.inj (congrArg Fl.val hs)
    rw [← hks]
    exact hk0
  have hs1 : s ≤ (Y + 7 / 4 * (R.u * Y)) ^ 2 := by
    rw [hd] at es
    have h1 := (abs_le.mp es).2
    have h2 : 0 ≤ (7 / 4 * (R.u * Y)) ^ 2 := by positivity
    have e : (Y + 7 / 4 * (R.u * Y)) ^ 2 = Y ^ 2 + 7 / 2 * R.u * Y ^ 2 + (7 / 4 * (R.u * Y)) ^ 2 := by ring
    rw [e]; linarith
  have huY : R.u * Y ≤ Y / 1000000 := by have := mul_le_mul_of_nonneg_right hus hY0.le; linarith
  have huY0 : 0 < R.u * Y := by positivity
  have hq : Real.sqrt s ≤ Y + 7 / 4 * (R.u * Y) := Real.sqrt_le_iff.mpr ⟨by positivity, hs1⟩
  have hq0 := Real.sqrt_nonneg s
  obtain ⟨r, hr, er⟩ := rnd_near (R := R) (x := Real.sqrt s) (e := Y + 7 / 4 * (R.u * Y)) (by rwa [abs_of_nonneg hq0])
    (by linarith [show (10 : ℝ) ^ 100 * 2 ≤ 10 ^ 250 by norm_num])
  refine ⟨r, ?_, ?_⟩
  · unfold V3.norm
    rw [hs, fl_sqrt _ hs0, hr]
  · have h1 : (1 : ℝ) / 10 ^ 250 ≤ Y / 1000 := by
      have : (1 : ℝ) / 10 ^ 250 ≤ 1 / 10 ^ 100 / 1000 := by norm_num
      linarith [div_le_div_of_nonneg_right hY (show (0 : ℝ) ≤ 1000 by norm_num)]
    have h2 := mul_le_mul_of_nonneg_left (show Y + 7 / 4 * (R.u * Y) + 1 / 10 ^ 250 ≤ Y + 1 / 500 * Y by linarith) hu.le
    linarith [(abs_le.mp er).2]

theorem ThinSizes.steeper {f B κ c : ℝ} (h : ThinSizes R f B κ) (hc : κ ≤ c) (hc' : c ≤ 1 + 1 / 10000) :
    ThinSizes R f B c ∧ R.u * (B / c ^ 2) ≤ R.u * (B / κ ^ 2) := by
  have hκ : 0 < κ := by linarith [h.lo]
  have hB := h.one_le
  have h1 : B / c ^ 2 ≤ B / κ ^ 2 := div_le_div_of_nonneg_left (by linarith) (by positivity) (pow_le_pow_left₀ hκ.le hc 2)
  have h2 := mul_le_mul_of_nonneg_left h1 R.u_pos.le
  exact ⟨⟨h.f_lo, h.f_le, h.one_le, h.le_big, h.lo.trans hc, hc', by linarith [h.fine]⟩, h2⟩

/-- The plane of a lens ahead is hit, about where the exact ray meets it. -/
theorem LensAhead.reports {O P N : V3 ℝ} {e : E3} {f B κ a md : ℝ} (H : LensAhead R O e P N f B κ a md) (hN : SaneLength N) {w : V3 ℝ}
    (hw : NearUnit R w) {c p : ℝ} (hκ : κ ≤ c) (hcw : |inner ℝ (axisOf N) w.toE| = c) (hp : |inner ℝ (O.toE - P.toE) (axisOf N)| = p)
    (hsame : 0 < inner ℝ (axisOf N) (P.toE - O.toE) * inner ℝ (axisOf N) w.toE) {ray : Ray (Fl R)}
    (hpos : ray.position = O.fl) (hdir : ray.direction = w.fl) :
    ∃ (pt n : V3 ℝ) (x : ℝ), (Plane.new P.fl N.fl).testIntersect ray = ⟨true, some pt.fl, some n.fl⟩ ∧
      distanceBetween ray.position pt.fl = Fl.fin x ∧ 1 / 2500 ≤ x ∧ x ≤ 999 / 1000 * md := by
  have hu := R.u_pos
  have hus := (five_u (R := R)).2
  have hs := H.sizes
  obtain ⟨hX, hBX, hGX, hXb, huX, huBX, huX1⟩ := hs.facts
  have hB := hs.one_le
  have hκ0 := hs.lo
  have huB := H.grid
  norm_num at huB
  have huB0 : 0 < R.u * B := by positivity
  have hO0 := _root_.norm_nonneg O.toE
  have hP0 := _root_.norm_nonneg P.toE
  have hdist := H.dist
  have hroom := H.room
  have hreach := H.reach
  rw [hp] at hdist hreach
  have hcp : 0 < c := by linarith
  have hκp : 0 < κ := by linarith
  have hpκ : 0 < p / κ := div_pos (by linarith) hκp
  have huX0 : 0 < R.u * (B / κ ^ 2) := by positivity
  have hc1 : c ≤ 1 + 1 / 100000 := by
    have i := abs_real_inner_le_norm (axisOf N) w.toE
    rw [show ‖axisOf N‖ = 1 from dirE_norm hN.pos, one_mul, hcw] at i
    exact i.trans hw.bounds.1
  have hp' : |inner ℝ (axisOf N) (P.toE - O.toE)| = p := by
    rw [← hp, real_inner_comm, ← abs_neg, ← inner_neg_left, neg_sub]
  have hsigns : (inner ℝ N.dirE w.toE = c ∧ inner ℝ N.dirE (P.toE - O.toE) = p) ∨
      (inner ℝ N.dirE w.toE = -c ∧ inner ℝ N.dirE (P.toE - O.toE) = -p) := by
    show (inner ℝ (axisOf N) w.toE = c ∧ inner ℝ (axisOf N) (P.toE - O.toE) = p) ∨ _
    rcases pos_and_pos_or_neg_and_neg_of_mul_pos hsame with ⟨h1, h2⟩ | ⟨h1, h2⟩
    · left; rw [abs_of_pos h1] at hp'; rw [abs_of_pos h2] at hcw; exact ⟨hcw, hp'⟩
    · right; rw [abs_of_neg h1] at hp'; rw [abs_of_neg h2] at hcw
      exact ⟨by rw [← hcw, neg_neg]; rfl, by rw [← hp', neg_neg]; rfl⟩
  obtain ⟨t, n, ht⟩ := plane_hits (R := R) (a := c) (g := p) hN (show ‖P.toE‖ ≤ B by linarith) (show ‖O.toE‖ ≤ B by linarith) hB hs.le_big
    H.grid hw hpos hdir (by linarith) (by linarith) hsigns
  obtain ⟨t', ht1, -, ht2, ht3⟩ := plane_near (R := R) hN (show ‖P.toE‖ ≤ B by linarith) (show ‖O.toE‖ ≤ B by linarith) hB hs.le_big
    hw hpos hdir ht
  rw [ht2] at ht
  clear ht2 t
  obtain ⟨e₀, he0, he1, heps⟩ := fl_eps (R := R)
  have ht'0 : 0 < t' := by
    rw [heps] at ht1
    have : e₀ < t' := ht1
    have : (0 : ℝ) < 9 / 10 ^ 10 := by positivity
    linarith
  have ht4 : |t' * c - p| ≤ R.u * (29 * t' + 23 * B) := by
    rcases hsigns with ⟨h1, h2⟩ | ⟨h1, h2⟩ <;> rw [h1, h2] at ht3
    · exact ht3
    · rw [show t' * -c - -p = -(t' * c - p) by ring, abs_neg] at ht3; exact ht3
  have ht5 := abs_le.mp ht4
  have hut : R.u * t' ≤ c * t' / 1000 := by
    have := mul_le_mul_of_nonneg_right (show R.u ≤ c / 1000 by linarith) ht'0.le
    linarith
  have hct : 0 < c * t' := by positivity
  have hlow : 1 / 2000 ≤ t' := by
    have h1 : 1 / 1000 - 1 / 10 ^ 8 ≤ 103 / 100 * (c * t') := by norm_num; linarith
    have h2 : c * t' ≤ (1 + 1 / 100000) * t' := mul_le_mul_of_nonneg_right hc1 ht'0.le
    norm_num at h1
    linarith
  have hpc : p / c ≤ p / κ := div_le_div_of_nonneg_left (by linarith) hκp hκ
  have hmdB : md ≤ 9 / 10 * B := by linarith
  have hpB : p ≤ 9 / 10 * B * κ := by
    have := (div_le_iff₀ hκp).mp (show p / κ ≤ 9 / 10 * B by linarith)
    exact this
  have hup : t' ≤ B := by
    have h1 : 97 / 100 * (c * t') ≤ p + 23 * (R.u * B) := by linarith
    have h2 : p ≤ 9 / 10 * B * c := hpB.trans (mul_le_mul_of_nonneg_left hκ (by linarith))
    have h3 : 23 * (R.u * B) ≤ c * (1 / 1000) := by linarith
    have h4 : c * (97 / 100 * t') ≤ c * (9 / 10 * B + 1 / 1000) := by linarith
    have h5 := le_of_mul_le_mul_left h4 hcp
    linarith
  obtain ⟨q, hq, eq, x, hx, ex⟩ := walk_near (R := R) (P := O) (B := B) (by linarith) hB hs.le_big hw hlow (by linarith) H.grid
  have ex' := abs_le.mp ex
  have hutB : R.u * t' ≤ R.u * B := mul_le_mul_of_nonneg_left hup hu.le
  refine ⟨q, n, x, by rw [ht, hq], by rw [hpos]; exact hx, by linarith, ?_⟩
  have h6 : x ≤ p / c + 71 * (R.u * (B / κ ^ 2)) := by
    have g1 : t' ≤ p / c + 52 * (R.u * B / c) := by
      have : t' = (t' * c) / c := by field_simp
      rw [this, ← mul_div_assoc, ← add_div]
      exact div_le_div_of_nonneg_right (by linarith) hcp.le
    have g2 : R.u * B / c ≤ R.u * B / κ := div_le_div_of_nonneg_left huB0.le hκp hκ
    have g3 : R.u * B / κ ≤ (1 + 1 / 10000) * (R.u * (B / κ ^ 2)) := by
      have e : R.u * B / κ = κ * (R.u * (B / κ ^ 2)) := by field_simp
      rw [e]; exact mul_le_mul_of_nonneg_right hs.hi huX0.le
    linarith
  linarith

/-- The exact crossing of the rounded ray is close to the one of the exact ray. -/
theorem LensAhead.crossings {O P N : V3 ℝ} {e : E3} {f B κ a md : ℝ} (H : LensAhead R O e P N f B κ a md) (he : ‖e‖ = 1) {w : V3 ℝ}
    (hwe : ‖w.toE - e‖ ≤ 5 * R.u) {c c₀ p : ℝ} (hκ : κ ≤ c) (hκ₀ : κ ≤ c₀) (hcc : |c - c₀| ≤ 5 * R.u)
    (hp0 : 0 ≤ p) (hpB : p ≤ B) :
    ‖(O.toE + (p / c) • w.toE) - (O.toE + (p / c₀) • e)‖ ≤ 11 * (R.u * (B / κ ^ 2)) := by
  have hu := R.u_pos
  have hs := H.sizes
  have hB := hs.one_le
  have hκp : 0 < κ := by linarith [hs.lo]
  have hcp : 0 < c := by linarith
  have hc₀p : 0 < c₀ := by linarith
  have huX0 : 0 < R.u * (B / κ ^ 2) := by positivity
  have e1 : (O.toE + (p / c) • w.toE) - (O.toE + (p / c₀) • e) = (p / c) • (w.toE - e) + (p / c - p / c₀) • e := by
    rw [smul_sub, sub_smul]; abel
  rw [e1]
  refine (norm_add_le _ _).trans ?_
  rw [_root_.norm_smul, _root_.norm_smul, he, mul_one, Real.norm_eq_abs, Real.norm_eq_abs, abs_of_nonneg (by positivity)]
  have h1 : p / c * ‖w.toE - e‖ ≤ p / c * (5 * R.u) := mul_le_mul_of_nonneg_left hwe (by positivity)
  have h2 : p / c ≤ B / κ := div_le_div₀ (by linarith) hpB hκp hκ
  have h3 : B / κ ≤ (1 + 1 / 10000) * (B / κ ^ 2) := by
    have e : B / κ = κ * (B / κ ^ 2) := by field_simp
    rw [e]; exact mul_le_mul_of_nonneg_right hs.hi (by positivity)
  have h4 : p / c * (5 * R.u) ≤ (1 + 1 / 10000) * (B / κ ^ 2) * (5 * R.u) := mul_le_mul_of_nonneg_right (h2.trans h3) (by positivity)
  have h5 : |p / c - p / c₀| ≤ 5 * (R.u * (B / κ ^ 2)) := by
    have e : p / c - p / c₀ = p / (c * c₀) * (c₀ - c) := by field_simp
    rw [e, abs_mul, abs_of_nonneg (by positivity), abs_sub_comm]
    have : p / (c * c₀) ≤ B / κ ^ 2 := by
      rw [sq]; exact div_le_div₀ (by linarith) hpB (by positivity) (mul_le_mul hκ hκ₀ hκp.le hcp.le)
    have := mul_le_mul this hcc (abs_nonneg _) (by positivity)
    linarith
  linarith

/-- The test of the rim. -/
theorem inside_rim {q P : V3 ℝ} {a X B : ℝ} (h : ‖q.toE - P.toE‖ + 80 * X ≤ a) (hX : R.u * B ≤ 101 / 100 * X) (hX0 : 0 < X) (hB : 1 ≤ B)
    (hB' : B ≤ 10 ^ 50) (hqB : ‖q.toE - P.toE‖ ≤ B) (ha : 1 / 1000 ≤ a) (haX : 200 * X ≤ a) :
    distanceBetween (q.fl : V3 (Fl R)) P.fl < Fl.fin a := by
  have hu := R.u_pos
  have hus := (five_u (R := R)).2
  have hq0 := _root_.norm_nonneg (q.toE - P.toE)
  obtain ⟨v, hv, ev⟩ := vsub_near (R := R) (a := q) (b := P) le_rfl (hqB.trans (hB'.trans (by norm_num)))
  have h1 : ‖v.toE‖ ≤ ‖q.toE - P.toE‖ + R.u * (‖q.toE - P.toE‖ + 1 / 1000) := by
    have := norm_le_norm_add_norm_sub (q.toE - P.toE) v.toE
    rw [norm_sub_rev (q.toE - P.toE) v.toE] at this
    linarith
  have h2 : R.u * (‖q.toE - P.toE‖ + 1 / 1000) ≤ 2 * X := by
    have := mul_le_mul_of_nonneg_left (show ‖q.toE - P.toE‖ + 1 / 1000 ≤ 1001 / 1000 * B by linarith) hu.le
    linarith
  obtain ⟨Y, hY, hYa, hY1, hY2⟩ : ∃ Y, ‖v.toE‖ ≤ Y ∧ Y + 10 * X ≤ a ∧ 1 / 10000 ≤ Y ∧ Y ≤ 101 / 100 * B := by
    have h3 := mul_le_mul_of_nonneg_right hus (show 0 ≤ ‖q.toE - P.toE‖ + 1 / 1000 by positivity)
    refine ⟨max ‖v.toE‖ (1 / 10000), le_max_left _ _, ?_, le_max_right _ _, max_le (by linarith) (by linarith)⟩
    rw [max_add]; exact max_le (by linarith) (by linarith)
  obtain ⟨r, hr, er⟩ := norm_below (R := R) hY (le_trans (by norm_num) hY1) (hY2.trans (by linarith [show (10 : ℝ) ^ 50 * 2 ≤ 10 ^ 100 by norm_num]))
  have h4 := mul_le_mul_of_nonneg_left hY2 hu.le
  show V3.norm ((q.fl : V3 (Fl R)) - P.fl) < _
  rw [hv, hr]
  exact (fl_lt _ _).mpr (by linarith)

/-- Behind the lens, the plane of the lens is not hit again. -/
theorem LensAhead.gone {O P N : V3 ℝ} {e : E3} {f B κ a md : ℝ} (H : LensAhead R O e P N f B κ a md) (hN : SaneLength N)
    {P' d' : V3 ℝ} {y w : E3} {c : ℝ} (hκ : κ ≤ c) (hc : |inner ℝ (axisOf N) w| = c) (hw1 : ‖w‖ ≤ 1 + 1 / 100000)
    (hd : NearUnit R d') (hP' : ‖P'.toE‖ ≤ B) (h1 : |inner ℝ (axisOf N) (P'.toE - P.toE)| ≤ 70 * (R.u * B))
    (hy : |inner ℝ (axisOf N) (y - P.toE)| ≤ 92 * (R.u * B)) (hya : ‖y - P.toE‖ ≤ a)
    (hturn : ‖‖(f / c) • w - (y - P.toE)‖ • d'.toE - ((f / c) • w - (y - P.toE))‖ ≤
      62 * (R.u * (B / κ ^ 2)) + 8 / 10 ^ 8 * f) {ray : Ray (Fl R)}
    (hpos : ray.position = P'.fl) (hdir : ray.direction = d'.fl) : ((Plane.new P.fl N.fl).testIntersect ray).hit = false := by
  have hu := R.u_pos
  have hus := (five_u (R := R)).2
  have hs := H.sizes
  obtain ⟨hX, hBX, hGX, hXb, huX, huBX, huX1⟩ := hs.facts
  have hB := hs.one_le
  have hf := hs.f_pos
  have hfine := hs.fine
  have hκp : 0 < κ := by linarith [hs.lo]
  have hcp : 0 < c := by linarith
  have huB0 : 0 < R.u * B := by positivity
  have huX0 : 0 < R.u * (B / κ ^ 2) := by positivity
  have hM : ‖axisOf N‖ = 1 := dirE_norm hN.pos
  have hroom := H.room
  have hO0 := _root_.norm_nonneg O.toE
  have hP0 := _root_.norm_nonneg P.toE
  have hmd : 0 ≤ md := by
    have := H.reach
    have : 0 ≤ |inner ℝ (O.toE - P.toE) (axisOf N)| / κ := by positivity
    linarith
  have ha := H.radius
  by_contra hne
  rw [Bool.not_eq_false] at hne
  obtain ⟨z, hz⟩ : ∃ z, (Plane.new (P.fl : V3 (Fl R)) N.fl).testIntersect ray = z := ⟨_, rfl⟩
  rw [hz] at hne
  obtain ⟨zh, zp, zn⟩ := z
  simp only at hne
  subst hne
  obtain ⟨pt, rfl⟩ : ∃ pt, zp = some pt := by
    cases zp with
    | some pt => exact ⟨pt, rfl⟩
    | none =>
      exfalso
      unfold Plane.testIntersect at hz
      simp only at hz
      split_ifs at hz <;> simp_all [Hit3.miss]
  obtain ⟨t, ht1, -, -, ht3⟩ := plane_near (R := R) hN (show ‖P.toE‖ ≤ B by linarith) hP' hB hs.le_big hd hpos hdir hz
  obtain ⟨e₀, he0, he1, heps⟩ := fl_eps (R := R)
  have hte : 9 / 10 ^ 10 < t := by
    rw [heps] at ht1
    exact lt_of_le_of_lt he0 ht1
  have ht0 : 0 < t := lt_trans (by positivity) hte
  -- how steeply the ray leaves
  obtain ⟨k, hk⟩ : ∃ k, k = |inner ℝ (axisOf N) d'.toE| := ⟨_, rfl⟩
  obtain ⟨ℓ, hℓ⟩ : ∃ ℓ, ℓ = ‖(f / c) • w - (y - P.toE)‖ := ⟨_, rfl⟩
  have hℓ1 : ℓ ≤ 101 / 100 * (f / κ + a) := by
    have g1 := norm_sub_le ((f / c) • w) (y - P.toE)
    rw [_root_.norm_smul, Real.norm_of_nonneg (by positivity), ← hℓ] at g1
    have g2 : f / c * ‖w‖ ≤ f / κ * (1 + 1 / 100000) :=
      mul_le_mul (div_le_div_of_nonneg_left hf.le hκp hκ) hw1 (_root_.norm_nonneg _) (by positivity)
    have g3 : 0 < f / κ := by positivity
    linarith
  have hℓ2 : 4 / 5 * f ≤ ℓ * k := by
    have g1 := abs_real_inner_le_norm (axisOf N) (ℓ • d'.toE - ((f / c) • w - (y - P.toE)))
    rw [hM, one_mul] at g1
    rw [← hℓ] at hturn
    have e : inner ℝ (axisOf N) (ℓ • d'.toE - ((f / c) • w - (y - P.toE))) =
        ℓ * inner ℝ (axisOf N) d'.toE - (f / c) * inner ℝ (axisOf N) w + inner ℝ (axisOf N) (y - P.toE) := by
      rw [inner_sub_right, inner_sub_right, inner_smul_right, inner_smul_right]; ring
    rw [e] at g1
    have g2 : |(f / c) * inner ℝ (axisOf N) w| = f := by
      rw [abs_mul, hc, abs_of_pos (by positivity)]; field_simp
    have g3 : |ℓ * inner ℝ (axisOf N) d'.toE| = ℓ * k := by
      rw [abs_mul, ← hk, abs_of_nonneg (by rw [hℓ]; exact _root_.norm_nonneg _)]
    have g4 := abs_sub_abs_le_abs_sub ((f / c) * inner ℝ (axisOf N) w) (ℓ * inner ℝ (axisOf N) d'.toE)
    rw [abs_sub_comm, g2, g3] at g4
    have g5 := abs_sub_abs_le_abs_sub (ℓ * inner ℝ (axisOf N) d'.toE - (f / c) * inner ℝ (axisOf N) w) (-inner ℝ (axisOf N) (y - P.toE))
    rw [sub_neg_eq_add, abs_neg] at g5
    have g6 : (8 : ℝ) / 10 ^ 8 * f ≤ 1 / 1000 * f := mul_le_mul_of_nonneg_right (by norm_num) hf.le
    linarith
  have hk0 : 0 ≤ k := by rw [hk]; exact abs_nonneg _
  have hleave := H.leave
  have hGa : 0 < f / κ + a := by have : 0 < f / κ := by positivity
                                 linarith
  have hk1 : 2 * 10 ^ 11 * (R.u * B) ≤ k := by
    have g1 : ℓ * k ≤ 101 / 100 * (f / κ + a) * k := mul_le_mul_of_nonneg_right hℓ1 hk0
    have g2 : (f / κ + a) * (3 * 10 ^ 11 * (R.u * B) * (4 / 5)) ≤ (f / κ + a) * (101 / 100 * k) := by linarith
    have g3 := le_of_mul_le_mul_left g2 hGa
    linarith
  have hN' : |t * inner ℝ N.dirE d'.toE| = t * k := by
    rw [abs_mul, abs_of_pos ht0, hk]; rfl
  have g1 := abs_sub_abs_le_abs_sub (t * inner ℝ N.dirE d'.toE) (inner ℝ N.dirE (P.toE - P'.toE))
  rw [hN'] at g1
  have g2 : |inner ℝ N.dirE (P.toE - P'.toE)| ≤ 70 * (R.u * B) := by
    rw [← neg_sub, inner_neg_right, abs_neg]; exact h1
  have g3 : t * k ≤ 93 * (R.u * B) + 29 * (R.u * t) := by linarith
  have g4 : R.u * t ≤ R.u * B * t := by
    have := mul_le_mul_of_nonneg_left hB (show 0 ≤ R.u * t by positivity)
    linarith
  have g5 : 2 * 10 ^ 11 * (R.u * B) * t ≤ k * t := mul_le_mul_of_nonneg_right hk1 ht0.le
  have g6 : (R.u * B) * (2 * 10 ^ 11 * t) ≤ (R.u * B) * (93 + 29 * t) := by linarith
  have g7 := le_of_mul_le_mul_left g6 huB0
  norm_num at g7 hte
  linarith

/-- The two passes of a run with one ideal lens, from what the tests and the refraction give. -/
theorem ideal_passes {P N O w pt n P' d' : V3 ℝ} {Dia : Fl R} {ww hh f : Option (Fl R)} {index : Fl R} {l : Lens (Fl R)}
    (hl : Lens.new P.fl (some N.fl) "spherical_biconvex" (some Dia) ww hh f "ideal" index = .ok l) {x md y z : ℝ}
    {ray : Ray (Fl R)} (htype : ray.type ≠ "faerie_fire") (hrp : ray.position = O.fl) (hrd : ray.direction = w.fl)
    (hrb : ray.blocked = false) (hit₁ : (Plane.new P.fl N.fl).testIntersect ray = ⟨true, some pt.fl, some n.fl⟩)
    (hin : distanceBetween (pt.fl : V3 (Fl R)) P.fl < Dia / 2.0) (hx : distanceBetween ray.position pt.fl = Fl.fin x)
    (hxs : 1 / 2500 ≤ x) (hxm : x ≤ md) (fly₁ : ray.position + distanceBetween ray.position pt.fl * ray.direction = P'.fl)
    (turn : thinLensDirection P'.fl w.fl P.fl (unitVector N.fl) f pt.fl = .ok d'.fl)
    (rem₁ : (Fl.fin md : Fl R) - Fl.fin x = Fl.fin y) (hy : 0 < y)
    (hit₂ : ∀ ray : Ray (Fl R), ray.position = P'.fl → ray.direction = d'.fl → ((Plane.new P.fl N.fl).testIntersect ray).hit = false)
    (rem₂ : (Fl.fin y : Fl R) - Fl.fin md = Fl.fin z) (hz : z ≤ 0) {mi : Option Int} (hmi : ∀ k, mi = some k → 1 < k) (fuel : Nat) :
    ∃ s last, ray.run (Fl.fin md) [.lens l] mi (fuel + 3) = .finished s ∧
      s.interactions = 1 ∧ s.ray.blocked = false ∧ s.ray.pointHistory = ray.pointHistory ++ [P'.fl] ++ [last] ∧
      s.ray.direction = d'.fl := by
  obtain ⟨g, g1, g2, hg, -⟩ := fl_floor (R := R)
  have hgo : ∀ (s : RunState (Fl R)) (x : ℝ), s.remaining = Fl.fin x → 0 < x → s.interactions ≤ 1 → s.ray.blocked = false →
      s.continues mi = true := by
    intro s x h1 h2 h3 h4
    have h5 : (Fl.fin x : Fl R) > 0.0 := by rw [fl_lit0]; exact (fl_lt _ _).mpr h2
    unfold RunState.continues
    rw [h1, h4, decide_eq_true h5]
    cases mi with
    | none => rfl
    | some k =>
      have := hmi k rfl
      simp only [Bool.true_and, Bool.not_false, Bool.and_true, decide_eq_true_eq]; omega
  have hneg : decide ((Fl.fin z : Fl R) > 0.0) = false := by
    rw [decide_eq_false_iff_not, fl_lit0]; exact not_lt.mpr hz
  obtain ⟨b1, b2, -, b3, b4, -⟩ := biconvex_built hl
  have rep₁ := biconvex_reports hl hit₁ hin (by rw [hx]; rfl)
  have step₁ := ideal_enter (md := Fl.fin md) (s := RunState.init ray (Fl.fin md)) (w := d'.fl) b4 b2 rep₁ htype
    (by
      show ¬ distanceBetween ray.position pt.fl > Fl.fin md
      rw [hx]; exact not_lt.mpr hxm)
    (by
      show distanceBetween ray.position pt.fl > clippingFloor
      rw [hx, hg]; exact (fl_lt _ _).mpr (by linarith))
    (by
      show PyNum.ltInf (distanceBetween ray.position pt.fl) = true
      rw [hx]; rfl)
    (by
      show thinLensDirection (ray.position + distanceBetween ray.position pt.fl * ray.direction) ray.direction _ _ _ _ = _
      rw [fly₁, hrd, b1, b3]; exact turn)
  obtain ⟨s₁, hs₁⟩ : ∃ s₁, s₁ = lensNext l (RunState.init ray (Fl.fin md)) pt.fl n.fl d'.fl true := ⟨_, rfl⟩
  have p₁ : s₁.ray.position = P'.fl := by
    rw [hs₁]
    exact fly₁
  have r₁ : s₁.remaining = Fl.fin y := by
    rw [hs₁]
    show Fl.fin md - distanceBetween ray.position pt.fl = _
    rw [hx]; exact rem₁
  have d₁ : s₁.ray.direction = d'.fl := by rw [hs₁]; rfl
  have i₁ : s₁.interactions = 1 := by rw [hs₁]; rfl
  have bl₁ : s₁.ray.blocked = false := by rw [hs₁]; exact hrb
  have q₁ : s₁.ray.pointHistory = ray.pointHistory ++ [P'.fl] := by
    rw [← p₁, hs₁]; rfl
  rw [← hs₁] at step₁
  clear hs₁
  have step₂ := lens_gone (md := Fl.fin md) (s := s₁) (biconvex_misses hl (hit₂ s₁.ray p₁ d₁))
  have r₂ : (missNext s₁ (Fl.fin md) true).remaining = Fl.fin z := by
    show s₁.remaining - Fl.fin md = _
    rw [r₁]; exact rem₂
  refine ⟨missNext s₁ (Fl.fin md) true, s₁.ray.position + s₁.remaining * s₁.ray.direction, ?_, i₁, bl₁, ?_, d₁⟩
  · unfold Ray.run
    rw [show fuel + 3 = (fuel + 2) + 1 from rfl]
    unfold runLoop
    rw [if_pos (hgo _ md rfl (by linarith) (Nat.zero_le _) hrb), step₁]
    dsimp only
    unfold runLoop
    rw [if_pos (hgo _ y r₁ hy (by rw [i₁]) bl₁), step₂]
    dsimp only
    unfold runLoop
    rw [if_neg (by
      unfold RunState.continues
      rw [r₂, hneg, Bool.false_and, Bool.false_and]; exact Bool.false_ne_true)]
  · show s₁.ray.pointHistory ++ _ = _
    rw [q₁]

/-- Everything about the turn at a lens ahead, for a ray with the direction `w`, which is `e` but for the rounding. -/
theorem LensAhead.turns {O P N w : V3 ℝ} {e : E3} {f B κ a m : ℝ} (he : ‖e‖ = 1) (ew : ‖w.toE - e‖ ≤ 5 * R.u) (hN : SaneLength N)
    (H : LensAhead R O e P N f B κ a m) {Dia : Fl R} (hDia : Dia / 2.0 = Fl.fin a) {ray : Ray (Fl R)} (hpos : ray.position = O.fl)
    (hw : ray.direction = w.fl) {p : ℝ} (hp : |inner ℝ (O.toE - P.toE) (axisOf N)| = p) :
    ∃ (q n P' d' : V3 ℝ) (x c : ℝ), NearUnit R w ∧
      |inner ℝ (axisOf N) w.toE| = c ∧ ThinSizes R f B c ∧ R.u * (B / c ^ 2) ≤ R.u * (B / κ ^ 2) ∧
      (Plane.new P.fl N.fl).testIntersect ray = ⟨true, some q.fl, some n.fl⟩ ∧
      distanceBetween (O.fl : V3 (Fl R)) q.fl = Fl.fin x ∧ 1 / 2500 ≤ x ∧ x ≤ 999 / 1000 * m ∧
      (O.fl : V3 (Fl R)) + distanceBetween (O.fl : V3 (Fl R)) q.fl * (w.fl : V3 (Fl R)) = P'.fl ∧
      thinLensDirection P'.fl w.fl P.fl (unitVector N.fl) (some (Fl.fin f : Fl R)) q.fl = .ok d'.fl ∧ NearUnit R d' ∧
      ‖P'.toE - (O.toE + x • w.toE)‖ ≤ 32 / 10 * (R.u * B) ∧ |inner ℝ (axisOf N) (P'.toE - P.toE)| ≤ 70 * (R.u * B) ∧
      ‖P'.toE - q.toE‖ ≤ 22 * (R.u * B) ∧
      ‖P'.toE - (O.toE + (p / |inner ℝ (axisOf N) e|) • e)‖ ≤ 90 * (R.u * (B / κ ^ 2)) ∧
      distanceBetween (q.fl : V3 (Fl R)) P.fl < Dia / 2.0 ∧
      (∀ ray : Ray (Fl R), ray.position = P'.fl → ray.direction = d'.fl → ((Plane.new P.fl N.fl).testIntersect ray).hit = false) ∧
      (‖‖(f / c) • w.toE - (q.toE - P.toE)‖ • d'.toE - ((f / c) • w.toE - (q.toE - P.toE))‖ ≤ 50 * (R.u * (B / c ^ 2)) ∨
      ((‖w.toE - axisOf N‖ ≤ 2 / 10 ^ 8 + 5 * R.u ∨ ‖w.toE + axisOf N‖ ≤ 2 / 10 ^ 8 + 5 * R.u) ∧
        ‖‖(f / c) • w.toE - (P'.toE - P.toE)‖ • d'.toE - ((f / c) • w.toE - (P'.toE - P.toE))‖ ≤
          62 * (R.u * (B / c ^ 2)) + 8 / 10 ^ 8 * f)) := by
  have hu := R.u_pos
  have hus := (five_u (R := R)).2
  have hs := H.sizes
  obtain ⟨hX, hBX, hGX, hXb, huX, huBX, huX1⟩ := hs.facts
  have hB := hs.one_le
  have hf := hs.f_pos
  have hfine := hs.fine
  have hκp : 0 < κ := by linarith [hs.lo]
  have huB0 : 0 < R.u * B := by positivity
  have huX0 : 0 < R.u * (B / κ ^ 2) := by positivity
  have hM : ‖axisOf N‖ = 1 := dirE_norm hN.pos
  have hroom := H.room
  have hreach := H.reach
  have hap := H.aperture
  have hnear := H.near
  have hdist := H.dist
  rw [hp] at hreach hap hnear hdist
  have hO0 := _root_.norm_nonneg O.toE
  have hP0 := _root_.norm_nonneg P.toE
  have hwu : NearUnit R w := nearUnit_of he ew
  -- the cosines
  obtain ⟨c, hc⟩ : ∃ c, |inner ℝ (axisOf N) w.toE| = c := ⟨_, rfl⟩
  obtain ⟨c₀, hc₀⟩ : ∃ c₀, |inner ℝ (axisOf N) e| = c₀ := ⟨_, rfl⟩
  have hdiff : |inner ℝ (axisOf N) w.toE - inner ℝ (axisOf N) e| ≤ 5 * R.u := by
    rw [← inner_sub_right]
    have := abs_real_inner_le_norm (axisOf N) (w.toE - e)
    rw [hM, one_mul] at this
    exact this.trans ew
  have hcc : |c - c₀| ≤ 5 * R.u := by
    rw [← hc, ← hc₀]; exact (abs_abs_sub_abs_le_abs_sub _ _).trans hdiff
  have hcos := H.cos
  rw [hc₀] at hcos hap
  have hκ₀ : κ ≤ c₀ := by linarith
  have hκ : κ ≤ c := by linarith [(abs_le.mp hcc).1]
  have hc1 : c ≤ 1 + 1 / 10000 := by
    have i := abs_real_inner_le_norm (axisOf N) w.toE
    rw [hM, one_mul, hc] at i
    linarith [hwu.bounds.1]
  obtain ⟨hsc, hXc⟩ := hs.steeper hκ hc1
  have hsame : 0 < inner ℝ (axisOf N) (P.toE - O.toE) * inner ℝ (axisOf N) w.toE := by
    have h1 := H.ahead
    have h2 := abs_le.mp hdiff
    rcases pos_and_pos_or_neg_and_neg_of_mul_pos h1 with ⟨h3, h4⟩ | ⟨h3, h4⟩
    · rw [abs_of_pos h4] at hc₀; exact mul_pos h3 (by linarith)
    · rw [abs_of_neg h4] at hc₀; exact mul_pos_of_neg_of_neg h3 (by linarith)
  obtain ⟨q, n, x, hit, hx, hx0, hxm⟩ := H.reports (ray := ray) hN hwu hκ hc hp hsame hpos hw
  have hm0 : 0 ≤ m := by linarith
  obtain ⟨P', d', q', hq', fly, turn, hd', k1, k2, k3, k4⟩ := lens_turn (ray := ray) hsc H.grid hwu hN
    (show 0 < x by linarith) (by linarith) hc hpos hw hit hx
  have hqq : q = q' := fl_injective hq'
  subst hqq
  have hcr := crossing_near hsc hM hwu.bounds.1 hc (show 0 < x by linarith) hp (by linarith) k1 k2
  have hpB : p ≤ B := by
    have h1 := abs_real_inner_le_norm (O.toE - P.toE) (axisOf N)
    rw [hM, mul_one, hp] at h1
    linarith [norm_sub_le O.toE P.toE]
  have hcr2 := H.crossings he ew hκ hκ₀ hcc (by linarith) hpB
  have hland : ‖P'.toE - (O.toE + (p / c₀) • e)‖ ≤ 90 * (R.u * (B / κ ^ 2)) := by
    have := norm_sub_le_norm_sub_add_norm_sub P'.toE (O.toE + (p / c) • w.toE) (O.toE + (p / c₀) • e)
    linarith
  have hP'P : ‖P'.toE - P.toE‖ ≤ a - 110 * (R.u * (B / κ ^ 2)) := by
    have := norm_sub_le_norm_sub_add_norm_sub P'.toE (O.toE + (p / c₀) • e) P.toE
    linarith
  have hqP : ‖q.toE - P.toE‖ + 80 * (R.u * (B / κ ^ 2)) ≤ a := by
    have := norm_sub_le_norm_sub_add_norm_sub q.toE P'.toE P.toE
    rw [norm_sub_rev q.toE P'.toE] at this
    linarith
  have huB1 : R.u * B ≤ 1 / 10 ^ 10 := H.grid
  have hP'B : ‖P'.toE‖ ≤ 91 / 100 * B := by
    have h1 := norm_le_norm_add_norm_sub (O.toE + x • w.toE) P'.toE
    have h2 := norm_add_le O.toE (x • w.toE)
    rw [_root_.norm_smul, Real.norm_of_nonneg (by linarith : 0 ≤ x)] at h2
    have h3 := mul_le_mul_of_nonneg_left hwu.bounds.1 (show 0 ≤ x by linarith)
    rw [norm_sub_rev (O.toE + x • w.toE) P'.toE] at h1
    norm_num at huB1
    linarith
  have hqB : ‖q.toE - P.toE‖ ≤ B := by
    have h1 : q.toE - P.toE = (P'.toE - P.toE) - (P'.toE - q.toE) := by abel
    have h2 := norm_sub_le (P'.toE - P.toE) (P'.toE - q.toE)
    have h4 : ‖P'.toE - P.toE‖ ≤ 92 / 100 * B := by
      have e1 : P'.toE - P.toE = (P'.toE - (O.toE + x • w.toE)) + ((O.toE - P.toE) + x • w.toE) := by abel
      have h5 := norm_add_le (P'.toE - (O.toE + x • w.toE)) ((O.toE - P.toE) + x • w.toE)
      have h6 := norm_add_le (O.toE - P.toE) (x • w.toE)
      have h7 := norm_sub_le O.toE P.toE
      rw [_root_.norm_smul, Real.norm_of_nonneg (by linarith : 0 ≤ x)] at h6
      have h8 := mul_le_mul_of_nonneg_left hwu.bounds.1 (show 0 ≤ x by linarith)
      rw [← e1] at h5
      norm_num at huB1
      linarith
    rw [← h1] at h2
    norm_num at huB1
    linarith
  have hin : distanceBetween (q.fl : V3 (Fl R)) P.fl < Dia / 2.0 := by
    rw [hDia]
    refine inside_rim hqP (by linarith) huX0 hB hs.le_big hqB H.radius ?_
    have := _root_.norm_nonneg (O.toE + (p / c₀) • e - P.toE)
    linarith
  have hyq : |inner ℝ (axisOf N) (q.toE - P.toE)| ≤ 92 * (R.u * B) := by
    have e1 : inner ℝ (axisOf N) (q.toE - P.toE) = inner ℝ (axisOf N) (P'.toE - P.toE) - inner ℝ (axisOf N) (P'.toE - q.toE) := by
      rw [← inner_sub_right]; congr 1; abel
    have i1 := abs_real_inner_le_norm (axisOf N) (P'.toE - q.toE)
    rw [hM, one_mul] at i1
    have i2 := abs_sub (inner ℝ (axisOf N) (P'.toE - P.toE)) (inner ℝ (axisOf N) (P'.toE - q.toE))
    rw [e1]
    linarith
  have hgone : ∀ ray : Ray (Fl R), ray.position = P'.fl → ray.direction = d'.fl →
      ((Plane.new P.fl N.fl).testIntersect ray).hit = false := by
    intro ray h1 h2
    have h8 : 0 ≤ 8 / 10 ^ 8 * f := by positivity
    rcases k4 with k4 | ⟨-, k4⟩
    · exact H.gone hN hκ hc hwu.bounds.1 hd' (by linarith) k2 hyq (by linarith) (by linarith) h1 h2
    · exact H.gone (y := P'.toE) hN hκ hc hwu.bounds.1 hd' (by linarith) k2 (by linarith) (by linarith) (by linarith) h1 h2
  rw [hc₀]
  exact ⟨q, n, P', d', x, c, hwu, hc, hsc, hXc, hit, by rw [← hpos]; exact hx, hx0, hxm, by rw [← fly, ← hw, ← hpos], turn, hd', k1, k2, k3, hland, hin, hgone, k4⟩

/-- Everything about the turn at a lens ahead. -/
theorem LensAhead.turned {O P N D : V3 ℝ} {f B κ a m : ℝ} (hD : SaneLength D) (hN : SaneLength N)
    (H : LensAhead R O D.dirE P N f B κ a m) {Dia : Fl R} (hDia : Dia / 2.0 = Fl.fin a) (wavelength order : Fl R) (type : String)
    {p : ℝ} (hp : |inner ℝ (O.toE - P.toE) (axisOf N)| = p) :
    ∃ (w q n P' d' : V3 ℝ) (x c : ℝ), unitVector (D.fl : V3 (Fl R)) = w.fl ∧ ‖w.toE - D.dirE‖ ≤ 5 * R.u ∧ NearUnit R w ∧
      |inner ℝ (axisOf N) w.toE| = c ∧ ThinSizes R f B c ∧ R.u * (B / c ^ 2) ≤ R.u * (B / κ ^ 2) ∧
      (Plane.new P.fl N.fl).testIntersect (Ray.new O.fl D.fl wavelength order type) = ⟨true, some q.fl, some n.fl⟩ ∧
      distanceBetween (O.fl : V3 (Fl R)) q.fl = Fl.fin x ∧ 1 / 2500 ≤ x ∧ x ≤ 999 / 1000 * m ∧
      (O.fl : V3 (Fl R)) + distanceBetween (O.fl : V3 (Fl R)) q.fl * (w.fl : V3 (Fl R)) = P'.fl ∧
      thinLensDirection P'.fl w.fl P.fl (unitVector N.fl) (some (Fl.fin f : Fl R)) q.fl = .ok d'.fl ∧ NearUnit R d' ∧
      ‖P'.toE - (O.toE + x • w.toE)‖ ≤ 32 / 10 * (R.u * B) ∧ |inner ℝ (axisOf N) (P'.toE - P.toE)| ≤ 70 * (R.u * B) ∧
      ‖P'.toE - q.toE‖ ≤ 22 * (R.u * B) ∧
      ‖P'.toE - (O.toE + (p / |inner ℝ (axisOf N) D.dirE|) • D.dirE)‖ ≤ 90 * (R.u * (B / κ ^ 2)) ∧
      distanceBetween (q.fl : V3 (Fl R)) P.fl < Dia / 2.0 ∧
      (∀ ray : Ray (Fl R), ray.position = P'.fl → ray.direction = d'.fl → ((Plane.new P.fl N.fl).testIntersect ray).hit = false) ∧
      (‖‖(f / c) • w.toE - (q.toE - P.toE)‖ • d'.toE - ((f / c) • w.toE - (q.toE - P.toE))‖ ≤ 50 * (R.u * (B / c ^ 2)) ∨
      ((‖w.toE - axisOf N‖ ≤ 2 / 10 ^ 8 + 5 * R.u ∨ ‖w.toE + axisOf N‖ ≤ 2 / 10 ^ 8 + 5 * R.u) ∧
        ‖‖(f / c) • w.toE - (P'.toE - P.toE)‖ • d'.toE - ((f / c) • w.toE - (P'.toE - P.toE))‖ ≤
          62 * (R.u * (B / c ^ 2)) + 8 / 10 ^ 8 * f)) := by
  obtain ⟨w, hw, ew⟩ := unitVector_near (R := R) hD
  obtain ⟨q, n, P', d', x, c, h⟩ := H.turns (ray := Ray.new O.fl D.fl wavelength order type) (dirE_norm hD.pos) ew hN hDia rfl hw hp
  exact ⟨w, q, n, P', d', x, c, hw, ew, h⟩

end Optics
