import Verif.Lemmas.RelayBench
import Verif.Spec.RoundedTrain

/-! # One lens of the bench of script_testIdealRelay.py -/

namespace Optics
open V3

theorem bench_sane : SaneLength ⟨0, -1, 0⟩ := by
  have e1 : ‖(⟨0, -1, 0⟩ : V3 ℝ).toE‖ = 1 := by rw [norm_toE]; simp [V3.norm, dot]
  exact sane_of_near (by rw [e1]; norm_num)

/-- The object of a lens of the relay and its image. -/
theorem relay_image {X Y Z : ℝ} (hX : |X| ≤ 51 / 10) (hZ : |Z| ≤ 51 / 10) :
    |inner ℝ ((⟨X, Y - 25, Z⟩ : V3 ℝ).toE - (⟨0, Y, 0⟩ : V3 ℝ).toE) (axisOf ⟨0, -1, 0⟩)| = 25 ∧
    ImageOf (25 / 2) (⟨0, Y, 0⟩ : V3 ℝ).toE (axisOf ⟨0, -1, 0⟩) (⟨X, Y - 25, Z⟩ : V3 ℝ).toE (⟨-X, Y + 25, -Z⟩ : V3 ℝ).toE ∧
    ‖(⟨X, Y - 25, Z⟩ : V3 ℝ).toE - (⟨0, Y, 0⟩ : V3 ℝ).toE‖ ≤ 2602 / 100 := by
  have hp : |inner ℝ ((⟨X, Y - 25, Z⟩ : V3 ℝ).toE - (⟨0, Y, 0⟩ : V3 ℝ).toE) (axisOf ⟨0, -1, 0⟩)| = 25 := by
    rw [real_inner_comm, ← toE_sub, bench_inner]
    simp only [sub_y]
    rw [show -(Y - 25 - Y) = 25 by ring, abs_of_pos (by norm_num)]
  refine ⟨hp, ⟨25, by norm_num, by rw [hp]; norm_num, ?_⟩, ?_⟩
  · rw [hp, ← toE_sub, ← toE_sub, ← toE_smul]; congr 1; ext <;> simp
  · rw [← toE_sub]
    refine abs_le_of_sq_le_sq' ?_ (by norm_num) |>.2
    rw [normE_sq]
    simp only [sub_x, sub_y, sub_z]
    have h1 := sq_le_sq' (abs_le.mp hX).1 (abs_le.mp hX).2
    have h2 := sq_le_sq' (abs_le.mp hZ).1 (abs_le.mp hZ).2
    norm_num at h1 h2 ⊢
    linarith

theorem relay_step {O D w K : V3 ℝ} {X Y Z κ a t ε r : ℝ} (hL : 0 < ‖D.toE‖) (ew : ‖w.toE - D.dirE‖ ≤ 5 * binary64.u)
    (H : LensAhead binary64 O D.dirE ⟨0, Y, 0⟩ ⟨0, -1, 0⟩ (25 / 2) 1000 κ a 150)
    (hp : |inner ℝ (O.toE - (⟨0, Y, 0⟩ : V3 ℝ).toE) (axisOf ⟨0, -1, 0⟩)| = Y - O.y)
    (hK : O.toE + ((Y - O.y) / |inner ℝ (axisOf ⟨0, -1, 0⟩) D.dirE|) • D.dirE = K.toE) (hκ : 8 / 10 ≤ κ) (hwy : κ ≤ w.y) (hpO : 0 ≤ Y - O.y)
    {Dia : D64} (hDia : Dia / 2.0 = Fl.fin a) {ww hh : Option D64} {index : D64} {l : Lens D64}
    (hl : Lens.new (V3.fl ⟨0, Y, 0⟩) (some (V3.fl ⟨0, -1, 0⟩)) "spherical_biconvex" (some Dia) ww hh (some (Fl.fin (25 / 2))) "ideal" index = .ok l)
    (hX : |X| ≤ 51 / 10) (hZ : |Z| ≤ 51 / 10) (haim : ‖O.toE + t • w.toE - (⟨X, Y - 25, Z⟩ : V3 ℝ).toE‖ ≤ ε) (hε : ε ≤ 1 / 10 ^ 5)
    {s : RunState D64} (hpos : s.ray.position = O.fl) (hdir : s.ray.direction = w.fl) (htype : s.ray.type ≠ "faerie_fire")
    (hrem : s.remaining = Fl.fin r) (hr : (Y - O.y) / κ + 1 / 1000 ≤ r) (hr' : r ≤ 150) {A B : List (Optic D64)}
    (hA : ∀ x, x * w.y ≤ (Y - O.y) + 1 / 10 ^ 9 → ∀ o ∈ A, Beyond s.ray x o)
    (hB : ∀ x, x * w.y ≤ (Y - O.y) + 1 / 10 ^ 9 → ∀ o ∈ B, Beyond s.ray x o) (md : D64) :
    ∃ (s' : RunState D64) (P' d' : V3 ℝ) (t' y : ℝ), runStep md (A ++ .lens l :: B) s = .next s' ∧ s'.interactions = s.interactions + 1 ∧
      s'.ray.blocked = s.ray.blocked ∧ s'.ray.type = s.ray.type ∧ s'.ray.wavelength = s.ray.wavelength ∧ s'.log = s.log ∧
      s'.remaining = Fl.fin y ∧ y ≤ 150 ∧ r - (Y - O.y) / κ - 1 / 100 ≤ y ∧ s'.ray.position = P'.fl ∧ s'.ray.direction = d'.fl ∧
      NearUnit binary64 d' ∧ |P'.x - K.x| ≤ 1 / 10 ^ 9 ∧ |P'.y - Y| ≤ 1 / 10 ^ 9 ∧ |P'.z - K.z| ≤ 1 / 10 ^ 9 ∧ 0 < t' ∧
      (‖P'.toE + t' • d'.toE - (⟨-X, Y + 25, -Z⟩ : V3 ℝ).toE‖ ≤ 4 / 10 ^ 11 + 315 / 100 * ε ∨
        (¬ (2 / 10 ^ 8 + 10 * binary64.u < ‖D.dirE - axisOf ⟨0, -1, 0⟩‖ ∧ 2 / 10 ^ 8 + 10 * binary64.u < ‖D.dirE + axisOf ⟨0, -1, 0⟩‖) ∧
          ‖P'.toE + t' • d'.toE - (⟨-X, Y + 25, -Z⟩ : V3 ℝ).toE‖ ≤ 4 / 10 ^ 11 + 315 / 100 * ε + 203 / 10 ^ 8)) ∧
      (∀ ray : Ray D64, ray.position = P'.fl → ray.direction = d'.fl →
        ((Plane.new (V3.fl ⟨0, Y, 0⟩ : V3 D64) (V3.fl ⟨0, -1, 0⟩)).testIntersect ray).hit = false) ∧
      ∀ ε₁, 4 / 10 ^ 11 + 315 / 100 * ε + 203 / 10 ^ 8 ≤ ε₁ →
        LensTrain md (A ++ .lens l :: B) s (⟨X, Y - 25, Z⟩ : V3 ℝ).toE ε s' (⟨-X, Y + 25, -Z⟩ : V3 ℝ).toE ε₁ := by
  have hu : binary64.u = 1 / 2 ^ 53 := rfl
  have hκp : 0 < κ := by linarith
  have hM : ‖axisOf ⟨0, -1, 0⟩‖ = 1 := dirE_norm bench_sane.pos
  obtain ⟨q, n, P', d', x, c, hwu, hc, hsc, hXc, hit, hx, hx0, hxm, fly, turn, hd', k1, k2, k3, hland, hin, hgone, k4⟩ :=
    H.turns (dirE_norm hL) ew bench_sane hDia (ray := s.ray) hpos hdir hp
  have hcw : c = w.y := by rw [← hc, bench_inner, abs_neg, abs_of_pos (by linarith)]
  have huX : binary64.u * (1000 / κ ^ 2) ≤ 174 / 10 ^ 15 := by
    have : 1000 / κ ^ 2 ≤ 15625 / 10 := by rw [div_le_iff₀ (by positivity)]; nlinarith
    rw [hu]; norm_num at this ⊢; linarith
  have huX' := hXc.trans huX
  have hx1 := first_length (R := binary64) (σ := -1) (c := c) (p := Y - O.y) hM (by norm_num) (by rw [hcw]; linarith) (by rw [bench_inner, hcw]; ring)
    (by rw [← toE_sub, bench_inner]; simp only [sub_y]; ring) k1 k2
  have h74 : 74 * (binary64.u * 1000) ≤ 1 / 10 ^ 9 := by rw [hu]; norm_num
  have hxw : x * w.y ≤ (Y - O.y) + 1 / 10 ^ 9 := by
    rw [le_div_iff₀ (by rw [hcw]; linarith), hcw] at hx1
    linarith
  have hxκ : x ≤ (Y - O.y) / κ + 1 / 10 ^ 5 := by
    have h1 : x * κ ≤ (Y - O.y) + 1 / 10 ^ 9 := (mul_le_mul_of_nonneg_left hwy (by linarith)).trans hxw
    rw [← le_div_iff₀ hκp, add_div] at h1
    have h2 : 1 / 10 ^ 9 / κ ≤ 1 / 10 ^ 5 := by rw [div_le_iff₀ hκp]; norm_num at hκ ⊢; linarith
    linarith
  have hxr : x ≤ r := by norm_num at hxκ; linarith
  have l150' : binary64.rnd 150 = .fin 150 := by
    have := rnd64_dyE (x := 150) (m := 150) (e := 0) (by norm_num) (by norm_num) (by norm_num) (by norm_num)
    show rnd64 150 = _
    rw [this]; norm_num
  obtain ⟨y, hy, hym, hyl⟩ := left_over (R := binary64) (md := 150) (a := r) (x := x) l150' (by norm_num) hr' (by linarith) hxr
  obtain ⟨g, g1, g2, hg, -⟩ := fl_floor (R := binary64)
  obtain ⟨b1, b2, -, b4, b5, -⟩ := biconvex_built hl
  have hw1 : thinLensDirection (s.ray.position + distanceBetween s.ray.position q.fl * s.ray.direction) s.ray.direction l.position
      (unitVector (V3.fl ⟨0, -1, 0⟩)) l.f q.fl = .ok d'.fl := by
    rw [hpos, hdir, b1, b4, fly]; exact turn
  obtain ⟨s', r1, r2, r3, r4, r5, r6, r7, r8, r9, -, r11⟩ := ideal_enter_among (A := A) (B := B) b5 b2 (md := md) (s := s)
    (biconvex_reports hl hit hin (by rw [hpos, hx]; rfl)) (hA x hxw) (hB x hxw) htype (by rw [hpos]; exact hx)
    (by rw [hrem, gt_iff_lt, fl_lt]; exact not_lt.mpr hxr) (by rw [hg, gt_iff_lt, fl_lt]; linarith) hw1
  obtain ⟨i1, i2, i3⟩ := relay_image (Y := Y) hX hZ
  have hside : 0 < inner ℝ (axisOf ⟨0, -1, 0⟩) ((⟨0, Y, 0⟩ : V3 ℝ).toE - (⟨X, Y - 25, Z⟩ : V3 ℝ).toE) * inner ℝ (axisOf ⟨0, -1, 0⟩) w.toE := by
    rw [← toE_sub, bench_inner, bench_inner]
    simp only [sub_y]
    nlinarith
  have hε0 : 0 ≤ ε := (_root_.norm_nonneg _).trans haim
  have e12 : |(25 : ℝ) - 25 / 2| = 25 / 2 := by rw [abs_of_pos (by norm_num)]; norm_num
  obtain ⟨t', ht1, ht2⟩ := refocus hsc hM hwu.bounds.1 hc k1 k2 k3 k4 haim hside i1 (by norm_num at hε huX' ⊢; linarith)
    (by rw [e12]; norm_num at hε ⊢; linarith) i2
  rw [e12, div_self (by norm_num)] at ht2
  have hgrow : 102 / 100 * 1 * ε * (1 + ‖(⟨X, Y - 25, Z⟩ : V3 ℝ).toE - (⟨0, Y, 0⟩ : V3 ℝ).toE‖ / (25 / 2)) ≤ 315 / 100 * ε := by
    have : 1 + ‖(⟨X, Y - 25, Z⟩ : V3 ℝ).toE - (⟨0, Y, 0⟩ : V3 ℝ).toE‖ / (25 / 2) ≤ 3082 / 1000 := by
      have := div_le_div_of_nonneg_right i3 (show (0 : ℝ) ≤ 25 / 2 by norm_num)
      norm_num at this ⊢
      linarith
    have h2 := mul_le_mul_of_nonneg_left this (show 0 ≤ 102 / 100 * 1 * ε by linarith)
    linarith
  have hflat : (73 + 153 * 1) * (binary64.u * (1000 / c ^ 2)) ≤ 4 / 10 ^ 11 := by norm_num at huX' ⊢; linarith
  have h200 : ε + 200 * (binary64.u * (1000 / c ^ 2)) ≤ 25 := by norm_num at hε huX' ⊢; linarith
  have hsmall : ε ≤ |(25 : ℝ) - 25 / 2| / 100 := by rw [e12]; norm_num at hε ⊢; linarith
  have hroom : ‖O.toE‖ + r + ‖(⟨0, Y, 0⟩ : V3 ℝ).toE‖ ≤ 9 / 10 * 1000 := by linarith [H.room]
  have pass : LensPass md (A ++ .lens l :: B) s s' O w ⟨0, Y, 0⟩ ⟨0, -1, 0⟩ (25 / 2) 1000 c r :=
    ⟨hsc, H.grid, hpos, hdir, hwu, hrem, by linarith, hroom, hc, htype, r1, r2, _, r11, .mk bench_sane hl⟩
  have train : ∀ ε₁, 4 / 10 ^ 11 + 315 / 100 * ε + 203 / 10 ^ 8 ≤ ε₁ →
      LensTrain md (A ++ .lens l :: B) s (⟨X, Y - 25, Z⟩ : V3 ℝ).toE ε s' (⟨-X, Y + 25, -Z⟩ : V3 ℝ).toE ε₁ := fun ε₁ hε₁ =>
    .cons pass i1 hside h200 hsmall i2 (.inr (by
      rw [e12, div_self (by norm_num)]
      norm_num at hgrow hflat hε₁ ⊢
      linarith)) .nil
  have hl3 : ‖(P' - K).toE‖ ≤ 1 / 10 ^ 9 := by
    rw [hK, ← toE_sub] at hland
    norm_num at huX hland ⊢
    linarith
  obtain ⟨c1, -, c3⟩ := comp_le (P' - K)
  rw [← toE_sub, bench_inner] at k2
  simp only [sub_x, sub_y, sub_z] at c1 c3 k2
  rw [abs_neg] at k2
  refine ⟨s', P', d', t', y, r1, r2, r3, r4, r5, r6, ?_, hym, ?_, ?_, ?_, hd', c1.trans hl3, ?_, c3.trans hl3, ht1.mpr (by norm_num), ?_, hgone, train⟩
  · rw [r7, hrem, hy]
  · norm_num at hxκ hyl ⊢
    linarith
  · rw [r8, hpos, hdir, fly]
  · rw [r9]
  · linarith
  · rcases ht2 with ht2 | ⟨hax, ht2⟩
    · exact .inl (by linarith)
    · refine .inr ⟨?_, by norm_num at ht2 hgrow hflat ⊢; linarith⟩
      rintro ⟨o1, o2⟩
      rcases hax with hax | hax
      · have := norm_sub_le_norm_sub_add_norm_sub D.dirE w.toE (axisOf ⟨0, -1, 0⟩)
        rw [norm_sub_rev D.dirE w.toE] at this
        linarith
      · have e : D.dirE + axisOf ⟨0, -1, 0⟩ = (w.toE + axisOf ⟨0, -1, 0⟩) - (w.toE - D.dirE) := by abel
        have := norm_sub_le (w.toE + axisOf ⟨0, -1, 0⟩) (w.toE - D.dirE)
        rw [← e] at this
        linarith

end Optics
