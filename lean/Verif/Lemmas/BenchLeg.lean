import Verif.Lemmas.RelayEnd
import Verif.Lemmas.RoundPassed

/-! # A leg of a bench that ends at a round lens of any type, with doubles -/

namespace Optics
open V3

/-- A pass that takes the ray to the nearest of several optics, a lens that only turns the ray. -/
theorem round_enter_among {R : Rounding} {A B : List (Optic (Fl R))} {l : Lens (Fl R)}
    {md : Fl R} {s : RunState (Fl R)} {p n w : V3 (Fl R)} {x : ℝ} {b : Sfo} (hm : l.testIntersect s.ray = .ok ⟨true, some p, some n, b⟩)
    (hA : ∀ o ∈ A, Beyond s.ray x o) (hB : ∀ o ∈ B, Beyond s.ray x o) (htype : s.ray.type ≠ "faerie_fire")
    (hx : distanceBetween s.ray.position p = Fl.fin x) (h1 : ¬ (Fl.fin x : Fl R) > s.remaining) (h2 : (Fl.fin x : Fl R) > clippingFloor)
    (hw : ∀ (ray : Ray (Fl R)) (b' : Sfo), ray.position = s.ray.position + distanceBetween s.ray.position p * s.ray.direction →
      ray.direction = s.ray.direction → l.doIntersect ray p (some n) b' = .ok { ray with direction := w }) :
    ∃ s', runStep md (A ++ .lens l :: B) s = .next s' ∧ s'.interactions = s.interactions + 1 ∧ s'.ray.blocked = s.ray.blocked ∧
      s'.ray.type = s.ray.type ∧ s'.ray.wavelength = s.ray.wavelength ∧ s'.log = s.log ∧ s'.remaining = s.remaining - Fl.fin x ∧
      s'.ray.position = s.ray.position + distanceBetween s.ray.position p * s.ray.direction ∧ s'.ray.direction = w ∧
      s'.selected = some ⟨.lens l, p, some n⟩ := by
  obtain ⟨b', hscan⟩ := scan_nearest hA hB (o := .lens l) rfl hm hx h1 h2 s.selected s.sfo
  refine ⟨_, by
    unfold runStep
    rw [hscan]
    simp only [Bool.not_true, Bool.false_eq_true, if_false, Ray.fly, htype, Optic.doIntersect]
    rw [hw _ _ (by rfl) (by rfl)]
    rfl, ?_⟩
  refine ⟨rfl, rfl, rfl, rfl, List.append_nil _, ?_, rfl, rfl, rfl⟩
  show s.remaining - distanceBetween s.ray.position p = _
  rw [hx]

/-- A plane the ray has just left is not hit again. -/
theorem bench_gone {P d : V3 ℝ} {Y : ℝ} (hd : NearUnit binary64 d) (hc : 1 / 2 ≤ d.y) (hP : ‖P.toE‖ ≤ 110) (hY : |Y| ≤ 130)
    (hy : |P.y - Y| ≤ 1 / 10 ^ 10) {ray : Ray D64} (hpos : ray.position = P.fl) (hdir : ray.direction = d.fl) :
    ((Plane.new (V3.fl ⟨0, Y, 0⟩ : V3 D64) (V3.fl ⟨0, -1, 0⟩)).testIntersect ray).hit = false := by
  have hu : binary64.u = 1 / 2 ^ 53 := rfl
  by_contra hne
  rw [Bool.not_eq_false] at hne
  obtain ⟨pt, n, hz⟩ := plane_some hne
  have hC : ‖(⟨0, Y, 0⟩ : V3 ℝ).toE‖ ≤ 130 := by
    rw [norm_toE]; simp [V3.norm, dot]; rw [Real.sqrt_mul_self_eq_abs]; exact hY
  obtain ⟨t, ht1, -, -, ht3⟩ := plane_near (R := binary64) (B := 1000) bench_sane (hC.trans (by norm_num)) (hP.trans (by norm_num)) (by norm_num)
    (by norm_num) hd hpos hdir hz
  obtain ⟨e₀, he0, he1, heps⟩ := fl_eps (R := binary64)
  have hte : 9 / 10 ^ 10 < t := by
    rw [heps] at ht1
    exact lt_of_le_of_lt he0 ht1
  have e1 : inner ℝ (V3.dirE ⟨0, -1, 0⟩) d.toE = -d.y := bench_inner d
  have e2 : inner ℝ (V3.dirE ⟨0, -1, 0⟩) ((⟨0, Y, 0⟩ : V3 ℝ).toE - P.toE) = -(Y - P.y) := by rw [← toE_sub]; exact bench_inner _
  rw [e1, e2, hu] at ht3
  have h3 := (abs_le.mp ht3).1
  have h4 := (abs_le.mp hy).1
  have h5 : t * (1 / 2) ≤ t * d.y := mul_le_mul_of_nonneg_left hc (by linarith [show (0 : ℝ) < 9 / 10 ^ 10 by norm_num])
  norm_num at h3 h4 hte
  linarith

/-- Flying to a round lens and being turned there. -/
theorem bench_leg {O w : V3 ℝ} {Y c τ r : ℝ} (X : Crossing binary64 ⟨0, Y, 0⟩ ⟨0, -1, 0⟩ O w 1000 c τ) (hτ : τ = (Y - O.y) / w.y)
    (hc : 6 / 10 ≤ c) (hcw : c ≤ w.y) (hw1 : w.y ≤ 11 / 10) (hτ1 : 1 ≤ τ) (hτ2 : τ ≤ 100)
    (hrim : ‖O.toE + τ • w.toE - (⟨0, Y, 0⟩ : V3 ℝ).toE‖ ≤ 20) {Dia : D64} (hDia : Dia / 2.0 = Fl.fin 25)
    {ww hh f : Option D64} {type : String} {index : D64} {l : Lens D64}
    (hl : Lens.new (V3.fl ⟨0, Y, 0⟩) (some (V3.fl ⟨0, -1, 0⟩)) "spherical_biconvex" (some Dia) ww hh f type index = .ok l)
    {s : RunState D64} (hpos : s.ray.position = O.fl) (hdir : s.ray.direction = w.fl) (htype : s.ray.type ≠ "faerie_fire")
    (hrem : s.remaining = Fl.fin r) (hr : τ + 1 / 1000 ≤ r) (hr' : r ≤ 150) {A B : List (Optic D64)}
    (hA : ∀ x, x * w.y ≤ (Y - O.y) + 1 / 10 ^ 9 → ∀ o ∈ A, Beyond s.ray x o)
    (hB : ∀ x, x * w.y ≤ (Y - O.y) + 1 / 10 ^ 9 → ∀ o ∈ B, Beyond s.ray x o) {G : V3 ℝ → V3 ℝ → Prop}
    (hturn : ∀ P' : V3 ℝ, ‖P'.toE - (O.toE + τ • w.toE)‖ ≤ 2 / 10 ^ 11 → ∃ d' : V3 ℝ, G P' d' ∧ ∀ (ray : Ray D64) (p : V3 D64) (n : Option (V3 D64)) (b : Sfo),
      ray.position = P'.fl → ray.direction = w.fl → l.doIntersect ray p n b = .ok { ray with direction := d'.fl }) (md : D64) :
    ∃ (s' : RunState D64) (P' d' : V3 ℝ) (y : ℝ), runStep md (A ++ .lens l :: B) s = .next s' ∧ s'.interactions = s.interactions + 1 ∧
      s'.ray.blocked = s.ray.blocked ∧ s'.ray.type = s.ray.type ∧ s'.ray.wavelength = s.ray.wavelength ∧ s'.log = s.log ∧
      s'.remaining = Fl.fin y ∧ y ≤ 150 ∧ r - τ - 1 / 100 ≤ y ∧ s'.ray.position = P'.fl ∧ s'.ray.direction = d'.fl ∧
      ‖P'.toE - (O.toE + τ • w.toE)‖ ≤ 2 / 10 ^ 11 ∧ |P'.y - Y| ≤ 2 / 10 ^ 11 ∧ G P' d' ∧
      ∃ sel, s'.selected = some sel ∧ sel.optic = .lens l := by
  have hu : binary64.u = 1 / 2 ^ 53 := rfl
  obtain ⟨q, n, -, hit, eq⟩ := X.hits (by nlinarith) (ray := s.ray) hpos hdir
  obtain ⟨x, hx, ex, hx0, -, -, -⟩ := X.distance (by linarith) eq
  obtain ⟨hO, hC, -, hcp, -⟩ := X.sizes
  have hbc : binary64.u * 1000 / c ≤ 1851 / 10 ^ 16 := by
    rw [div_le_iff₀ hcp, hu]; norm_num at hc ⊢; linarith
  have ex' := abs_le.mp ex
  have hxw : x * w.y ≤ (Y - O.y) + 1 / 10 ^ 9 := by
    have h1 : τ * w.y = Y - O.y := by rw [hτ]; exact div_mul_cancel₀ _ (ne_of_gt (by linarith))
    have h2 : (x - τ) * w.y ≤ 69 * (binary64.u * 1000 / c) * (11 / 10) :=
      (mul_le_mul_of_nonneg_right ex'.2 (by linarith)).trans (mul_le_mul_of_nonneg_left hw1 (by rw [hu]; positivity))
    norm_num at hbc h2 ⊢
    linarith
  have hxr : x ≤ r := by norm_num at hbc; linarith
  obtain ⟨P', fly, eP⟩ := fly_near (R := binary64) (s := x) hO X.one_le X.le_big X.unit (by linarith) (by norm_num at hbc; linarith [show (0 : ℝ) ≤ 10 ^ 100 - 200 by norm_num])
  have nP : ‖P'.toE - (O.toE + τ • w.toE)‖ ≤ 2 / 10 ^ 11 := by
    have e : P'.toE - (O.toE + τ • w.toE) = (P'.toE - (O.toE + x • w.toE)) + (x - τ) • w.toE := by rw [sub_smul]; abel
    rw [e]
    refine (norm_add_le _ _).trans ?_
    rw [_root_.norm_smul, Real.norm_eq_abs]
    have h1 := mul_le_mul ex X.unit.bounds.1 (_root_.norm_nonneg _) (by rw [hu]; positivity)
    rw [hu] at eP
    norm_num at h1 hbc eP ⊢
    linarith
  obtain ⟨d', hG, hact⟩ := hturn P' nP
  have hin : distanceBetween (q.fl : V3 D64) (V3.fl ⟨0, Y, 0⟩) < Dia / 2.0 := by
    rw [hDia]
    have h1 : ‖q.toE - (⟨0, Y, 0⟩ : V3 ℝ).toE‖ ≤ 21 := by
      have := norm_sub_le_norm_sub_add_norm_sub q.toE (O.toE + τ • w.toE) (⟨0, Y, 0⟩ : V3 ℝ).toE
      norm_num at hbc
      linarith
    exact inside_rim (B := 1000) (X := binary64.u * 1000) (by rw [hu]; linarith [show 80 * ((1 : ℝ) / 2 ^ 53 * 1000) ≤ 1 by norm_num])
      (by rw [hu]; norm_num) (by rw [hu]; norm_num) (by norm_num) (by norm_num) (h1.trans (by norm_num)) (by norm_num) (by rw [hu]; norm_num)
  have l150' : binary64.rnd 150 = .fin 150 := by
    have := rnd64_dyE (x := 150) (m := 150) (e := 0) (by norm_num) (by norm_num) (by norm_num) (by norm_num)
    show rnd64 150 = _
    rw [this]; norm_num
  obtain ⟨y, hy, hym, hyl⟩ := left_over (R := binary64) (md := 150) (a := r) (x := x) l150' (by norm_num) hr' (by linarith) hxr
  obtain ⟨g, g1, g2, hg, -⟩ := fl_floor (R := binary64)
  have hfly : s.ray.position + distanceBetween s.ray.position q.fl * s.ray.direction = P'.fl := by rw [hpos, hdir, hx, fly]
  obtain ⟨s', r1, r2, r3, r4, r5, r6, r7, r8, r9, r10⟩ := round_enter_among (A := A) (B := B) (md := md) (s := s) (w := d'.fl)
    (biconvex_reports hl hit hin (by rw [hpos, hx]; rfl)) (hA x hxw) (hB x hxw) htype (by rw [hpos]; exact hx)
    (by rw [hrem, gt_iff_lt, fl_lt]; exact not_lt.mpr hxr) (by rw [hg, gt_iff_lt, fl_lt]; linarith)
    (fun ray b' h1 h2 => hact ray _ _ b' (by rw [h1, hfly]) (by rw [h2, hdir]))
  refine ⟨s', P', d', y, r1, r2, r3, r4, r5, r6, by rw [r7, hrem, hy], hym, ?_, by rw [r8, hfly], r9, nP, ?_, hG, _, r10, rfl⟩
  · norm_num at hyl hbc ⊢
    linarith
  · rw [← toE_smul, ← toE_add, ← toE_sub] at nP
    have := (comp_le (P' - (O + τ * w))).2.1
    simp only [sub_y, add_y, smul_y] at this
    have h1 : τ * w.y = Y - O.y := by rw [hτ]; exact div_mul_cancel₀ _ (ne_of_gt (by linarith))
    rw [h1, add_sub_cancel] at this
    exact this.trans nP

end Optics
