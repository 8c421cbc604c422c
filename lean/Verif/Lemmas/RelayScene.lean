import Verif.Lemmas.ImagingScript

/-! # The scene of script_testIdealRelay.py with doubles -/

namespace Optics
open V3

theorem half25 : (12.5 : D64) = Fl.fin (25 / 2) := by
  have h : binary64.rnd (25 / 2) = .fin (25 / 2) := by
    have := rnd64_dyE (x := 25 / 2) (m := 25) (e := -1) (by norm_num) (by norm_num) (by norm_num) (by norm_num)
    show rnd64 (25 / 2) = _
    rw [this]; norm_num
  rw [fl_lit, show (OfScientific.ofScientific 125 true 1 : ℝ) = 25 / 2 by norm_num, h]; rfl

/-- The lens equation as the script uses it, for an object at the distance 25 or nearly so. -/
theorem lensEquation64 {p δ : ℝ} (hp : |p - 25| ≤ δ) (hδ : δ ≤ 1 / 10 ^ 12) :
    ∃ i : ℝ, (1.0 : D64) / (1.0 / 12.5 - 1.0 / Fl.fin p) = Fl.fin i ∧ |i - 25| ≤ 11 / 10 * δ + 3 / 10 ^ 14 := by
  have hu : binary64.u = 1 / 2 ^ 53 := rfl
  have l1 : (1.0 : D64) = Fl.fin 1 := fl_lit1 binary64_one
  have hp' := abs_le.mp hp
  have hδ0 : 0 ≤ δ := (abs_nonneg _).trans hp
  norm_num at hδ
  have hp0 : 0 < p := by linarith
  have q1 : 1 / p ≤ 1 / 25 + δ / 600 := by rw [div_le_iff₀ hp0]; nlinarith
  have q2 : 1 / 25 - δ / 600 ≤ 1 / p := by rw [le_div_iff₀ hp0]; nlinarith
  obtain ⟨a, ha, ea⟩ := rnd_near (R := binary64) (x := 1 / (25 / 2)) (e := 2 / 25) (by norm_num [abs_of_pos]) (by norm_num)
  have ea' : |a - 1 / (25 / 2)| ≤ 81 / 1000 * binary64.u := ea.trans (by rw [hu]; norm_num)
  rw [hu, abs_le] at ea'
  norm_num at ea'
  obtain ⟨b, hb, eb⟩ := rnd_near (R := binary64) (x := 1 / p) (e := 41 / 1000) (by rw [abs_le]; constructor <;> linarith) (by norm_num)
  have eb' : |b - 1 / p| ≤ 42 / 1000 * binary64.u := eb.trans (by rw [hu]; norm_num)
  rw [hu, abs_le] at eb'
  norm_num at eb'
  rw [one_div p] at q1 q2
  obtain ⟨c, hc, ec⟩ := rnd_near (R := binary64) (x := a - b) (e := 41 / 1000) (by rw [abs_le]; constructor <;> linarith) (by norm_num)
  have ec' : |c - (a - b)| ≤ 42 / 1000 * binary64.u := ec.trans (by rw [hu]; norm_num)
  rw [hu, abs_le] at ec'
  norm_num at ec'
  have hc1 : 1 / 25 - (δ / 600 + 2 / 10 ^ 17) ≤ c := by norm_num; linarith
  have hc2 : c ≤ 1 / 25 + (δ / 600 + 2 / 10 ^ 17) := by norm_num; linarith
  norm_num at hc1 hc2
  have hc0 : 0 < c := by linarith
  have hi1 : 1 / c ≤ 25 + (106 / 100 * δ + 2 / 10 ^ 14) := by rw [div_le_iff₀ hc0]; nlinarith
  have hi2 : 25 - (106 / 100 * δ + 2 / 10 ^ 14) ≤ 1 / c := by rw [le_div_iff₀ hc0]; nlinarith
  obtain ⟨i, hi, ei⟩ := rnd_near (R := binary64) (x := 1 / c) (e := 26) (by rw [abs_le]; constructor <;> linarith [show (2 : ℝ) / 10 ^ 14 ≤ 1 / 10 by norm_num]) (by norm_num)
  have ei' : |i - 1 / c| ≤ 27 * binary64.u := ei.trans (by rw [hu]; norm_num)
  rw [hu, abs_le] at ei'
  norm_num at ei' hi1 hi2
  refine ⟨i, ?_, ?_⟩
  · rw [half25, l1, fl_div _ _ (by norm_num), ha, fl_div _ _ hp0.ne', hb, fl_sub, hc, fl_div _ _ hc0.ne', hi]
  · rw [abs_le]; constructor <;> norm_num <;> linarith

/-- Where the script puts the detector, with doubles. -/
theorem relayY64 : ∃ Y : ℝ, (75.0 : D64) + 1.0 / (1.0 / 12.5 - 1.0 / (75.0 - (25.0 + 1.0 / (1.0 / 12.5 - 1.0 / (25.0 - 0.0))))) = Fl.fin Y ∧
    |Y - 100| ≤ 1 / 10 ^ 12 := by
  have hu : binary64.u = 1 / 2 ^ 53 := rfl
  have l25 : (25.0 : D64) = Fl.fin 25 := by rw [whole64 25 (by norm_num) (by norm_num)]; norm_num
  have l75 : (75.0 : D64) = Fl.fin 75 := by rw [whole64 75 (by norm_num) (by norm_num)]; norm_num
  have s25 : (Fl.fin 25 : D64) - Fl.fin 0 = Fl.fin 25 := by
    rw [fl_sub, show (25 - 0 : ℝ) = ((25 : ℕ) : ℝ) by norm_num, lit64 (by norm_num)]; norm_num
  obtain ⟨i, hi, ei⟩ := lensEquation64 (p := 25) (δ := 0) (by norm_num) (by norm_num)
  rw [abs_le] at ei
  norm_num at ei
  obtain ⟨y, hy, ey⟩ := rnd_near (R := binary64) (x := 25 + i) (e := 51) (by rw [abs_le]; constructor <;> linarith) (by norm_num)
  have ey' : |y - (25 + i)| ≤ 52 * binary64.u := ey.trans (by rw [hu]; norm_num)
  rw [hu, abs_le] at ey'
  norm_num at ey'
  obtain ⟨p, hp, ep⟩ := rnd_near (R := binary64) (x := 75 - y) (e := 26) (by rw [abs_le]; constructor <;> linarith) (by norm_num)
  have ep' : |p - (75 - y)| ≤ 27 * binary64.u := ep.trans (by rw [hu]; norm_num)
  rw [hu, abs_le] at ep'
  norm_num at ep'
  obtain ⟨j, hj, ej⟩ := lensEquation64 (p := p) (δ := 1 / 10 ^ 13) (by rw [abs_le]; norm_num; constructor <;> linarith) (by norm_num)
  rw [abs_le] at ej
  norm_num at ej
  obtain ⟨Y, hY, eY⟩ := rnd_near (R := binary64) (x := 75 + j) (e := 101) (by rw [abs_le]; constructor <;> linarith) (by norm_num)
  have eY' : |Y - (75 + j)| ≤ 102 * binary64.u := eY.trans (by rw [hu]; norm_num)
  rw [hu, abs_le] at eY'
  norm_num at eY'
  refine ⟨Y, ?_, ?_⟩
  · rw [l75, l25, fl_lit0, s25, hi, fl_add, hy, fl_sub, hp, hj, fl_add, hY]
  · rw [abs_le]; constructor <;> norm_num <;> linarith

/-- The scene of the script, built with doubles. -/
theorem relayScene64 : ∃ (Y : ℝ) (l₁ l₂ : Lens D64) (d : Detector D64), |Y - 100| ≤ 1 / 10 ^ 12 ∧
    Lens.new (V3.fl ⟨0, 25, 0⟩ : V3 D64) (some (V3.fl ⟨0, -1, 0⟩)) "spherical_biconvex" (some (Fl.fin 50)) none none (some (Fl.fin (25 / 2))) "ideal" 1.5
      = .ok l₁ ∧
    Lens.new (V3.fl ⟨0, 75, 0⟩ : V3 D64) (some (V3.fl ⟨0, -1, 0⟩)) "spherical_biconvex" (some (Fl.fin 75)) none none (some (Fl.fin (25 / 2))) "ideal" 1.5
      = .ok l₂ ∧
    Detector.new 0 (V3.fl ⟨0, Y, 0⟩ : V3 D64) (V3.fl ⟨0, -1, 0⟩) (V3.fl ⟨0, 0, 1⟩) "rectangular_flat" (some (Fl.fin 30)) (some (Fl.fin 30)) = .ok d ∧
    relayScene (α := D64) = .ok [.lens l₁, .lens l₂, .detector d] := by
  have hu : binary64.u = 1 / 2 ^ 53 := rfl
  obtain ⟨Y, hY, eY⟩ := relayY64
  have l50 : (50.0 : D64) = Fl.fin 50 := by rw [whole64 50 (by norm_num) (by norm_num)]; norm_num
  have l25 : (25.0 : D64) = Fl.fin 25 := by rw [whole64 25 (by norm_num) (by norm_num)]; norm_num
  have l75 : (75.0 : D64) = Fl.fin 75 := by rw [whole64 75 (by norm_num) (by norm_num)]; norm_num
  have l30 : (30.0 : D64) = Fl.fin 30 := by rw [whole64 30 (by norm_num) (by norm_num)]; norm_num
  have l1 : (1.0 : D64) = Fl.fin 1 := fl_lit1 binary64_one
  have e1 : ‖(⟨0, -1, 0⟩ : V3 ℝ).toE‖ = 1 := by rw [norm_toE]; simp [V3.norm, dot]
  have e2 : ‖(⟨0, 0, 1⟩ : V3 ℝ).toE‖ = 1 := by rw [norm_toE]; simp [V3.norm, dot]
  have s1 : SaneLength ⟨0, -1, 0⟩ := sane_of_near (by rw [e1]; norm_num)
  have s2 : SaneLength ⟨0, 0, 1⟩ := sane_of_near (by rw [e2]; norm_num)
  obtain ⟨r, hr⟩ := C111_builds (R := binary64) (C := V3.fl ⟨0, Y, 0⟩) (N := ⟨0, -1, 0⟩) (h := 30) (w := 30) (δ := 0) s1 s2 e1 (by simp [dot])
    (by rw [V3.dirE, e1]; simp) (by norm_num) (by rw [hu]; norm_num) (by norm_num) (by norm_num)
  obtain ⟨l₁, hl₁⟩ : ∃ l, Lens.new (V3.fl ⟨0, 25, 0⟩ : V3 D64) (some (V3.fl ⟨0, -1, 0⟩)) "spherical_biconvex" (some (Fl.fin 50)) none none
      (some (Fl.fin (25 / 2))) "ideal" 1.5 = .ok l := ⟨_, rfl⟩
  obtain ⟨l₂, hl₂⟩ : ∃ l, Lens.new (V3.fl ⟨0, 75, 0⟩ : V3 D64) (some (V3.fl ⟨0, -1, 0⟩)) "spherical_biconvex" (some (Fl.fin 75)) none none
      (some (Fl.fin (25 / 2))) "ideal" 1.5 = .ok l := ⟨_, rfl⟩
  obtain ⟨d, hd⟩ : ∃ d, Detector.new 0 (V3.fl ⟨0, Y, 0⟩ : V3 D64) (V3.fl ⟨0, -1, 0⟩) (V3.fl ⟨0, 0, 1⟩) "rectangular_flat" (some (Fl.fin 30))
      (some (Fl.fin 30)) = .ok d := by
    unfold Detector.new
    simp only [if_true, bind, Except.bind, pure, Except.pure, hr]
    exact ⟨_, rfl⟩
  refine ⟨Y, l₁, l₂, d, eY, hl₁, hl₂, hd, ?_⟩
  unfold relayScene
  simp only [hY]
  have a1 : Lens.new (⟨0.0, 25.0, 0.0⟩ : V3 D64) (some ⟨0.0, -1.0, 0.0⟩) "spherical_biconvex" (some 50.0) none none (some 12.5) "ideal" 1.5 = .ok l₁ := by
    rw [← hl₁, fl_lit0, l1, l50, l25, half25]; rfl
  have a2 : Lens.new (⟨0.0, 75.0, 0.0⟩ : V3 D64) (some ⟨0.0, -1.0, 0.0⟩) "spherical_biconvex" (some 75.0) none none (some 12.5) "ideal" 1.5 = .ok l₂ := by
    rw [← hl₂, fl_lit0, l1, l75, half25]; rfl
  have a3 : Detector.new 0 (⟨0.0, Fl.fin Y, 0.0⟩ : V3 D64) ⟨0.0, -1.0, 0.0⟩ ⟨0.0, 0.0, 1.0⟩ "rectangular_flat" (some 30.0) (some 30.0) = .ok d := by
    rw [← hd, fl_lit0, l1, l30]; rfl
  simp only [a1, a2, a3, bind, Except.bind, pure, Except.pure]

end Optics
