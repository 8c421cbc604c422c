import Verif.Props.RoundedImaging
import Verif.Props.RoundedGratingRuns
import Verif.Model.Scripts

/-! # The scene of script_testImaging.py with doubles -/

namespace Optics
open V3

theorem whole64 (k : ℕ) (hk : k ≤ 2 ^ 52) {m : ℕ} (h : (OfScientific.ofScientific m true 1 : ℝ) = (k : ℝ)) :
    (OfScientific.ofScientific m true 1 : D64) = Fl.fin (k : ℝ) := by
  rw [fl_lit, h, lit64 hk]

/-- Where the script puts the detector, with doubles. -/
theorem imageY64 : ∃ Y : ℝ, (50.0 : D64) + 1.0 / (1.0 / 25.0 - 1.0 / (50.0 - 0.0)) = Fl.fin Y ∧ |Y - 100| ≤ 1 / 10 ^ 12 := by
  have hu : binary64.u = 1 / 2 ^ 53 := rfl
  have l50 : (50.0 : D64) = Fl.fin 50 := by rw [whole64 50 (by norm_num) (by norm_num)]; norm_num
  have l25 : (25.0 : D64) = Fl.fin 25 := by rw [whole64 25 (by norm_num) (by norm_num)]; norm_num
  have l1 : (1.0 : D64) = Fl.fin 1 := fl_lit1 binary64_one
  have s50 : (Fl.fin 50 : D64) - Fl.fin 0 = Fl.fin 50 := by
    rw [fl_sub, show (50 - 0 : ℝ) = ((50 : ℕ) : ℝ) by norm_num, lit64 (by norm_num)]; norm_num
  obtain ⟨a, ha, ea⟩ := rnd_near (R := binary64) (x := 1 / 25) (e := 1 / 25) (by norm_num [abs_of_pos]) (by norm_num)
  have ea' : |a - 1 / 25| ≤ 41 / 1000 * binary64.u := ea.trans (by rw [hu]; norm_num)
  rw [hu, abs_le] at ea'
  norm_num at ea'
  obtain ⟨b, hb, eb⟩ := rnd_near (R := binary64) (x := 1 / 50) (e := 1 / 50) (by norm_num [abs_of_pos]) (by norm_num)
  have eb' : |b - 1 / 50| ≤ 21 / 1000 * binary64.u := eb.trans (by rw [hu]; norm_num)
  rw [hu, abs_le] at eb'
  norm_num at eb'
  obtain ⟨c, hc, ec⟩ := rnd_near (R := binary64) (x := a - b) (e := 21 / 1000) (by rw [abs_le]; constructor <;> linarith) (by norm_num)
  have ec' : |c - (a - b)| ≤ 22 / 1000 * binary64.u := ec.trans (by rw [hu]; norm_num)
  rw [hu, abs_le] at ec'
  norm_num at ec'
  have hc1 : 1 / 50 - 1 / 10 ^ 17 ≤ c := by norm_num; linarith
  have hc2 : c ≤ 1 / 50 + 1 / 10 ^ 17 := by norm_num; linarith
  have hc0 : 0 < c := by linarith [show (0 : ℝ) < 1 / 50 - 1 / 10 ^ 17 by norm_num]
  have hi1 : 1 / c ≤ 50 + 1 / 10 ^ 13 := by rw [div_le_iff₀ hc0]; nlinarith
  have hi2 : 50 - 1 / 10 ^ 13 ≤ 1 / c := by rw [le_div_iff₀ hc0]; nlinarith
  obtain ⟨i, hi, ei⟩ := rnd_near (R := binary64) (x := 1 / c) (e := 51) (by rw [abs_le]; constructor <;> linarith) (by norm_num)
  have ei' : |i - 1 / c| ≤ 52 * binary64.u := ei.trans (by rw [hu]; norm_num)
  rw [hu, abs_le] at ei'
  norm_num at ei' hi1 hi2
  obtain ⟨Y, hY, eY⟩ := rnd_near (R := binary64) (x := 50 + i) (e := 101) (by rw [abs_le]; constructor <;> linarith) (by norm_num)
  have eY' : |Y - (50 + i)| ≤ 102 * binary64.u := eY.trans (by rw [hu]; norm_num)
  rw [hu, abs_le] at eY'
  norm_num at eY'
  refine ⟨Y, ?_, ?_⟩
  · rw [l50, l25, l1, fl_lit0, s50, fl_div _ _ (by norm_num), ha, fl_div _ _ (by norm_num), hb, fl_sub, hc, fl_div _ _ hc0.ne', hi, fl_add, hY]
  · rw [abs_le]; constructor <;> norm_num <;> linarith

/-- The scene of the script, built with doubles. -/
theorem imagingScene64 : ∃ (Y : ℝ) (l : Lens D64) (d : Detector D64), |Y - 100| ≤ 1 / 10 ^ 12 ∧
    Lens.new (V3.fl ⟨0, 50, 0⟩ : V3 D64) (some (V3.fl ⟨0, -1, 0⟩)) "spherical_biconvex" (some (Fl.fin 50)) none none (some (Fl.fin 25)) "ideal" 1.5
      = .ok l ∧
    Detector.new 0 (V3.fl ⟨0, Y, 0⟩ : V3 D64) (V3.fl ⟨0, -1, 0⟩) (V3.fl ⟨0, 0, 1⟩) "rectangular_flat" (some (Fl.fin 30)) (some (Fl.fin 30)) = .ok d ∧
    imagingScene (α := D64) = .ok [.lens l, .detector d] := by
  have hu : binary64.u = 1 / 2 ^ 53 := rfl
  obtain ⟨Y, hY, eY⟩ := imageY64
  have l50 : (50.0 : D64) = Fl.fin 50 := by rw [whole64 50 (by norm_num) (by norm_num)]; norm_num
  have l25 : (25.0 : D64) = Fl.fin 25 := by rw [whole64 25 (by norm_num) (by norm_num)]; norm_num
  have l30 : (30.0 : D64) = Fl.fin 30 := by rw [whole64 30 (by norm_num) (by norm_num)]; norm_num
  have l1 : (1.0 : D64) = Fl.fin 1 := fl_lit1 binary64_one
  have e1 : ‖(⟨0, -1, 0⟩ : V3 ℝ).toE‖ = 1 := by rw [norm_toE]; simp [V3.norm, dot]
  have e2 : ‖(⟨0, 0, 1⟩ : V3 ℝ).toE‖ = 1 := by rw [norm_toE]; simp [V3.norm, dot]
  have s1 : SaneLength ⟨0, -1, 0⟩ := sane_of_near (by rw [e1]; norm_num)
  have s2 : SaneLength ⟨0, 0, 1⟩ := sane_of_near (by rw [e2]; norm_num)
  obtain ⟨r, hr⟩ := C111_builds (R := binary64) (C := V3.fl ⟨0, Y, 0⟩) (N := ⟨0, -1, 0⟩) (h := 30) (w := 30) (δ := 0) s1 s2 e1 (by simp [dot])
    (by rw [V3.dirE, e1]; simp) (by norm_num) (by rw [hu]; norm_num) (by norm_num) (by norm_num)
  obtain ⟨l, hl⟩ : ∃ l, Lens.new (V3.fl ⟨0, 50, 0⟩ : V3 D64) (some (V3.fl ⟨0, -1, 0⟩)) "spherical_biconvex" (some (Fl.fin 50)) none none
      (some (Fl.fin 25)) "ideal" 1.5 = .ok l := ⟨_, rfl⟩
  obtain ⟨d, hd⟩ : ∃ d, Detector.new 0 (V3.fl ⟨0, Y, 0⟩ : V3 D64) (V3.fl ⟨0, -1, 0⟩) (V3.fl ⟨0, 0, 1⟩) "rectangular_flat" (some (Fl.fin 30))
      (some (Fl.fin 30)) = .ok d := by
    unfold Detector.new
    simp only [if_true, bind, Except.bind, pure, Except.pure, hr]
    exact ⟨_, rfl⟩
  refine ⟨Y, l, d, eY, hl, hd, ?_⟩
  unfold imagingScene
  simp only [hY]
  have a1 : Lens.new (⟨0.0, 50.0, 0.0⟩ : V3 D64) (some ⟨0.0, -1.0, 0.0⟩) "spherical_biconvex" (some 50.0) none none (some 25.0) "ideal" 1.5 = .ok l := by
    rw [← hl, fl_lit0, l1, l50, l25]; rfl
  have a2 : Detector.new 0 (⟨0.0, Fl.fin Y, 0.0⟩ : V3 D64) ⟨0.0, -1.0, 0.0⟩ ⟨0.0, 0.0, 1.0⟩ "rectangular_flat" (some 30.0) (some 30.0) = .ok d := by
    rw [← hd, fl_lit0, l1, l30]; rfl
  rw [a1]
  show (Detector.new 0 (⟨0.0, Fl.fin Y, 0.0⟩ : V3 D64) _ _ _ _ _ >>= _) = _
  rw [a2]; rfl

/-- A direction close to `y`. -/
theorem bench_dir {D : V3 ℝ} (hy : 0 < D.y) (hx : |D.x| ≤ D.y / 8) (hz : |D.z| ≤ D.y / 8) :
    D.y ≤ ‖D.toE‖ ∧ ‖D.toE‖ ≤ 1016 / 1000 * D.y := by
  have h := normE_sq D
  have h0 := _root_.norm_nonneg D.toE
  have hx2 : D.x ^ 2 ≤ (D.y / 8) ^ 2 := sq_le_sq' (by linarith [(abs_le.mp hx).1]) (abs_le.mp hx).2
  have hz2 : D.z ^ 2 ≤ (D.y / 8) ^ 2 := sq_le_sq' (by linarith [(abs_le.mp hz).1]) (abs_le.mp hz).2
  refine ⟨abs_le_of_sq_le_sq' (by nlinarith) h0 |>.2, abs_le_of_sq_le_sq' (by nlinarith) (by linarith) |>.2⟩

theorem bench_axis : axisOf ⟨0, -1, 0⟩ = (⟨0, -1, 0⟩ : V3 ℝ).toE := by
  have e1 : ‖(⟨0, -1, 0⟩ : V3 ℝ).toE‖ = 1 := by rw [norm_toE]; simp [V3.norm, dot]
  unfold axisOf
  rw [e1, div_one, one_smul]

theorem bench_cos (D : V3 ℝ) : inner ℝ (axisOf ⟨0, -1, 0⟩) D.dirE = -(D.y / ‖D.toE‖) := by
  rw [bench_axis, V3.dirE, inner_smul_right, inner_toE]
  simp [dot]
  ring

/-- Where the ray crosses the lens. -/
theorem bench_cross {x z : ℝ} {D : V3 ℝ} (hy : 0 < D.y) (hx : |D.x| ≤ D.y / 8) (hz : |D.z| ≤ D.y / 8) (hx6 : |x| ≤ 6) (hz6 : |z| ≤ 6) :
    ‖(⟨x, 0, z⟩ : V3 ℝ).toE + (50 / |inner ℝ (axisOf ⟨0, -1, 0⟩) D.dirE|) • D.dirE - (⟨0, 50, 0⟩ : V3 ℝ).toE‖ ≤ 1735 / 100 := by
  obtain ⟨b1, b2⟩ := bench_dir hy hx hz
  have hL : 0 < ‖D.toE‖ := by linarith
  rw [bench_cos, abs_neg, abs_of_pos (by positivity), V3.dirE, smul_smul, ← toE_smul, ← toE_add, ← toE_sub]
  have e : 50 / (D.y / ‖D.toE‖) * (1 / ‖D.toE‖) = 50 / D.y := by field_simp
  rw [e]
  have hsq := normE_sq ((⟨x, 0, z⟩ : V3 ℝ) + (50 / D.y : ℝ) * D - ⟨0, 50, 0⟩)
  simp only [sub_x, sub_y, sub_z, add_x, add_y, add_z, smul_x, smul_y, smul_z] at hsq
  have ey : 50 / D.y * D.y = 50 := by field_simp
  rw [ey] at hsq
  have q : ∀ {s t : ℝ}, |s| ≤ 6 → |t| ≤ D.y / 8 → |s + 50 / D.y * t| ≤ 49 / 4 := by
    intro s t hs ht
    refine (abs_add_le _ _).trans ?_
    rw [abs_mul, abs_of_pos (show 0 < 50 / D.y by positivity)]
    have := mul_le_mul_of_nonneg_left ht (show 0 ≤ 50 / D.y by positivity)
    have e2 : 50 / D.y * (D.y / 8) = 50 / 8 := by field_simp
    rw [e2] at this
    linarith
  have q1 := abs_le.mp (q hx6 hx)
  have q2 := abs_le.mp (q hz6 hz)
  refine abs_le_of_sq_le_sq' ?_ (by norm_num) |>.2
  rw [hsq]
  nlinarith

end Optics
