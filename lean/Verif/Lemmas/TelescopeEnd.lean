import Verif.Lemmas.TelescopeBench

/-! # The second and the third leg of the bench of script_testIdealLenses.py -/

namespace Optics
open V3

theorem bench_height (Y : ℝ) : ‖(⟨0, Y, 0⟩ : V3 ℝ).toE‖ = |Y| := by
  rw [norm_toE]; simp [V3.norm, dot]; rw [Real.sqrt_mul_self_eq_abs]

/-- What the focusing lens does to a ray going up. -/
theorem telescope_focus {P' w n : V3 ℝ} (hw : NearUnit binary64 w) (hwy : 98 / 100 ≤ w.y) (en : ‖n.toE - axisOf ⟨0, -1, 0⟩‖ ≤ 5 * binary64.u)
    (hr : ‖P'.toE - (⟨0, 75, 0⟩ : V3 ℝ).toE‖ ≤ 1000) (k2 : |P'.y - 75| ≤ 2 / 10 ^ 11) :
    ∃ d' : V3 ℝ, (NearUnit binary64 d' ∧ ∃ t : ℝ, 0 < t ∧ ‖t • d'.toE - ((⟨0, 100, 0⟩ : V3 ℝ).toE - P'.toE)‖ ≤ 4 / 10 ^ 12) ∧
      focusDirection P'.fl (w.fl : V3 D64) (V3.fl ⟨0, 75, 0⟩) n.fl (Fl.fin 25) = d'.fl := by
  have hu : binary64.u = 1 / 2 ^ 53 := rfl
  have hM : ‖axisOf ⟨0, -1, 0⟩‖ = 1 := dirE_norm bench_sane.pos
  have hthin : ThinSizes binary64 25 1000 1 := ⟨by norm_num, by norm_num, by norm_num, by norm_num, by norm_num, by norm_num, by rw [hu]; norm_num⟩
  obtain ⟨d', σ, t1, t2, hσ, hpos, t4, t5⟩ := focus_near (M := axisOf ⟨0, -1, 0⟩) (pos := P') (P := ⟨0, 75, 0⟩) hw hM en (by
    rw [bench_inner, abs_neg, abs_of_pos (by linarith)]; linarith) hthin (by rw [bench_height]; norm_num) hr (by
    rw [← toE_sub, bench_inner]; simp only [sub_y]; rw [abs_neg]; exact k2.trans (by norm_num))
  obtain ⟨rfl, eσ⟩ := bench_side hσ (by linarith) hpos
  have eF : (⟨0, 75, 0⟩ : V3 ℝ).toE + (25 * (-1) : ℝ) • axisOf ⟨0, -1, 0⟩ = (⟨0, 100, 0⟩ : V3 ℝ).toE := by
    rw [mul_smul, eσ, ← toE_smul, ← toE_add]; congr 1; ext <;> simp; norm_num
  rw [eF] at t4 t5
  have hsmall : 32 * (binary64.u * 1000) ≤ 4 / 10 ^ 12 := by rw [hu]; norm_num
  have hpos' : (0 : ℝ) < 25 / 2 := by norm_num
  refine ⟨d', ⟨t2, ‖(⟨0, 100, 0⟩ : V3 ℝ).toE - P'.toE‖, ?_, ?_⟩, ?_⟩
  · linarith
  · linarith
  · assumption

set_option maxHeartbeats 600000 in
/-- The second leg: from the collimating lens to the focusing lens. -/
theorem telescope_second {X Z : ℝ} (hX : |X| ≤ 85 / 10) (hZ : |Z| ≤ 85 / 10) {l₁ l₂ : Lens D64} {d : Detector D64} (md : D64)
    (hl₁ : Lens.new (V3.fl ⟨0, 50, 0⟩ : V3 D64) (some (V3.fl ⟨0, -1, 0⟩)) "spherical_biconvex" (some (Fl.fin 50)) none none (some (Fl.fin 50))
      "ideal_collimate" 1.5 = .ok l₁)
    (hl₂ : Lens.new (V3.fl ⟨0, 75, 0⟩ : V3 D64) (some (V3.fl ⟨0, -1, 0⟩)) "spherical_biconvex" (some (Fl.fin 50)) none none (some (Fl.fin 25))
      "ideal_focus" 1.5 = .ok l₂)
    (hd : Detector.new 0 (V3.fl ⟨0, 125, 0⟩ : V3 D64) (V3.fl ⟨0, -1, 0⟩) (V3.fl ⟨0, 0, 1⟩) "rectangular_flat" (some (Fl.fin 30)) (some (Fl.fin 30)) = .ok d)
    {s : RunState D64} {P w : V3 ℝ} (h : LeftBench s P w 50 X Z (21 / 10 ^ 12) 90) (hw : ‖w.toE - (⟨0, 1, 0⟩ : V3 ℝ).toE‖ ≤ 15 * binary64.u) :
    ∃ (s' : RunState D64) (P' d' : V3 ℝ), runStep md [.lens l₁, .lens l₂, .detector d] s = .next s' ∧
      s'.interactions = s.interactions + 1 ∧ s'.log = s.log ∧ s'.ray.wavelength = s.ray.wavelength ∧
      LeftBench s' P' d' 75 X Z (42 / 10 ^ 12) 63 ∧
      (∃ t : ℝ, 0 < t ∧ ‖t • d'.toE - ((⟨0, 100, 0⟩ : V3 ℝ).toE - P'.toE)‖ ≤ 4 / 10 ^ 12) ∧ ∃ sel, s'.selected = some sel ∧ sel.optic = .lens l₂ := by
  have hu : binary64.u = 1 / 2 ^ 53 := rfl
  have hM : ‖axisOf ⟨0, -1, 0⟩‖ = 1 := dirE_norm bench_sane.pos
  rw [← toE_sub] at hw
  obtain ⟨c1, c2, c3⟩ := comp_le (w - ⟨0, 1, 0⟩)
  have d1 := c1.trans hw
  have d2 := abs_le.mp (c2.trans hw)
  have d3 := c3.trans hw
  simp only [sub_x, sub_y, sub_z, sub_zero] at d1 d2 d3
  rw [hu] at d1 d2 d3
  norm_num at d1 d2 d3
  have hwy : 98 / 100 ≤ w.y ∧ w.y ≤ 11 / 10 := by constructor <;> linarith
  have hx := abs_le.mp h.near_x
  have hz := abs_le.mp h.near_z
  have hy := abs_le.mp h.here
  have hX' := abs_le.mp hX
  have hZ' := abs_le.mp hZ
  norm_num at hx hz hy
  have px : |P.x| ≤ 86 / 10 := by rw [abs_le]; constructor <;> linarith
  have pz : |P.z| ≤ 86 / 10 := by rw [abs_le]; constructor <;> linarith
  have hO := bench_norm (Y := 50) (h.here.trans (by norm_num)) px pz (by norm_num) (by norm_num) (by norm_num)
  have X₂ := bench_crossing (O := P) (w := w) (Y := 75) (c := 98 / 100) h.unit (by norm_num) hwy.1 (by linarith) (by norm_num)
    (by linarith) (by linarith)
  have X₃ := bench_crossing (O := P) (w := w) (Y := 125) (c := 98 / 100) h.unit (by norm_num) hwy.1 (by linarith) (by norm_num)
    (by linarith) (by linarith)
  obtain ⟨τ, hτ⟩ : ∃ τ, τ = (75 - P.y) / w.y := ⟨_, rfl⟩
  rw [← hτ] at X₂
  have hτ1 : 20 ≤ τ := by rw [hτ, le_div_iff₀ (by linarith)]; linarith
  have hτ2 : τ ≤ 26 := by rw [hτ, div_le_iff₀ (by linarith)]; linarith
  have hτw : τ * w.y = 75 - P.y := by rw [hτ]; exact div_mul_cancel₀ _ (ne_of_gt (by linarith))
  have drift : ∀ v : ℝ, |v| ≤ 15 / 9007199254740992 → |τ * v| ≤ 1 / 10 ^ 13 := by
    intro v hv
    rw [abs_mul, abs_of_pos (by linarith)]
    have := mul_le_mul hτ2 hv (abs_nonneg _) (by norm_num)
    norm_num at this ⊢
    linarith
  have ex := abs_le.mp (drift _ d1)
  have ez := abs_le.mp (drift _ d3)
  norm_num at ex ez
  have hrim : ‖P.toE + τ • w.toE - (⟨0, 75, 0⟩ : V3 ℝ).toE‖ ≤ 20 := by
    rw [← toE_smul, ← toE_add, ← toE_sub]
    refine abs_le_of_sq_le_sq' ?_ (by norm_num) |>.2
    rw [normE_sq]
    simp only [sub_x, sub_y, sub_z, add_x, add_y, add_z, smul_x, smul_y, smul_z]
    rw [hτw]
    have h1 : (P.x + τ * w.x - 0) ^ 2 ≤ 9 ^ 2 := sq_le_sq' (by linarith) (by linarith)
    have h2 : (P.z + τ * w.z - 0) ^ 2 ≤ 9 ^ 2 := sq_le_sq' (by linarith) (by linarith)
    norm_num at h1 h2 ⊢
    linarith
  obtain ⟨b1, b2, -, b4, b5, -⟩ := biconvex_built hl₂
  obtain ⟨n, hn, en⟩ := unitVector_near (R := binary64) bench_sane
  have comps : ∀ P' : V3 ℝ, ‖P'.toE - (P.toE + τ • w.toE)‖ ≤ 2 / 10 ^ 11 →
      |P'.x - (P.x + τ * w.x)| ≤ 2 / 10 ^ 11 ∧ |P'.y - 75| ≤ 2 / 10 ^ 11 ∧ |P'.z - (P.z + τ * w.z)| ≤ 2 / 10 ^ 11 := by
    intro P' hP'
    rw [← toE_smul, ← toE_add, ← toE_sub] at hP'
    obtain ⟨k1, k2, k3⟩ := comp_le (P' - (P + τ * w))
    simp only [sub_x, sub_y, sub_z, add_x, add_y, add_z, smul_x, smul_y, smul_z] at k1 k2 k3
    rw [hτw, add_sub_cancel] at k2
    exact ⟨k1.trans hP', k2.trans hP', k3.trans hP'⟩
  have turn : ∀ P' : V3 ℝ, ‖P'.toE - (P.toE + τ • w.toE)‖ ≤ 2 / 10 ^ 11 → ‖P'.toE - (⟨0, 75, 0⟩ : V3 ℝ).toE‖ ≤ 1000 := by
    intro P' hP'
    have := norm_sub_le_norm_sub_add_norm_sub P'.toE (P.toE + τ • w.toE) (⟨0, 75, 0⟩ : V3 ℝ).toE
    norm_num at hP'
    linarith
  obtain ⟨r, hr1, hr2, hr3⟩ := h.rem
  obtain ⟨s', P', d', y, r1, r2, r3, r4, r5, r6, r7, r8, r9, r10, r11, r12, r13, ⟨r14, r15⟩, r16⟩ := bench_leg (O := P) (w := w) (r := r) X₂ hτ (by norm_num)
    hwy.1 hwy.2 (by linarith) (by linarith) hrim half50 hl₂ (s := s) h.pos h.dir h.kind hr1 (by linarith) hr3 (A := [.lens l₁]) (B := [.detector d])
    (fun x' _ o ho => by
      simp only [List.mem_cons, List.not_mem_nil, or_false] at ho
      rw [ho]
      exact lens_missed hl₁ (bench_gone h.unit (by linarith) (by linarith) (by norm_num) (h.here.trans (by norm_num)) h.pos h.dir) x')
    (fun x' hx' o ho => by
      simp only [List.mem_cons, List.not_mem_nil, or_false] at ho
      rw [ho]
      obtain ⟨a1, a2⟩ := far_len (O := P) (Y' := 125) (by norm_num) hwy.1 hwy.2 (by norm_num) (by linarith) hx'
      exact detector_beyond hd X₃ a1 a2 h.pos h.dir)
    (G := fun P' d' => NearUnit binary64 d' ∧ ∃ t : ℝ, 0 < t ∧ ‖t • d'.toE - ((⟨0, 100, 0⟩ : V3 ℝ).toE - P'.toE)‖ ≤ 4 / 10 ^ 12)
    (fun P' hP' => by
      obtain ⟨d', g, e⟩ := telescope_focus h.unit hwy.1 en (turn P' hP') (comps P' hP').2.1
      refine ⟨d', g, fun ray p nn b h1 h2 => ?_⟩
      simp only [Lens.doIntersect, b5, show ¬ "ideal_focus" = "ideal" by decide, show ¬ "ideal_focus" = "ideal_collimate" by decide, if_false, if_true,
        Ray.refract, show ¬ "ideal_focus" = "thin_lens" by decide, need, b1, b2, b4, bind, Except.bind, pure, Except.pure, h1, h2, hn, e]) md
  obtain ⟨k1, -, k3⟩ := comps P' r12
  have k1' := abs_le.mp k1
  have k3' := abs_le.mp k3
  norm_num at k1' k3'
  exact ⟨s', P', d', r1, r2, r6, r5, ⟨r10, r11, r14, by rw [r4]; exact h.kind, by rw [r3]; exact h.free, ⟨y, r7, by norm_num at r9; linarith, r8⟩, r13,
    by rw [abs_le]; norm_num; constructor <;> linarith, by rw [abs_le]; norm_num; constructor <;> linarith⟩, r15, r16⟩

/-- One coordinate of the place where a ray through the focal point meets the detector. -/
theorem telescope_coordinate {p q X a b : ℝ} (hX : |X| ≤ 85 / 10) (hp : |p - X| ≤ 42 / 10 ^ 12) (hq : |q - 75| ≤ 2 / 10 ^ 11) (ha : |a - (0 - p)| ≤ 4 / 10 ^ 12)
    (hb : |b - (100 - q)| ≤ 4 / 10 ^ 12) : |p + (125 - q) * (a / b) + X| ≤ 1 / 10 ^ 10 := by
  have hb' := abs_le.mp hb
  have hq' := abs_le.mp hq
  norm_num at hb' hq'
  have hb0 : 24 < b := by linarith
  have e : p + (125 - q) * (a / b) + X =
      (25 * (X - p) + p * (b - (100 - q)) + (125 - q) * (a - (0 - p)) + X * ((b - (100 - q)) - (q - 75))) / b := by
    field_simp
    ring
  have hp9 : |p| ≤ 9 := by
    have := abs_add_le (p - X) X
    rw [sub_add_cancel] at this
    norm_num at hp
    linarith
  have h1 : |25 * (X - p)| ≤ 25 * (42 / 10 ^ 12) := by
    rw [abs_mul, abs_of_pos (by norm_num : (0 : ℝ) < 25), abs_sub_comm]; linarith
  have h2 : |p * (b - (100 - q))| ≤ 9 * (4 / 10 ^ 12) := by rw [abs_mul]; exact mul_le_mul hp9 hb (abs_nonneg _) (by norm_num)
  have h3 : |(125 - q) * (a - (0 - p))| ≤ 51 * (4 / 10 ^ 12) := by
    rw [abs_mul, abs_of_pos (by linarith : 0 < 125 - q)]
    exact mul_le_mul (by linarith) ha (abs_nonneg _) (by norm_num)
  have h4 : |X * ((b - (100 - q)) - (q - 75))| ≤ 9 * (24 / 10 ^ 12) := by
    rw [abs_mul]
    refine mul_le_mul (by linarith) ?_ (abs_nonneg _) (by norm_num)
    refine (abs_sub _ _).trans ?_
    norm_num at hb hq ⊢
    linarith
  rw [e, abs_div, abs_of_pos (by linarith : 0 < b), div_le_iff₀ (by linarith)]
  have t1 := abs_add_le (25 * (X - p) + p * (b - (100 - q)) + (125 - q) * (a - (0 - p))) (X * ((b - (100 - q)) - (q - 75)))
  have t2 := abs_add_le (25 * (X - p) + p * (b - (100 - q))) ((125 - q) * (a - (0 - p)))
  have t3 := abs_add_le (25 * (X - p)) (p * (b - (100 - q)))
  linarith

/-- Where the third leg goes. -/
theorem telescope_land {P w : V3 ℝ} {X Z t : ℝ} (hX : |X| ≤ 85 / 10) (hZ : |Z| ≤ 85 / 10) (hw : NearUnit binary64 w) (ht : 0 < t)
    (hy : |P.y - 75| ≤ 2 / 10 ^ 11) (hx : |P.x - X| ≤ 42 / 10 ^ 12) (hz : |P.z - Z| ≤ 42 / 10 ^ 12)
    (h : ‖t • w.toE - ((⟨0, 100, 0⟩ : V3 ℝ).toE - P.toE)‖ ≤ 4 / 10 ^ 12) :
    89 / 100 ≤ w.y ∧ w.y ≤ 11 / 10 ∧ |P.x + (125 - P.y) / w.y * w.x + X| ≤ 1 / 10 ^ 10 ∧ |P.z + (125 - P.y) / w.y * w.z + Z| ≤ 1 / 10 ^ 10 := by
  rw [← toE_smul, ← toE_sub, ← toE_sub] at h
  obtain ⟨k1, k2, k3⟩ := comp_le (t * w - (⟨0, 100, 0⟩ - P))
  simp only [sub_x, sub_y, sub_z, smul_x, smul_y, smul_z] at k1 k2 k3
  have g1 := k1.trans h
  have g2 := k2.trans h
  have g3 := k3.trans h
  have e1 := abs_le.mp g1
  have e2 := abs_le.mp g2
  have e3 := abs_le.mp g3
  have y1 := abs_le.mp hy
  have x1 := abs_le.mp hx
  have z1 := abs_le.mp hz
  have hX' := abs_le.mp hX
  have hZ' := abs_le.mp hZ
  norm_num at e1 e2 e3 y1 x1 z1
  have hwu := hw.bounds
  have ht28 : t ≤ 279 / 10 := by
    have s1 := normE_sq (t * w)
    rw [toE_smul, _root_.norm_smul, Real.norm_of_nonneg ht.le] at s1
    simp only [smul_x, smul_y, smul_z] at s1
    have a1 : (t * w.x) ^ 2 ≤ (851 / 100) ^ 2 := sq_le_sq' (by linarith) (by linarith)
    have a2 : (t * w.y) ^ 2 ≤ (2501 / 100) ^ 2 := sq_le_sq' (by linarith) (by linarith)
    have a3 : (t * w.z) ^ 2 ≤ (851 / 100) ^ 2 := sq_le_sq' (by linarith) (by linarith)
    have a4 : t * ‖w.toE‖ ≤ 278 / 10 := by
      refine abs_le_of_sq_le_sq' ?_ (by norm_num) |>.2
      rw [s1]
      norm_num at a1 a2 a3 ⊢
      linarith
    have a5 := mul_le_mul_of_nonneg_left hwu.2 ht.le
    norm_num at a5
    linarith
  have hw0 : 0 < w.y := by
    by_contra hh
    have := mul_nonpos_of_nonneg_of_nonpos ht.le (not_lt.mp hh)
    linarith
  have hwlo : 89 / 100 ≤ w.y := by
    have := mul_le_mul_of_nonneg_right ht28 hw0.le
    linarith
  have r : ∀ v : ℝ, (125 - P.y) / w.y * v = (125 - P.y) * (t * v / (t * w.y)) := by
    intro v
    rw [mul_div_mul_left _ _ (ne_of_gt ht)]; ring
  refine ⟨hwlo, ?_, ?_, ?_⟩
  · have := (comp_le w).2.1
    linarith [le_abs_self w.y]
  · rw [r]; exact telescope_coordinate hX hx hy g1 g2
  · rw [r]; exact telescope_coordinate hZ hz hy g3 g2

/-- The last leg: from the focusing lens to the detector. -/
theorem telescope_last {X Z : ℝ} (hX : |X| ≤ 85 / 10) (hZ : |Z| ≤ 85 / 10) {l₁ l₂ : Lens D64} {d : Detector D64} (md : D64)
    (hl₁ : Lens.new (V3.fl ⟨0, 50, 0⟩ : V3 D64) (some (V3.fl ⟨0, -1, 0⟩)) "spherical_biconvex" (some (Fl.fin 50)) none none (some (Fl.fin 50))
      "ideal_collimate" 1.5 = .ok l₁)
    (hl₂ : Lens.new (V3.fl ⟨0, 75, 0⟩ : V3 D64) (some (V3.fl ⟨0, -1, 0⟩)) "spherical_biconvex" (some (Fl.fin 50)) none none (some (Fl.fin 25))
      "ideal_focus" 1.5 = .ok l₂)
    (hd : Detector.new 0 (V3.fl ⟨0, 125, 0⟩ : V3 D64) (V3.fl ⟨0, -1, 0⟩) (V3.fl ⟨0, 0, 1⟩) "rectangular_flat" (some (Fl.fin 30)) (some (Fl.fin 30)) = .ok d)
    {s : RunState D64} {P w : V3 ℝ} (h : LeftBench s P w 75 X Z (42 / 10 ^ 12) 63)
    (haim : ∃ t : ℝ, 0 < t ∧ ‖t • w.toE - ((⟨0, 100, 0⟩ : V3 ℝ).toE - P.toE)‖ ≤ 4 / 10 ^ 12) :
    ∃ (s' : RunState D64) (q : V3 ℝ), runStep md [.lens l₁, .lens l₂, .detector d] s = .next s' ∧
      s'.interactions = s.interactions + 1 ∧ s'.ray.blocked = true ∧ s'.log = s.log ++ [⟨0, q.fl, s.ray.wavelength⟩] ∧
      ‖q.toE - (⟨-X, 125, -Z⟩ : V3 ℝ).toE‖ ≤ 2 / 10 ^ 10 := by
  have hu : binary64.u = 1 / 2 ^ 53 := rfl
  obtain ⟨t, ht0, ht⟩ := haim
  obtain ⟨w1, w2, lx, lz⟩ := telescope_land hX hZ h.unit ht0 h.here h.near_x h.near_z ht
  have hx := abs_le.mp h.near_x
  have hz := abs_le.mp h.near_z
  have hPy := abs_le.mp h.here
  have hX' := abs_le.mp hX
  have hZ' := abs_le.mp hZ
  norm_num at hx hz hPy
  have hO := bench_norm (P := P) (Y := 75) (ρ := 18) (h.here.trans (by norm_num)) (by rw [abs_le]; constructor <;> linarith)
    (by rw [abs_le]; constructor <;> linarith) (by norm_num) (by norm_num) (by norm_num)
  have X₃ := bench_crossing (O := P) (w := w) (Y := 125) (c := 89 / 100) h.unit (by norm_num) w1 (by linarith)
    (by norm_num) (by linarith) (by linarith)
  obtain ⟨τ, hτ⟩ : ∃ τ, τ = (125 - P.y) / w.y := ⟨_, rfl⟩
  rw [← hτ] at X₃ lx lz
  have hτ1 : 20 ≤ τ := by rw [hτ, le_div_iff₀ (by linarith)]; linarith
  have hτ2 : τ ≤ 57 := by rw [hτ, div_le_iff₀ (by linarith)]; linarith
  have hτw : τ * w.y = 125 - P.y := by rw [hτ]; exact div_mul_cancel₀ _ (ne_of_gt (by linarith))
  obtain ⟨v, hv⟩ : ∃ v : V3 ℝ, v = P + τ * w - ⟨0, 125, 0⟩ := ⟨_, rfl⟩
  have hve : P.toE + τ • w.toE - (⟨0, 125, 0⟩ : V3 ℝ).toE = v.toE := by rw [hv, toE_sub, toE_add, toE_smul]
  have evx : v.x = P.x + τ * w.x := by rw [hv]; simp only [sub_x, add_x, smul_x, sub_zero]
  have evy : v.y = 0 := by rw [hv]; simp only [sub_y, add_y, smul_y]; linarith
  have evz : v.z = P.z + τ * w.z := by rw [hv]; simp only [sub_z, add_z, smul_z, sub_zero]
  rw [← evx] at lx
  rw [← evz] at lz
  have lx' := abs_le.mp lx
  have lz' := abs_le.mp lz
  norm_num at lx' lz'
  have vx : |v.x| ≤ 9 := by rw [abs_le]; constructor <;> linarith
  have vz : |v.z| ≤ 9 := by rw [abs_le]; constructor <;> linarith
  have hland : ‖P.toE + τ • w.toE - (⟨-X, 125, -Z⟩ : V3 ℝ).toE‖ ≤ 15 / 10 ^ 11 := by
    have e : P.toE + τ • w.toE - (⟨-X, 125, -Z⟩ : V3 ℝ).toE = (⟨v.x + X, 0, v.z + Z⟩ : V3 ℝ).toE := by
      rw [← toE_smul, ← toE_add, ← toE_sub]
      congr 1
      ext
      · simp only [sub_x, add_x, smul_x]; linarith
      · simp only [sub_y, add_y, smul_y]; linarith
      · simp only [sub_z, add_z, smul_z]; linarith
    rw [e]
    refine abs_le_of_sq_le_sq' ?_ (by norm_num) |>.2
    rw [normE_sq]
    have s1 : (v.x + X) ^ 2 ≤ (1 / 10 ^ 10) ^ 2 := sq_le_sq' (abs_le.mp lx).1 (abs_le.mp lx).2
    have s2 : (v.z + Z) ^ 2 ≤ (1 / 10 ^ 10) ^ 2 := sq_le_sq' (abs_le.mp lz).1 (abs_le.mp lz).2
    norm_num at s1 s2 ⊢
    linarith
  have e1 : ‖(⟨0, -1, 0⟩ : V3 ℝ).toE‖ = 1 := by rw [norm_toE]; simp [V3.norm, dot]
  have e2 : ‖(⟨0, 0, 1⟩ : V3 ℝ).toE‖ = 1 := by rw [norm_toE]; simp [V3.norm, dot]
  have s2 : SaneLength ⟨0, 0, 1⟩ := sane_of_near (by rw [e2]; norm_num)
  have u1 : unitVector (⟨0, -1, 0⟩ : V3 ℝ) = ⟨0, -1, 0⟩ := by
    rw [unitVector_eq, ← norm_toE, e1]; ext <;> simp
  have u2 : unitVector (⟨0, 0, 1⟩ : V3 ℝ) = ⟨0, 0, 1⟩ := by
    rw [unitVector_eq, ← norm_toE, e2]; ext <;> simp
  obtain ⟨hid, r, hr, rep, -⟩ := detector_reports hd
  have hBR : BuiltRectangle binary64 ⟨0, 125, 0⟩ ⟨0, -1, 0⟩ ⟨0, 0, 1⟩ (unitVector ⟨0, -1, 0⟩) 30 30 1000 (10 * binary64.u) r := by
    refine ⟨hr, s2, sane_unit bench_sane, by rw [u1]; simp [dot], ?_, by linarith [(five_u (R := binary64)).2], by norm_num, by norm_num, by norm_num,
      by norm_num⟩
    rw [unitVector_dirE, sub_self, _root_.norm_zero, hu]; norm_num
  have i1 : inner ℝ (cross (unitVector (⟨0, -1, 0⟩ : V3 ℝ)) (unitVector ⟨0, 0, 1⟩)).toE v.toE = -v.x := by
    rw [u1, u2, inner_toE]; simp [dot, cross]
  have i2 : inner ℝ (unitVector (⟨0, 0, 1⟩ : V3 ℝ)).toE v.toE = v.z := by
    rw [u2, inner_toE]; simp [dot]
  obtain ⟨q, n, -, hit, eq⟩ := C111_rectangle_hit hBR X₃ (by norm_num; linarith) (by rw [hve, i1, abs_neg, hu]; norm_num; linarith)
    (by rw [hve, i2, hu]; norm_num; linarith) h.pos h.dir
  obtain ⟨x₂, hx₂, ex₂, hx₂l, -, -, hsm⟩ := X₃.distance (by linarith) eq
  obtain ⟨y, hy1, hy2, -⟩ := h.rem
  have hx₂y : x₂ ≤ y := by norm_num at hsm; linarith [(abs_le.mp ex₂).2]
  obtain ⟨g, g1, g2, hg, -⟩ := fl_floor (R := binary64)
  have hb : ∀ o ∈ [Optic.lens l₁, Optic.lens l₂], Beyond s.ray x₂ o := by
    intro o ho
    simp only [List.mem_cons, List.not_mem_nil, or_false] at ho
    rcases ho with rfl | rfl
    · refine lens_behind hl₁ (B := 1000) (c := 89 / 100) (τ := (50 - P.y) / w.y) bench_sane h.unit (by norm_num) ?_ ?_ (by linarith) ?_ (by norm_num) (by norm_num) ?_ ?_
        h.pos h.dir x₂
      · show _ ≤ |inner ℝ (axisOf ⟨0, -1, 0⟩) w.toE|
        rw [bench_inner, abs_neg, abs_of_pos (by linarith)]; exact w1
      · show _ * inner ℝ (axisOf ⟨0, -1, 0⟩) w.toE = inner ℝ (axisOf ⟨0, -1, 0⟩) _
        rw [← toE_sub, bench_inner, bench_inner]
        simp only [sub_y]
        have : w.y ≠ 0 := ne_of_gt (by linarith)
        field_simp
      · rw [bench_height]; norm_num
      · rw [div_le_iff₀ (by linarith), hu]; norm_num; linarith
      · rw [div_le_iff₀ (by linarith)]; linarith
    · exact lens_missed hl₂ (bench_gone h.unit (by linarith) (by linarith) (by norm_num) (h.here.trans (by norm_num)) h.pos h.dir) x₂
  obtain ⟨s', r1, r2, r3, r4⟩ := detector_enter_among (A := [.lens l₁, .lens l₂]) (B := []) (md := md) (s := s) (x := x₂)
    (rep s.ray _ _ hit (by rw [h.pos, hx₂]; rfl)) hb (fun _ h => by cases h) h.kind (by rw [h.pos]; exact hx₂)
    (by rw [hy1, gt_iff_lt, fl_lt]; exact not_lt.mpr hx₂y) (by rw [hg, gt_iff_lt, fl_lt]; linarith)
  refine ⟨s', q, r1, r2, r3, by rw [r4, hid], ?_⟩
  have h1 := norm_sub_le_norm_sub_add_norm_sub q.toE (P.toE + τ • w.toE) (⟨-X, 125, -Z⟩ : V3 ℝ).toE
  rw [hu] at eq
  norm_num at eq hland ⊢
  linarith

end Optics
