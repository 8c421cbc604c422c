import Verif.Lemmas.BenchLeg

/-! # The bench of script_testIdealLenses.py with doubles -/

namespace Optics
open V3

/-- The scene of the script, built with doubles. -/
theorem telescopeScene64 : ∃ (l₁ l₂ : Lens D64) (d : Detector D64),
    Lens.new (V3.fl ⟨0, 50, 0⟩ : V3 D64) (some (V3.fl ⟨0, -1, 0⟩)) "spherical_biconvex" (some (Fl.fin 50)) none none (some (Fl.fin 50))
      "ideal_collimate" 1.5 = .ok l₁ ∧
    Lens.new (V3.fl ⟨0, 75, 0⟩ : V3 D64) (some (V3.fl ⟨0, -1, 0⟩)) "spherical_biconvex" (some (Fl.fin 50)) none none (some (Fl.fin 25))
      "ideal_focus" 1.5 = .ok l₂ ∧
    Detector.new 0 (V3.fl ⟨0, 125, 0⟩ : V3 D64) (V3.fl ⟨0, -1, 0⟩) (V3.fl ⟨0, 0, 1⟩) "rectangular_flat" (some (Fl.fin 30)) (some (Fl.fin 30)) = .ok d ∧
    telescopeScene (α := D64) = .ok [.lens l₁, .lens l₂, .detector d] := by
  have hu : binary64.u = 1 / 2 ^ 53 := rfl
  have l50 : (50.0 : D64) = Fl.fin 50 := by rw [whole64 50 (by norm_num) (by norm_num)]; norm_num
  have l25 : (25.0 : D64) = Fl.fin 25 := by rw [whole64 25 (by norm_num) (by norm_num)]; norm_num
  have l75 : (75.0 : D64) = Fl.fin 75 := by rw [whole64 75 (by norm_num) (by norm_num)]; norm_num
  have l30 : (30.0 : D64) = Fl.fin 30 := by rw [whole64 30 (by norm_num) (by norm_num)]; norm_num
  have l1 : (1.0 : D64) = Fl.fin 1 := fl_lit1 binary64_one
  have hr : ∀ t : ℝ, ∀ m : ℤ, t = m → |m| < 2 ^ 53 → binary64.rnd t = .fin t := by
    intro t m ht hm
    have := rnd64_dyE (x := t) (m := m) (e := 0) (by rw [ht]; norm_num) hm (by norm_num) (by norm_num)
    show rnd64 t = _
    rw [this, ht]; norm_num
  have l125 : (75.0 : D64) + 2.0 * 25.0 = Fl.fin 125 := by
    have e : (Fl.fin 2 : D64) * Fl.fin 25 = Fl.fin 50 := by
      rw [fl_mul, show (2 * 25 : ℝ) = 50 by norm_num, hr 50 50 (by norm_num) (by norm_num)]; rfl
    rw [l75, l25, d_lit2, e, fl_add, show (75 + 50 : ℝ) = 125 by norm_num, hr 125 125 (by norm_num) (by norm_num)]; rfl
  have e1 : ‖(⟨0, -1, 0⟩ : V3 ℝ).toE‖ = 1 := by rw [norm_toE]; simp [V3.norm, dot]
  have e2 : ‖(⟨0, 0, 1⟩ : V3 ℝ).toE‖ = 1 := by rw [norm_toE]; simp [V3.norm, dot]
  have s2 : SaneLength ⟨0, 0, 1⟩ := sane_of_near (by rw [e2]; norm_num)
  obtain ⟨r, hr⟩ := C111_builds (R := binary64) (C := V3.fl ⟨0, 125, 0⟩) (N := ⟨0, -1, 0⟩) (h := 30) (w := 30) (δ := 0) bench_sane s2 e1 (by simp [dot])
    (by rw [V3.dirE, e1]; simp) (by norm_num) (by rw [hu]; norm_num) (by norm_num) (by norm_num)
  obtain ⟨l₁, hl₁⟩ : ∃ l, Lens.new (V3.fl ⟨0, 50, 0⟩ : V3 D64) (some (V3.fl ⟨0, -1, 0⟩)) "spherical_biconvex" (some (Fl.fin 50)) none none
      (some (Fl.fin 50)) "ideal_collimate" 1.5 = .ok l := ⟨_, rfl⟩
  obtain ⟨l₂, hl₂⟩ : ∃ l, Lens.new (V3.fl ⟨0, 75, 0⟩ : V3 D64) (some (V3.fl ⟨0, -1, 0⟩)) "spherical_biconvex" (some (Fl.fin 50)) none none
      (some (Fl.fin 25)) "ideal_focus" 1.5 = .ok l := ⟨_, rfl⟩
  obtain ⟨d, hd⟩ : ∃ d, Detector.new 0 (V3.fl ⟨0, 125, 0⟩ : V3 D64) (V3.fl ⟨0, -1, 0⟩) (V3.fl ⟨0, 0, 1⟩) "rectangular_flat" (some (Fl.fin 30))
      (some (Fl.fin 30)) = .ok d := by
    unfold Detector.new
    simp only [if_true, bind, Except.bind, pure, Except.pure, hr]
    exact ⟨_, rfl⟩
  refine ⟨l₁, l₂, d, hl₁, hl₂, hd, ?_⟩
  unfold telescopeScene
  simp only [l125]
  have a1 : Lens.new (⟨0.0, 50.0, 0.0⟩ : V3 D64) (some ⟨0.0, -1.0, 0.0⟩) "spherical_biconvex" (some 50.0) none none (some 50.0) "ideal_collimate" 1.5 = .ok l₁ := by
    rw [← hl₁, fl_lit0, l1, l50]; rfl
  have a2 : Lens.new (⟨0.0, 75.0, 0.0⟩ : V3 D64) (some ⟨0.0, -1.0, 0.0⟩) "spherical_biconvex" (some 50.0) none none (some 25.0) "ideal_focus" 1.5 = .ok l₂ := by
    rw [← hl₂, fl_lit0, l1, l75, l50, l25]; rfl
  have a3 : Detector.new 0 (⟨0.0, Fl.fin 125, 0.0⟩ : V3 D64) ⟨0.0, -1.0, 0.0⟩ ⟨0.0, 0.0, 1.0⟩ "rectangular_flat" (some 30.0) (some 30.0) = .ok d := by
    rw [← hd, fl_lit0, l1, l30]; rfl
  simp only [a1, a2, a3, bind, Except.bind, pure, Except.pure]

theorem half50 : (Fl.fin 50 : D64) / 2.0 = Fl.fin 25 := by
  have h3 : binary64.rnd (50 / 2) = .fin 25 := by
    have := rnd64_dyE (x := 50 / 2) (m := 25) (e := 0) (by norm_num) (by norm_num) (by norm_num) (by norm_num)
    show rnd64 (50 / 2) = _
    rw [this]; norm_num
  rw [d_lit2, fl_div _ _ (by norm_num), h3]; rfl

/-- The side of a lens of the bench that a ray going up goes to. -/
theorem bench_side {w : V3 ℝ} {σ : ℝ} (hσ : σ = 1 ∨ σ = -1) (hy : 0 < w.y) (h : 0 < inner ℝ (σ • axisOf ⟨0, -1, 0⟩) w.toE) :
    σ = -1 ∧ σ • axisOf ⟨0, -1, 0⟩ = (⟨0, 1, 0⟩ : V3 ℝ).toE := by
  rw [real_inner_smul_left, bench_inner] at h
  have e : σ = -1 := by
    rcases hσ with e | e
    · rw [e] at h; linarith
    · exact e
  refine ⟨e, ?_⟩
  rw [e, bench_axis, ← toE_smul]; congr 1; ext <;> simp

/-- A ray that has just left the lens of the telescope at `y = Y`. -/
structure LeftBench (s : RunState D64) (P d : V3 ℝ) (Y X Z ε m : ℝ) : Prop where
  pos : s.ray.position = P.fl
  dir : s.ray.direction = d.fl
  unit : NearUnit binary64 d
  kind : s.ray.type ≠ "faerie_fire"
  free : s.ray.blocked = false
  rem : ∃ y, s.remaining = Fl.fin y ∧ m ≤ y ∧ y ≤ 150
  here : |P.y - Y| ≤ 2 / 10 ^ 11
  near_x : |P.x - X| ≤ ε
  near_z : |P.z - Z| ≤ ε

/-- The place where the unit vector computed from a direction meets a plane. -/
theorem slope_near {a b c d δ m : ℝ} (hb : 98 / 100 ≤ d) (hab : a = m * b) (hm : |m| ≤ 1 / 15) (h1 : |c - a| ≤ δ) (h2 : |d - b| ≤ δ) :
    |c / d - m| ≤ 11 / 10 * δ := by
  have e : c / d - m = ((c - a) - m * (d - b)) / d := by rw [hab]; field_simp; ring
  have hδ : 0 ≤ δ := (abs_nonneg _).trans h1
  rw [e, abs_div, abs_of_pos (by linarith : 0 < d), div_le_iff₀ (by linarith)]
  have h3 := abs_sub (c - a) (m * (d - b))
  rw [abs_mul] at h3
  have h4 := mul_le_mul hm h2 (abs_nonneg _) (by norm_num)
  nlinarith

/-- How the first leg is aimed. -/
theorem telescope_aim {x z : ℝ} {D : V3 ℝ} (hx : |x| ≤ 51 / 10) (hz : |z| ≤ 51 / 10) (hD : SaneLength D) (hy : 0 < D.y) (hDx : |D.x| ≤ D.y / 15)
    (hDz : |D.z| ≤ D.y / 15) : ∃ (w : V3 ℝ) (τ : ℝ), unitVector (D.fl : V3 D64) = w.fl ∧ NearUnit binary64 w ∧ 98 / 100 ≤ w.y ∧ w.y ≤ 11 / 10 ∧
      τ = (50 - (⟨x, 0, z⟩ : V3 ℝ).y) / w.y ∧ 45 ≤ τ ∧ τ ≤ 52 ∧
      ‖(⟨x, 0, z⟩ : V3 ℝ).toE + τ • w.toE - (⟨0, 50, 0⟩ : V3 ℝ).toE‖ ≤ 20 ∧
      ∀ P : V3 ℝ, ‖P.toE - ((⟨x, 0, z⟩ : V3 ℝ).toE + τ • w.toE)‖ ≤ 2 / 10 ^ 11 →
        |P.x - (x + 50 * (D.x / D.y))| ≤ 21 / 10 ^ 12 ∧ |P.z - (z + 50 * (D.z / D.y))| ≤ 21 / 10 ^ 12 := by
  have hu : binary64.u = 1 / 2 ^ 53 := rfl
  obtain ⟨n1, n2⟩ := slopes_norm (k := 1005 / 1000) (s := 1 / 15) hy (by linarith) (by linarith) (by norm_num) (by norm_num)
  have hL : 0 < ‖D.toE‖ := by linarith
  obtain ⟨w, hw, ew⟩ := unitVector_near (R := binary64) hD
  have hwu : NearUnit binary64 w := nearUnit_of (dirE_norm hL) ew
  have ew' := ew
  rw [V3.dirE, ← toE_smul, ← toE_sub] at ew'
  obtain ⟨c1, c2, c3⟩ := comp_le (w - (1 / ‖D.toE‖ : ℝ) * D)
  simp only [sub_x, sub_y, sub_z, smul_x, smul_y, smul_z] at c1 c2 c3
  have hwy : 98 / 100 ≤ w.y ∧ w.y ≤ 11 / 10 := by
    have h2 := abs_le.mp (c2.trans ew')
    rw [hu] at h2
    have h3 : 99 / 100 ≤ 1 / ‖D.toE‖ * D.y := by rw [one_div_mul_eq_div, le_div_iff₀ hL]; linarith
    have h4 : 1 / ‖D.toE‖ * D.y ≤ 1 := by rw [one_div_mul_eq_div, div_le_one hL]; exact n1
    norm_num at h2 h3 h4
    constructor <;> linarith
  have slope : ∀ v, |v| ≤ D.y / 15 → |v / D.y| ≤ 1 / 15 := fun v hv => by
    rw [abs_div, abs_of_pos hy, div_le_iff₀ hy]; linarith
  have sx := slope_near (a := 1 / ‖D.toE‖ * D.x) (b := 1 / ‖D.toE‖ * D.y) (m := D.x / D.y) hwy.1 (by field_simp) (slope _ hDx) (c1.trans ew') (c2.trans ew')
  have sz := slope_near (a := 1 / ‖D.toE‖ * D.z) (b := 1 / ‖D.toE‖ * D.y) (m := D.z / D.y) hwy.1 (by field_simp) (slope _ hDz) (c3.trans ew') (c2.trans ew')
  obtain ⟨τ, hτ⟩ : ∃ τ, τ = (50 - (⟨x, 0, z⟩ : V3 ℝ).y) / w.y := ⟨_, rfl⟩
  have hτ' : τ = 50 / w.y := by rw [hτ, sub_zero]
  have hτ1 : 45 ≤ τ := by rw [hτ', le_div_iff₀ (by linarith)]; linarith
  have hτ2 : τ ≤ 52 := by rw [hτ', div_le_iff₀ (by linarith)]; linarith
  -- where the ray crosses the lens
  have cross : ∀ u v : ℝ, |u| ≤ 51 / 10 → |v / w.y| ≤ 7 / 100 → |u + τ * v| ≤ 9 := by
    intro u v hu hv
    rw [hτ', div_mul_eq_mul_div, mul_div_assoc]
    have := abs_add_le u (50 * (v / w.y))
    rw [abs_mul, abs_of_pos (by norm_num : (0 : ℝ) < 50)] at this
    linarith
  have small : ∀ v t, |t| ≤ 1 / 15 → |v / w.y - t| ≤ 11 / 10 * (5 * binary64.u) → |v / w.y| ≤ 7 / 100 := by
    intro v t ht h
    have := abs_add_le (v / w.y - t) t
    rw [sub_add_cancel] at this
    rw [hu] at h
    norm_num at h
    linarith
  have kx := cross x w.x hx (small _ _ (slope _ hDx) sx)
  have kz := cross z w.z hz (small _ _ (slope _ hDz) sz)
  have hrim : ‖(⟨x, 0, z⟩ : V3 ℝ).toE + τ • w.toE - (⟨0, 50, 0⟩ : V3 ℝ).toE‖ ≤ 20 := by
    rw [← toE_smul, ← toE_add, ← toE_sub]
    refine abs_le_of_sq_le_sq' ?_ (by norm_num) |>.2
    rw [normE_sq]
    simp only [sub_x, sub_y, sub_z, add_x, add_y, add_z, smul_x, smul_y, smul_z]
    have e : τ * w.y = 50 := by rw [hτ']; exact div_mul_cancel₀ _ (ne_of_gt (by linarith))
    rw [e]
    have h1 := sq_le_sq' (abs_le.mp kx).1 (abs_le.mp kx).2
    have h2 := sq_le_sq' (abs_le.mp kz).1 (abs_le.mp kz).2
    norm_num at h1 h2 ⊢
    linarith
  have close : ∀ u v t P : ℝ, |v / w.y - t| ≤ 11 / 10 * (5 * binary64.u) → |P - (u + τ * v)| ≤ 2 / 10 ^ 11 → |P - (u + 50 * t)| ≤ 21 / 10 ^ 12 := by
    intro u v t P h1 h2
    have e : P - (u + 50 * t) = (P - (u + τ * v)) + 50 * (v / w.y - t) := by rw [hτ']; ring
    rw [e]
    refine (abs_add_le _ _).trans ?_
    rw [abs_mul, abs_of_pos (by norm_num : (0 : ℝ) < 50)]
    rw [hu] at h1
    norm_num at h1 h2 ⊢
    linarith
  refine ⟨w, τ, hw, hwu, hwy.1, hwy.2, hτ, hτ1, hτ2, hrim, fun P' r12 => ?_⟩
  rw [← toE_smul, ← toE_add, ← toE_sub] at r12
  obtain ⟨p1, -, p3⟩ := comp_le (P' - ((⟨x, 0, z⟩ : V3 ℝ) + τ * w))
  simp only [sub_x, sub_z, add_x, add_z, smul_x, smul_z] at p1 p3
  exact ⟨close _ _ _ _ sx (p1.trans r12), close _ _ _ _ sz (p3.trans r12)⟩

/-- The first leg: to the collimating lens. -/
theorem telescope_first {x z : ℝ} {D : V3 ℝ} (hx : |x| ≤ 51 / 10) (hz : |z| ≤ 51 / 10) (hD : SaneLength D) (hy : 0 < D.y) (hDx : |D.x| ≤ D.y / 15)
    (hDz : |D.z| ≤ D.y / 15) {l₁ l₂ : Lens D64} {d : Detector D64} {wl order : D64} {type : String}
    (htype : type ≠ "faerie_fire") (md : D64)
    (hl₁ : Lens.new (V3.fl ⟨0, 50, 0⟩ : V3 D64) (some (V3.fl ⟨0, -1, 0⟩)) "spherical_biconvex" (some (Fl.fin 50)) none none (some (Fl.fin 50))
      "ideal_collimate" 1.5 = .ok l₁)
    (hl₂ : Lens.new (V3.fl ⟨0, 75, 0⟩ : V3 D64) (some (V3.fl ⟨0, -1, 0⟩)) "spherical_biconvex" (some (Fl.fin 50)) none none (some (Fl.fin 25))
      "ideal_focus" 1.5 = .ok l₂)
    (hd : Detector.new 0 (V3.fl ⟨0, 125, 0⟩ : V3 D64) (V3.fl ⟨0, -1, 0⟩) (V3.fl ⟨0, 0, 1⟩) "rectangular_flat" (some (Fl.fin 30)) (some (Fl.fin 30)) = .ok d) :
    ∃ (s : RunState D64) (P' d' : V3 ℝ), runStep md [.lens l₁, .lens l₂, .detector d]
        (RunState.init (Ray.new (V3.fl ⟨x, 0, z⟩) D.fl wl order type) (Fl.fin 150)) = .next s ∧
      s.interactions = 1 ∧ s.log = [] ∧ s.ray.wavelength = wl ∧
      LeftBench s P' d' 50 (x + 50 * (D.x / D.y)) (z + 50 * (D.z / D.y)) (21 / 10 ^ 12) 90 ∧
      ‖d'.toE - (⟨0, 1, 0⟩ : V3 ℝ).toE‖ ≤ 15 * binary64.u ∧ ∃ sel, s.selected = some sel ∧ sel.optic = .lens l₁ := by
  have hM : ‖axisOf ⟨0, -1, 0⟩‖ = 1 := dirE_norm bench_sane.pos
  obtain ⟨w, τ, hw, hwu, hwy1, hwy2, hτ, hτ1, hτ2, hrim, close⟩ := telescope_aim hx hz hD hy hDx hDz
  have hwy : 98 / 100 ≤ w.y ∧ w.y ≤ 11 / 10 := ⟨hwy1, hwy2⟩
  have hO : ‖(⟨x, 0, z⟩ : V3 ℝ).toE‖ ≤ 100 := by
    refine abs_le_of_sq_le_sq' ?_ (by norm_num) |>.2
    rw [normE_sq]
    have h1 := sq_le_sq' (abs_le.mp hx).1 (abs_le.mp hx).2
    have h2 := sq_le_sq' (abs_le.mp hz).1 (abs_le.mp hz).2
    norm_num at h1 h2 ⊢
    linarith
  have X₁ := bench_crossing (O := ⟨x, 0, z⟩) (w := w) (Y := 50) (c := 98 / 100) hwu (by norm_num) hwy.1 (hO.trans (by norm_num)) (by norm_num)
    (by norm_num) (by norm_num)
  have X₂ := bench_crossing (O := ⟨x, 0, z⟩) (w := w) (Y := 75) (c := 98 / 100) hwu (by norm_num) hwy.1 (hO.trans (by norm_num)) (by norm_num)
    (by norm_num) (by norm_num)
  have X₃ := bench_crossing (O := ⟨x, 0, z⟩) (w := w) (Y := 125) (c := 98 / 100) hwu (by norm_num) hwy.1 (hO.trans (by norm_num)) (by norm_num)
    (by norm_num) (by norm_num)
  rw [← hτ] at X₁
  obtain ⟨b1, b2, -, b4, b5, -⟩ := biconvex_built hl₁
  obtain ⟨n, hn, en⟩ := unitVector_near (R := binary64) bench_sane
  obtain ⟨d', σ, t1, t2, hσ, hpos, t3⟩ := collimate_near (M := axisOf ⟨0, -1, 0⟩) hwu hM en (by
    rw [bench_inner, abs_neg, abs_of_pos (by linarith)]; linarith)
  obtain ⟨-, eσ⟩ := bench_side hσ (by linarith) hpos
  rw [eσ] at t3
  obtain ⟨s, P', d₁, y, r1, r2, r3, r4, r5, r6, r7, r8, r9, r10, r11, r12, r13, rfl, r15⟩ := bench_leg (O := ⟨x, 0, z⟩) (w := w) (r := 150) X₁ hτ (by norm_num) hwy.1 hwy.2
    (by linarith) (by linarith) hrim half50 hl₁ (s := RunState.init (Ray.new (V3.fl ⟨x, 0, z⟩) D.fl wl order type) (Fl.fin 150)) rfl hw htype rfl
    (by linarith) le_rfl (A := []) (B := [.lens l₂, .detector d]) (fun _ _ _ h => by cases h) (fun x' hx' o ho => by
        simp only [List.mem_cons, List.not_mem_nil, or_false] at ho
        rcases ho with rfl | rfl
        · obtain ⟨a1, a2⟩ := far_len (O := ⟨x, 0, z⟩) (Y' := 75) (by norm_num) hwy.1 hwy.2 (by norm_num) (by norm_num) hx'
          exact lens_beyond hl₂ X₂ a1 a2 rfl hw
        · obtain ⟨a1, a2⟩ := far_len (O := ⟨x, 0, z⟩) (Y' := 125) (by norm_num) hwy.1 hwy.2 (by norm_num) (by norm_num) hx'
          exact detector_beyond hd X₃ a1 a2 rfl hw)
    (G := fun _ d₁ => d' = d₁) (fun P' _ => ⟨d', rfl, fun ray p nn b h1 h2 => by
      simp only [Lens.doIntersect, b5, show ¬ "ideal_collimate" = "ideal" by decide, if_false, if_true, Ray.refract,
        show ¬ "ideal_collimate" = "thin_lens" by decide, need, b2, bind, Except.bind, pure, Except.pure, h2, hn, t1]⟩) md
  obtain ⟨p1, p3⟩ := close P' r12
  exact ⟨s, P', d', r1, by rw [r2]; rfl, by rw [r6]; rfl, by rw [r5]; rfl,
    ⟨r10, r11, t2, by rw [r4]; exact htype, by rw [r3]; rfl, ⟨y, r7, by norm_num at r9; linarith, r8⟩, r13, p1, p3⟩, t3, r15⟩

end Optics
