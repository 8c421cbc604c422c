import Verif.Lemmas.RelayStep

/-! # The three legs of the bench of script_testIdealRelay.py -/

namespace Optics
open V3

/-- One train of lenses and then another. -/
theorem LensTrain.trans {R : Rounding} {md : Fl R} {optics : List (Optic (Fl R))} {s s' s'' : RunState (Fl R)} {S S' S'' : E3} {ε ε' ε'' : ℝ}
    (h : LensTrain md optics s S ε s' S' ε') (h' : LensTrain md optics s' S' ε' s'' S'' ε'') : LensTrain md optics s S ε s'' S'' ε'' := by
  induction h with
  | nil => exact h'
  | cons pass dist front far small image cost _ ih => exact .cons pass dist front far small image cost (ih h')

/-- A ray that has just left the lens of the bench at `y = Y`. -/
structure LeftLens (s : RunState D64) (P d : V3 ℝ) (Y X Z ρ ε m : ℝ) : Prop where
  pos : s.ray.position = P.fl
  dir : s.ray.direction = d.fl
  unit : NearUnit binary64 d
  kind : s.ray.type ≠ "faerie_fire"
  free : s.ray.blocked = false
  rem : ∃ y, s.remaining = Fl.fin y ∧ m ≤ y ∧ y ≤ 150
  here : |P.y - Y| ≤ 1 / 10 ^ 9
  near_x : |P.x| ≤ ρ
  near_z : |P.z| ≤ ρ
  aim : ∃ t : ℝ, 0 < t ∧ ‖P.toE + t • d.toE - (⟨X, Y + 25, Z⟩ : V3 ℝ).toE‖ ≤ ε
  gone : ∀ ray : Ray D64, ray.position = P.fl → ray.direction = d.fl →
    ((Plane.new (V3.fl ⟨0, Y, 0⟩ : V3 D64) (V3.fl ⟨0, -1, 0⟩)).testIntersect ray).hit = false

theorem off_of {D : V3 ℝ} (hy : 0 < D.y) (hk : ‖D.toE‖ ≤ 5 / 4 * D.y) (hL : 0 < ‖D.toE‖) (h : 3 / 10 ^ 8 * D.y ≤ |D.x| ∨ 3 / 10 ^ 8 * D.y ≤ |D.z|) :
    2 / 10 ^ 8 + 10 * binary64.u < ‖D.dirE - axisOf ⟨0, -1, 0⟩‖ ∧ 2 / 10 ^ 8 + 10 * binary64.u < ‖D.dirE + axisOf ⟨0, -1, 0⟩‖ := by
  have hu : binary64.u = 1 / 2 ^ 53 := rfl
  have big : ∀ t : ℝ, 3 / 10 ^ 8 * D.y ≤ |t| → 2 / 10 ^ 8 + 10 * binary64.u < |1 / ‖D.toE‖ * t| := by
    intro t ht
    rw [abs_mul, abs_of_pos (by positivity), one_div_mul_eq_div, lt_div_iff₀ hL, hu]
    norm_num at ht ⊢
    nlinarith
  rw [bench_axis, V3.dirE, ← toE_smul, ← toE_sub, ← toE_add]
  have c1 := comp_le ((1 / ‖D.toE‖ : ℝ) * D - ⟨0, -1, 0⟩)
  have c2 := comp_le ((1 / ‖D.toE‖ : ℝ) * D + ⟨0, -1, 0⟩)
  simp only [sub_x, sub_z, smul_x, smul_z, sub_zero] at c1
  simp only [add_x, add_z, smul_x, smul_z, add_zero] at c2
  rcases h with h | h
  · have := big _ h
    exact ⟨this.trans_le c1.1, this.trans_le c2.1⟩
  · have := big _ h
    exact ⟨this.trans_le c1.2.2, this.trans_le c2.2.2⟩

theorem far_len {O w : V3 ℝ} {Y Y' c x : ℝ} (hc : 1 / 2 ≤ c) (hcw : c ≤ w.y) (hw1 : w.y ≤ 11 / 10) (hY : Y + 1 ≤ Y') (hO : 0 ≤ Y - O.y)
    (hx : x * w.y ≤ (Y - O.y) + 1 / 10 ^ 9) :
    1 / 1000 ≤ (Y' - O.y) / w.y ∧ x < (Y' - O.y) / w.y - 69 * (binary64.u * 1000 / c) := by
  have hu : binary64.u = 1 / 2 ^ 53 := rfl
  have hwy : 0 < w.y := by linarith
  have h69 : 69 * (binary64.u * 1000 / c) ≤ 1 / 1000 := by
    have : binary64.u * 1000 / c ≤ 1 / 10 ^ 6 := by
      rw [div_le_iff₀ (by linarith), hu]; norm_num at hc ⊢; linarith
    norm_num at this ⊢
    linarith
  constructor
  · rw [le_div_iff₀ hwy]; linarith
  · rw [lt_sub_iff_add_lt, lt_div_iff₀ hwy]
    have : 69 * (binary64.u * 1000 / c) * w.y ≤ 1 / 1000 * (11 / 10) :=
      mul_le_mul h69 hw1 hwy.le (by norm_num)
    norm_num at hx
    linarith

theorem near_y {d : V3 ℝ} {k κ : ℝ} (hd : NearUnit binary64 d) (hk : ‖d.toE‖ ≤ k * d.y) (hk0 : 0 < k) (h : κ * k ≤ 999 / 1000) :
    κ ≤ d.y ∧ d.y ≤ 11 / 10 := by
  have hb := hd.bounds
  constructor
  · have : κ * k ≤ d.y * k := by linarith [hb.2]
    exact le_of_mul_le_mul_right this hk0
  · have := (comp_le d).2.1
    linarith [le_abs_self d.y, hb.1]

/-- The first leg. -/
theorem relay_first {x z Y : ℝ} {D : V3 ℝ} (hx : |x| ≤ 51 / 10) (hz : |z| ≤ 51 / 10) (hD : SaneLength D) (hy : 0 < D.y) (hDx : |D.x| ≤ D.y / 15)
    (hDz : |D.z| ≤ D.y / 15) (hY : |Y - 100| ≤ 1 / 10 ^ 12) {l₁ l₂ : Lens D64} {d : Detector D64} {wl order : D64} {type : String}
    (htype : type ≠ "faerie_fire") (md : D64)
    (hl₁ : Lens.new (V3.fl ⟨0, 25, 0⟩ : V3 D64) (some (V3.fl ⟨0, -1, 0⟩)) "spherical_biconvex" (some (Fl.fin 50)) none none
      (some (Fl.fin (25 / 2))) "ideal" 1.5 = .ok l₁)
    (hl₂ : Lens.new (V3.fl ⟨0, 75, 0⟩ : V3 D64) (some (V3.fl ⟨0, -1, 0⟩)) "spherical_biconvex" (some (Fl.fin 75)) none none
      (some (Fl.fin (25 / 2))) "ideal" 1.5 = .ok l₂)
    (hd : Detector.new 0 (V3.fl ⟨0, Y, 0⟩ : V3 D64) (V3.fl ⟨0, -1, 0⟩) (V3.fl ⟨0, 0, 1⟩) "rectangular_flat" (some (Fl.fin 30)) (some (Fl.fin 30)) = .ok d) :
    ∃ (s : RunState D64) (P' d' : V3 ℝ), runStep md [.lens l₁, .lens l₂, .detector d]
        (RunState.init (Ray.new (V3.fl ⟨x, 0, z⟩) D.fl wl order type) (Fl.fin 150)) = .next s ∧
      s.interactions = 1 ∧ s.log = [] ∧ s.ray.wavelength = wl ∧ LeftLens s P' d' 25 (-x) (-z) (677 / 100) (204 / 10 ^ 8) 124 ∧
      ((3 / 10 ^ 8 * D.y ≤ |D.x| ∨ 3 / 10 ^ 8 * D.y ≤ |D.z|) → LeftLens s P' d' 25 (-x) (-z) (677 / 100) (4 / 10 ^ 11) 124) ∧
      |P'.x - (x + 25 / D.y * D.x)| ≤ 1 / 10 ^ 9 ∧ |P'.z - (z + 25 / D.y * D.z)| ≤ 1 / 10 ^ 9 ∧
      LensTrain md [.lens l₁, .lens l₂, .detector d] (RunState.init (Ray.new (V3.fl ⟨x, 0, z⟩) D.fl wl order type) (Fl.fin 150))
        (⟨x, 0, z⟩ : V3 ℝ).toE 0 s (⟨-x, 50, -z⟩ : V3 ℝ).toE (204 / 10 ^ 8) := by
  have hu : binary64.u = 1 / 2 ^ 53 := rfl
  obtain ⟨n1, n2⟩ := slopes_norm (k := 1005 / 1000) (s := 1 / 15) hy (by linarith) (by linarith) (by norm_num) (by norm_num)
  have hL : 0 < ‖D.toE‖ := by linarith
  obtain ⟨w, hw, ew⟩ := unitVector_near (R := binary64) hD
  have hwu : NearUnit binary64 w := nearUnit_of (dirE_norm hL) ew
  have hwy : 98 / 100 ≤ w.y ∧ w.y ≤ 11 / 10 := by
    have h1 := abs_real_inner_le_norm (axisOf ⟨0, -1, 0⟩) (w.toE - D.dirE)
    rw [show ‖axisOf ⟨0, -1, 0⟩‖ = 1 from dirE_norm bench_sane.pos, one_mul, inner_sub_right, bench_inner, bench_cos] at h1
    have h2 := abs_le.mp (h1.trans ew)
    rw [hu] at h2
    norm_num at h2
    have h3 : 99 / 100 ≤ D.y / ‖D.toE‖ := by rw [le_div_iff₀ hL]; linarith
    have h4 : D.y / ‖D.toE‖ ≤ 1 := by rw [div_le_one hL]; exact n1
    constructor <;> linarith
  have l25 : (Fl.fin 50 : D64) / 2.0 = Fl.fin 25 := by
    have h3 : binary64.rnd (50 / 2) = .fin 25 := by
      have := rnd64_dyE (x := 50 / 2) (m := 25) (e := 0) (by norm_num) (by norm_num) (by norm_num) (by norm_num)
      show rnd64 (50 / 2) = _
      rw [this]; norm_num
    rw [d_lit2, fl_div _ _ (by norm_num), h3]; rfl
  have cross : ∀ u v : ℝ, |u| ≤ 51 / 10 → |v| ≤ D.y / 15 → |u + (25 - 0) / D.y * v| ≤ 6769 / 1000 := by
    intro u v hu hv
    have h1 : |(25 - 0) / D.y * v| ≤ 25 / 15 := by
      rw [abs_mul, abs_div, abs_of_pos hy, abs_of_pos (by norm_num : (0 : ℝ) < 25 - 0), div_mul_eq_mul_div, div_le_iff₀ hy]
      linarith
    have := abs_add_le u ((25 - 0) / D.y * v)
    norm_num at h1 this ⊢
    linarith
  have hO : ‖(⟨x, 0, z⟩ : V3 ℝ).toE‖ ≤ 100 := by
    refine abs_le_of_sq_le_sq' ?_ (by norm_num) |>.2
    rw [normE_sq]
    have h1 := sq_le_sq' (abs_le.mp hx).1 (abs_le.mp hx).2
    have h2 := sq_le_sq' (abs_le.mp hz).1 (abs_le.mp hz).2
    norm_num at h1 h2 ⊢
    linarith
  obtain ⟨H, hp, hK⟩ := axial_ahead (O := ⟨x, 0, z⟩) (D := D) (Y := 25) (k := 1005 / 1000) (κ := 98 / 100) (a := 25) (ρ := 6769 / 1000) hy n2
    (by norm_num) (by norm_num) (by norm_num) (by norm_num) (by norm_num) hL hO (by norm_num) (by norm_num) (by norm_num) (by norm_num)
    (by norm_num) (by norm_num) (cross x D.x hx hDx) (cross z D.z hz hDz) (by norm_num)
  have hY' := abs_le.mp hY
  norm_num at hY'
  have hfar₂ := bench_crossing (O := ⟨x, 0, z⟩) (w := w) (Y := 75) (c := 98 / 100) hwu (by norm_num) hwy.1 (hO.trans (by norm_num)) (by norm_num)
    (by norm_num) (by norm_num)
  have hfar₃ := bench_crossing (O := ⟨x, 0, z⟩) (w := w) (Y := Y) (c := 98 / 100) hwu (by norm_num) hwy.1 (hO.trans (by norm_num))
    (by rw [abs_le]; constructor <;> linarith) (by simp only; linarith) (by simp only; linarith)
  obtain ⟨s, P', d', t', y, r1, r2, r3, r4, r5, r6, r7, r8, r9, r10, r11, r12, r13, r14, r15, r16, r17, r18, r19⟩ :=
    relay_step (O := ⟨x, 0, z⟩) (D := D) (w := w) (X := x) (Y := 25) (Z := z) (t := 0) (ε := 0) (r := 150) hL ew H hp hK (by norm_num) hwy.1 (by norm_num)
      l25 hl₁ hx hz (by
        rw [zero_smul, add_zero, ← toE_sub]
        have : (⟨x, 0, z⟩ : V3 ℝ) - ⟨x, 25 - 25, z⟩ = ⟨0, 0, 0⟩ := by ext <;> simp
        rw [this, norm_toE]; simp [V3.norm, dot]) (by norm_num)
      (s := RunState.init (Ray.new (V3.fl ⟨x, 0, z⟩) D.fl wl order type) (Fl.fin 150)) rfl hw htype rfl (by norm_num) le_rfl (A := [])
      (B := [.lens l₂, .detector d]) (fun _ _ _ h => by cases h) (fun x' hx' o ho => by
        simp only [List.mem_cons, List.not_mem_nil, or_false] at ho
        rcases ho with rfl | rfl
        · obtain ⟨a1, a2⟩ := far_len (O := ⟨x, 0, z⟩) (Y' := 75) (by norm_num) hwy.1 hwy.2 (by norm_num) (by norm_num) hx'
          exact lens_beyond hl₂ hfar₂ a1 a2 rfl hw
        · obtain ⟨a1, a2⟩ := far_len (O := ⟨x, 0, z⟩) (Y' := Y) (by norm_num) hwy.1 hwy.2 (by linarith) (by norm_num) hx'
          exact detector_beyond hd hfar₃ a1 a2 rfl hw) md
  have close : ∀ u v P : ℝ, |u| ≤ 51 / 10 → |v| ≤ D.y / 15 → |P - (u + (25 - 0) / D.y * v)| ≤ 1 / 10 ^ 9 → |P| ≤ 677 / 100 := by
    intro u v P hu hv h
    have h1 := cross u v hu hv
    have := abs_add_le (P - (u + (25 - 0) / D.y * v)) (u + (25 - 0) / D.y * v)
    rw [sub_add_cancel] at this
    norm_num at h
    linarith
  simp only [sub_zero] at close r13 r15
  have mk : ∀ ε, ‖P'.toE + t' • d'.toE - (⟨-x, 25 + 25, -z⟩ : V3 ℝ).toE‖ ≤ ε → LeftLens s P' d' 25 (-x) (-z) (677 / 100) ε 124 := fun ε hε =>
    ⟨r10, r11, r12, by rw [r4]; exact htype, by rw [r3]; rfl, ⟨y, r7, by norm_num at r9; linarith, r8⟩, r14, close x D.x _ hx hDx r13,
      close z D.z _ hz hDz r15, ⟨t', r16, hε⟩, r18⟩
  refine ⟨s, P', d', r1, by rw [r2]; rfl, by rw [r6]; rfl, by rw [r5]; rfl, mk _ ?_, fun hoff => mk _ ?_, r13, r15, ?_⟩
  · rcases r17 with h | ⟨-, h⟩ <;> refine h.trans (by norm_num)
  · rcases r17 with h | ⟨h, -⟩
    · exact h.trans (by norm_num)
    · exact absurd (off_of hy (by linarith) hL hoff) h
  · have e1 : (25 : ℝ) - 25 = 0 := by norm_num
    have e2 : (25 : ℝ) + 25 = 50 := by norm_num
    rw [e1, e2] at r19
    exact r19 _ (by norm_num)

end Optics
