import Verif.Lemmas.RelayLegs

/-! # The second and the third leg of the bench of script_testIdealRelay.py -/

namespace Optics
open V3

theorem bench_norm {P : V3 ℝ} {Y ρ : ℝ} (hy : |P.y - Y| ≤ 1 / 10 ^ 9) (hx : |P.x| ≤ ρ) (hz : |P.z| ≤ ρ) (hY0 : 0 ≤ Y) (hY : Y ≤ 75) (hρ : ρ ≤ 18) :
    ‖P.toE‖ ≤ 90 := by
  refine abs_le_of_sq_le_sq' ?_ (by norm_num) |>.2
  rw [normE_sq]
  have hy' := abs_le.mp hy
  norm_num at hy'
  have h1 : P.x ^ 2 ≤ 18 ^ 2 := sq_le_sq' (by linarith [(abs_le.mp hx).1]) (by linarith [(abs_le.mp hx).2])
  have h2 : P.z ^ 2 ≤ 18 ^ 2 := sq_le_sq' (by linarith [(abs_le.mp hz).1]) (by linarith [(abs_le.mp hz).2])
  have h3 : P.y ^ 2 ≤ 76 ^ 2 := sq_le_sq' (by linarith) (by linarith)
  norm_num at h1 h2 h3 ⊢
  linarith

/-- The second leg. -/
theorem relay_second {X Z Y ε : ℝ} {P d₁ : V3 ℝ} (hX : |X| ≤ 51 / 10) (hZ : |Z| ≤ 51 / 10) (hY : |Y - 100| ≤ 1 / 10 ^ 12) {l₁ l₂ : Lens D64}
    {d : Detector D64} (md : D64)
    (hl₁ : Lens.new (V3.fl ⟨0, 25, 0⟩ : V3 D64) (some (V3.fl ⟨0, -1, 0⟩)) "spherical_biconvex" (some (Fl.fin 50)) none none
      (some (Fl.fin (25 / 2))) "ideal" 1.5 = .ok l₁)
    (hl₂ : Lens.new (V3.fl ⟨0, 75, 0⟩ : V3 D64) (some (V3.fl ⟨0, -1, 0⟩)) "spherical_biconvex" (some (Fl.fin 75)) none none
      (some (Fl.fin (25 / 2))) "ideal" 1.5 = .ok l₂)
    (hd : Detector.new 0 (V3.fl ⟨0, Y, 0⟩ : V3 D64) (V3.fl ⟨0, -1, 0⟩) (V3.fl ⟨0, 0, 1⟩) "rectangular_flat" (some (Fl.fin 30)) (some (Fl.fin 30)) = .ok d)
    {s : RunState D64} (h : LeftLens s P d₁ 25 X Z (677 / 100) ε 124) (hε : ε ≤ 1 / 10 ^ 5) :
    ∃ (s' : RunState D64) (P' d' : V3 ℝ), runStep md [.lens l₁, .lens l₂, .detector d] s = .next s' ∧
      s'.interactions = s.interactions + 1 ∧ s'.log = s.log ∧ s'.ray.wavelength = s.ray.wavelength ∧
      LeftLens s' P' d' 75 (-X) (-Z) (1712 / 100) (4 / 10 ^ 11 + 315 / 100 * ε + 203 / 10 ^ 8) 60 ∧
      ((3 / 10 ^ 8 * d₁.y ≤ |d₁.x| ∨ 3 / 10 ^ 8 * d₁.y ≤ |d₁.z|) → LeftLens s' P' d' 75 (-X) (-Z) (1712 / 100) (4 / 10 ^ 11 + 315 / 100 * ε) 60) ∧
      ∀ ε₁, 4 / 10 ^ 11 + 315 / 100 * ε + 203 / 10 ^ 8 ≤ ε₁ →
        LensTrain md [.lens l₁, .lens l₂, .detector d] s (⟨X, 50, Z⟩ : V3 ℝ).toE ε s' (⟨-X, 100, -Z⟩ : V3 ℝ).toE ε₁ := by
  have hu : binary64.u = 1 / 2 ^ 53 := rfl
  obtain ⟨t, ht0, ht⟩ := h.aim
  obtain ⟨a1, a2, a3, a4⟩ := aim_slopes (s := 48 / 100) ht0 h.here h.near_x h.near_z (ht.trans hε) hX hZ (by norm_num) (by norm_num) (by norm_num)
  obtain ⟨n1, n2⟩ := slopes_norm (k := 121 / 100) a1 a2 a3 (by norm_num) (by norm_num)
  have hL : 0 < ‖d₁.toE‖ := by linarith
  obtain ⟨w1, w2⟩ := near_y (κ := 82 / 100) h.unit n2 (by norm_num) (by norm_num)
  obtain ⟨K1, K2⟩ := a4 75 (by norm_num)
  have hO := bench_norm h.here h.near_x h.near_z (by norm_num) (by norm_num) (by norm_num)
  have hPy := abs_le.mp h.here
  norm_num at hPy
  obtain ⟨H, hp, hK⟩ := axial_ahead (O := P) (D := d₁) (Y := 75) (k := 121 / 100) (κ := 82 / 100) (a := 75 / 2) (ρ := 1711 / 100) a1 n2
    (by norm_num) (by norm_num) (by norm_num) (by norm_num) (by norm_num) hL (by linarith) (by norm_num) (by norm_num) (by linarith) (by linarith)
    (by norm_num) (by norm_num) (K1.trans (by norm_num)) (K2.trans (by norm_num)) (by norm_num)
  have l75 : (Fl.fin 75 : D64) / 2.0 = Fl.fin (75 / 2) := by
    have h3 : binary64.rnd (75 / 2) = .fin (75 / 2) := by
      have := rnd64_dyE (x := 75 / 2) (m := 75) (e := -1) (by norm_num) (by norm_num) (by norm_num) (by norm_num)
      show rnd64 (75 / 2) = _
      rw [this]; norm_num
    rw [d_lit2, fl_div _ _ (by norm_num), h3]; rfl
  have hY' := abs_le.mp hY
  norm_num at hY'
  have hfar := bench_crossing (O := P) (w := d₁) (Y := Y) (c := 82 / 100) h.unit (by norm_num) w1 (by linarith)
    (by rw [abs_le]; constructor <;> linarith) (by linarith) (by linarith)
  obtain ⟨r, hr1, hr2, hr3⟩ := h.rem
  have h50 : (75 - P.y) / (82 / 100) ≤ 62 := by rw [div_le_iff₀ (by norm_num)]; linarith
  obtain ⟨s', P', d', t', y, r1, r2, r3, r4, r5, r6, r7, r8, r9, r10, r11, r12, r13, r14, r15, r16, r17, r18, r19⟩ :=
    relay_step (O := P) (D := d₁) (w := d₁) (X := X) (Y := 75) (Z := Z) (t := t) (ε := ε) (r := r) hL (near_dirE h.unit) H hp hK (by norm_num) w1
      (by linarith) l75 hl₂ hX hZ (by rw [show (75 : ℝ) - 25 = 25 + 25 by norm_num]; exact ht) hε h.pos h.dir h.kind hr1 (by linarith) hr3 (A := [.lens l₁])
      (B := [.detector d]) (fun x' hx' o ho => by
        rw [List.mem_singleton] at ho
        rw [ho]
        exact lens_missed hl₁ (h.gone _ h.pos h.dir) x') (fun x' hx' o ho => by
        rw [List.mem_singleton] at ho
        rw [ho]
        obtain ⟨a1, a2⟩ := far_len (O := P) (Y' := Y) (by norm_num) w1 w2 (by linarith) (by linarith) hx'
        exact detector_beyond hd hfar a1 a2 h.pos h.dir) md
  have close : ∀ K v : ℝ, |K| ≤ 511 / 100 + 25 * (48 / 100) → |v - K| ≤ 1 / 10 ^ 9 → |v| ≤ 1712 / 100 := by
    intro K v hK hv
    have := abs_add_le (v - K) K
    rw [sub_add_cancel] at this
    norm_num at hv hK
    linarith
  have mk : ∀ ε', ‖P'.toE + t' • d'.toE - (⟨-X, 75 + 25, -Z⟩ : V3 ℝ).toE‖ ≤ ε' → LeftLens s' P' d' 75 (-X) (-Z) (1712 / 100) ε' 60 := fun ε' hε' =>
    ⟨r10, r11, r12, by rw [r4]; exact h.kind, by rw [r3]; exact h.free, ⟨y, r7, by norm_num at r9; linarith, r8⟩, r14, close _ _ K1 r13,
      close _ _ K2 r15, ⟨t', r16, hε'⟩, r18⟩
  refine ⟨s', P', d', r1, r2, r6, r5, mk _ ?_, fun hoff => mk _ ?_, ?_⟩
  · rcases r17 with h | ⟨-, h⟩
    · refine h.trans ?_
      norm_num
    · exact h
  · rcases r17 with h | ⟨h, -⟩
    · exact h
    · exact absurd (off_of a1 (by linarith) hL hoff) h
  · have e1 : (75 : ℝ) - 25 = 50 := by norm_num
    have e2 : (75 : ℝ) + 25 = 100 := by norm_num
    rw [e1, e2] at r19
    exact r19

/-- The third leg. -/
theorem relay_last {X Z Y ε : ℝ} {P d₂ : V3 ℝ} (hX : |X| ≤ 51 / 10) (hZ : |Z| ≤ 51 / 10) (hY : |Y - 100| ≤ 1 / 10 ^ 12) {l₁ l₂ : Lens D64}
    {d : Detector D64} (md : D64)
    (hl₁ : Lens.new (V3.fl ⟨0, 25, 0⟩ : V3 D64) (some (V3.fl ⟨0, -1, 0⟩)) "spherical_biconvex" (some (Fl.fin 50)) none none
      (some (Fl.fin (25 / 2))) "ideal" 1.5 = .ok l₁)
    (hl₂ : Lens.new (V3.fl ⟨0, 75, 0⟩ : V3 D64) (some (V3.fl ⟨0, -1, 0⟩)) "spherical_biconvex" (some (Fl.fin 75)) none none
      (some (Fl.fin (25 / 2))) "ideal" 1.5 = .ok l₂)
    (hd : Detector.new 0 (V3.fl ⟨0, Y, 0⟩ : V3 D64) (V3.fl ⟨0, -1, 0⟩) (V3.fl ⟨0, 0, 1⟩) "rectangular_flat" (some (Fl.fin 30)) (some (Fl.fin 30)) = .ok d)
    {s : RunState D64} (h : LeftLens s P d₂ 75 X Z (1712 / 100) ε 60) (hε : ε ≤ 1 / 10 ^ 5) :
    ∃ (s' : RunState D64) (q : V3 ℝ), runStep md [.lens l₁, .lens l₂, .detector d] s = .next s' ∧
      s'.interactions = s.interactions + 1 ∧ s'.ray.blocked = true ∧ s'.log = s.log ++ [⟨0, q.fl, s.ray.wavelength⟩] ∧
      ∀ ε', LeftLens s P d₂ 75 X Z (1712 / 100) ε' 60 → ‖q.toE - (⟨X, 100, Z⟩ : V3 ℝ).toE‖ ≤ 263 / 100 * ε' + 2 / 10 ^ 11 := by
  have hu : binary64.u = 1 / 2 ^ 53 := rfl
  have hM : ‖axisOf ⟨0, -1, 0⟩‖ = 1 := dirE_norm bench_sane.pos
  obtain ⟨t, ht0, ht⟩ := h.aim
  obtain ⟨a1, a2, a3, -⟩ := aim_slopes (s := 89 / 100) ht0 h.here h.near_x h.near_z (ht.trans hε) hX hZ (by norm_num) (by norm_num) (by norm_num)
  obtain ⟨n1, n2⟩ := slopes_norm (k := 161 / 100) a1 a2 a3 (by norm_num) (by norm_num)
  obtain ⟨w1, w2⟩ := near_y (κ := 62 / 100) h.unit n2 (by norm_num) (by norm_num)
  have hO := bench_norm h.here h.near_x h.near_z (by norm_num) (by norm_num) (by norm_num)
  have hPy := abs_le.mp h.here
  norm_num at hPy
  have hY' := abs_le.mp hY
  norm_num at hY'
  have X₃ := bench_crossing (O := P) (w := d₂) (Y := Y) (c := 62 / 100) h.unit (by norm_num) w1 (by linarith)
    (by rw [abs_le]; constructor <;> linarith) (by linarith) (by linarith)
  obtain ⟨τ, hτ⟩ : ∃ τ, τ = (Y - P.y) / d₂.y := ⟨_, rfl⟩
  rw [← hτ] at X₃
  have hτ1 : 20 ≤ τ := by rw [hτ, le_div_iff₀ (by linarith)]; linarith
  have hτ2 : τ ≤ 41 := by rw [hτ, div_le_iff₀ (by linarith)]; linarith
  have hη : |inner ℝ (axisOf ⟨0, -1, 0⟩) ((⟨X, 100, Z⟩ : V3 ℝ).toE - (⟨0, Y, 0⟩ : V3 ℝ).toE)| ≤ 1 / 10 ^ 12 := by
    rw [← toE_sub, bench_inner]
    simp only [sub_y]
    rw [show -(100 - Y) = Y - 100 by ring]; exact hY
  have hland : ∀ ε', LeftLens s P d₂ 75 X Z (1712 / 100) ε' 60 →
      ‖P.toE + τ • d₂.toE - (⟨X, 100, Z⟩ : V3 ℝ).toE‖ ≤ 263 / 100 * ε' + 2 / 10 ^ 12 := by
    intro ε' h'
    obtain ⟨t, -, ht⟩ := h'.aim
    rw [show (75 : ℝ) + 25 = 100 by norm_num] at ht
    have := land_near hM (σ := -1) (κ' := 62 / 100) (by norm_num) h.unit.bounds.1 (by norm_num) (by rw [bench_inner]; linarith) ht hη X₃.meets
    have h0 : 0 ≤ ε' := (_root_.norm_nonneg _).trans ht
    norm_num at this ⊢
    linarith
  have e1 : ‖(⟨0, -1, 0⟩ : V3 ℝ).toE‖ = 1 := by rw [norm_toE]; simp [V3.norm, dot]
  have e2 : ‖(⟨0, 0, 1⟩ : V3 ℝ).toE‖ = 1 := by rw [norm_toE]; simp [V3.norm, dot]
  have s2 : SaneLength ⟨0, 0, 1⟩ := sane_of_near (by rw [e2]; norm_num)
  have u1 : unitVector (⟨0, -1, 0⟩ : V3 ℝ) = ⟨0, -1, 0⟩ := by
    rw [unitVector_eq, ← norm_toE, e1]; ext <;> simp
  have u2 : unitVector (⟨0, 0, 1⟩ : V3 ℝ) = ⟨0, 0, 1⟩ := by
    rw [unitVector_eq, ← norm_toE, e2]; ext <;> simp
  obtain ⟨hid, r, hr, rep, -⟩ := detector_reports hd
  have hBR : BuiltRectangle binary64 ⟨0, Y, 0⟩ ⟨0, -1, 0⟩ ⟨0, 0, 1⟩ (unitVector ⟨0, -1, 0⟩) 30 30 1000 (10 * binary64.u) r := by
    refine ⟨hr, s2, sane_unit bench_sane, by rw [u1]; simp [dot], ?_, by linarith [(five_u (R := binary64)).2], by norm_num, by norm_num, by norm_num,
      by norm_num⟩
    rw [unitVector_dirE, sub_self, _root_.norm_zero, hu]; norm_num
  have hl := (hland ε h).trans (show 263 / 100 * ε + 2 / 10 ^ 12 ≤ 1 by norm_num at hε ⊢; linarith)
  obtain ⟨v, hv⟩ : ∃ v : V3 ℝ, v = P + τ * d₂ - ⟨0, Y, 0⟩ := ⟨_, rfl⟩
  have hve : P.toE + τ • d₂.toE - (⟨0, Y, 0⟩ : V3 ℝ).toE = v.toE := by rw [hv, toE_sub, toE_add, toE_smul]
  rw [← toE_smul, ← toE_add, ← toE_sub] at hl
  obtain ⟨c1, -, c3⟩ := comp_le (P + τ * d₂ - ⟨X, 100, Z⟩)
  have vx : |v.x| ≤ 7 := by
    have := abs_add_le ((P + τ * d₂ - (⟨X, 100, Z⟩ : V3 ℝ)).x) X
    have e : (P + τ * d₂ - (⟨X, 100, Z⟩ : V3 ℝ)).x + X = v.x := by rw [hv]; simp only [sub_x]; ring
    rw [e] at this
    linarith
  have vz : |v.z| ≤ 7 := by
    have := abs_add_le ((P + τ * d₂ - (⟨X, 100, Z⟩ : V3 ℝ)).z) Z
    have e : (P + τ * d₂ - (⟨X, 100, Z⟩ : V3 ℝ)).z + Z = v.z := by rw [hv]; simp only [sub_z]; ring
    rw [e] at this
    linarith
  have i1 : inner ℝ (cross (unitVector (⟨0, -1, 0⟩ : V3 ℝ)) (unitVector ⟨0, 0, 1⟩)).toE v.toE = -v.x := by
    rw [u1, u2, inner_toE]; simp [dot, cross]
  have i2 : inner ℝ (unitVector (⟨0, 0, 1⟩ : V3 ℝ)).toE v.toE = v.z := by
    rw [u2, inner_toE]; simp [dot]
  obtain ⟨q, n, -, hit, eq⟩ := C111_rectangle_hit hBR X₃ (by norm_num; linarith) (by rw [hve, i1, abs_neg, hu]; norm_num; linarith)
    (by rw [hve, i2, hu]; norm_num; linarith) h.pos h.dir
  obtain ⟨x₂, hx₂, ex₂, hx₂l, -, -, hsm⟩ := X₃.distance (by linarith) eq
  obtain ⟨y, hy1, hy2, -⟩ := h.rem
  have hx₂y : x₂ ≤ y := by norm_num at hsm; linarith [(abs_le.mp ex₂).2]
  obtain ⟨g, g1, g2, hg, -⟩ := fl_floor (R := binary64)
  have hb : ∀ o ∈ [Optic.lens l₁, Optic.lens l₂], Beyond s.ray x₂ o := by
    intro o ho
    simp only [List.mem_cons, List.not_mem_nil, or_false] at ho
    rcases ho with rfl | rfl
    · refine lens_behind hl₁ (B := 1000) (c := 62 / 100) (τ := (25 - P.y) / d₂.y) bench_sane h.unit (by norm_num) ?_ ?_ (by linarith) ?_ (by norm_num) (by norm_num) ?_ ?_
        h.pos h.dir x₂
      · show _ ≤ |inner ℝ (axisOf ⟨0, -1, 0⟩) d₂.toE|
        rw [bench_inner, abs_neg, abs_of_pos (by linarith)]; exact w1
      · show _ * inner ℝ (axisOf ⟨0, -1, 0⟩) d₂.toE = inner ℝ (axisOf ⟨0, -1, 0⟩) _
        rw [← toE_sub, bench_inner, bench_inner]
        simp only [sub_y]
        field_simp
      · rw [norm_toE]; simp [V3.norm, dot]; norm_num
      · rw [div_le_iff₀ (by linarith), hu]; norm_num; linarith
      · rw [div_le_iff₀ (by linarith)]; linarith
    · exact lens_missed hl₂ (h.gone _ h.pos h.dir) x₂
  obtain ⟨s', r1, r2, r3, r4⟩ := detector_enter_among (A := [.lens l₁, .lens l₂]) (B := []) (md := md) (s := s) (x := x₂)
    (rep s.ray _ _ hit (by rw [h.pos, hx₂]; rfl)) hb (fun _ h => by cases h) h.kind (by rw [h.pos]; exact hx₂)
    (by rw [hy1, gt_iff_lt, fl_lt]; exact not_lt.mpr hx₂y) (by rw [hg, gt_iff_lt, fl_lt]; linarith)
  refine ⟨s', q, r1, r2, r3, by rw [r4, hid], fun ε' h' => ?_⟩
  have e : q.toE - (⟨X, 100, Z⟩ : V3 ℝ).toE = (q.toE - (P.toE + τ • d₂.toE)) + (P.toE + τ • d₂.toE - (⟨X, 100, Z⟩ : V3 ℝ).toE) := by abel
  have h1 := norm_add_le (q.toE - (P.toE + τ • d₂.toE)) (P.toE + τ • d₂.toE - (⟨X, 100, Z⟩ : V3 ℝ).toE)
  rw [← e] at h1
  have h2 := hland ε' h'
  rw [hu] at eq
  norm_num at eq h2 ⊢
  linarith

end Optics
