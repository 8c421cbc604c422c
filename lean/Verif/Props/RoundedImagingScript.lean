import Verif.Lemmas.ImagingScript
import Verif.Lemmas.ObjectRays64

/-!
# C119: script_testImaging.py with doubles
-/

namespace Optics
open V3

/-- The lens of the script is ahead of the ray and the detector behind the lens. -/
theorem bench_ahead {x z Y : ℝ} {D : V3 ℝ} (hx6 : |x| ≤ 6) (hz6 : |z| ≤ 6) (hy : 0 < D.y) (hx : |D.x| ≤ D.y / 8) (hz : |D.z| ≤ D.y / 8)
    (hY : |Y - 100| ≤ 1 / 10 ^ 12) :
    LensAhead binary64 ⟨x, 0, z⟩ D.dirE ⟨0, 50, 0⟩ ⟨0, -1, 0⟩ 25 1000 (98 / 100) 25 150 ∧
      DetectorBehind binary64 ⟨x, 0, z⟩ D.dirE ⟨0, 50, 0⟩ ⟨0, -1, 0⟩ ⟨0, Y, 0⟩ 25 1000 (98 / 100) (174 / 10) (57 / 100) (Y - 50) 150 ∧
      |inner ℝ ((⟨x, 0, z⟩ : V3 ℝ).toE - (⟨0, 50, 0⟩ : V3 ℝ).toE) (axisOf ⟨0, -1, 0⟩)| = 50 := by
  have hu : binary64.u = 1 / 2 ^ 53 := rfl
  obtain ⟨b1, b2⟩ := bench_dir hy hx hz
  have hL : 0 < ‖D.toE‖ := by linarith
  have hcr := bench_cross hy hx hz hx6 hz6
  have hY' := abs_le.mp hY
  norm_num at hY'
  have hp : |inner ℝ ((⟨x, 0, z⟩ : V3 ℝ).toE - (⟨0, 50, 0⟩ : V3 ℝ).toE) (axisOf ⟨0, -1, 0⟩)| = 50 := by
    rw [bench_axis, ← toE_sub, inner_toE]; simp [dot]
  have hO : ‖(⟨x, 0, z⟩ : V3 ℝ).toE‖ ≤ 9 := by
    refine abs_le_of_sq_le_sq' ?_ (by norm_num) |>.2
    rw [normE_sq]
    have h1 := abs_le.mp hx6
    have h2 := abs_le.mp hz6
    nlinarith
  have hP : ‖(⟨0, 50, 0⟩ : V3 ℝ).toE‖ = 50 := by rw [norm_toE]; simp [V3.norm, dot]
  have hC : ‖(⟨0, Y, 0⟩ : V3 ℝ).toE‖ ≤ 101 := by
    refine abs_le_of_sq_le_sq' ?_ (by norm_num) |>.2
    rw [normE_sq]
    nlinarith
  have hcos : 984 / 1000 ≤ D.y / ‖D.toE‖ := by
    rw [le_div_iff₀ hL]; nlinarith
  have hc0 : 0 < D.y / ‖D.toE‖ := by positivity
  refine ⟨⟨⟨by norm_num, by norm_num, by norm_num, by norm_num, by norm_num, by norm_num, by rw [hu]; norm_num⟩, by rw [hu]; norm_num, ?_, ?_, ?_, ?_, ?_,
    by norm_num, ?_, ?_, by rw [hu]; norm_num⟩, ⟨?_, ?_, ?_, by rw [hu]; norm_num, ?_, by norm_num, by norm_num, ?_, ?_, ?_⟩, hp⟩
  · rw [hP]; linarith
  · rw [bench_cos, abs_neg, abs_of_pos hc0, hu]; norm_num at hcos ⊢; linarith
  · rw [bench_cos, bench_axis, ← toE_sub, inner_toE]
    simp only [dot, sub_x, sub_y, sub_z]
    linarith
  · rw [hp]; norm_num
  · rw [hp, hu]; norm_num
  · rw [hp, hu]; norm_num at hcr ⊢; linarith
  · rw [hp, hu]; norm_num
  · rw [bench_cos, bench_axis, ← toE_sub, inner_toE]
    simp only [dot, sub_x, sub_y, sub_z]
    have : 0 < (Y - 50) * (D.y / ‖D.toE‖) := mul_pos (by linarith) hc0
    linarith
  · rw [bench_axis, ← toE_sub, inner_toE]
    simp only [dot, sub_x, sub_y, sub_z]
    rw [show (0 * (0 - 0) + -1 * (Y - 50) + 0 * (0 - 0) : ℝ) = -(Y - 50) by ring, abs_neg, abs_of_pos (by linarith)]
  · linarith
  · rw [hp, hu]; norm_num at hcr ⊢; linarith
  · rw [hp]
    have : (50 + (Y - 50)) / (98 / 100) ≤ 104 := by rw [div_le_iff₀ (by norm_num)]; linarith
    linarith
  · rw [hP]
    have : (Y - 50 + 1 / 100) / (57 / 100) ≤ 90 := by rw [div_le_iff₀ (by norm_num)]; linarith
    linarith
  · rw [hp]
    have : (Y - 50 + 1 / 100) / (57 / 100) ≤ 90 := by rw [div_le_iff₀ (by norm_num)]; linarith
    norm_num
    linarith

/-- A direction with a sizeable transverse part is not along the axis. -/
theorem bench_off {D : V3 ℝ} (hy : 0 < D.y) (hx : |D.x| ≤ D.y / 8) (hz : |D.z| ≤ D.y / 8)
    (h : 3 / 10 ^ 8 * D.y ≤ |D.x| ∨ 3 / 10 ^ 8 * D.y ≤ |D.z|) :
    2 / 10 ^ 8 + 10 * binary64.u < ‖D.dirE - axisOf ⟨0, -1, 0⟩‖ ∧ 2 / 10 ^ 8 + 10 * binary64.u < ‖D.dirE + axisOf ⟨0, -1, 0⟩‖ := by
  have hu : binary64.u = 1 / 2 ^ 53 := rfl
  obtain ⟨b1, b2⟩ := bench_dir hy hx hz
  have hL : 0 < ‖D.toE‖ := by linarith
  have big : ∀ t : ℝ, 3 / 10 ^ 8 * D.y ≤ |t| → 2 / 10 ^ 8 + 10 * binary64.u < |1 / ‖D.toE‖ * t| := by
    intro t ht
    rw [abs_mul, abs_of_pos (by positivity), one_div_mul_eq_div, lt_div_iff₀ hL, hu]
    norm_num at ht ⊢
    nlinarith
  rw [bench_axis, V3.dirE, ← toE_smul, ← toE_sub, ← toE_add]
  have c1 := comp_le ((1 / ‖D.toE‖ : ℝ) * D - ⟨0, -1, 0⟩)
  have c2 := comp_le ((1 / ‖D.toE‖ : ℝ) * D + ⟨0, -1, 0⟩)
  simp only [sub_x, sub_z, smul_x, smul_z, sub_zero] at c1
  simp only [add_x, add_z, smul_x, smul_z, add_zero] at c2
  rcases h with h | h
  · have := big _ h
    exact ⟨this.trans_le c1.1, this.trans_le c2.1⟩
  · have := big _ h
    exact ⟨this.trans_le c1.2.2, this.trans_le c2.2.2⟩

/-- **C119: script_testImaging.py with doubles.**  The scene is built, and every ray from a point `(x, 0, z)` of the object, in a direction within one
part in eight of the axis, is recorded once, within `2e-5` of the point `(-x, 100, -z)` where the thin lens equation puts the image, and within
`1e-10` of it unless the direction is within `3e-8` of the axis, where the code takes the ray for an axial one. -/
theorem C119_bench : ∃ optics, imagingScene (α := D64) = .ok optics ∧ ∀ (x z : ℝ) (D : V3 ℝ) (wl order : D64) (type : String) (fuel : ℕ),
    |x| ≤ 6 → |z| ≤ 6 → SaneLength D → 0 < D.y → |D.x| ≤ D.y / 8 → |D.z| ≤ D.y / 8 → type ≠ "faerie_fire" → 3 ≤ fuel →
    ∃ (s : RunState D64) (q : V3 ℝ), (Ray.new (V3.fl ⟨x, 0, z⟩) D.fl wl order type).run 150.0 optics none fuel = .finished s ∧
      s.interactions = 2 ∧ s.ray.blocked = true ∧ s.log = [⟨0, q.fl, wl⟩] ∧ ‖q.toE - (⟨-x, 100, -z⟩ : V3 ℝ).toE‖ ≤ 2 / 10 ^ 5 ∧
      ((3 / 10 ^ 8 * D.y ≤ |D.x| ∨ 3 / 10 ^ 8 * D.y ≤ |D.z|) → ‖q.toE - (⟨-x, 100, -z⟩ : V3 ℝ).toE‖ ≤ 1 / 10 ^ 10) := by
  have hu : binary64.u = 1 / 2 ^ 53 := rfl
  obtain ⟨Y, l, d, hY, hl, hd, hscene⟩ := imagingScene64
  refine ⟨_, hscene, ?_⟩
  intro x z D wl order type fuel hx6 hz6 hD hy hx hz htype hfuel
  obtain ⟨fuel, rfl⟩ := Nat.exists_eq_add_of_le' hfuel
  obtain ⟨H, HD, hp⟩ := bench_ahead hx6 hz6 hy hx hz hY
  have e1 : ‖(⟨0, -1, 0⟩ : V3 ℝ).toE‖ = 1 := by rw [norm_toE]; simp [V3.norm, dot]
  have e2 : ‖(⟨0, 0, 1⟩ : V3 ℝ).toE‖ = 1 := by rw [norm_toE]; simp [V3.norm, dot]
  have s1 : SaneLength ⟨0, -1, 0⟩ := sane_of_near (by rw [e1]; norm_num)
  have s2 : SaneLength ⟨0, 0, 1⟩ := sane_of_near (by rw [e2]; norm_num)
  have u1 : unitVector (⟨0, -1, 0⟩ : V3 ℝ) = ⟨0, -1, 0⟩ := by
    rw [unitVector_eq, ← norm_toE, e1]; ext <;> simp
  have u2 : unitVector (⟨0, 0, 1⟩ : V3 ℝ) = ⟨0, 0, 1⟩ := by
    rw [unitVector_eq, ← norm_toE, e2]; ext <;> simp
  have l150 : (150.0 : D64) = Fl.fin 150 := by rw [whole64 150 (by norm_num) (by norm_num)]; norm_num
  have l150' : binary64.rnd 150 = .fin 150 := by
    have := rnd64_dyE (x := 150) (m := 150) (e := 0) (by norm_num) (by norm_num) (by norm_num) (by norm_num)
    show rnd64 150 = _
    rw [this]; norm_num
  have l25 : (Fl.fin 50 : D64) / 2.0 = Fl.fin 25 := by
    have h3 : binary64.rnd (50 / 2) = .fin 25 := by
      have := rnd64_dyE (x := 50 / 2) (m := 25) (e := 0) (by norm_num) (by norm_num) (by norm_num) (by norm_num)
      show rnd64 (50 / 2) = _
      rw [this]; norm_num
    rw [d_lit2, fl_div _ _ (by norm_num), h3]; rfl
  have hI : ImageOf 25 (⟨0, 50, 0⟩ : V3 ℝ).toE (axisOf ⟨0, -1, 0⟩) (⟨x, 0, z⟩ : V3 ℝ).toE (⟨-x, 100, -z⟩ : V3 ℝ).toE := by
    refine ⟨50, by norm_num, by rw [hp]; norm_num, ?_⟩
    rw [hp, ← toE_sub, ← toE_sub, ← toE_smul]; congr 1; ext <;> simp <;> norm_num
  have hη : |inner ℝ (axisOf ⟨0, -1, 0⟩) ((⟨-x, 100, -z⟩ : V3 ℝ).toE - (⟨0, Y, 0⟩ : V3 ℝ).toE)| ≤ 1 / 10 ^ 12 := by
    rw [bench_axis, ← toE_sub, inner_toE]
    simp only [dot, sub_x, sub_y, sub_z]
    rw [show (0 * (-x - 0) + -1 * (100 - Y) + 0 * (-z - 0) : ℝ) = Y - 100 by ring]
    exact hY
  have i1 : inner ℝ (cross (unitVector (⟨0, -1, 0⟩ : V3 ℝ)) (unitVector ⟨0, 0, 1⟩)).toE ((⟨-x, 100, -z⟩ : V3 ℝ).toE - (⟨0, Y, 0⟩ : V3 ℝ).toE) = x := by
    rw [u1, u2, ← toE_sub, inner_toE]; simp [dot, cross]
  have i2 : inner ℝ (unitVector (⟨0, 0, 1⟩ : V3 ℝ)).toE ((⟨-x, 100, -z⟩ : V3 ℝ).toE - (⟨0, Y, 0⟩ : V3 ℝ).toE) = -z := by
    rw [u2, ← toE_sub, inner_toE]; simp [dot]
  have go := fun (ε E : ℝ) hε hE (hE1 : E ≤ 1) => C119_recorded (R := binary64) (D := D) (ww := none) (hh := none) (index := 1.5) (id := 0)
    (wavelength := wl) (order := order) (mi := none) (p := 50) (μ := 1) (η := 1 / 10 ^ 12) (ε := ε) (E := E) hD s1 s2 H HD l25 hl hd (by rw [u1]; simp [dot])
    (by norm_num) (by norm_num) (by norm_num) (by norm_num) htype l150' (by intro k hk; cases hk) fuel hI hp (by norm_num) hη hε hE
    (by rw [i1, hu]; norm_num; linarith) (by rw [i2, abs_neg, hu]; norm_num; linarith)
  by_cases hoff : 3 / 10 ^ 8 * D.y ≤ |D.x| ∨ 3 / 10 ^ 8 * D.y ≤ |D.z|
  · obtain ⟨o1, o2⟩ := bench_off hy hx hz hoff
    obtain ⟨s, P', q, last, r1, r2, r3, -, r5, -, r7⟩ := go (3 / 10 ^ 11) (87 / 10 ^ 12) (.inr ⟨o1, o2, by rw [hu]; norm_num⟩) (by norm_num) (by norm_num)
    rw [hu] at r7
    refine ⟨s, q, by rw [l150]; exact r1, r2, r3, r5, r7.trans (by norm_num), fun _ => r7.trans (by norm_num)⟩
  · obtain ⟨s, P', q, last, r1, r2, r3, -, r5, -, r7⟩ := go (5 / 10 ^ 6) (15 / 10 ^ 6) (.inl (by rw [hu]; norm_num)) (by norm_num) (by norm_num)
    rw [hu] at r7
    exact ⟨s, q, by rw [l150]; exact r1, r2, r3, r5, r7.trans (by norm_num), fun h => absurd h hoff⟩

/-- **C119: the whole of script_testImaging.py with doubles**, for every resolution up to `2^50`: the scene and the rays of `image_rays` are built, as
many rays as the resolutions say, and each of them is recorded exactly once.  A ray starts within `1e-13` of the point number `(i, j)` of the grid over
the object of 10 mm, and is recorded within `3e-5` of the image of that point, and within `2e-10` if its angle to the axis is more than `4e-8`. -/
theorem C119_script {xRes zRes angleRes : ℤ} (hx : 1 ≤ xRes) (hx2 : xRes ≤ 2 ^ 50) (hz : 1 ≤ zRes) (hz2 : zRes ≤ 2 ^ 50) (ha : 1 ≤ angleRes)
    (ha2 : angleRes ≤ 2 ^ 50) (fuel : ℕ) (hfuel : 3 ≤ fuel) :
    ∃ optics rays, imagingScene (α := D64) = .ok optics ∧ scriptRays (α := D64) xRes zRes angleRes = .ok rays ∧
      rays.length = (xRes * zRes * angleRes).toNat ∧
      ∀ r ∈ rays, ∃ (i j k : ℕ) (s : RunState D64) (q : V3 ℝ), i < xRes.toNat ∧ j < zRes.toNat ∧ k < angleRes.toNat ∧
        r.run 150.0 optics none fuel = .finished s ∧ s.interactions = 2 ∧ s.ray.blocked = true ∧ s.log = [⟨0, q.fl, r.wavelength⟩] ∧
        ‖q.toE - (⟨-gridPoint xRes.toNat 5 i, 100, -gridPoint zRes.toNat 5 j⟩ : V3 ℝ).toE‖ ≤ 3 / 10 ^ 5 ∧
        (4 / 10 ^ 8 ≤ |gridPoint angleRes.toNat (Real.arctan (1 / 16)) k| →
          ‖q.toE - (⟨-gridPoint xRes.toNat 5 i, 100, -gridPoint zRes.toNat 5 j⟩ : V3 ℝ).toE‖ ≤ 2 / 10 ^ 10) := by
  obtain ⟨optics, hscene, hrun⟩ := C119_bench
  have l10 : (10.0 : D64) = Fl.fin 10 := by rw [whole64 10 (by norm_num) (by norm_num)]; norm_num
  have h5 : ∀ t : ℝ, ∀ m : ℤ, t = m → |m| < 2 ^ 53 → binary64.rnd t = .fin t := by
    intro t m ht hm
    have := rnd64_dyE (x := t) (m := m) (e := 0) (by rw [ht]; norm_num) hm (by norm_num) (by norm_num)
    show rnd64 t = _
    rw [this, ht]; norm_num
  have hhi : (10.0 : D64) / 2.0 = Fl.fin 5 := by
    rw [l10, d_lit2, fl_div _ _ (by norm_num), show (10 / 2 : ℝ) = 5 by norm_num, h5 5 5 (by norm_num) (by norm_num)]; rfl
  have hlo : -(10.0 : D64) / 2.0 = Fl.fin (-5) := by
    rw [l10, d_lit2, fl_neg, fl_div _ _ (by norm_num), show (-10 / 2 : ℝ) = -5 by norm_num, h5 (-5) (-5) (by norm_num) (by norm_num)]; rfl
  obtain ⟨rays, hr, hlen, hrays⟩ := objectRays64 (by norm_num) (by norm_num) hlo hhi hx hx2 hz hz2 ha ha2
  refine ⟨optics, rays, hscene, hr, hlen, fun r hm => ?_⟩
  obtain ⟨i, j, k, x, z, θ, c, s, wl, hi, hj, hk, rfl, bx, bz, hθ, bc, bs⟩ := hrays r hm
  have hθ1 : |θ| ≤ 1 / 16 := by rw [hθ]; exact (gridPoint_le arctan_sixteenth.1 hk).trans arctan_sixteenth.2
  have gx := gridPoint_le (s := 5) (by norm_num) hi
  have gz := gridPoint_le (s := 5) (by norm_num) hj
  have hcos : 99 / 100 ≤ Real.cos θ := by
    have := Real.one_sub_sq_div_two_le_cos (x := θ)
    have h2 : θ ^ 2 ≤ (1 / 16) ^ 2 := sq_le_sq' (by linarith [(abs_le.mp hθ1).1]) (abs_le.mp hθ1).2
    norm_num at h2
    linarith
  have hcos1 := Real.cos_le_one θ
  have hsin : |Real.sin θ| ≤ |θ| := Real.abs_sin_le_abs
  have bx' := abs_le.mp bx
  have bz' := abs_le.mp bz
  have bc' := abs_le.mp bc
  have bs' := abs_le.mp bs
  have gx' := abs_le.mp gx
  have gz' := abs_le.mp gz
  have hs1 := abs_le.mp (hsin.trans hθ1)
  norm_num at bx' bz' bc' bs'
  have hslo : |Real.sin θ| - 1 / 10 ^ 12 ≤ |s| := by
    have := abs_sub_abs_le_abs_sub (Real.sin θ) s
    rw [abs_sub_comm] at this
    linarith
  have hsane : SaneLength ⟨0, c, s⟩ := by
    have hsq := normE_sq (⟨0, c, s⟩ : V3 ℝ)
    simp only at hsq
    have lo := (comp_le (⟨0, c, s⟩ : V3 ℝ)).2.1
    have lo' : (1 : ℝ) / 2 ≤ ‖(⟨0, c, s⟩ : V3 ℝ).toE‖ := le_trans (by linarith [le_abs_self c]) lo
    have hi' : ‖(⟨0, c, s⟩ : V3 ℝ).toE‖ ≤ 2 := abs_le_of_sq_le_sq' (by nlinarith) (by norm_num) |>.2
    exact ⟨le_trans (by norm_num) lo', hi'.trans (by norm_num)⟩
  obtain ⟨st, q, r1, r2, r3, r4, r5, r6⟩ := hrun x z ⟨0, c, s⟩ wl 0.0 "normal" fuel (by rw [abs_le]; constructor <;> linarith)
    (by rw [abs_le]; constructor <;> linarith) hsane (show 0 < c by linarith) (show |(0 : ℝ)| ≤ c / 8 by rw [abs_zero]; linarith)
    (show |s| ≤ c / 8 by rw [abs_le]; constructor <;> linarith) (by decide) hfuel
  have hshift : ‖(⟨-x, 100, -z⟩ : V3 ℝ).toE - (⟨-gridPoint xRes.toNat 5 i, 100, -gridPoint zRes.toNat 5 j⟩ : V3 ℝ).toE‖ ≤ 2 / 10 ^ 13 := by
    rw [← toE_sub]
    refine abs_le_of_sq_le_sq' ?_ (by norm_num) |>.2
    rw [normE_sq]
    simp only [sub_x, sub_y, sub_z]
    have s1 : (-x - -gridPoint xRes.toNat 5 i) ^ 2 ≤ (1 / 10 ^ 13) ^ 2 := by
      rw [sq_le_sq, abs_of_pos (show (0 : ℝ) < 1 / 10 ^ 13 by norm_num)]
      have e : -x - -gridPoint xRes.toNat 5 i = -(x - gridPoint xRes.toNat 5 i) := by ring
      rw [e, abs_neg]; exact bx
    have s2 : (-z - -gridPoint zRes.toNat 5 j) ^ 2 ≤ (1 / 10 ^ 13) ^ 2 := by
      rw [sq_le_sq, abs_of_pos (show (0 : ℝ) < 1 / 10 ^ 13 by norm_num)]
      have e : -z - -gridPoint zRes.toNat 5 j = -(z - gridPoint zRes.toNat 5 j) := by ring
      rw [e, abs_neg]; exact bz
    norm_num at s1 s2 ⊢
    linarith
  have htri := norm_sub_le_norm_sub_add_norm_sub q.toE (⟨-x, 100, -z⟩ : V3 ℝ).toE
    (⟨-gridPoint xRes.toNat 5 i, 100, -gridPoint zRes.toNat 5 j⟩ : V3 ℝ).toE
  refine ⟨i, j, k, st, q, hi, hj, hk, r1, r2, r3, r4, ?_, fun hbig => ?_⟩
  · norm_num at hshift r5 ⊢
    linarith
  · have h6 := r6 (.inr (by
      rw [← hθ] at hbig
      have hsinbig : 99 / 100 * |θ| ≤ |Real.sin θ| := by
        have h0 := abs_nonneg θ
        have m1 := Real.sin_ge_sub_cube h0
        have m2 : Real.sin |θ| ≤ |Real.sin θ| := by
          rcases abs_cases θ with ⟨e, -⟩ | ⟨e, -⟩ <;> rw [e]
          · exact le_abs_self _
          · rw [Real.sin_neg]; exact neg_le_abs _
        have m3 : |θ| ^ 3 ≤ (1 / 16) ^ 2 * |θ| := by
          have : |θ| ^ 2 ≤ (1 / 16) ^ 2 := pow_le_pow_left₀ h0 hθ1 2
          nlinarith
        norm_num at m3
        linarith
      norm_num at hslo hbig ⊢
      linarith))
    norm_num at hshift h6 ⊢
    linarith

end Optics
