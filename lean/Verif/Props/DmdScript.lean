import Verif.Lemmas.DmdTurns
import Verif.Props.Scripts

/-!
# C95: the micromirror script images its object onto the tilted detector
-/

namespace Optics
open V3

theorem dmdImage_eq (d : Detector ℝ) (x z : ℝ) : (dmdAt4 d (Real.sin (21.8 * Real.pi / 180)) (Real.cos (21.8 * Real.pi / 180))
    (25 / (25 + Real.sin (21.8 * Real.pi / 180) * x)) x z).point = dmdImage x z := by
  have e : deg 43.6 = 2 * (21.8 * Real.pi / 180) := by rw [deg]; ring
  have e' : deg 21.8 = 21.8 * Real.pi / 180 := rfl
  have := Real.sin_sq_add_cos_sq (21.8 * Real.pi / 180)
  ext
  · simp only [dmdAt4, dmdImage, dmdMagnification, e, e', Real.cos_two_mul]
    rw [mul_comm x (Real.sin _)]
    linear_combination (-(25 / (25 + Real.sin (21.8 * Real.pi / 180) * x) * x)) * this
  · simp only [dmdAt4, dmdImage, dmdMagnification, e, e', Real.sin_two_mul]
    rw [mul_comm x (Real.sin _)]
  · simp only [dmdAt4, dmdImage, dmdMagnification, e']
    rw [mul_comm x (Real.sin _)]

/-- The scene of the script can be built, and every ray from a point of the object towards a point of the first lens within the
aperture ends on the detector, at the image of the object point: wherever on the lens it went and whatever its wavelength. -/
theorem C95_image : ∃ optics, dmdScene (α := ℝ) = .ok optics ∧ ∀ x z p q wl k : ℝ, DmdRay x z p q → DmdClear x z p q → 0 < k →
    ∀ fuel, 5 ≤ fuel → ∃ (s : RunState XR) (r : Ray ℝ),
      (Ray.new ⟨x, 0, z⟩ (k * (⟨p - x, 100, q - z⟩ : V3 ℝ)) wl 0 "normal").lift.run (.fin 400) (optics.map Optic.lift) none fuel = .finished s ∧
      s.ray = r.lift ∧ r.position = dmdImage x z ∧ r.blocked = true ∧
      s.log = [⟨0, (dmdImage x z).lift, .fin wl⟩] ∧ s.interactions = 4 := by
  obtain ⟨M, l1, l2, d, ho, hs⟩ := dmdScene_spec
  refine ⟨_, hs, fun x z p q wl k hr hc hk fuel hfuel => ?_⟩
  have ha := DmdAngles.script
  have hb := hr.bounds ha
  have hf := ho.facts ha
  have hne : (⟨p - x, 100, q - z⟩ : V3 ℝ) ≠ ⟨0, 0, 0⟩ := e_ne (by norm_num)
  have hdir : (Ray.new (⟨x, 0, z⟩ : V3 ℝ) (k * (⟨p - x, 100, q - z⟩ : V3 ℝ)) wl 0 "normal").direction.toE
      = heading (dmdStart x z) (dmdAt1 l1 p q) := by
    show (unitVector (k * (⟨p - x, 100, q - z⟩ : V3 ℝ))).toE = _
    rw [unitVector_smul hk, unitVector_toE, heading, dist_comm, dist_eq_norm, ← toE_sub]
    have : (dmdAt1 l1 p q).point - (dmdStart x z).point = ⟨p - x, 100, q - z⟩ := by ext <;> simp [dmdAt1, dmdStart]
    rw [this]
  have hw : ∀ o ∈ [Optic.mirror M, .lens l1, .lens l2, .detector d], ∃ c n, n ≠ ⟨0, 0, 0⟩ ∧ o.IsFlat c n := by
    intro o h
    simp only [List.mem_cons, List.not_mem_nil, or_false] at h
    rcases h with rfl | rfl | rfl | rfl
    · exact ⟨_, _, nLens1, hf.fM⟩
    · exact ⟨_, _, nLens1, hf.f1⟩
    · exact ⟨_, _, nLens2 _, hf.f2⟩
    · exact ⟨_, _, nLens2 _, hf.fd⟩
  obtain ⟨b1, b2, b3, b4⟩ := dmd_lengths ha hb hf
  obtain ⟨s, r, h1, h2, -, h3, -, h4, h5, h6⟩ := C94_detected hw (Ray.new (⟨x, 0, z⟩ : V3 ℝ) (k * (⟨p - x, 100, q - z⟩ : V3 ℝ)) wl 0 "normal")
    _ _ _ _ _ (dmd_route ha hb hf hc wl 0) ⟨[_, _, _], rfl⟩ d _ (dmd_meets4 ha hb hf) rfl hdir (show "normal" ≠ "faerie_fire" by decide) rfl 400
    (by simp only [List.map_cons, List.map_nil, pathLength]; linarith) fuel hfuel
  rw [dmdImage_eq] at h3 h5
  refine ⟨s, r, h1, h2, h3, h4, ?_, h6⟩
  rw [h5, hf.id]
  rfl

/-- All 75 rays of the script: from every point of the 5 × 5 grid three rays in different directions, all of which are recorded
at the image of the point. -/
theorem C95_script : ∃ (optics : List (Optic ℝ)) (rays : List (Ray ℝ)), dmdScene = .ok optics ∧ objectRays 5.0 5 5 3 = .ok rays ∧
    rays.length = 75 ∧ ∀ r ∈ rays, ∀ fuel, 5 ≤ fuel → ∃ s : RunState XR,
      r.lift.run (.fin 400) (optics.map Optic.lift) none fuel = .finished s ∧
      s.log = [⟨0, (dmdImage r.position.x r.position.z).lift, .fin r.wavelength⟩] := by
  obtain ⟨optics, hs, H⟩ := C95_image
  obtain ⟨rays, h1, h2, h3⟩ := objectRays_spec (S := 5) (by norm_num) 5 5 3 (by norm_num) (by norm_num) (by norm_num)
  refine ⟨optics, rays, hs, ?_, h2, fun r hr fuel hfuel => ?_⟩
  · rw [← h1]
    norm_num
  obtain ⟨x, z, a, wl, rfl, -, hx, hz, hcos, htan, hgrid, -⟩ := h3 r hr
  obtain ⟨i, j, k, ei, ej, ek, i1, i2, j1, j2, k1, k2⟩ := hgrid rfl rfl rfl
  have hray : DmdRay x z x (z + 25 / 4 * k) := by
    refine ⟨hx, hz, by norm_num, ?_⟩
    have : |(k : ℝ)| ≤ 1 := by
      rw [← Int.cast_abs]
      exact_mod_cast abs_le.mpr ⟨k1, k2⟩
    have e : z + 25 / 4 * (k : ℝ) - z = 25 / 4 * k := by ring
    rw [e, abs_mul, abs_of_pos (by norm_num : (0 : ℝ) < 25 / 4)]
    linarith
  have one : ∀ n : ℤ, n ≠ 0 → 1 ≤ |(n : ℝ)| := by
    intro n hn
    rw [← Int.cast_abs]
    exact_mod_cast Int.one_le_abs hn
  have hclear : DmdClear x z x (z + 25 / 4 * k) := by
    constructor
    · rcases eq_or_ne k 0 with rfl | hk
      · exact .inl ⟨rfl, by simp⟩
      · refine .inr (.inr ?_)
        have e : z + 25 / 4 * (k : ℝ) - z = 25 / 4 * k := by ring
        rw [e, abs_mul, abs_of_pos (by norm_num : (0 : ℝ) < 25 / 4)]
        have := one k hk
        norm_num
        linarith
    · rcases eq_or_ne i 0 with rfl | hi
      · rcases eq_or_ne (2 * j + 5 * k) 0 with h | h
        · refine .inl ⟨by rw [ei]; simp, ?_⟩
          have : 2 * (j : ℝ) + 5 * k = 0 := by exact_mod_cast h
          rw [ej]
          linarith
        · refine .inr (.inr ?_)
          have e : z + 25 / 4 * (k : ℝ) + z = 5 / 4 * ((2 * j + 5 * k : ℤ) : ℝ) := by rw [ej]; push_cast; ring
          rw [e, abs_mul, abs_of_pos (by norm_num : (0 : ℝ) < 5 / 4)]
          have := one _ h
          norm_num at this ⊢
          linarith
      · refine .inr (.inl ?_)
        have e : x + x = 5 / 2 * i := by rw [ei]; ring
        rw [e, abs_mul, abs_of_pos (by norm_num : (0 : ℝ) < 5 / 2)]
        have := one _ hi
        norm_num
        linarith
  obtain ⟨s, r, g1, -, -, -, g2, -⟩ := H x z x (z + 25 / 4 * k) wl (Real.cos a / 100) hray hclear (by positivity) fuel hfuel
  refine ⟨s, ?_, g2⟩
  have e : Real.cos a / 100 * (⟨x - x, 100, z + 25 / 4 * k - z⟩ : V3 ℝ) = ⟨0, Real.cos a, Real.sin a⟩ := by
    have : Real.sin a = Real.cos a * Real.tan a := by rw [Real.tan_eq_sin_div_cos]; field_simp
    ext
    · simp
    · simp
    · simp only [smul_z]
      rw [this, ek]
      ring
  rw [← e]
  exact g1

/-- Two object points have different images: the script's picture is a picture. -/
theorem C95_injective {x z x' z' : ℝ} (hx : |x| ≤ 5 / 2) (hx' : |x'| ≤ 5 / 2) (h : dmdImage x z = dmdImage x' z') :
    x = x' ∧ z = z' := by
  have ha := DmdAngles.script
  have b := (DmdRay.bounds (x := x) (z := 0) (p := x) (q := 0) ⟨hx, by norm_num, by norm_num, by norm_num⟩ ha)
  have b' := (DmdRay.bounds (x := x') (z := 0) (p := x') (q := 0) ⟨hx', by norm_num, by norm_num, by norm_num⟩ ha)
  have e : Real.sin (deg 43.6) = 2 * Real.sin (deg 21.8) * Real.cos (deg 21.8) := by
    rw [← Real.sin_two_mul]
    congr 1
    simp only [deg]
    ring
  have h1 := ha.σlo
  have h2 := ha.κlo
  obtain ⟨b1, b2⟩ := b.hh
  obtain ⟨b3, b4⟩ := b'.hh
  change 37 / 100 ≤ Real.sin (deg 21.8) at h1
  change 92 / 100 ≤ Real.cos (deg 21.8) at h2
  change -(96 / 100) ≤ Real.sin (deg 21.8) * x at b1
  change -(96 / 100) ≤ Real.sin (deg 21.8) * x' at b3
  have hy := congrArg V3.y h
  have hz := congrArg V3.z h
  simp only [dmdImage, add_right_inj] at hy hz
  have hpos : Real.sin (deg 43.6) ≠ 0 := by
    rw [e]
    have := mul_pos (by linarith : 0 < Real.sin (deg 21.8)) (by linarith : 0 < Real.cos (deg 21.8))
    linarith
  have hy := mul_right_cancel₀ hpos hy
  unfold dmdMagnification at hy hz
  have d1 : 25 + x * Real.sin (deg 21.8) ≠ 0 := by linarith
  have d2 : 25 + x' * Real.sin (deg 21.8) ≠ 0 := by linarith
  have hxx : x = x' := by
    rw [div_mul_eq_mul_div, div_mul_eq_mul_div, div_eq_div_iff d1 d2] at hy
    linarith
  subst hxx
  refine ⟨rfl, mul_left_cancel₀ ?_ hz⟩
  exact div_ne_zero (by norm_num) d1

/-- A ray that meets the hypotheses: from (1, 0, 1) to the point (2, 100, 3) of the first lens. -/
example : DmdRay 1 1 2 3 ∧ DmdClear 1 1 2 3 := by
  refine ⟨⟨?_, ?_, ?_, ?_⟩, ⟨.inr (.inl ?_), .inr (.inl ?_)⟩⟩ <;> norm_num [abs_le]

end Optics
