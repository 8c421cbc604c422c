import Verif.Lemmas.RelayEnd
import Verif.Props.RoundedTrains
import Verif.Props.RoundedImagingScript

/-!
# C120: the relay of script_testIdealRelay.py, with doubles
-/

namespace Optics
open V3

/-- A pass of the loop. -/
theorem loop_step {md : D64} {optics : List (Optic D64)} {s s' : RunState D64} {y : ℝ} (hb : s.ray.blocked = false) (hr : s.remaining = Fl.fin y)
    (hy : 0 < y) (h : runStep md optics s = .next s') (fuel : ℕ) : runLoop md optics none (fuel + 1) s = runLoop md optics none fuel s' := by
  have hc : s.continues none = true := by
    unfold RunState.continues
    rw [hb, hr]
    have : (Fl.fin y : D64) > 0.0 := by rw [fl_lit0, gt_iff_lt, fl_lt]; exact hy
    simp [this]
  conv_lhs => unfold runLoop
  rw [if_pos hc, h]

theorem loop_blocked {md : D64} {optics : List (Optic D64)} {s : RunState D64} (hb : s.ray.blocked = true) (fuel : ℕ) :
    runLoop md optics none (fuel + 1) s = .finished s := by
  have hc : s.continues none = false := by
    unfold RunState.continues
    rw [hb]; simp
  unfold runLoop
  rw [hc]; simp

/-- The first lens leaves an inclined ray inclined, unless the object point and the slope happen to cancel. -/
theorem still_off {s : RunState D64} {P d : V3 ℝ} {x z sx sz : ℝ} (h : LeftLens s P d 25 (-x) (-z) (677 / 100) (4 / 10 ^ 11) 124)
    (hx : |x| ≤ 51 / 10) (hz : |z| ≤ 51 / 10) (hPx : |P.x - (x + sx)| ≤ 1 / 10 ^ 9) (hPz : |P.z - (z + sz)| ≤ 1 / 10 ^ 9)
    (hoff : 1 / 10 ^ 6 ≤ |2 * x + sx| ∨ 1 / 10 ^ 6 ≤ |2 * z + sz|) : 3 / 10 ^ 8 * d.y ≤ |d.x| ∨ 3 / 10 ^ 8 * d.y ≤ |d.z| := by
  obtain ⟨t, ht0, ht⟩ := h.aim
  rw [← toE_smul, ← toE_add, ← toE_sub] at ht
  obtain ⟨c1, c2, c3⟩ := comp_le ((P + t * d) - ⟨-x, 25 + 25, -z⟩)
  simp only [sub_x, sub_y, sub_z, add_x, add_y, add_z, smul_x, smul_y, smul_z] at c1 c2 c3
  have hy := abs_le.mp h.here
  have b2 := abs_le.mp (c2.trans ht)
  norm_num at hy b2
  have hty : t * d.y ≤ 26 := by linarith
  have side : ∀ {u v p S : ℝ}, |p - (u + S)| ≤ 1 / 10 ^ 9 → |p + t * v - -u| ≤ 4 / 10 ^ 11 → 1 / 10 ^ 6 ≤ |2 * u + S| → 3 / 10 ^ 8 * d.y ≤ |v| := by
    intro u v p S h1 h2 h3
    have h4 : 99 / 10 ^ 8 ≤ |t * v| := by
      have e : 2 * u + S = -(t * v) + ((p + t * v - -u) - (p - (u + S))) := by ring
      have e1 := abs_add_le (-(t * v)) ((p + t * v - -u) - (p - (u + S)))
      have e2 := abs_sub (p + t * v - -u) (p - (u + S))
      rw [← e, abs_neg] at e1
      have n1 : (1 : ℝ) / 10 ^ 9 + 4 / 10 ^ 11 + 99 / 10 ^ 8 ≤ 1 / 10 ^ 6 := by norm_num
      linarith
    have h5 : t * (3 / 10 ^ 8 * d.y) ≤ t * |v| := by
      rw [abs_mul, abs_of_pos ht0] at h4
      norm_num at h4 ⊢
      linarith
    exact le_of_mul_le_mul_left h5 ht0
  rcases hoff with hoff | hoff
  · exact .inl (side hPx (c1.trans ht) hoff)
  · exact .inr (side hPz (c3.trans ht) hoff)

/-- **C120: script_testIdealRelay.py with doubles.**  The scene is built, and every ray from a point `(x, 0, z)` of the object, in a direction within
one part in fifteen of the axis, passes the first lens and then the second and is recorded once, within `3e-5` of the point `(x, 100, z)`: the relay
gives an upright image of the same size.  The ray is recorded within `1e-9` of that point unless it is, at one of the lenses, so nearly parallel to the
axis that the code takes it for an axial one.  The two passes are a `LensTrain`. -/
theorem C120_bench : ∃ optics, relayScene (α := D64) = .ok optics ∧ ∀ (x z : ℝ) (D : V3 ℝ) (wl order : D64) (type : String) (fuel : ℕ),
    |x| ≤ 51 / 10 → |z| ≤ 51 / 10 → SaneLength D → 0 < D.y → |D.x| ≤ D.y / 15 → |D.z| ≤ D.y / 15 → type ≠ "faerie_fire" → 4 ≤ fuel →
    ∃ (s s₂ : RunState D64) (q : V3 ℝ), (Ray.new (V3.fl ⟨x, 0, z⟩) D.fl wl order type).run 150.0 optics none fuel = .finished s ∧
      s.interactions = 3 ∧ s.ray.blocked = true ∧ s.log = [⟨0, q.fl, wl⟩] ∧ ‖q.toE - (⟨x, 100, z⟩ : V3 ℝ).toE‖ ≤ 3 / 10 ^ 5 ∧
      ((3 / 10 ^ 8 * D.y ≤ |D.x| ∨ 3 / 10 ^ 8 * D.y ≤ |D.z|) → (1 / 10 ^ 6 ≤ |2 * x + 25 / D.y * D.x| ∨ 1 / 10 ^ 6 ≤ |2 * z + 25 / D.y * D.z|) →
        ‖q.toE - (⟨x, 100, z⟩ : V3 ℝ).toE‖ ≤ 1 / 10 ^ 9) ∧
      s₂.interactions = 2 ∧ runStep 150.0 optics s₂ = .next s ∧
      LensTrain 150.0 optics (RunState.init (Ray.new (V3.fl ⟨x, 0, z⟩) D.fl wl order type) 150.0) (⟨x, 0, z⟩ : V3 ℝ).toE 0
        s₂ (⟨x, 100, z⟩ : V3 ℝ).toE (1 / 10 ^ 5) := by
  obtain ⟨Y, l₁, l₂, d, hY, hl₁, hl₂, hd, hscene⟩ := relayScene64
  refine ⟨_, hscene, ?_⟩
  intro x z D wl order type fuel hx hz hD hy hDx hDz htype hfuel
  obtain ⟨fuel, rfl⟩ := Nat.exists_eq_add_of_le' hfuel
  have l150 : (150.0 : D64) = Fl.fin 150 := by rw [whole64 150 (by norm_num) (by norm_num)]; norm_num
  rw [l150]
  obtain ⟨s₁, P₁, d₁, a1, a2, a3, a4, a5, a6, a7, a8, a9⟩ := relay_first (wl := wl) (order := order) hx hz hD hy hDx hDz hY htype (Fl.fin 150) hl₁ hl₂ hd
  have hx' : |-x| ≤ 51 / 10 := by rw [abs_neg]; exact hx
  have hz' : |-z| ≤ 51 / 10 := by rw [abs_neg]; exact hz
  obtain ⟨s₂, P₂, d₂, b1, b2, b3, b4, b5, b6, b7⟩ := relay_second hx' hz' hY (Fl.fin 150) hl₁ hl₂ hd a5 (by norm_num)
  rw [neg_neg, neg_neg] at b5 b6 b7
  obtain ⟨s₃, q, c1, c2, c3, c4, c5⟩ := relay_last hx hz hY (Fl.fin 150) hl₁ hl₂ hd b5 (by norm_num)
  obtain ⟨y₁, hy₁, hy₁', -⟩ := a5.rem
  obtain ⟨y₂, hy₂, hy₂', -⟩ := b5.rem
  refine ⟨s₃, s₂, q, ?_, ?_, c3, ?_, (c5 _ b5).trans (by norm_num), fun o1 o2 => ?_, by rw [b2, a2], c1, a9.trans (b7 _ (by norm_num))⟩
  · unfold Ray.run
    rw [loop_step rfl rfl (by norm_num) a1, loop_step a5.free hy₁ (by linarith) b1, loop_step b5.free hy₂ (by linarith) c1, loop_blocked c3]
  · rw [c2, b2, a2]
  · rw [c4, b3, a3, b4, a4]; rfl
  · have k1 := a6 o1
    obtain ⟨s₂', P₂', d₂', b1', -, -, -, -, b6', -⟩ := relay_second hx' hz' hY (Fl.fin 150) hl₁ hl₂ hd k1 (by norm_num)
    have k2 := b6' (still_off k1 hx hz a7 a8 o2)
    rw [neg_neg, neg_neg] at k2
    obtain rfl : s₂ = s₂' := by rw [b1] at b1'; injection b1'
    obtain rfl : P₂ = P₂' := fl_injective (b5.pos.symm.trans k2.pos)
    obtain rfl : d₂ = d₂' := fl_injective (b5.dir.symm.trans k2.dir)
    exact (c5 _ k2).trans (by norm_num)

/-- **C120: the whole of script_testIdealRelay.py with doubles**, for every resolution up to `2^50`: the scene and the rays of `image_rays` are built, as
many rays as the resolutions say, and each of them is recorded exactly once.  A ray starts within `1e-13` of the point number `(i, j)` of the grid over
the object of 10 mm, and is recorded within `4e-5` of the point of the upright image that belongs to it, and within `2e-9` if its angle `θ` to the axis
is more than `4e-8` and `x` or `2 z + 25 tan θ` is more than `2e-6` in size, so that the ray is inclined between the lenses too. -/
theorem C120_script {xRes zRes angleRes : ℤ} (hx : 1 ≤ xRes) (hx2 : xRes ≤ 2 ^ 50) (hz : 1 ≤ zRes) (hz2 : zRes ≤ 2 ^ 50) (ha : 1 ≤ angleRes)
    (ha2 : angleRes ≤ 2 ^ 50) (fuel : ℕ) (hfuel : 4 ≤ fuel) :
    ∃ optics rays, relayScene (α := D64) = .ok optics ∧ scriptRays (α := D64) xRes zRes angleRes = .ok rays ∧
      rays.length = (xRes * zRes * angleRes).toNat ∧
      ∀ r ∈ rays, ∃ (i j k : ℕ) (s : RunState D64) (q : V3 ℝ), i < xRes.toNat ∧ j < zRes.toNat ∧ k < angleRes.toNat ∧
        r.run 150.0 optics none fuel = .finished s ∧ s.interactions = 3 ∧ s.ray.blocked = true ∧ s.log = [⟨0, q.fl, r.wavelength⟩] ∧
        ‖q.toE - (⟨gridPoint xRes.toNat 5 i, 100, gridPoint zRes.toNat 5 j⟩ : V3 ℝ).toE‖ ≤ 4 / 10 ^ 5 ∧
        (4 / 10 ^ 8 ≤ |gridPoint angleRes.toNat (Real.arctan (1 / 16)) k| →
          (2 / 10 ^ 6 ≤ |gridPoint xRes.toNat 5 i| ∨
            2 / 10 ^ 6 ≤ |2 * gridPoint zRes.toNat 5 j + 25 * Real.tan (gridPoint angleRes.toNat (Real.arctan (1 / 16)) k)|) →
          ‖q.toE - (⟨gridPoint xRes.toNat 5 i, 100, gridPoint zRes.toNat 5 j⟩ : V3 ℝ).toE‖ ≤ 2 / 10 ^ 9) := by
  obtain ⟨optics, hscene, hrun⟩ := C120_bench
  have l10 : (10.0 : D64) = Fl.fin 10 := by rw [whole64 10 (by norm_num) (by norm_num)]; norm_num
  have h5 : ∀ t : ℝ, ∀ m : ℤ, t = m → |m| < 2 ^ 53 → binary64.rnd t = .fin t := by
    intro t m ht hm
    have := rnd64_dyE (x := t) (m := m) (e := 0) (by rw [ht]; norm_num) hm (by norm_num) (by norm_num)
    show rnd64 t = _
    rw [this, ht]; norm_num
  have hhi : (10.0 : D64) / 2.0 = Fl.fin 5 := by
    rw [l10, d_lit2, fl_div _ _ (by norm_num), show (10 / 2 : ℝ) = 5 by norm_num, h5 5 5 (by norm_num) (by norm_num)]; rfl
  have hlo : -(10.0 : D64) / 2.0 = Fl.fin (-5) := by
    rw [l10, d_lit2, fl_neg, fl_div _ _ (by norm_num), show (-10 / 2 : ℝ) = -5 by norm_num, h5 (-5) (-5) (by norm_num) (by norm_num)]; rfl
  obtain ⟨rays, hr, hlen, hrays⟩ := objectRays64 (by norm_num) (by norm_num) hlo hhi hx hx2 hz hz2 ha ha2
  refine ⟨optics, rays, hscene, hr, hlen, fun r hm => ?_⟩
  obtain ⟨i, j, k, x, z, θ, c, s, wl, hi, hj, hk, rfl, bx, bz, hθ, bc, bs⟩ := hrays r hm
  have hθ1 : |θ| ≤ 1 / 16 := by rw [hθ]; exact (gridPoint_le arctan_sixteenth.1 hk).trans arctan_sixteenth.2
  have gx := gridPoint_le (s := 5) (by norm_num) hi
  have gz := gridPoint_le (s := 5) (by norm_num) hj
  have hcos : 99 / 100 ≤ Real.cos θ := by
    have := Real.one_sub_sq_div_two_le_cos (x := θ)
    have h2 : θ ^ 2 ≤ (1 / 16) ^ 2 := sq_le_sq' (by linarith [(abs_le.mp hθ1).1]) (abs_le.mp hθ1).2
    norm_num at h2
    linarith
  have hcos1 := Real.cos_le_one θ
  have hsin : |Real.sin θ| ≤ |θ| := Real.abs_sin_le_abs
  have bx' := abs_le.mp bx
  have bz' := abs_le.mp bz
  have bc' := abs_le.mp bc
  have bs' := abs_le.mp bs
  have gx' := abs_le.mp gx
  have gz' := abs_le.mp gz
  have hs1 := abs_le.mp (hsin.trans hθ1)
  norm_num at bx' bz' bc' bs'
  have hslo : |Real.sin θ| - 1 / 10 ^ 12 ≤ |s| := by
    have := abs_sub_abs_le_abs_sub (Real.sin θ) s
    rw [abs_sub_comm] at this
    linarith
  have hsane : SaneLength ⟨0, c, s⟩ := by
    have hsq := normE_sq (⟨0, c, s⟩ : V3 ℝ)
    simp only at hsq
    have lo := (comp_le (⟨0, c, s⟩ : V3 ℝ)).2.1
    have lo' : (1 : ℝ) / 2 ≤ ‖(⟨0, c, s⟩ : V3 ℝ).toE‖ := le_trans (by linarith [le_abs_self c]) lo
    have hi' : ‖(⟨0, c, s⟩ : V3 ℝ).toE‖ ≤ 2 := abs_le_of_sq_le_sq' (by nlinarith) (by norm_num) |>.2
    exact ⟨le_trans (by norm_num) lo', hi'.trans (by norm_num)⟩
  obtain ⟨st, -, q, r1, r2, r3, r4, r5, r6, -⟩ := hrun x z ⟨0, c, s⟩ wl 0.0 "normal" fuel (by rw [abs_le]; constructor <;> linarith)
    (by rw [abs_le]; constructor <;> linarith) hsane (show 0 < c by linarith) (show |(0 : ℝ)| ≤ c / 15 by rw [abs_zero]; linarith)
    (show |s| ≤ c / 15 by rw [abs_le]; constructor <;> linarith) (by decide) hfuel
  have hshift : ‖(⟨x, 100, z⟩ : V3 ℝ).toE - (⟨gridPoint xRes.toNat 5 i, 100, gridPoint zRes.toNat 5 j⟩ : V3 ℝ).toE‖ ≤ 2 / 10 ^ 13 := by
    rw [← toE_sub]
    refine abs_le_of_sq_le_sq' ?_ (by norm_num) |>.2
    rw [normE_sq]
    simp only [sub_x, sub_y, sub_z]
    have s1 : (x - gridPoint xRes.toNat 5 i) ^ 2 ≤ (1 / 10 ^ 13) ^ 2 := by
      rw [sq_le_sq, abs_of_pos (show (0 : ℝ) < 1 / 10 ^ 13 by norm_num)]
      exact bx
    have s2 : (z - gridPoint zRes.toNat 5 j) ^ 2 ≤ (1 / 10 ^ 13) ^ 2 := by
      rw [sq_le_sq, abs_of_pos (show (0 : ℝ) < 1 / 10 ^ 13 by norm_num)]
      exact bz
    norm_num at s1 s2 ⊢
    linarith
  have htri := norm_sub_le_norm_sub_add_norm_sub q.toE (⟨x, 100, z⟩ : V3 ℝ).toE
    (⟨gridPoint xRes.toNat 5 i, 100, gridPoint zRes.toNat 5 j⟩ : V3 ℝ).toE
  refine ⟨i, j, k, st, q, hi, hj, hk, r1, r2, r3, r4, ?_, fun hbig hoff => ?_⟩
  · norm_num at hshift r5 ⊢
    linarith
  · have h6 := r6 (.inr (by
      rw [← hθ] at hbig
      have hsinbig : 99 / 100 * |θ| ≤ |Real.sin θ| := by
        have h0 := abs_nonneg θ
        have m1 := Real.sin_ge_sub_cube h0
        have m2 : Real.sin |θ| ≤ |Real.sin θ| := by
          rcases abs_cases θ with ⟨e, -⟩ | ⟨e, -⟩ <;> rw [e]
          · exact le_abs_self _
          · rw [Real.sin_neg]; exact neg_le_abs _
        have m3 : |θ| ^ 3 ≤ (1 / 16) ^ 2 * |θ| := by
          have : |θ| ^ 2 ≤ (1 / 16) ^ 2 := pow_le_pow_left₀ h0 hθ1 2
          nlinarith
        norm_num at m3
        linarith
      norm_num at hslo hbig ⊢
      linarith)) (hoff.imp (fun h => by
        have h1 := abs_sub_abs_le_abs_sub (gridPoint xRes.toNat 5 i) x
        rw [abs_sub_comm] at h1
        simp only [mul_zero, add_zero]
        rw [abs_mul, abs_two]
        norm_num at h bx ⊢
        linarith) fun h => by
        rw [← hθ] at h
        have h1 := abs_sub_abs_le_abs_sub (2 * gridPoint zRes.toNat 5 j + 25 * Real.tan θ) (2 * z + 25 / c * s)
        have h2 : |2 * gridPoint zRes.toNat 5 j + 25 * Real.tan θ - (2 * z + 25 / c * s)| ≤ 1 / 10 ^ 9 := by
          have h3 : |Real.tan θ - s / c| ≤ 3 / 10 ^ 12 := by
            have hc0 : 0 < c := by linarith
            have e : Real.tan θ - s / c = (Real.sin θ * (c - Real.cos θ) - Real.cos θ * (s - Real.sin θ)) / (Real.cos θ * c) := by
              rw [Real.tan_eq_sin_div_cos]
              have : Real.cos θ ≠ 0 := ne_of_gt (by linarith)
              field_simp
              ring
            have e1 : |Real.sin θ * (c - Real.cos θ) - Real.cos θ * (s - Real.sin θ)| ≤ 2 / 10 ^ 12 := by
              refine (abs_sub _ _).trans ?_
              rw [abs_mul, abs_mul]
              have f1 : |Real.sin θ| * |c - Real.cos θ| ≤ 1 * (1 / 10 ^ 12) := mul_le_mul (Real.abs_sin_le_one θ) bc (abs_nonneg _) zero_le_one
              have f2 : |Real.cos θ| * |s - Real.sin θ| ≤ 1 * (1 / 10 ^ 12) := mul_le_mul (Real.abs_cos_le_one θ) bs (abs_nonneg _) zero_le_one
              norm_num at f1 f2 ⊢
              linarith
            have e2 : 9 / 10 ≤ Real.cos θ * c := by
              have : 98 / 100 ≤ c := by linarith
              nlinarith
            rw [e, abs_div, abs_of_pos (show 0 < Real.cos θ * c by linarith), div_le_iff₀ (by linarith)]
            norm_num at e1 ⊢
            linarith
          have e : 2 * gridPoint zRes.toNat 5 j + 25 * Real.tan θ - (2 * z + 25 / c * s) =
              25 * (Real.tan θ - s / c) - 2 * (z - gridPoint zRes.toNat 5 j) := by ring
          rw [e]
          refine (abs_sub _ _).trans ?_
          rw [abs_mul, abs_mul, abs_two, abs_of_pos (by norm_num : (0 : ℝ) < 25)]
          norm_num at h3 bz ⊢
          linarith
        norm_num at h h2 ⊢
        linarith)
    norm_num at hshift h6 ⊢
    linarith

end Optics
