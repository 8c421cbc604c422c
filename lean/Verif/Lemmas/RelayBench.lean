import Verif.Lemmas.RelayScene
import Verif.Lemmas.Refocus
import Verif.Lemmas.BeyondOptics

/-! # Rays along the bench of script_testIdealRelay.py -/

namespace Optics
open V3

theorem slopes_norm {d : V3 ℝ} {s k : ℝ} (hy : 0 < d.y) (hx : |d.x| ≤ s * d.y) (hz : |d.z| ≤ s * d.y) (hk : 0 ≤ k) (h : 1 + 2 * s ^ 2 ≤ k ^ 2) :
    d.y ≤ ‖d.toE‖ ∧ ‖d.toE‖ ≤ k * d.y := by
  have e := normE_sq d
  have h0 := _root_.norm_nonneg d.toE
  have hx2 : d.x ^ 2 ≤ (s * d.y) ^ 2 := sq_le_sq' (by linarith [(abs_le.mp hx).1]) (abs_le.mp hx).2
  have hz2 : d.z ^ 2 ≤ (s * d.y) ^ 2 := sq_le_sq' (by linarith [(abs_le.mp hz).1]) (abs_le.mp hz).2
  refine ⟨abs_le_of_sq_le_sq' (by nlinarith [sq_nonneg d.x, sq_nonneg d.z]) h0 |>.2, abs_le_of_sq_le_sq' ?_ (by positivity) |>.2⟩
  have := mul_le_mul_of_nonneg_right h (sq_nonneg d.y)
  nlinarith

/-- A stored direction is its own direction, but for some roundoffs. -/
theorem near_dirE {R : Rounding} {d : V3 ℝ} (h : NearUnit R d) : ‖d.toE - d.dirE‖ ≤ 5 * R.u := by
  have hb := h.bounds
  have h0 : 0 < ‖d.toE‖ := by linarith [hb.2]
  have e : d.toE - d.dirE = (1 - 1 / ‖d.toE‖) • d.toE := by rw [V3.dirE, sub_smul, one_smul]
  have e2 : (1 - 1 / ‖d.toE‖) * ‖d.toE‖ = ‖d.toE‖ - 1 := by field_simp
  rw [e, _root_.norm_smul, Real.norm_eq_abs, ← abs_of_pos h0, ← abs_mul, abs_of_pos h0, e2]
  exact h

theorem bench_inner (v : V3 ℝ) : inner ℝ (axisOf ⟨0, -1, 0⟩) v.toE = -v.y := by
  rw [bench_axis, inner_toE]; simp [dot]

/-- A lens of the relay ahead of a ray. -/
theorem axial_ahead {O D : V3 ℝ} {Y k κ a ρ : ℝ} (hy : 0 < D.y) (hk : ‖D.toE‖ ≤ k * D.y) (hk0 : 0 < k) (hk2 : k ≤ 2) (hκ : κ * k ≤ 999 / 1000)
    (hκ0 : 8 / 10 ≤ κ) (hκ1 : κ ≤ 1) (hL : 0 < ‖D.toE‖) (hO : ‖O.toE‖ ≤ 100) (hY : 0 ≤ Y) (hY' : Y ≤ 100) (hp : 1 ≤ Y - O.y) (hpm : Y - O.y ≤ 60)
    (ha : 1 ≤ a) (ha' : a ≤ 40)
    (cx : |O.x + (Y - O.y) / D.y * D.x| ≤ ρ) (cz : |O.z + (Y - O.y) / D.y * D.z| ≤ ρ) (hρ : 2 * ρ ^ 2 ≤ (a - 1) ^ 2) :
    LensAhead binary64 O D.dirE ⟨0, Y, 0⟩ ⟨0, -1, 0⟩ (25 / 2) 1000 κ a 150 ∧
      |inner ℝ (O.toE - (⟨0, Y, 0⟩ : V3 ℝ).toE) (axisOf ⟨0, -1, 0⟩)| = Y - O.y ∧
      O.toE + ((Y - O.y) / |inner ℝ (axisOf ⟨0, -1, 0⟩) D.dirE|) • D.dirE =
        (⟨O.x + (Y - O.y) / D.y * D.x, Y, O.z + (Y - O.y) / D.y * D.z⟩ : V3 ℝ).toE := by
  have hu : binary64.u = 1 / 2 ^ 53 := rfl
  have hκp : 0 < κ := by linarith
  have hpe : |inner ℝ (O.toE - (⟨0, Y, 0⟩ : V3 ℝ).toE) (axisOf ⟨0, -1, 0⟩)| = Y - O.y := by
    rw [real_inner_comm, ← toE_sub, bench_inner]
    simp only [sub_y]
    rw [show -(O.y - Y) = Y - O.y by ring, abs_of_pos (by linarith)]
  have hc0 : 0 < D.y / ‖D.toE‖ := by positivity
  have hcos : 1 / k ≤ D.y / ‖D.toE‖ := by rw [div_le_div_iff₀ hk0 hL]; linarith
  have hκk : κ + 1 / 10000 ≤ 1 / k := by rw [le_div_iff₀ hk0]; nlinarith
  have hcr : O.toE + ((Y - O.y) / |inner ℝ (axisOf ⟨0, -1, 0⟩) D.dirE|) • D.dirE =
      (⟨O.x + (Y - O.y) / D.y * D.x, Y, O.z + (Y - O.y) / D.y * D.z⟩ : V3 ℝ).toE := by
    rw [bench_cos, abs_neg, abs_of_pos hc0, V3.dirE, smul_smul, ← toE_smul, ← toE_add]
    have e : (Y - O.y) / (D.y / ‖D.toE‖) * (1 / ‖D.toE‖) = (Y - O.y) / D.y := by field_simp
    rw [e]
    congr 1
    ext
    · rfl
    · simp only [add_y, smul_y]; field_simp; ring
    · rfl
  have hP : ‖(⟨0, Y, 0⟩ : V3 ℝ).toE‖ = Y := by
    rw [norm_toE]; simp [V3.norm, dot]; rw [Real.sqrt_mul_self hY]
  refine ⟨⟨⟨by norm_num, by norm_num, by norm_num, by norm_num, by linarith, by linarith, ?_⟩, by rw [hu]; norm_num, ?_, ?_, ?_, ?_, ?_, by linarith,
    ?_, ?_, ?_⟩, hpe, hcr⟩
  · have : 1000 / κ ^ 2 ≤ 2000 := by rw [div_le_iff₀ (by positivity)]; nlinarith
    rw [hu]; linarith
  · rw [hP]; linarith
  · rw [bench_cos, abs_neg, abs_of_pos hc0, hu]
    have : (5 : ℝ) * (1 / 2 ^ 53) ≤ 1 / 10000 := by norm_num
    linarith
  · rw [bench_cos, ← toE_sub, bench_inner]
    simp only [sub_y]
    have : 0 < (Y - O.y) * (D.y / ‖D.toE‖) := mul_pos (by linarith) hc0
    linarith
  · rw [hpe]; linarith
  · rw [hpe]
    have : 1000 / κ ^ 2 ≤ 2000 := by rw [div_le_iff₀ (by positivity)]; nlinarith
    rw [hu]; linarith
  · rw [hpe, hcr, ← toE_sub]
    have h1 : ‖((⟨O.x + (Y - O.y) / D.y * D.x, Y, O.z + (Y - O.y) / D.y * D.z⟩ : V3 ℝ) - ⟨0, Y, 0⟩).toE‖ ≤ a - 1 := by
      refine abs_le_of_sq_le_sq' ?_ (by linarith) |>.2
      rw [normE_sq]
      simp only [sub_x, sub_y, sub_z, sub_zero, sub_self]
      have := sq_le_sq' (abs_le.mp cx).1 (abs_le.mp cx).2
      have := sq_le_sq' (abs_le.mp cz).1 (abs_le.mp cz).2
      linarith
    have : 1000 / κ ^ 2 ≤ 2000 := by rw [div_le_iff₀ (by positivity)]; nlinarith
    rw [hu]; linarith
  · rw [hpe]
    have h1 : (Y - O.y) / κ ≤ 75 := by rw [div_le_iff₀ hκp]; linarith
    have : 1000 / κ ^ 2 ≤ 2000 := by rw [div_le_iff₀ (by positivity)]; nlinarith
    rw [hu]; linarith
  · have h1 : 25 / 2 / κ ≤ 16 := by rw [div_le_iff₀ hκp]; linarith
    rw [hu]; linarith

/-- A ray that heads from a lens of the relay to within `1e-5` of a point 25 behind it. -/
theorem aim_slopes {P' d : V3 ℝ} {t y₀ X Z r s : ℝ} (ht : 0 < t) (hy : |P'.y - y₀| ≤ 1 / 10 ^ 9) (hx : |P'.x| ≤ r) (hz : |P'.z| ≤ r)
    (h : ‖P'.toE + t • d.toE - (⟨X, y₀ + 25, Z⟩ : V3 ℝ).toE‖ ≤ 1 / 10 ^ 5) (hX : |X| ≤ 51 / 10) (hZ : |Z| ≤ 51 / 10)
    (hs : r + 51 / 10 + 1 / 10 ^ 4 ≤ s * (24999 / 1000)) (hs0 : 0 ≤ s) (hs1 : s ≤ 1) :
    0 < d.y ∧ |d.x| ≤ s * d.y ∧ |d.z| ≤ s * d.y ∧ ∀ Y, |Y - (y₀ + 50)| ≤ 1 / 10 ^ 9 →
      |P'.x + (Y - P'.y) / d.y * d.x| ≤ 511 / 100 + 25 * s ∧ |P'.z + (Y - P'.y) / d.y * d.z| ≤ 511 / 100 + 25 * s := by
  rw [← toE_smul, ← toE_add, ← toE_sub] at h
  obtain ⟨c1, c2, c3⟩ := comp_le ((P' + t * d) - ⟨X, y₀ + 25, Z⟩)
  simp only [sub_x, sub_y, sub_z, add_x, add_y, add_z, smul_x, smul_y, smul_z] at c1 c2 c3
  have b2 := abs_le.mp (c2.trans h)
  have hy' := abs_le.mp hy
  norm_num at b2 hy'
  have hty : 24999 / 1000 ≤ t * d.y := by linarith
  have hty2 : t * d.y ≤ 25 + 2 / 10 ^ 5 := by norm_num; linarith
  have hd : 0 < d.y := pos_of_mul_pos_right (by linarith) ht.le
  have side : ∀ {u v W : ℝ}, |u| ≤ r → |W| ≤ 51 / 10 → |u + t * v - W| ≤ 1 / 10 ^ 5 → |v| ≤ s * d.y ∧ ∀ Y, |Y - (y₀ + 50)| ≤ 1 / 10 ^ 9 →
      |u + (Y - P'.y) / d.y * v| ≤ 511 / 100 + 25 * s := by
    intro u v W hu hW hv
    have hu' := abs_le.mp hu
    have hW' := abs_le.mp hW
    have hv' := abs_le.mp hv
    norm_num at hv' hs
    have h1 : |v| ≤ s * d.y := by
      have h2 : t * |v| ≤ t * (s * d.y) := by
        have e : t * |v| = |t * v| := by rw [abs_mul, abs_of_pos ht]
        have h3 : s * (24999 / 1000) ≤ s * (t * d.y) := mul_le_mul_of_nonneg_left hty hs0
        rw [e, abs_le]
        constructor <;> linarith
      exact le_of_mul_le_mul_left h2 ht
    refine ⟨h1, fun Y hY => ?_⟩
    have hY' := abs_le.mp hY
    norm_num at hY'
    have e : u + (Y - P'.y) / d.y * v = (u + t * v - W) + W + ((Y - P'.y) - t * d.y) * (v / d.y) := by field_simp; ring
    have h4 : |v / d.y| ≤ s := by rw [abs_div, abs_of_pos hd, div_le_iff₀ hd]; exact h1
    have h5 : |(Y - P'.y) - t * d.y| ≤ 25 + 1 / 10 ^ 4 := by
      norm_num at hty2 ⊢
      rw [abs_le]; constructor <;> linarith
    have h6 : |((Y - P'.y) - t * d.y) * (v / d.y)| ≤ (25 + 1 / 10 ^ 4) * s := by
      rw [abs_mul]; exact mul_le_mul h5 h4 (abs_nonneg _) (by norm_num)
    rw [e]
    refine (abs_add_le _ _).trans ?_
    have h7 := abs_add_le (u + t * v - W) W
    have h8 : (1 : ℝ) / 10 ^ 5 + 1 / 10 ^ 4 ≤ 1 / 1000 := by norm_num
    have h9 : (1 : ℝ) / 10 ^ 4 * s ≤ 1 / 10 ^ 4 := mul_le_of_le_one_right (by norm_num) hs1
    linarith
  obtain ⟨x1, x2⟩ := side hx hX (c1.trans h)
  obtain ⟨z1, z2⟩ := side hz hZ (c3.trans h)
  exact ⟨hd, x1, z1, fun Y hY => ⟨x2 Y hY, z2 Y hY⟩⟩

/-- A plane of the bench that the ray crosses. -/
theorem bench_crossing {O w : V3 ℝ} {Y c : ℝ} (hw : NearUnit binary64 w) (hc0 : 1 / 10 ≤ c) (hc : c ≤ w.y) (hO : ‖O.toE‖ ≤ 110) (hY : |Y| ≤ 130)
    (hp : 0 ≤ Y - O.y) (hp' : Y - O.y ≤ 101 * (5 * c)) : Crossing binary64 ⟨0, Y, 0⟩ ⟨0, -1, 0⟩ O w 1000 c ((Y - O.y) / w.y) := by
  have hu : binary64.u = 1 / 2 ^ 53 := rfl
  have e1 : ‖(⟨0, -1, 0⟩ : V3 ℝ).toE‖ = 1 := by rw [norm_toE]; simp [V3.norm, dot]
  have hwy : 0 < w.y := by linarith
  refine ⟨sane_of_near (by rw [e1]; norm_num), hw, by linarith, ?_, by positivity, ?_, ?_, by norm_num, by norm_num, by rw [hu]; norm_num⟩
  · show c ≤ |inner ℝ (axisOf ⟨0, -1, 0⟩) w.toE|
    rw [bench_inner, abs_neg, abs_of_pos hwy]; exact hc
  · show _ * inner ℝ (axisOf ⟨0, -1, 0⟩) w.toE = inner ℝ (axisOf ⟨0, -1, 0⟩) _
    rw [← toE_sub, bench_inner, bench_inner]
    simp only [sub_y]
    field_simp
  · have hP : ‖(⟨0, Y, 0⟩ : V3 ℝ).toE‖ ≤ 130 := by
      rw [norm_toE]; simp [V3.norm, dot]; rw [Real.sqrt_mul_self_eq_abs]; exact hY
    have : (Y - O.y) / w.y ≤ 505 := by rw [div_le_iff₀ hwy]; nlinarith
    linarith

end Optics
