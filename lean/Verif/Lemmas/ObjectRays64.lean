import Verif.Lemmas.ImageAxis64
import Verif.Lemmas.RoundedRotation
import Verif.Lemmas.RoundedAngle

/-! # The rays of image_rays with doubles -/

namespace Optics
open V3

theorem arctan_sixteenth : 0 ≤ Real.arctan (1 / 16) ∧ Real.arctan (1 / 16) ≤ 1 / 16 := by
  have h0 : 0 ≤ Real.arctan (1 / 16) := Real.arctan_nonneg.mpr (by norm_num)
  refine ⟨h0, ?_⟩
  have := Real.le_tan h0 (Real.arctan_lt_pi_div_two _)
  rwa [Real.tan_arctan] at this

/-- The half angle `np.arctan(1 / 2 / 8)` with doubles. -/
theorem halfAngle64 : ∃ α : ℝ, PyNum.arctan2 ((1.0 : D64) / 2.0 / 8.0) 1.0 = Fl.fin α ∧ 0 ≤ α ∧ |α - Real.arctan (1 / 16)| ≤ 1 / 10 ^ 15 := by
  have hu : binary64.u = 1 / 2 ^ 53 := rfl
  have l1 : (1.0 : D64) = Fl.fin 1 := fl_lit1 binary64_one
  have l8 : (8.0 : D64) = Fl.fin 8 := by
    rw [fl_lit, show (OfScientific.ofScientific 80 true 1 : ℝ) = ((8 : ℕ) : ℝ) by norm_num, lit64 (by norm_num)]; norm_num
  have h1 : (1.0 : D64) / 2.0 / 8.0 = Fl.fin (1 / 16) := by
    have a1 : binary64.rnd (1 / 2) = .fin (1 / 2) := by
      have := rnd64_dyE (x := 1 / 2) (m := 1) (e := -1) (by norm_num) (by norm_num) (by norm_num) (by norm_num)
      show rnd64 (1 / 2) = _
      rw [this]; norm_num
    have a2 : binary64.rnd (1 / 2 / 8) = .fin (1 / 16) := by
      have := rnd64_dyE (x := 1 / 2 / 8) (m := 1) (e := -4) (by norm_num) (by norm_num) (by norm_num) (by norm_num)
      show rnd64 (1 / 2 / 8) = _
      rw [this]; norm_num
    rw [l1, d_lit2, l8, fl_div _ _ (by norm_num), a1, fl_mk, fl_div _ _ (by norm_num), a2]; rfl
  have harg : Complex.arg ⟨1, 1 / 16⟩ = Real.arctan (1 / 16) := by
    have hA2 : |Complex.arg ⟨1, 1 / 16⟩| < Real.pi / 2 := Complex.abs_arg_lt_pi_div_two_iff.mpr (.inl (by norm_num))
    have htA : Real.tan (Complex.arg ⟨1, 1 / 16⟩) = 1 / 16 := by rw [Complex.tan_arg]; norm_num
    rw [show Real.arctan (1 / 16) = Real.arctan (Real.tan (Complex.arg ⟨1, 1 / 16⟩)) by rw [htA], Real.arctan_tan (by linarith [(abs_lt.mp hA2).1]) (abs_lt.mp hA2).2]
  have hA0 : 0 ≤ Real.arctan (1 / 16) := arctan_sixteenth.1
  have hA1 : Real.arctan (1 / 16) ≤ 1 / 16 := arctan_sixteenth.2
  obtain ⟨α, hα, eα⟩ := rnd_near (R := binary64) (x := Real.arctan (1 / 16)) (e := 1 / 16) (by rw [abs_of_nonneg hA0]; exact hA1) (by norm_num)
  refine ⟨α, ?_, rnd_nonneg (R := binary64) hA0 (congrArg Fl.val hα), eα.trans (by rw [hu]; norm_num)⟩
  rw [h1, l1, fl_arctan2, harg, hα]

/-- The rays from an object, with doubles. -/
theorem objectRays64 {size : D64} {S : ℝ} (hS : 0 ≤ S) (hS10 : S ≤ 10) (hlo : -size / 2.0 = Fl.fin (-S)) (hhi : size / 2.0 = Fl.fin S)
    {xRes zRes angleRes : ℤ} (hx : 1 ≤ xRes) (hx2 : xRes ≤ 2 ^ 50) (hz : 1 ≤ zRes) (hz2 : zRes ≤ 2 ^ 50) (ha : 1 ≤ angleRes) (ha2 : angleRes ≤ 2 ^ 50) :
    ∃ rays, objectRays size xRes zRes angleRes = .ok rays ∧ rays.length = (xRes * zRes * angleRes).toNat ∧
      ∀ r ∈ rays, ∃ (i j k : ℕ) (x z θ c s : ℝ) (wl : D64), i < xRes.toNat ∧ j < zRes.toNat ∧ k < angleRes.toNat ∧
        r = Ray.new (V3.fl ⟨x, 0, z⟩) (V3.fl ⟨0, c, s⟩) wl 0.0 "normal" ∧ |x - gridPoint xRes.toNat S i| ≤ 1 / 10 ^ 13 ∧
        |z - gridPoint zRes.toNat S j| ≤ 1 / 10 ^ 13 ∧ θ = gridPoint angleRes.toNat (Real.arctan (1 / 16)) k ∧
        |c - Real.cos θ| ≤ 1 / 10 ^ 12 ∧ |s - Real.sin θ| ≤ 1 / 10 ^ 12 := by
  have hu : binary64.u = 1 / 2 ^ 53 := rfl
  obtain ⟨α, hα, hα0, eα⟩ := halfAngle64
  have hA1 : Real.arctan (1 / 16) ≤ 1 / 16 := arctan_sixteenth.2
  have hαn : -(Fl.fin α : D64) = Fl.fin (-α) := fl_neg α
  have eα' := abs_le.mp eα
  norm_num at eα'
  obtain ⟨gx, ex, bx⟩ := imageAxis64 hx hx2 hS hS10
  obtain ⟨gz, ez, bz⟩ := imageAxis64 hz hz2 hS hS10
  obtain ⟨ga, ea, ba⟩ := imageAxis64 ha ha2 hα0 (by linarith)
  obtain ⟨grid, hgrid⟩ : ∃ g : List (D64 × D64 × D64), g = ((List.range xRes.toNat).map fun i => (Fl.fin (gx i) : D64)).flatMap fun x =>
    ((List.range zRes.toNat).map fun i => (Fl.fin (gz i) : D64)).flatMap fun z =>
      ((List.range angleRes.toNat).map fun i => (Fl.fin (ga i) : D64)).map fun a => (x, z, a) := ⟨_, rfl⟩
  refine ⟨grid.map fun p => Ray.new ⟨p.1, 0.0, p.2.1⟩ ⟨0.0, PyNum.cos p.2.2, PyNum.sin p.2.2⟩
    (if p.1 * p.1 + p.2.1 * p.2.1 ≤ 5.0 * 5.0 / 4.0 then 680.0 else 450.0) 0.0 "normal", ?_, ?_, ?_⟩
  · unfold objectRays imageRays
    simp only [hlo, hhi, hα, hαn, ex, ez, ea]
    rw [hgrid]
    simp only [bind, Except.bind, pure, Except.pure, if_true, List.zip_map', List.map_map]
    rfl
  · simp only [List.length_map, hgrid, List.length_flatMap, List.map_const', List.sum_replicate, smul_eq_mul, List.length_range]
    obtain ⟨a, rfl⟩ := Int.eq_ofNat_of_zero_le (by omega : 0 ≤ xRes)
    obtain ⟨b, rfl⟩ := Int.eq_ofNat_of_zero_le (by omega : 0 ≤ zRes)
    obtain ⟨c, rfl⟩ := Int.eq_ofNat_of_zero_le (by omega : 0 ≤ angleRes)
    rw [← Int.natCast_mul, ← Int.natCast_mul]
    simp only [Int.toNat_natCast]; ring
  · intro r hr
    obtain ⟨p, hp, rfl⟩ := List.mem_map.mp hr
    simp only [hgrid, List.mem_flatMap, List.mem_map, List.mem_range] at hp
    obtain ⟨-, ⟨i, hi, rfl⟩, -, ⟨j, hj, rfl⟩, -, ⟨k, hk, rfl⟩, rfl⟩ := hp
    have hclose : |ga k - gridPoint angleRes.toNat (Real.arctan (1 / 16)) k| ≤ 2 / 10 ^ 13 := by
      have h1 := ba k hk
      have h2 : |gridPoint angleRes.toNat α k - gridPoint angleRes.toNat (Real.arctan (1 / 16)) k| ≤ 1 / 10 ^ 15 := by
        rw [gridPoint_sub]
        rcases le_total 0 (α - Real.arctan (1 / 16)) with h | h
        · exact (gridPoint_le h hk).trans ((le_abs_self _).trans eα)
        · have := gridPoint_le (s := -(α - Real.arctan (1 / 16))) (by linarith) hk
          rw [gridPoint_neg, abs_neg] at this
          exact this.trans ((neg_le_abs _).trans eα)
      have h3 := abs_add_le (ga k - gridPoint angleRes.toNat α k) (gridPoint angleRes.toNat α k - gridPoint angleRes.toNat (Real.arctan (1 / 16)) k)
      rw [sub_add_sub_cancel] at h3
      norm_num at h1 h2 h3 ⊢
      linarith
    obtain ⟨c, hc, ec⟩ := cos_near (R := binary64) hclose
    obtain ⟨s, hs, es⟩ := sin_near (R := binary64) hclose
    rw [hu] at ec es
    refine ⟨i, j, k, gx i, gz j, _, c, s, if (Fl.fin (gx i) : D64) * Fl.fin (gx i) + Fl.fin (gz j) * Fl.fin (gz j) ≤ 5.0 * 5.0 / 4.0 then 680.0 else 450.0, hi, hj, hk, ?_, bx i hi, bz j hj, rfl, ec.trans (by norm_num), es.trans (by norm_num)⟩
    dsimp only
    rw [hc, hs, fl_lit0]
    rfl

end Optics
