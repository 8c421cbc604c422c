import Verif.Model.Scripts
import Verif.Props.LensTrain
import Verif.Props.Bundles

/-!
# C87: the imaging examples of the repository form the images they are meant to form
-/

namespace Optics
open V3

/-- The bench of the scripts: the `y` axis. -/
noncomputable def yBench : Bench := ⟨⟨0, 0, 0⟩, ⟨0, 1, 0⟩⟩

theorem yBench_unit : ‖yBench.axis.toE‖ = 1 := by
  rw [norm_toE, norm_eq_one_iff]; simp [yBench, dot]

theorem yBench_point (y x z : ℝ) : yBench.point y ⟨x, 0, z⟩ = ⟨x, y, z⟩ := by
  ext <;> simp [yBench, Bench.point]

theorem yBench_lens {y f D : ℝ} : ∃ l, Lens.new (⟨0, y, 0⟩ : V3 ℝ) (some ⟨0, -1, 0⟩) "spherical_biconvex" (some D) none none
    (some f) "ideal" 1.5 = .ok l ∧ (Optic.lens l).LensAt yBench ⟨y, f, D⟩ := by
  refine ⟨_, rfl, .mk (c := -1) (by norm_num) (index := 1.5) (by norm_num) (w := none) (h := none) ?_⟩
  rw [yBench_point]
  have : ((-1 : ℝ) * yBench.axis) = ⟨0, -1, 0⟩ := by ext <;> simp [yBench]
  rw [this]
  rfl

theorem yBench_detector {y w h : ℝ} (hw : 0 ≤ w) (hh : 0 ≤ h) : ∃ d, Detector.new 0 (⟨0, y, 0⟩ : V3 ℝ) ⟨0, -1, 0⟩ ⟨0, 0, 1⟩ "rectangular_flat" (some w)
    (some h) = .ok d ∧ (Optic.detector d).DetectorAt yBench y 0 ⟨0, 0, 1⟩ w h := by
  have hc : isclose (dot (unitVector (⟨0, -1, 0⟩ : V3 ℝ)) (unitVector ⟨0, 0, 1⟩)) 0.0 rtolDefault atolDefault = true := by
    have : dot (unitVector (⟨0, -1, 0⟩ : V3 ℝ)) (unitVector ⟨0, 0, 1⟩) = 0 := by
      rw [unitVector_eq, unitVector_eq, dot_smul_left, dot_smul_right]; simp [dot]
    rw [this, lit0]
    simp only [isclose]
    apply decide_eq_true
    simp only [real_abs, rtolDefault, atolDefault]
    norm_num
  obtain ⟨d, hd⟩ : ∃ d, Detector.new 0 (⟨0, y, 0⟩ : V3 ℝ) ⟨0, -1, 0⟩ ⟨0, 0, 1⟩ "rectangular_flat" (some w) (some h) = .ok d := by
    unfold Detector.new Rectangle.new
    have e : checkHAndW (some h) (some w) = .ok (h, w) := by
      simp only [checkHAndW, lit0]
      rw [if_neg (not_lt.mpr hh), if_neg (not_lt.mpr hw)]
    simp only [hc, e]
    exact ⟨_, rfl⟩
  refine ⟨d, hd, .mk (c := -1) (by norm_num) ?_ ?_ ?_⟩
  · intro h
    have := congrArg V3.z h
    norm_num at this
  · rw [inner_toE]; simp [yBench, dot]
  rw [yBench_point]
  have : ((-1 : ℝ) * yBench.axis) = ⟨0, -1, 0⟩ := by ext <;> simp [yBench]
  rw [this]
  exact hd

/-- A ray of `image_rays` on the bench. -/
theorem yBench_ray {x z a wl : ℝ} (hc : 0 < Real.cos a) :
    (BenchRay.mk 0 ⟨x, 0, z⟩ ⟨0, 0, Real.tan a⟩).Is yBench
      (Ray.new ⟨x, 0, z⟩ ⟨0, Real.cos a, Real.sin a⟩ wl 0 "normal") := by
  have hu : dot (⟨0, Real.cos a, Real.sin a⟩ : V3 ℝ) ⟨0, Real.cos a, Real.sin a⟩ = 1 := by
    simp only [dot]; nlinarith [Real.sin_sq_add_cos_sq a]
  have e : unitVector (⟨0, Real.cos a, Real.sin a⟩ : V3 ℝ) = ⟨0, Real.cos a, Real.sin a⟩ := unitVector_of_unit hu
  refine ⟨(yBench_point _ _ _).symm, ?_, ⟨Real.cos a, hc, ?_⟩, ?_, ?_⟩
  · change ‖(unitVector _).toE‖ = 1
    rw [e, norm_toE, norm_eq_one_iff, hu]
  · change unitVector _ = _
    rw [e]
    ext <;> simp [yBench]
    rw [Real.tan_eq_sin_div_cos]; field_simp
  · rw [inner_toE]; simp [yBench, dot]
  · rw [inner_toE]; simp [yBench, dot]

/-- The rays from an object. -/
theorem objectRays_spec {S : ℝ} (hS : 0 < S) (xRes zRes angleRes : Int) (hx : 1 ≤ xRes) (hz : 1 ≤ zRes) (ha : 1 ≤ angleRes) :
    ∃ rays, objectRays S xRes zRes angleRes = .ok rays ∧ rays.length = (xRes * zRes * angleRes).toNat ∧
      ∀ r ∈ rays, ∃ x z a wl, r = Ray.new ⟨x, 0, z⟩ ⟨0, Real.cos a, Real.sin a⟩ wl 0 "normal" ∧
        wl = (if x * x + z * z ≤ 25 / 4 then 680 else 450) ∧ |x| ≤ S / 2 ∧ |z| ≤ S / 2 ∧ 0 < Real.cos a ∧ |Real.tan a| ≤ 1 / 16 ∧
        (xRes = 5 → zRes = 5 → angleRes = 3 → ∃ i j k : ℤ, x = S / 4 * i ∧ z = S / 4 * j ∧ Real.tan a = 1 / 16 * k ∧
          -2 ≤ i ∧ i ≤ 2 ∧ -2 ≤ j ∧ j ≤ 2 ∧ -1 ≤ k ∧ k ≤ 1) ∧
        (xRes = 1 → x = 0) ∧ (zRes = 1 → z = 0) := by
  set A : ℝ := Complex.arg ⟨1, 1 / 16⟩ with hA
  have hA2 : |A| < Real.pi / 2 := Complex.abs_arg_lt_pi_div_two_iff.mpr (.inl (by norm_num))
  have htA : Real.tan A = 1 / 16 := by rw [hA, Complex.tan_arg]; norm_num
  have hA0 : 0 ≤ A := Complex.arg_nonneg_iff.mpr (by norm_num)
  obtain ⟨xs, ex, lx, bx, -, fx⟩ := imageAxis_spec xRes (S / 2) hx
  obtain ⟨zs, ez, lz, bz, -, fz⟩ := imageAxis_spec zRes (S / 2) hz
  obtain ⟨as, ea, la, ba, -, fa⟩ := imageAxis_spec angleRes A ha
  have n1 : -S / 2.0 = -(S / 2) := by norm_num; ring
  have n2 : S / 2.0 = S / 2 := by norm_num
  have n3 : (1.0 : ℝ) / 2.0 / 8.0 = 1 / 16 := by norm_num
  have n4 : PyNum.arctan2 ((1.0 : ℝ) / 2.0 / 8.0) 1.0 = A := by rw [n3, lit1]; rfl
  obtain ⟨grid, hgrid⟩ : ∃ g, g = xs.flatMap fun x => zs.flatMap fun z => as.map fun a => (x, z, a) := ⟨_, rfl⟩
  have hmem : ∀ p ∈ grid, p.1 ∈ xs ∧ p.2.1 ∈ zs ∧ p.2.2 ∈ as := by
    intro p hp
    simp only [hgrid, List.mem_flatMap, List.mem_map] at hp
    obtain ⟨x, hx, z, hz, a, ha, rfl⟩ := hp
    exact ⟨hx, hz, ha⟩
  refine ⟨grid.map fun p => Ray.new ⟨p.1, 0.0, p.2.1⟩ ⟨0.0, Real.cos p.2.2, Real.sin p.2.2⟩
    (if p.1 * p.1 + p.2.1 * p.2.1 ≤ 5.0 * 5.0 / 4.0 then 680.0 else 450.0) 0.0 "normal", ?_, ?_, ?_⟩
  · unfold objectRays imageRays
    simp only [n1, n2, n4, ex, ez, ea]
    rw [hgrid]
    simp only [bind, Except.bind, pure, Except.pure, if_true, List.zip_map', List.map_map]
    rfl
  · simp only [List.length_map, hgrid, List.length_flatMap, lx, lz, la, List.map_const', List.sum_replicate, smul_eq_mul]
    obtain ⟨a, rfl⟩ := Int.eq_ofNat_of_zero_le (by omega : 0 ≤ xRes)
    obtain ⟨b, rfl⟩ := Int.eq_ofNat_of_zero_le (by omega : 0 ≤ zRes)
    obtain ⟨c, rfl⟩ := Int.eq_ofNat_of_zero_le (by omega : 0 ≤ angleRes)
    rw [← Int.natCast_mul, ← Int.natCast_mul]
    simp only [Int.toNat_natCast]; ring
  · intro r hr
    obtain ⟨⟨x, z, a⟩, hp, rfl⟩ := List.mem_map.mp hr
    obtain ⟨mx, mz, ma⟩ := hmem _ hp
    have b1 := bx _ mx
    have b2 := bz _ mz
    have b3 := ba _ ma
    rw [abs_of_pos (half_pos hS)] at b1 b2
    rw [abs_of_nonneg hA0] at hA2 b3
    dsimp only at mx mz ma b1 b2 b3 ⊢
    have hl := (abs_le.mp b3).1
    have hu := (abs_le.mp b3).2
    refine ⟨x, z, a, _, by rw [lit0], by norm_num, b1, b2, Real.cos_pos_of_mem_Ioo ⟨by linarith, by linarith⟩, ?_, ?_, ?_, ?_⟩
    · rw [← htA, abs_le, ← Real.tan_neg]
      constructor
      · exact Real.strictMonoOn_tan.monotoneOn ⟨by linarith, by linarith⟩ ⟨by linarith, by linarith⟩ hl
      · exact Real.strictMonoOn_tan.monotoneOn ⟨by linarith, by linarith⟩ ⟨by linarith, by linarith⟩ hu
    · rintro rfl rfl rfl
      have five : ∀ y ∈ (List.range (5 : ℤ).toNat).map (fun i : ℕ => -(S / 2) + (i : ℝ) * (2 * (S / 2) / ((5 : ℤ).toNat - 1 : ℕ))),
          ∃ i : ℤ, y = S / 4 * i ∧ -2 ≤ i ∧ i ≤ 2 := by
        intro y hy
        obtain ⟨i, hi, rfl⟩ := List.mem_map.mp hy
        rw [List.mem_range] at hi
        have : i < 5 := hi
        refine ⟨(i : ℤ) - 2, ?_, by omega, by omega⟩
        have : (((5 : ℤ).toNat - 1 : ℕ) : ℝ) = 4 := by rw [show (5 : ℤ).toNat - 1 = 4 from rfl]; norm_num
        rw [this]; push_cast; ring
      rw [fx, if_neg (by norm_num)] at mx
      rw [fz, if_neg (by norm_num)] at mz
      rw [fa, if_neg (by norm_num)] at ma
      obtain ⟨i, hi, i1, i2⟩ := five x mx
      obtain ⟨j, hj, j1, j2⟩ := five z mz
      obtain ⟨k, hk, rfl⟩ := List.mem_map.mp ma
      rw [List.mem_range] at hk
      have hk : k < 3 := hk
      refine ⟨i, j, (k : ℤ) - 1, hi, hj, ?_, i1, i2, j1, j2, by omega, by omega⟩
      have : (((3 : ℤ).toNat - 1 : ℕ) : ℝ) = 2 := by rw [show (3 : ℤ).toNat - 1 = 2 from rfl]; norm_num
      rw [this]
      interval_cases k
      · have e : -A + ((0 : ℕ) : ℝ) * (2 * A / 2) = -A := by push_cast; ring
        rw [e, Real.tan_neg, htA]; norm_num
      · have e : -A + ((1 : ℕ) : ℝ) * (2 * A / 2) = 0 := by push_cast; ring
        rw [e, Real.tan_zero]; norm_num
      · have e : -A + ((2 : ℕ) : ℝ) * (2 * A / 2) = A := by push_cast; ring
        rw [e, htA]; norm_num
    · rintro rfl
      rw [fx, if_pos rfl] at mx
      exact List.mem_singleton.mp mx
    · rintro rfl
      rw [fz, if_pos rfl] at mz
      exact List.mem_singleton.mp mz

/-- The rays of the scripts. -/
theorem scriptRays_spec (xRes zRes angleRes : Int) (hx : 1 ≤ xRes) (hz : 1 ≤ zRes) (ha : 1 ≤ angleRes) :
    ∃ rays, scriptRays (α := ℝ) xRes zRes angleRes = .ok rays ∧ rays.length = (xRes * zRes * angleRes).toNat ∧
      ∀ r ∈ rays, ∃ x z a wl, r = Ray.new ⟨x, 0, z⟩ ⟨0, Real.cos a, Real.sin a⟩ wl 0 "normal" ∧
        wl = (if x * x + z * z ≤ 25 / 4 then 680 else 450) ∧ |x| ≤ 5 ∧ |z| ≤ 5 ∧ 0 < Real.cos a ∧ |Real.tan a| ≤ 1 / 16 ∧
        (xRes = 5 → zRes = 5 → angleRes = 3 → ∃ i j k : ℤ, x = 5 / 2 * i ∧ z = 5 / 2 * j ∧ Real.tan a = 1 / 16 * k ∧
          -2 ≤ i ∧ i ≤ 2 ∧ -2 ≤ j ∧ j ≤ 2 ∧ -1 ≤ k ∧ k ≤ 1) := by
  obtain ⟨rays, h1, h2, h3⟩ := objectRays_spec (S := 10) (by norm_num) xRes zRes angleRes hx hz ha
  have e : scriptRays (α := ℝ) xRes zRes angleRes = objectRays 10 xRes zRes angleRes := by
    rw [scriptRays]
    norm_num
  refine ⟨rays, e.trans h1, h2, fun r hr => ?_⟩
  obtain ⟨x, z, a, wl, g1, g2, g3, g4, g5, g6, g7, -⟩ := h3 r hr
  norm_num at g3 g4
  refine ⟨x, z, a, wl, g1, g2, g3, g4, g5, g6, fun h5 h6 h7 => ?_⟩
  obtain ⟨i, j, k, e1, e2, e3, e4⟩ := g7 h5 h6 h7
  exact ⟨i, j, k, by linarith, by linarith, e3, e4⟩

/-- The ray behind a lens, in coordinates. -/
theorem yBench_through (h x z ux uz : ℝ) (e : BenchLens) : ∃ vx vz,
    yBench.through ⟨h, ⟨x, 0, z⟩, ⟨ux, 0, uz⟩⟩ e
      = ⟨e.height, ⟨x + (e.height - h) * ux, 0, z + (e.height - h) * uz⟩,
          ⟨vx - 1 / e.f * (x + (e.height - h) * ux), 0, vz - 1 / e.f * (z + (e.height - h) * uz)⟩⟩ ∧
      (vx = ux ∧ vz = uz ∨ vx = 0 ∧ vz = 0 ∧ ux * ux + uz * uz ≤ 4e-16) := by
  have hat : BenchRay.at ⟨h, ⟨x, 0, z⟩, ⟨ux, 0, uz⟩⟩ e.height = ⟨x + (e.height - h) * ux, 0, z + (e.height - h) * uz⟩ := by
    ext <;> simp [BenchRay.at]
  unfold Bench.through
  dsimp only
  rw [hat]
  split_ifs with hn
  · refine ⟨0, 0, ?_, .inr ⟨rfl, rfl, ?_⟩⟩
    · congr 1
      ext <;> simp
    · have hb : dot yBench.axis yBench.axis = 1 := by have := yBench_unit; rwa [norm_toE, norm_eq_one_iff] at this
      have := nearAxis_small hb (by simp [yBench, dot]) hn
      have h2 := norm_mul_self (⟨ux, 0, uz⟩ : V3 ℝ)
      have h3 := norm_nonneg (⟨ux, 0, uz⟩ : V3 ℝ)
      simp only [dot] at h2
      norm_num at this ⊢
      nlinarith
  · refine ⟨ux, uz, ?_, .inl ⟨rfl, rfl⟩⟩
    congr 1
    ext <;> simp

theorem sq_box {t B : ℝ} (h1 : -B ≤ t) (h2 : t ≤ B) : t * t ≤ B * B := by nlinarith

theorem flat_norm_lt {x z R : ℝ} (A C : ℝ) (hR : 0 < R) (hx : -A ≤ x ∧ x ≤ A) (hz : -C ≤ z ∧ z ≤ C)
    (h : A * A + C * C < R * R) : ‖(⟨x, 0, z⟩ : V3 ℝ).toE‖ < R := by
  rw [norm_toE, norm_eq, Real.sqrt_lt' hR]
  simp only [dot]
  have := sq_box hx.1 hx.2
  have := sq_box hz.1 hz.2
  nlinarith

theorem dist_lt {p q : V3 ℝ} {R : ℝ} (A B C : ℝ) (hR : 0 < R) (hx : -A ≤ p.x - q.x ∧ p.x - q.x ≤ A)
    (hy : -B ≤ p.y - q.y ∧ p.y - q.y ≤ B) (hz : -C ≤ p.z - q.z ∧ p.z - q.z ≤ C)
    (h : A * A + B * B + C * C < R * R) : dist p.toE q.toE < R := by
  rw [dist_eq_norm, ← toE_sub, norm_toE, norm_eq, Real.sqrt_lt' hR]
  simp only [dot, sub_x, sub_y, sub_z]
  have := sq_box hx.1 hx.2
  have := sq_box hy.1 hy.2
  have := sq_box hz.1 hz.2
  nlinarith

theorem yBench_within {x z : ℝ} (hx : |x| ≤ 15) (hz : |z| ≤ 15) : yBench.Within ⟨0, 0, 1⟩ 30 30 ⟨x, 0, z⟩ := by
  have h1 : ‖(⟨0, 0, 1⟩ : V3 ℝ).toE‖ = 1 := by rw [norm_toE, norm_eq_one_iff]; simp [dot]
  unfold Bench.Within
  rw [inner_toE, inner_toE, h1]
  have e1 : dot (⟨x, 0, z⟩ : V3 ℝ) ⟨0, 0, 1⟩ = z := by simp [dot]
  have e2 : dot (⟨x, 0, z⟩ : V3 ℝ) (cross yBench.axis ⟨0, 0, 1⟩) = x := by simp [dot, cross, yBench]
  rw [e1, e2]
  constructor <;> linarith

theorem imagingScene_eq {l : Lens ℝ} {d : Detector ℝ}
    (hl : Lens.new (⟨0, 50, 0⟩ : V3 ℝ) (some ⟨0, -1, 0⟩) "spherical_biconvex" (some 50) none none (some 25) "ideal" 1.5 = .ok l)
    (hd : Detector.new 0 (⟨0, 100, 0⟩ : V3 ℝ) ⟨0, -1, 0⟩ ⟨0, 0, 1⟩ "rectangular_flat" (some 30) (some 30) = .ok d) :
    (imagingScene (α := ℝ)) = .ok [.lens l, .detector d] := by
  unfold imagingScene
  have n : (50.0 : ℝ) + 1.0 / (1.0 / 25.0 - 1.0 / (50.0 - 0.0)) = 100 := by norm_num
  have n0 : (0.0 : ℝ) = 0 := by norm_num
  have n1 : (1.0 : ℝ) = 1 := by norm_num
  have n30 : (30.0 : ℝ) = 30 := by norm_num
  have n50 : (50.0 : ℝ) = 50 := by norm_num
  have n25 : (25.0 : ℝ) = 25 := by norm_num
  simp only [n]
  simp only [n0, n1, n30, n50, n25, hl, hd]
  rfl

theorem imagingScene_ok : ∃ optics, imagingScene (α := ℝ) = .ok optics := by
  obtain ⟨l, hl, -⟩ := yBench_lens (y := 50) (f := 25) (D := 50)
  obtain ⟨d, hd, -⟩ := yBench_detector (y := 100) (w := 30) (h := 30) (by norm_num) (by norm_num)
  exact ⟨_, imagingScene_eq hl hd⟩

theorem relayScene_ok : ∃ optics, relayScene (α := ℝ) = .ok optics ∧ ∃ l1 l2 d, optics = [.lens l1, .lens l2, .detector d] ∧
    (Optic.lens l1).LensAt yBench ⟨25, 12.5, 50⟩ ∧ (Optic.lens l2).LensAt yBench ⟨75, 12.5, 75⟩ ∧
    (Optic.detector d).DetectorAt yBench 100 0 ⟨0, 0, 1⟩ 30 30 := by
  obtain ⟨l1, hl1, a1⟩ := yBench_lens (y := 25) (f := 12.5) (D := 50)
  obtain ⟨l2, hl2, a2⟩ := yBench_lens (y := 75) (f := 12.5) (D := 75)
  obtain ⟨d, hd, a3⟩ := yBench_detector (y := 100) (w := 30) (h := 30) (by norm_num) (by norm_num)
  refine ⟨[.lens l1, .lens l2, .detector d], ?_, l1, l2, d, rfl, a1, a2, a3⟩
  unfold relayScene
  have n : (75.0 : ℝ) + 1.0 / (1.0 / 12.5 - 1.0 / (75.0 - (25.0 + 1.0 / (1.0 / 12.5 - 1.0 / (25.0 - 0.0))))) = 100 := by norm_num
  have n0 : (0.0 : ℝ) = 0 := by norm_num
  have n1 : (1.0 : ℝ) = 1 := by norm_num
  have n30 : (30.0 : ℝ) = 30 := by norm_num
  have n50 : (50.0 : ℝ) = 50 := by norm_num
  have n25 : (25.0 : ℝ) = 25 := by norm_num
  have n75 : (75.0 : ℝ) = 75 := by norm_num
  simp only [n]
  simp only [n0, n1, n30, n50, n25, n75, hl1, hl2, hd]
  rfl

theorem shifted_near {x y z δ : ℝ} (h : |δ| ≤ 1e-6) : dist (⟨x, y, z + δ⟩ : V3 ℝ).toE (⟨x, y, z⟩ : V3 ℝ).toE ≤ 1e-6 := by
  rw [dist_eq_norm, ← toE_sub, norm_toE, norm_eq]
  have : dot ((⟨x, y, z + δ⟩ : V3 ℝ) - ⟨x, y, z⟩) ((⟨x, y, z + δ⟩ : V3 ℝ) - ⟨x, y, z⟩) = δ ^ 2 := by
    simp only [dot, sub_x, sub_y, sub_z]; ring
  rw [this, Real.sqrt_sq_eq_abs]
  exact h

theorem circle_iff (x z : ℝ) : x * x + z * z ≤ 25 / 4 ↔ dist (⟨x, 0, z⟩ : V3 ℝ).toE 0 ≤ 5 / 2 := by
  rw [dist_zero_right, norm_toE, norm_eq, Real.sqrt_le_left (by norm_num)]
  simp only [dot]
  constructor <;> intro h <;> nlinarith

/-- One ray of script_testImaging.py. -/
theorem imaging_ray {optics : List (Optic ℝ)} (ho : imagingScene = .ok optics) {x z a wl : ℝ} (hx : |x| ≤ 5) (hz : |z| ≤ 5)
    (hc : 0 < Real.cos a) (ht : |Real.tan a| ≤ 1 / 16) (fuel : Nat) (hf : 3 ≤ fuel) :
    ∃ (s : RunState XR) (δ : ℝ),
      (Ray.new ⟨x, 0, z⟩ ⟨0, Real.cos a, Real.sin a⟩ wl 0 "normal").lift.run (.fin 150) (optics.map Optic.lift) none fuel
        = .finished s ∧ s.log = [DetHit.lift ⟨0, ⟨-x, 100, -z + δ⟩, wl⟩] ∧ |δ| ≤ 1e-6 ∧
      (δ = 0 ∨ Real.tan a ≠ 0 ∧ |Real.tan a| ≤ 2e-8) := by
  have hx' := abs_le.mp hx
  have hz' := abs_le.mp hz
  have ht' := abs_le.mp ht
  obtain ⟨l, hl, hla⟩ := yBench_lens (y := 50) (f := 25) (D := 50)
  obtain ⟨d, hd, hda⟩ := yBench_detector (y := 100) (w := 30) (h := 30) (by norm_num) (by norm_num)
  rw [imagingScene_eq hl hd] at ho
  cases ho
  obtain ⟨T, hT⟩ : ∃ T, T = Real.tan a := ⟨_, rfl⟩
  have hq := yBench_ray (x := x) (z := z) (a := a) (wl := wl) hc
  rw [← hT] at hq ht' ⊢
  obtain ⟨vx, v, hthr, hv⟩ := yBench_through 0 x z 0 T ⟨50, 25, 50⟩
  have hvx : vx = 0 := by rcases hv with ⟨h, -⟩ | ⟨h, -⟩ <;> exact h
  subst hvx
  have hv' : v = T ∨ v = 0 ∧ |T| ≤ 2e-8 := by
    rcases hv with ⟨-, h⟩ | ⟨-, h, h2⟩
    · exact .inl h
    · refine .inr ⟨h, abs_le_of_sq_le_sq (by norm_num at h2 ⊢; nlinarith) (by norm_num)⟩
  have hv1 : -(1 / 16) ≤ v ∧ v ≤ 1 / 16 := by
    rcases hv' with rfl | ⟨rfl, -⟩
    · exact ht'
    · norm_num
  have hlast : yBench.last ⟨0, ⟨x, 0, z⟩, ⟨0, 0, T⟩⟩ [⟨50, 25, 50⟩]
      = ⟨50, ⟨x, 0, z + 50 * T⟩, ⟨-(x / 25), 0, v - (z + 50 * T) / 25⟩⟩ := by
    show yBench.through _ _ = _
    rw [hthr]
    congr 1 <;> ext <;> dsimp only <;> ring
  have hpts : yBench.points ⟨0, ⟨x, 0, z⟩, ⟨0, 0, T⟩⟩ [⟨50, 25, 50⟩] = [⟨x, 50, z + 50 * T⟩] := by
    show [yBench.point (yBench.through _ _).height (yBench.through _ _).offset] = _
    rw [hthr, yBench_point]
    congr 1
    ext <;> dsimp only <;> ring
  have hat : (yBench.last ⟨0, ⟨x, 0, z⟩, ⟨0, 0, T⟩⟩ [⟨50, 25, 50⟩]).at 100 = ⟨-x, 0, -z + 50 * (v - T)⟩ := by
    rw [hlast]
    ext <;> simp [BenchRay.at] <;> ring
  have hδ : |50 * (v - T)| ≤ 1e-6 := by
    rcases hv' with rfl | ⟨rfl, h⟩
    · norm_num
    · rw [abs_mul, zero_sub, abs_neg, abs_of_pos (by norm_num : (0 : ℝ) < 50)]
      norm_num at h ⊢; linarith
  have hδ' := abs_le.mp hδ
  norm_num at hδ'
  obtain ⟨s, r, h1, -, h3, -⟩ := C86_detected yBench yBench_unit [.lens l, .detector d] [⟨50, 25, 50⟩] 100 0 ⟨0, 0, 1⟩ 30 30
    (by norm_num) (by norm_num)
    (by
      intro o ho
      simp only [List.mem_cons, List.not_mem_nil, or_false] at ho
      rcases ho with rfl | rfl
      · exact .inl ⟨_, by simp, hla⟩
      · exact .inr hda)
    (by
      intro e he
      simp only [List.mem_cons, List.not_mem_nil, or_false] at he
      subst he
      exact ⟨_, by simp, hla⟩)
    ⟨_, by simp, hda⟩ ⟨0, ⟨x, 0, z⟩, ⟨0, 0, T⟩⟩ _ hq (by simp [Ray.new]) rfl
    (by
      refine ⟨by norm_num, by norm_num, ?_, ?_, trivial⟩
      · exact (flat_norm_lt 1 1 (by norm_num) (by constructor <;> linarith) (by constructor <;> linarith) (by norm_num)).le
      · have : BenchRay.at ⟨0, ⟨x, 0, z⟩, ⟨0, 0, T⟩⟩ 50 = ⟨x, 0, z + 50 * T⟩ := by ext <;> simp [BenchRay.at]
        rw [this]
        exact (flat_norm_lt 5 9 (by norm_num) (by constructor <;> linarith) (by constructor <;> linarith) (by norm_num)))
    (by rw [hlast]; norm_num)
    (by rw [hlast]; exact (flat_norm_lt 1 1 (by norm_num) (by constructor <;> linarith) (by constructor <;> linarith) (by norm_num)).le)
    (by rw [hat]; exact yBench_within (by rw [abs_le]; constructor <;> linarith) (by rw [abs_le]; constructor <;> linarith))
    150
    (by
      rw [hat, hpts, yBench_point]
      show dist (⟨x, 0, z⟩ : V3 ℝ).toE _ + (dist _ _ + 0) ≤ 150
      have d1 : dist (⟨x, 0, z⟩ : V3 ℝ).toE (⟨x, 50, z + 50 * T⟩ : V3 ℝ).toE < 75 :=
        dist_lt 11 51 21 (by norm_num) (by dsimp only; constructor <;> linarith)
          (by dsimp only; constructor <;> linarith) (by dsimp only; constructor <;> linarith) (by norm_num)
      have d2 : dist (⟨x, 50, z + 50 * T⟩ : V3 ℝ).toE (⟨-x, 100, -z + 50 * (v - T)⟩ : V3 ℝ).toE < 75 :=
        dist_lt 11 51 21 (by norm_num) (by dsimp only; constructor <;> linarith)
          (by dsimp only; constructor <;> linarith) (by dsimp only; constructor <;> linarith) (by norm_num)
      linarith)
    fuel hf
  refine ⟨s, 50 * (v - T), h1, ?_, hδ, ?_⟩
  · rw [h3, hat, yBench_point]; rfl
  · rcases hv' with rfl | ⟨rfl, h⟩
    · left; ring
    · by_cases h0 : T = 0
      · left; rw [h0]; ring
      · exact .inr ⟨h0, h⟩

/-- One ray of script_testIdealRelay.py. -/
theorem relay_ray {optics : List (Optic ℝ)} (ho : relayScene = .ok optics) {x z a wl : ℝ} (hx : |x| ≤ 5) (hz : |z| ≤ 5)
    (hc : 0 < Real.cos a) (ht : |Real.tan a| ≤ 1 / 16) (fuel : Nat) (hf : 4 ≤ fuel) :
    ∃ (s : RunState XR) (p : V3 ℝ),
      (Ray.new ⟨x, 0, z⟩ ⟨0, Real.cos a, Real.sin a⟩ wl 0 "normal").lift.run (.fin 150) (optics.map Optic.lift) none fuel
        = .finished s ∧ s.log = [DetHit.lift ⟨0, p, wl⟩] ∧ dist p.toE (⟨x, 100, z⟩ : V3 ℝ).toE ≤ 1e-6 ∧
      ((|Real.tan a| ≤ 2e-8 → Real.tan a = 0) →
        ((x / 12.5) * (x / 12.5) + (z / 12.5 + Real.tan a) * (z / 12.5 + Real.tan a) ≤ 4e-16 → x = 0 ∧ z / 12.5 + Real.tan a = 0) →
        p = ⟨x, 100, z⟩) := by
  have hx' := abs_le.mp hx
  have hz' := abs_le.mp hz
  have ht' := abs_le.mp ht
  obtain ⟨optics', ho', l1, l2, d, rfl, a1, a2, a3⟩ := relayScene_ok
  rw [ho'] at ho
  cases ho
  obtain ⟨T, hT⟩ : ∃ T, T = Real.tan a := ⟨_, rfl⟩
  have hq := yBench_ray (x := x) (z := z) (a := a) (wl := wl) hc
  rw [← hT] at hq ht' ⊢
  obtain ⟨vx, v, hthr, hv⟩ := yBench_through 0 x z 0 T ⟨25, 12.5, 50⟩
  have hvx : vx = 0 := by rcases hv with ⟨h, -⟩ | ⟨h, -⟩ <;> exact h
  subst hvx
  have hv' : v = T ∨ v = 0 ∧ |T| ≤ 2e-8 := by
    rcases hv with ⟨-, h⟩ | ⟨-, h, h2⟩
    · exact .inl h
    · refine .inr ⟨h, abs_le_of_sq_le_sq (by norm_num at h2 ⊢; nlinarith) (by norm_num)⟩
  have hv1 : -(1 / 16) ≤ v ∧ v ≤ 1 / 16 := by
    rcases hv' with rfl | ⟨rfl, -⟩
    · exact ht'
    · norm_num
  have hthr1 : yBench.through ⟨0, ⟨x, 0, z⟩, ⟨0, 0, T⟩⟩ ⟨25, 12.5, 50⟩
      = ⟨25, ⟨x, 0, z + 25 * T⟩, ⟨-(x / 12.5), 0, v - (z + 25 * T) / 12.5⟩⟩ := by
    rw [hthr]
    congr 1 <;> ext <;> dsimp only <;> ring
  obtain ⟨wx, w, hthr2, hw⟩ := yBench_through 25 x (z + 25 * T) (-(x / 12.5)) (v - (z + 25 * T) / 12.5) ⟨75, 12.5, 75⟩
  obtain ⟨α, hα⟩ : ∃ α, α = 50 * v - 3 * (z + 25 * T) := ⟨_, rfl⟩
  have hthr3 : yBench.through ⟨25, ⟨x, 0, z + 25 * T⟩, ⟨-(x / 12.5), 0, v - (z + 25 * T) / 12.5⟩⟩ ⟨75, 12.5, 75⟩
      = ⟨75, ⟨-(3 * x), 0, α⟩, ⟨wx + 3 * x / 12.5, 0, w - α / 12.5⟩⟩ := by
    rw [hthr2, hα]
    congr 1 <;> ext <;> dsimp only <;> ring
  have hlast : yBench.last ⟨0, ⟨x, 0, z⟩, ⟨0, 0, T⟩⟩ [⟨25, 12.5, 50⟩, ⟨75, 12.5, 75⟩]
      = ⟨75, ⟨-(3 * x), 0, α⟩, ⟨wx + 3 * x / 12.5, 0, w - α / 12.5⟩⟩ := by
    show yBench.through (yBench.through _ _) _ = _
    rw [hthr1, hthr3]
  have hpts : yBench.points ⟨0, ⟨x, 0, z⟩, ⟨0, 0, T⟩⟩ [⟨25, 12.5, 50⟩, ⟨75, 12.5, 75⟩]
      = [⟨x, 25, z + 25 * T⟩, ⟨-(3 * x), 75, α⟩] := by
    show [yBench.point (yBench.through _ _).height (yBench.through _ _).offset,
      yBench.point (yBench.through (yBench.through _ _) _).height (yBench.through (yBench.through _ _) _).offset] = _
    rw [hthr1, hthr3, yBench_point, yBench_point]
  have hat : (yBench.last ⟨0, ⟨x, 0, z⟩, ⟨0, 0, T⟩⟩ [⟨25, 12.5, 50⟩, ⟨75, 12.5, 75⟩]).at 100
      = ⟨3 * x + 25 * wx, 0, 25 * w - α⟩ := by
    rw [hlast]
    ext <;> simp [BenchRay.at] <;> ring
  have hsp := C86_spread yBench yBench_unit 100 [⟨25, 12.5, 50⟩, ⟨75, 12.5, 75⟩] ⟨0, ⟨x, 0, z⟩, ⟨0, 0, T⟩⟩
    (by rw [inner_toE]; simp [yBench, dot]) (by rw [inner_toE]; simp [yBench, dot])
  have hM := C86_relay ⟨25, 12.5, 50⟩ ⟨75, 12.5, 75⟩ 25 25 25 25 (by norm_num) (by norm_num) (by norm_num) (by norm_num)
    (by norm_num) (by norm_num) (by norm_num)
  have m1 : (25 : ℝ) - 25 = 0 := by norm_num
  have m2 : (75 : ℝ) + 25 = 100 := by norm_num
  dsimp only at hM
  rw [m1, m2] at hM
  have hS : slopeSensitivity 100 [⟨25, 12.5, 50⟩, ⟨75, 12.5, 75⟩] = 50 := by
    simp [slopeSensitivity, transferMatrix, Matrix.mul_apply, Fin.sum_univ_two, lensMatrix, flightMatrix]
    norm_num
  have hpred : (⟨3 * x + 25 * wx, 0, 25 * w - α⟩ : V3 ℝ) - ((25 / 25 * (25 / 25) : ℝ) * (⟨x, 0, z⟩ : V3 ℝ) + (0 : ℝ) * (⟨0, 0, T⟩ : V3 ℝ))
      = ⟨2 * x + 25 * wx, 0, 25 * w - α - z⟩ := by
    ext <;> simp
    ring
  dsimp only at hsp
  rw [hat, hM.1, hM.2, hS, hpred] at hsp
  have hsq : (2 * x + 25 * wx) * (2 * x + 25 * wx) + (25 * w - α - z) * (25 * w - α - z) ≤ 1e-12 := by
    rw [norm_toE, norm_eq, Real.sqrt_le_left (by norm_num)] at hsp
    simp only [dot] at hsp
    norm_num at hsp ⊢
    linarith
  have o1 : |2 * x + 25 * wx| ≤ 1e-6 := abs_le_of_sq_le_sq
    (by norm_num at hsq ⊢; nlinarith [mul_self_nonneg (25 * w - α - z)]) (by norm_num)
  have o2 : |25 * w - α - z| ≤ 1e-6 := abs_le_of_sq_le_sq
    (by norm_num at hsq ⊢; nlinarith [mul_self_nonneg (2 * x + 25 * wx)]) (by norm_num)
  have o1' := abs_le.mp o1
  have o2' := abs_le.mp o2
  norm_num at o1' o2'
  have n125 : (12.5 : ℝ) = 25 / 2 := by norm_num
  have hα' : -23 ≤ α ∧ α ≤ 23 := by constructor <;> linarith
  obtain ⟨s, r, h1, -, h3, -⟩ := C86_detected yBench yBench_unit [.lens l1, .lens l2, .detector d]
    [⟨25, 12.5, 50⟩, ⟨75, 12.5, 75⟩] 100 0 ⟨0, 0, 1⟩ 30 30
    (by norm_num) (by norm_num)
    (by
      intro o ho
      simp only [List.mem_cons, List.not_mem_nil, or_false] at ho
      rcases ho with rfl | rfl | rfl
      · exact .inl ⟨_, by simp, a1⟩
      · exact .inl ⟨⟨75, 12.5, 75⟩, by simp, a2⟩
      · exact .inr a3)
    (by
      intro e he
      simp only [List.mem_cons, List.not_mem_nil, or_false] at he
      rcases he with rfl | rfl
      · exact ⟨_, by simp, a1⟩
      · exact ⟨.lens l2, by simp, a2⟩)
    ⟨_, by simp, a3⟩ ⟨0, ⟨x, 0, z⟩, ⟨0, 0, T⟩⟩ _ hq (by simp [Ray.new]) rfl
    (by
      refine ⟨by norm_num, by norm_num, ?_, ?_, ?_⟩
      · exact (flat_norm_lt 1 1 (by norm_num) (by constructor <;> linarith) (by constructor <;> linarith) (by norm_num)).le
      · have : BenchRay.at ⟨0, ⟨x, 0, z⟩, ⟨0, 0, T⟩⟩ 25 = ⟨x, 0, z + 25 * T⟩ := by ext <;> simp [BenchRay.at]
        rw [this]
        exact (flat_norm_lt 5 9 (by norm_num) (by constructor <;> linarith) (by constructor <;> linarith) (by norm_num))
      · rw [hthr1]
        refine ⟨by norm_num, by norm_num, ?_, ?_, trivial⟩
        · rw [n125]
          exact (flat_norm_lt 1 1 (by norm_num) (by constructor <;> linarith) (by constructor <;> linarith) (by norm_num)).le
        · have : BenchRay.at ⟨25, ⟨x, 0, z + 25 * T⟩, ⟨-(x / 12.5), 0, v - (z + 25 * T) / 12.5⟩⟩ 75 = ⟨-(3 * x), 0, α⟩ := by
            rw [hα]
            ext <;> simp [BenchRay.at] <;> ring
          rw [this]
          exact (flat_norm_lt 15 23 (by norm_num) (by constructor <;> linarith) (by constructor <;> linarith) (by norm_num)))
    (by rw [hlast]; norm_num)
    (by
      rw [hlast]
      rw [n125]
      exact (flat_norm_lt 100 100 (by norm_num) (by constructor <;> linarith) (by constructor <;> linarith) (by norm_num)).le)
    (by
      rw [hat]
      exact yBench_within (by rw [abs_le]; constructor <;> linarith) (by rw [abs_le]; constructor <;> linarith))
    150
    (by
      rw [hat, hpts, yBench_point]
      show dist (⟨x, 0, z⟩ : V3 ℝ).toE _ + (dist _ _ + (dist _ _ + 0)) ≤ 150
      have d1 : dist (⟨x, 0, z⟩ : V3 ℝ).toE (⟨x, 25, z + 25 * T⟩ : V3 ℝ).toE < 30 :=
        dist_lt 1 25 2 (by norm_num) (by dsimp only; constructor <;> linarith) (by dsimp only; constructor <;> linarith) (by dsimp only; constructor <;> linarith) (by norm_num)
      have d2 : dist (⟨x, 25, z + 25 * T⟩ : V3 ℝ).toE (⟨-(3 * x), 75, α⟩ : V3 ℝ).toE < 65 :=
        dist_lt 20 50 30 (by norm_num) (by dsimp only; constructor <;> linarith) (by dsimp only; constructor <;> linarith) (by dsimp only; constructor <;> linarith) (by norm_num)
      have d3 : dist (⟨-(3 * x), 75, α⟩ : V3 ℝ).toE (⟨3 * x + 25 * wx, 100, 25 * w - α⟩ : V3 ℝ).toE < 50 :=
        dist_lt 21 25 29 (by norm_num) (by dsimp only; constructor <;> linarith) (by dsimp only; constructor <;> linarith) (by dsimp only; constructor <;> linarith) (by norm_num)
      linarith)
    fuel hf
  rw [hat, yBench_point] at h3
  refine ⟨s, _, h1, h3, ?_, ?_⟩
  · rw [dist_eq_norm, ← toE_sub, norm_toE, norm_eq, Real.sqrt_le_left (by norm_num)]
    simp only [dot, sub_x, sub_y, sub_z]
    norm_num at hsq ⊢
    nlinarith
  · intro c1 c2
    have hvT : v = T := by
      rcases hv' with h | ⟨h, h'⟩
      · exact h
      · rw [h, c1 h']
    subst hvT
    have : wx = -(x / 12.5) ∧ w = v - (z + 25 * v) / 12.5 := by
      rcases hw with h | ⟨h, h', h''⟩
      · exact h
      · obtain ⟨g1, g2⟩ := c2 (by
          refine le_trans (le_of_eq ?_) h''
          ring)
        rw [h, h']
        constructor
        · rw [g1]; norm_num
        · have : v - (z + 25 * v) / 12.5 = -(z / 12.5 + v) := by ring
          rw [this, g2, neg_zero]
    rw [this.1, this.2, hα]
    ext <;> dsimp only <;> ring

/-- C87: script_testImaging.py, with any resolution of the object: the script runs without an exception, and every ray is
recorded by the detector, once, with its wavelength, within `1e-6` of the image of its origin, which is inverted and of the
same size. -/
theorem C87_imaging (xRes zRes angleRes : Int) (hx : 1 ≤ xRes) (hz : 1 ≤ zRes) (ha : 1 ≤ angleRes) (fuel : Nat)
    (hf : 3 ≤ fuel) :
    ∃ optics rays, imagingScene (α := ℝ) = .ok optics ∧ scriptRays (α := ℝ) xRes zRes angleRes = .ok rays ∧
      rays.length = (xRes * zRes * angleRes).toNat ∧
      ∀ r ∈ rays, ∃ (s : RunState XR) (p : V3 ℝ), r.lift.run (.fin 150) (optics.map Optic.lift) none fuel = .finished s ∧
        s.log = [DetHit.lift ⟨0, p, r.wavelength⟩] ∧
        dist p.toE (⟨-r.position.x, 100, -r.position.z⟩ : V3 ℝ).toE ≤ 1e-6 := by
  obtain ⟨rays, hr, hlen, hrays⟩ := scriptRays_spec xRes zRes angleRes hx hz ha
  obtain ⟨optics, ho⟩ := imagingScene_ok
  refine ⟨optics, rays, ho, hr, hlen, fun r hm => ?_⟩
  obtain ⟨x, z, a, wl, rfl, -, h1, h2, h3, h4, -⟩ := hrays r hm
  obtain ⟨s, δ, e1, e2, e3, -⟩ := imaging_ray ho h1 h2 h3 h4 (wl := wl) fuel hf
  exact ⟨s, _, e1, e2, shifted_near e3⟩

/-- C87: with the resolution of the script the image is exact. -/
theorem C87_imaging_exact (fuel : Nat) (hf : 3 ≤ fuel) :
    ∃ optics rays, imagingScene (α := ℝ) = .ok optics ∧ scriptRays (α := ℝ) 5 5 3 = .ok rays ∧ rays.length = 75 ∧
      ∀ r ∈ rays, ∃ s : RunState XR, r.lift.run (.fin 150) (optics.map Optic.lift) none fuel = .finished s ∧
        s.log = [DetHit.lift ⟨0, ⟨-r.position.x, 100, -r.position.z⟩,
          if dist r.position.toE 0 ≤ 5 / 2 then 680 else 450⟩] := by
  obtain ⟨rays, hr, hlen, hrays⟩ := scriptRays_spec 5 5 3 (by norm_num) (by norm_num) (by norm_num)
  obtain ⟨optics, ho⟩ := imagingScene_ok
  refine ⟨optics, rays, ho, hr, hlen, fun r hm => ?_⟩
  obtain ⟨x, z, a, wl, rfl, hwl, h1, h2, h3, h4, h5⟩ := hrays r hm
  obtain ⟨i, j, k, -, -, hk, -, -, -, -, k1, k2⟩ := h5 rfl rfl rfl
  obtain ⟨s, δ, e1, e2, -, e4⟩ := imaging_ray ho h1 h2 h3 h4 (wl := wl) fuel hf
  refine ⟨s, e1, ?_⟩
  have hδ : δ = 0 := by
    rcases e4 with h | ⟨h, h'⟩
    · exact h
    · rw [hk] at h h'
      exfalso
      interval_cases k <;> simp at h h' <;> norm_num at h'
  rw [e2, hδ, add_zero, hwl]
  simp only [circle_iff]
  rfl

/-- C87: script_testIdealRelay.py, with any resolution of the object: the script runs without an exception, and every ray is
recorded by the detector, once, with its wavelength, within `1e-6` of the image of its origin, which is upright and of the
same size. -/
theorem C87_relay (xRes zRes angleRes : Int) (hx : 1 ≤ xRes) (hz : 1 ≤ zRes) (ha : 1 ≤ angleRes) (fuel : Nat)
    (hf : 4 ≤ fuel) :
    ∃ optics rays, relayScene (α := ℝ) = .ok optics ∧ scriptRays (α := ℝ) xRes zRes angleRes = .ok rays ∧
      rays.length = (xRes * zRes * angleRes).toNat ∧
      ∀ r ∈ rays, ∃ (s : RunState XR) (p : V3 ℝ), r.lift.run (.fin 150) (optics.map Optic.lift) none fuel = .finished s ∧
        s.log = [DetHit.lift ⟨0, p, r.wavelength⟩] ∧
        dist p.toE (⟨r.position.x, 100, r.position.z⟩ : V3 ℝ).toE ≤ 1e-6 := by
  obtain ⟨rays, hr, hlen, hrays⟩ := scriptRays_spec xRes zRes angleRes hx hz ha
  obtain ⟨optics, ho, -⟩ := relayScene_ok
  refine ⟨optics, rays, ho, hr, hlen, fun r hm => ?_⟩
  obtain ⟨x, z, a, wl, rfl, -, h1, h2, h3, h4, -⟩ := hrays r hm
  obtain ⟨s, p, e1, e2, e3, -⟩ := relay_ray ho h1 h2 h3 h4 (wl := wl) fuel hf
  exact ⟨s, p, e1, e2, e3⟩

/-- C87: with the resolution of the script the relayed image is exact. -/
theorem C87_relay_exact (fuel : Nat) (hf : 4 ≤ fuel) :
    ∃ optics rays, relayScene (α := ℝ) = .ok optics ∧ scriptRays (α := ℝ) 5 5 3 = .ok rays ∧ rays.length = 75 ∧
      ∀ r ∈ rays, ∃ s : RunState XR, r.lift.run (.fin 150) (optics.map Optic.lift) none fuel = .finished s ∧
        s.log = [DetHit.lift ⟨0, ⟨r.position.x, 100, r.position.z⟩,
          if dist r.position.toE 0 ≤ 5 / 2 then 680 else 450⟩] := by
  obtain ⟨rays, hr, hlen, hrays⟩ := scriptRays_spec 5 5 3 (by norm_num) (by norm_num) (by norm_num)
  obtain ⟨optics, ho, -⟩ := relayScene_ok
  refine ⟨optics, rays, ho, hr, hlen, fun r hm => ?_⟩
  obtain ⟨x, z, a, wl, rfl, hwl, h1, h2, h3, h4, h5⟩ := hrays r hm
  obtain ⟨i, j, k, hi, hj, hk, i1, i2, j1, j2, k1, k2⟩ := h5 rfl rfl rfl
  obtain ⟨s, p, e1, e2, -, e4⟩ := relay_ray ho h1 h2 h3 h4 (wl := wl) fuel hf
  refine ⟨s, e1, ?_⟩
  have hp : p = ⟨x, 100, z⟩ := by
    refine e4 ?_ ?_
    · rw [hk]
      intro h
      interval_cases k <;> norm_num at *
    · rw [hi, hj, hk]
      intro h
      have n125 : (12.5 : ℝ) = 25 / 2 := by norm_num
      rw [n125] at h ⊢
      have h' : 4 * ((i : ℝ) * i) + (16 * j + 5 * k) * (16 * j + 5 * k) / 64 < 1 / 64 := by
        norm_num at h
        nlinarith
      have h2 : 256 * (i * i) + (16 * j + 5 * k) * (16 * j + 5 * k) < 1 := by
        have : (256 * ((i : ℝ) * i) + (16 * j + 5 * k) * (16 * j + 5 * k)) < 1 := by linarith
        exact_mod_cast this
      have hi0 : i = 0 := by
        interval_cases i <;> first | rfl | nlinarith [mul_self_nonneg (16 * j + 5 * k)]
      subst hi0
      have : j = 0 ∧ k = 0 := by
        interval_cases j <;> interval_cases k <;> simp at h2 ⊢
      rw [this.1, this.2]
      norm_num
  rw [e2, hp, hwl]
  simp only [circle_iff]
  rfl

end Optics
