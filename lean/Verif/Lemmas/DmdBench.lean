import Verif.Spec.DmdScript
import Verif.Lemmas.RouteTools
import Verif.Props.Examples
import Mathlib.Analysis.Real.Pi.Bounds
import Mathlib.Analysis.SpecialFunctions.Trigonometric.Bounds

/-!
# The optics of script_testDMD.py
-/

namespace Optics
open V3

/-- The angles of the script: `σ`, `κ` are the sine and cosine of the deflection, `s`, `c` those of the tilt of the micromirrors. -/
structure DmdAngles (σ κ s c : ℝ) : Prop where
  one : σ ^ 2 + κ ^ 2 = 1
  half : s ^ 2 + c ^ 2 = 1
  sin : σ = 2 * s * c
  cos : κ = c ^ 2 - s ^ 2
  σlo : 37 / 100 ≤ σ
  σhi : σ ≤ 381 / 1000
  κlo : 92 / 100 ≤ κ
  κhi : κ ≤ 93 / 100
  cpos : 0 < c

theorem DmdAngles.script : DmdAngles (Real.sin (21.8 * Real.pi / 180)) (Real.cos (21.8 * Real.pi / 180))
    (Real.sin (10.9 * Real.pi / 180)) (Real.cos (10.9 * Real.pi / 180)) := by
  have e : 21.8 * Real.pi / 180 = 2 * (10.9 * Real.pi / 180) := by ring
  have p1 := Real.pi_gt_d4
  have p2 := Real.pi_lt_d4
  norm_num at p1 p2
  obtain ⟨x, hx⟩ : ∃ x, x = 21.8 * Real.pi / 180 := ⟨_, rfl⟩
  have x1 : 3804 / 10000 ≤ x := by rw [hx]; norm_num; linarith
  have x2 : x ≤ 3806 / 10000 := by rw [hx]; norm_num; linarith
  have s1 := Real.sin_gt_sub_cube (x := x) (by linarith)
  have s2 := Real.sin_lt (x := x) (by linarith)
  have one := Real.sin_sq_add_cos_sq x
  have hc : 0 < Real.cos x := Real.cos_pos_of_mem_Ioo ⟨by linarith, by linarith⟩
  have σlo : 37 / 100 ≤ Real.sin x := by
    have : x ^ 3 ≤ (3806 / 10000) ^ 3 := pow_le_pow_left₀ (by linarith) x2 3
    norm_num at this
    linarith
  have σhi : Real.sin x ≤ 381 / 1000 := by linarith
  rw [← hx]
  refine ⟨one, Real.sin_sq_add_cos_sq _, ?_, ?_, σlo, σhi, ?_, ?_, ?_⟩
  · rw [hx, e, Real.sin_two_mul]
  · rw [hx, e, Real.cos_two_mul']
  · have := mul_self_le_mul_self (by linarith) σhi
    by_contra h
    have := mul_self_le_mul_self hc.le (not_le.mp h).le
    nlinarith
  · have := mul_self_le_mul_self (by norm_num) σlo
    by_contra h
    have := mul_self_le_mul_self (by norm_num) (not_le.mp h).le
    nlinarith
  · refine Real.cos_pos_of_mem_Ioo ⟨?_, ?_⟩
    · have := Real.pi_pos; norm_num; linarith
    · norm_num; linarith

/-- The optics, as the script makes them. -/
structure DmdOptics (σ κ s c : ℝ) (M : Mirror ℝ) (l1 l2 : Lens ℝ) (d : Detector ℝ) : Prop where
  lens1 : Lens.new (⟨0, 100, 0⟩ : V3 ℝ) (some ⟨0, -1, 0⟩) "spherical_biconvex" (some 25) none none (some 50) "ideal" 1.5 = .ok l1
  mirror : Mirror.new (⟨0, 200, 0⟩ : V3 ℝ) "rectangular_flat" (some ⟨0, -1, 0⟩) none (some 50) (some 50) none (some ⟨0, 0, 1⟩) "dmd"
    (some ⟨s / c, -1, 0⟩) = .ok M
  lens2 : Lens.new (⟨50 * σ, 200 - 50 * κ, 0⟩ : V3 ℝ) (some ⟨-(σ / κ), 1, 0⟩) "spherical_biconvex" (some 25) none none (some 25) "ideal" 1.5
    = .ok l2
  detector : Detector.new 0 (⟨100 * σ, 200 - 100 * κ, 0⟩ : V3 ℝ) ⟨-(2 * σ * κ / (κ ^ 2 - σ ^ 2)), 1, 0⟩ ⟨0, 0, 1⟩ "rectangular_flat" (some 30)
    (some 30) = .ok d

theorem arctan2_tan {x : ℝ} (h1 : -(Real.pi / 2) < x) (h2 : x < Real.pi / 2) : PyNum.arctan2 (Real.sin x / Real.cos x) 1 = x := by
  show Complex.arg ⟨1, Real.sin x / Real.cos x⟩ = x
  have ha : |Complex.arg ⟨1, Real.sin x / Real.cos x⟩| < Real.pi / 2 := Complex.abs_arg_lt_pi_div_two_iff.mpr (.inl (by norm_num))
  have ht : Real.tan (Complex.arg ⟨1, Real.sin x / Real.cos x⟩) = Real.tan x := by
    rw [Complex.tan_arg, Real.tan_eq_sin_div_cos]; simp
  have := abs_lt.mp ha
  exact Real.tan_inj_of_lt_of_lt_pi_div_two this.1 this.2 h1 h2 ht

/-- What the script builds. -/
theorem dmdScene_spec : ∃ (M : Mirror ℝ) (l1 l2 : Lens ℝ) (d : Detector ℝ),
    DmdOptics (Real.sin (21.8 * Real.pi / 180)) (Real.cos (21.8 * Real.pi / 180)) (Real.sin (10.9 * Real.pi / 180))
      (Real.cos (10.9 * Real.pi / 180)) M l1 l2 d ∧ dmdScene (α := ℝ) = .ok [.mirror M, .lens l1, .lens l2, .detector d] := by
  have h := DmdAngles.script
  obtain ⟨l1, hl1, -⟩ := lens_builds (c := ⟨0, 100, 0⟩) (n := ⟨0, -1, 0⟩) (D := 25) (f := 50) (index := 1.5) (type := "ideal")
    (e_ne (by norm_num)) (by norm_num) (by norm_num) (by norm_num)
  obtain ⟨M, hM, -⟩ := dmd_builds (c := ⟨0, 200, 0⟩) (n := ⟨0, -1, 0⟩) (t := ⟨0, 0, 1⟩)
    (m := ⟨Real.sin (10.9 * Real.pi / 180) / Real.cos (10.9 * Real.pi / 180), -1, 0⟩) (w := 50) (h := 50)
    (type := "dmd") (by norm_num [dot]) (by norm_num) (by norm_num) (e_ne (by norm_num)) (e_ne (by norm_num)) (e_ne (by norm_num))
  obtain ⟨l2, hl2, -⟩ := lens_builds (c := ⟨50 * Real.sin (21.8 * Real.pi / 180), 200 - 50 * Real.cos (21.8 * Real.pi / 180), 0⟩)
    (n := ⟨-(Real.sin (21.8 * Real.pi / 180) / Real.cos (21.8 * Real.pi / 180)), 1, 0⟩) (D := 25) (f := 25) (index := 1.5) (type := "ideal")
    (e_ne (by norm_num)) (by norm_num) (by norm_num) (by norm_num)
  obtain ⟨d, hd, -⟩ := detector_builds (id := 0) (c := ⟨100 * Real.sin (21.8 * Real.pi / 180), 200 - 100 * Real.cos (21.8 * Real.pi / 180), 0⟩)
    (n := ⟨-(2 * Real.sin (21.8 * Real.pi / 180) * Real.cos (21.8 * Real.pi / 180) /
      (Real.cos (21.8 * Real.pi / 180) ^ 2 - Real.sin (21.8 * Real.pi / 180) ^ 2)), 1, 0⟩) (t := ⟨0, 0, 1⟩) (w := 30) (h := 30)
    (by norm_num [dot]) (by norm_num) (by norm_num) (e_ne (by norm_num)) (e_ne (by norm_num))
  refine ⟨M, l1, l2, d, ⟨hl1, hM, hl2, hd⟩, ?_⟩
  have p1 := Real.pi_pos
  have e1 : -21.8 * Real.pi / 180.0 = -(21.8 * Real.pi / 180) := by norm_num; ring
  have e2 : -43.6 * Real.pi / 180.0 = -(2 * (21.8 * Real.pi / 180)) := by norm_num; ring
  have e3 : 10.9 * Real.pi / 180.0 = 10.9 * Real.pi / 180 := by norm_num
  have a := arctan2_tan (x := -(21.8 * Real.pi / 180)) (by norm_num; linarith) (by norm_num; linarith)
  have n0 : (0.0 : ℝ) = 0 := by norm_num
  have n1 : (1.0 : ℝ) = 1 := by norm_num
  have n2 : (2.0 : ℝ) * 25 = 50 := by norm_num
  have n4 : (4.0 : ℝ) * 25 = 100 := by norm_num
  have n25 : (25.0 : ℝ) = 25 := by norm_num
  have n30 : (30.0 : ℝ) = 30 := by norm_num
  have n50 : (50.0 : ℝ) = 50 := by norm_num
  have n100 : (100.0 : ℝ) = 100 := by norm_num
  have n200 : (100.0 : ℝ) + 1.0 / (1.0 / 50.0 - 1.0 / (100.0 - 0.0)) = 200 := by norm_num
  unfold dmdScene
  simp only [real_sin, real_cos, real_pi, n200]
  simp only [e1, e2, e3, n1, a, n2, n4, Real.sin_neg, Real.cos_neg, neg_neg, neg_div, n0, n25, n30, n50, n100, Real.sin_two_mul,
    Real.cos_two_mul']
  simp only [Real.sin_neg, Real.cos_neg, neg_div] at a
  simp only [a, Real.sin_neg, Real.cos_neg, neg_neg, hl1, hM, hl2, hd]
  rfl

/-! ## The legs of a ray

A ray from the point `(x, 0, z)` of the object towards the point `(p, 100, q)` of the first lens. -/

noncomputable def dmdStart (x z : ℝ) : Vertex := ⟨⟨x, 0, z⟩, none⟩
noncomputable def dmdAt1 (l1 : Lens ℝ) (p q : ℝ) : Vertex := ⟨⟨p, 100, q⟩, some (.lens l1)⟩
noncomputable def dmdAt2 (M : Mirror ℝ) (x z : ℝ) : Vertex := ⟨⟨-x, 200, -z⟩, some (.mirror M)⟩
noncomputable def dmdAt3 (l2 : Lens ℝ) (σ κ x z p q : ℝ) : Vertex :=
  ⟨⟨-x + (50 + σ * x) / 100 * (100 * σ - κ * (x + p)), 200 - (50 + σ * x) / 100 * (100 * κ + σ * (x + p)),
    -z - (50 + σ * x) / 100 * (z + q)⟩, some (.lens l2)⟩
noncomputable def dmdAt4 (d : Detector ℝ) (σ κ m x z : ℝ) : Vertex :=
  ⟨⟨100 * σ + m * x * (κ ^ 2 - σ ^ 2), 200 - 100 * κ + m * x * (2 * σ * κ), m * z⟩, some (.detector d)⟩

theorem mul_box {a b A B : ℝ} (ha : |a| ≤ A) (hb : |b| ≤ B) : |a * b| ≤ A * B := by
  rw [abs_mul]
  exact mul_le_mul ha hb (abs_nonneg _) ((abs_nonneg _).trans ha)

/-- Bounds on the quantities of a ray. -/
structure DmdBounds (σ κ x z p q m : ℝ) : Prop where
  hx : -(5 / 2) ≤ x ∧ x ≤ 5 / 2
  hz : -(5 / 2) ≤ z ∧ z ≤ 5 / 2
  hp : -(35 / 4) ≤ p ∧ p ≤ 35 / 4
  hq : -(35 / 4) ≤ q ∧ q ≤ 35 / 4
  hh : -(96 / 100) ≤ σ * x ∧ σ * x ≤ 96 / 100
  hw : |x + p| ≤ 45 / 4
  hy : |z + q| ≤ 45 / 4
  hm : 24 / 25 ≤ m ∧ m ≤ 26 / 25
  hme : m * (25 + σ * x) = 25

theorem DmdRay.bounds {x z p q : ℝ} (h : DmdRay x z p q) {σ κ s c : ℝ} (ha : DmdAngles σ κ s c) :
    DmdBounds σ κ x z p q (25 / (25 + σ * x)) := by
  obtain ⟨x1, x2⟩ := abs_le.mp h.hx
  obtain ⟨z1, z2⟩ := abs_le.mp h.hz
  obtain ⟨p1, p2⟩ := abs_le.mp h.hp
  obtain ⟨q1, q2⟩ := abs_le.mp h.hq
  have hσ : |σ| ≤ 381 / 1000 := abs_le.mpr ⟨by linarith [ha.σlo], ha.σhi⟩
  have hh := mul_box hσ h.hx
  obtain ⟨h1, h2⟩ := abs_le.mp hh
  have hpos : 0 < 25 + σ * x := by linarith
  refine ⟨⟨x1, x2⟩, ⟨z1, z2⟩, ⟨by linarith, by linarith⟩, ⟨by linarith, by linarith⟩, ⟨by linarith, by linarith⟩,
    abs_le.mpr ⟨by linarith, by linarith⟩, abs_le.mpr ⟨by linarith, by linarith⟩, ⟨?_, ?_⟩, ?_⟩
  · rw [le_div_iff₀ hpos]; linarith
  · rw [div_le_iff₀ hpos]; linarith
  · field_simp

/-- Offsets from the plane of the second lens. -/
theorem lens2_offset {σ κ s c : ℝ} (ha : DmdAngles σ κ s c) (P : V3 ℝ) :
    dot (P - ⟨50 * σ, 200 - 50 * κ, 0⟩) ⟨-(σ / κ), 1, 0⟩ = (50 - σ * P.x - κ * (200 - P.y)) / κ := by
  have hκ : κ ≠ 0 := by linarith [ha.κlo]
  have := ha.one
  simp only [dot, sub_x, sub_y, sub_z]
  field_simp
  linear_combination 50 * this

theorem cos2_pos {σ κ s c : ℝ} (ha : DmdAngles σ κ s c) : 70 / 100 ≤ κ ^ 2 - σ ^ 2 ∧ κ ^ 2 - σ ^ 2 ≤ 73 / 100 := by
  have h1 := ha.κlo
  have h2 := ha.σlo
  have h3 := ha.κhi
  have h4 := ha.σhi
  constructor <;> nlinarith

/-- Offsets from the plane of the detector. -/
theorem detector_offset {σ κ s c : ℝ} (ha : DmdAngles σ κ s c) (P : V3 ℝ) :
    dot (P - ⟨100 * σ, 200 - 100 * κ, 0⟩) ⟨-(2 * σ * κ / (κ ^ 2 - σ ^ 2)), 1, 0⟩
      = (100 * κ - 2 * σ * κ * P.x - (κ ^ 2 - σ ^ 2) * (200 - P.y)) / (κ ^ 2 - σ ^ 2) := by
  have hκ : κ ^ 2 - σ ^ 2 ≠ 0 := by linarith [cos2_pos ha]
  have := ha.one
  simp only [dot, sub_x, sub_y, sub_z]
  field_simp
  linear_combination 100 * κ * this

section
variable {σ κ s c x z p q m : ℝ} (ha : DmdAngles σ κ s c) (hb : DmdBounds σ κ x z p q m)
include ha hb

/-- How far the third corner is from the optics. -/
theorem dmd_at3 : 148 ≤ 200 - (50 + σ * x) / 100 * (100 * κ + σ * (x + p)) ∧ 200 - (50 + σ * x) / 100 * (100 * κ + σ * (x + p)) < 199 ∧
    |κ * x + (50 + σ * x) / 100 * (x + p)| ≤ 82 / 10 ∧ |z + (50 + σ * x) / 100 * (z + q)| ≤ 83 / 10 := by
  obtain ⟨h1, h2⟩ := hb.hh
  have hσ : |σ| ≤ 381 / 1000 := abs_le.mpr ⟨by linarith [ha.σlo], ha.σhi⟩
  have hκ : |κ| ≤ 93 / 100 := abs_le.mpr ⟨by linarith [ha.κlo], ha.κhi⟩
  have hx : |x| ≤ 5 / 2 := abs_le.mpr hb.hx
  have hz : |z| ≤ 5 / 2 := abs_le.mpr hb.hz
  obtain ⟨t, ht⟩ : ∃ t, t = (50 + σ * x) / 100 := ⟨_, rfl⟩
  rw [← ht]
  have t1 : 49 / 100 ≤ t := by rw [ht]; linarith
  have t2 : t ≤ 51 / 100 := by rw [ht]; linarith
  have ht' : |t| ≤ 51 / 100 := abs_le.mpr ⟨by linarith, t2⟩
  obtain ⟨a1, a2⟩ := abs_le.mp (mul_box hσ hb.hw)
  have hv : |100 * κ + σ * (x + p)| ≤ 98 := abs_le.mpr ⟨by linarith [ha.κlo], by linarith [ha.κhi]⟩
  obtain ⟨b1, b2⟩ := abs_le.mp (mul_box ht' hv)
  have b3 : 80 ≤ 100 * κ + σ * (x + p) := by linarith [ha.κlo]
  have b4 : 49 / 100 * 80 ≤ t * (100 * κ + σ * (x + p)) := mul_le_mul t1 b3 (by norm_num) (by linarith)
  refine ⟨by linarith, by linarith, ?_, ?_⟩
  · refine (abs_add_le _ _).trans ?_
    have := mul_box hκ hx
    have := mul_box ht' hb.hw
    linarith
  · refine (abs_add_le _ _).trans ?_
    have := mul_box ht' hb.hy
    linarith

end

end Optics
