import Verif.Lemmas.DmdRoute
import Verif.Props.Routes
import Verif.Spec.DmdScript

/-!
# The route of a ray in the micromirror script
-/

namespace Optics
open V3

theorem norm_tilted {a : ℝ} (h : |a| ≤ 2) : ‖(⟨-a, 1, 0⟩ : V3 ℝ).toE‖ ≤ 3 := by
  rw [norm_toE, norm_eq]
  refine Real.sqrt_le_iff.mpr ⟨by norm_num, ?_⟩
  have := sq_le_sq' (abs_le.mp h).1 (abs_le.mp h).2
  simp only [dot]
  nlinarith

section
variable {σ κ s c x z p q m : ℝ} (ha : DmdAngles σ κ s c) (hb : DmdBounds σ κ x z p q m)
  {M : Mirror ℝ} {l1 l2 : Lens ℝ} {d : Detector ℝ} (hf : DmdFacts σ κ s c M l1 l2 d)
include ha hb

theorem DmdBounds.mx : |m * x| ≤ 26 / 10 ∧ |m * z| ≤ 26 / 10 ∧ |m * (σ * x)| ≤ 1 ∧ m * (50 + σ * x) = 50 - m * (σ * x) := by
  have hm : |m| ≤ 26 / 25 := abs_le.mpr ⟨by linarith [hb.hm.1], hb.hm.2⟩
  refine ⟨(mul_box hm (abs_le.mpr hb.hx)).trans (by norm_num), (mul_box hm (abs_le.mpr hb.hz)).trans (by norm_num),
    (mul_box hm (abs_le.mpr hb.hh)).trans (by norm_num), ?_⟩
  have := hb.hme
  linear_combination 2 * this

/-- The offsets along the axis of the second lens. -/
theorem dmd_along : dot ((dmdAt3 l2 σ κ x z p q).point - (dmdAt2 M x z).point) ⟨σ, -κ, 0⟩ = 50 + σ * x ∧
    dot ((dmdAt4 d σ κ m x z).point - (dmdAt3 l2 σ κ x z p q).point) ⟨σ, -κ, 0⟩ = m * (50 + σ * x) := by
  have h1 := ha.one
  have h2 := hb.hme
  simp only [dot, dmdAt2, dmdAt3, dmdAt4, sub_x, sub_y, sub_z]
  constructor
  · linear_combination (50 + σ * x) * h1
  · linear_combination (50 - m * σ * x - σ * x) * h1 - 2 * h2

include hf

/-- From the micromirrors to the second lens. -/
theorem dmd_leg3 : Leg [.mirror M, .lens l1, .lens l2, .detector d] (dmdAt2 M x z) (dmdAt3 l2 σ κ x z p q) := by
  obtain ⟨y1, y2, u1, -⟩ := dmd_at3 ha hb
  obtain ⟨h1, h2⟩ := hb.hh
  have hκ := ha.κlo
  have hκ2 := cos2_pos ha
  have hone := ha.one
  have hplane : 50 - σ * (dmdAt3 l2 σ κ x z p q).point.x - κ * (200 - (dmdAt3 l2 σ κ x z p q).point.y) = 0 := by
    simp only [dmdAt3]
    linear_combination -(50 + σ * x) * hone
  refine leg_of (lt_trans (b := 1 / 2) (by norm_num) (lt_dist_of ?_)) ?_
  · simp only [dot, dmdAt2, sub_x, sub_y, sub_z]
    have : (dmdAt3 l2 σ κ x z p q).point.y < 199 := y2
    nlinarith [sq_nonneg ((dmdAt3 l2 σ κ x z p q).point.x - -x), sq_nonneg ((dmdAt3 l2 σ κ x z p q).point.z - -z)]
  simp only [List.mem_cons, List.not_mem_nil, or_false]
  rintro o (rfl | rfl | rfl | rfl) t h0 h1' hc
  · refine .inl ⟨hf.fM.atStart nLens1 (by norm_num [dot, dmdAt2]) ?_ hc, rfl⟩
    simp only [dot, dmdAt3, sub_x, sub_y, sub_z]
    intro h
    linarith
  · refine absurd hc (hf.f1.missed nLens1 (.inr ?_) h0 h1')
    simp only [dot, dmdAt2, dmdAt3, sub_x, sub_y, sub_z]
    constructor <;> linarith
  · refine .inr ⟨hf.f2.atEnd (nLens2 _) ?_ ?_ hc, rfl⟩
    · rw [lens2_offset ha]
      refine div_ne_zero ?_ (by linarith)
      simp only [dmdAt2]
      intro h
      linarith
    · rw [lens2_offset ha, hplane, zero_div]
  · refine absurd hc (hf.fd.missed (nLens2 _) (.inl ?_) h0 h1')
    rw [detector_offset ha, detector_offset ha]
    refine ⟨div_pos ?_ (by linarith), div_pos ?_ (by linarith)⟩
    · simp only [dmdAt2]
      nlinarith
    · have hu : |σ * (κ * x + (50 + σ * x) / 100 * (x + p))| ≤ 381 / 1000 * (82 / 10) :=
        mul_box (abs_le.mpr ⟨by linarith [ha.σlo], ha.σhi⟩) u1
      have hu' := abs_le.mp hu
      have e : 100 * κ - 2 * σ * κ * (dmdAt3 l2 σ κ x z p q).point.x - (κ ^ 2 - σ ^ 2) * (200 - (dmdAt3 l2 σ κ x z p q).point.y)
          = 50 * κ + σ * (κ * x + (50 + σ * x) / 100 * (x + p)) := by
        simp only [dmdAt3]
        linear_combination (-(50 + σ * x) * κ + (50 + σ * x) / 100 * (x + p) * σ) * hone
      rw [e]
      linarith

/-- From the second lens to the detector. -/
theorem dmd_leg4 : Leg [.mirror M, .lens l1, .lens l2, .detector d] (dmdAt3 l2 σ κ x z p q) (dmdAt4 d σ κ m x z) := by
  obtain ⟨y1, y2, u1, -⟩ := dmd_at3 ha hb
  obtain ⟨mx, mz, mh, me⟩ := hb.mx ha
  have mh' := abs_le.mp mh
  obtain ⟨h1, h2⟩ := hb.hh
  have hκ := ha.κlo
  have hκ2 := cos2_pos ha
  have hone := ha.one
  have hplane : 50 - σ * (dmdAt3 l2 σ κ x z p q).point.x - κ * (200 - (dmdAt3 l2 σ κ x z p q).point.y) = 0 := by
    simp only [dmdAt3]
    linear_combination -(50 + σ * x) * hone
  have hy4 : 104 ≤ 200 - 100 * κ + m * x * (2 * σ * κ) ∧ 200 - 100 * κ + m * x * (2 * σ * κ) < 120 := by
    have hσ : |σ| ≤ 381 / 1000 := abs_le.mpr ⟨by linarith [ha.σlo], ha.σhi⟩
    have := mul_box hσ (abs_le.mpr ⟨by linarith [ha.κlo], ha.κhi⟩ : |κ| ≤ 93 / 100)
    have := abs_le.mp (mul_box mx this)
    have e : m * x * (2 * σ * κ) = 2 * (m * x * (σ * κ)) := by ring
    rw [e]
    have := ha.κhi
    constructor <;> linarith
  refine leg_of (lt_trans (b := 1) (by norm_num) (lt_dist_of ?_)) ?_
  · simp only [dot, dmdAt3, dmdAt4, sub_x, sub_y, sub_z]
    nlinarith [sq_nonneg ((dmdAt4 d σ κ m x z).point.x - (dmdAt3 l2 σ κ x z p q).point.x),
      sq_nonneg ((dmdAt4 d σ κ m x z).point.z - (dmdAt3 l2 σ κ x z p q).point.z)]
  simp only [List.mem_cons, List.not_mem_nil, or_false]
  rintro o (rfl | rfl | rfl | rfl) t h0 h1' hc
  · refine absurd hc (hf.fM.missed nLens1 (.inl ?_) h0 h1')
    simp only [dot, dmdAt3, dmdAt4, sub_x, sub_y, sub_z]
    constructor <;> linarith
  · refine absurd hc (hf.f1.missed nLens1 (.inr ?_) h0 h1')
    simp only [dot, dmdAt3, dmdAt4, sub_x, sub_y, sub_z]
    constructor <;> linarith
  · refine .inl ⟨hf.f2.atStart (nLens2 _) ?_ ?_ hc, rfl⟩
    · rw [lens2_offset ha, hplane, zero_div]
    · rw [lens2_offset ha]
      refine div_ne_zero ?_ (by linarith)
      have e : 50 - σ * (dmdAt4 d σ κ m x z).point.x - κ * (200 - (dmdAt4 d σ κ m x z).point.y) = -50 + m * (σ * x) := by
        simp only [dmdAt4]
        linear_combination (-100 + m * x * σ) * hone
      rw [e]
      intro h
      linarith
  · refine .inr ⟨hf.fd.atEnd (nLens2 _) ?_ ?_ hc, rfl⟩
    · rw [detector_offset ha]
      refine div_ne_zero ?_ (by linarith)
      have hu : |σ * (κ * x + (50 + σ * x) / 100 * (x + p))| ≤ 381 / 1000 * (82 / 10) :=
        mul_box (abs_le.mpr ⟨by linarith [ha.σlo], ha.σhi⟩) u1
      have hu' := abs_le.mp hu
      have e : 100 * κ - 2 * σ * κ * (dmdAt3 l2 σ κ x z p q).point.x - (κ ^ 2 - σ ^ 2) * (200 - (dmdAt3 l2 σ κ x z p q).point.y)
          = 50 * κ + σ * (κ * x + (50 + σ * x) / 100 * (x + p)) := by
        simp only [dmdAt3]
        linear_combination (-(50 + σ * x) * κ + (50 + σ * x) / 100 * (x + p) * σ) * hone
      rw [e]
      intro h
      linarith
    · rw [detector_offset ha]
      have e : 100 * κ - 2 * σ * κ * (dmdAt4 d σ κ m x z).point.x - (κ ^ 2 - σ ^ 2) * (200 - (dmdAt4 d σ κ m x z).point.y) = 0 := by
        simp only [dmdAt4]
        linear_combination -100 * κ * hone
      rw [e, zero_div]

/-- The lengths of the legs. -/
theorem dmd_lengths : dist (dmdStart x z).point.toE (dmdAt1 l1 p q).point.toE ≤ 102 ∧
    dist (dmdAt1 l1 p q).point.toE (dmdAt2 M x z).point.toE ≤ 102 ∧
    dist (dmdAt2 M x z).point.toE (dmdAt3 l2 σ κ x z p q).point.toE ≤ 60 ∧
    dist (dmdAt3 l2 σ κ x z p q).point.toE (dmdAt4 d σ κ m x z).point.toE ≤ 60 := by
  obtain ⟨y1, y2, u1, v1⟩ := dmd_at3 ha hb
  obtain ⟨mx, mz, mh, me⟩ := hb.mx ha
  obtain ⟨x1, x2⟩ := hb.hx
  obtain ⟨z1, z2⟩ := hb.hz
  obtain ⟨p1, p2⟩ := hb.hp
  obtain ⟨q1, q2⟩ := hb.hq
  obtain ⟨h1, h2⟩ := hb.hh
  have hone := ha.one
  have hκ : |κ| ≤ 1 := abs_le.mpr ⟨by linarith [ha.κlo], by linarith [ha.κhi]⟩
  have sq : ∀ {a A : ℝ}, |a| ≤ A → a ^ 2 ≤ A ^ 2 := fun h => sq_le_sq' (abs_le.mp h).1 (abs_le.mp h).2
  refine ⟨dist_le_of (by norm_num) ?_, dist_le_of (by norm_num) ?_, dist_le_of (by norm_num) ?_, dist_le_of (by norm_num) ?_⟩
  · simp only [dmdStart, dmdAt1, dot, sub_x, sub_y, sub_z]
    have a1 := sq (abs_le.mpr ⟨by linarith, by linarith⟩ : |p - x| ≤ 12)
    have a2 := sq (abs_le.mpr ⟨by linarith, by linarith⟩ : |q - z| ≤ 12)
    nlinarith
  · simp only [dmdAt1, dmdAt2, dot, sub_x, sub_y, sub_z]
    have a1 := sq (abs_le.mpr ⟨by linarith, by linarith⟩ : |-x - p| ≤ 12)
    have a2 := sq (abs_le.mpr ⟨by linarith, by linarith⟩ : |-z - q| ≤ 12)
    nlinarith
  · have e : dot ((dmdAt3 l2 σ κ x z p q).point - (dmdAt2 M x z).point) ((dmdAt3 l2 σ κ x z p q).point - (dmdAt2 M x z).point)
        = (50 + σ * x) ^ 2 + ((50 + σ * x) / 100 * (x + p)) ^ 2 + ((50 + σ * x) / 100 * (z + q)) ^ 2 := by
      simp only [dmdAt2, dmdAt3, dot, sub_x, sub_y, sub_z]
      linear_combination ((50 + σ * x) ^ 2 + ((50 + σ * x) / 100 * (x + p)) ^ 2) * hone
    have a1 := sq (abs_le.mpr ⟨by linarith, by linarith⟩ : |50 + σ * x| ≤ 51)
    have ht : |(50 + σ * x) / 100| ≤ 51 / 100 := abs_le.mpr ⟨by linarith, by linarith⟩
    have a2 := sq (mul_box ht hb.hw)
    have a3 := sq (mul_box ht hb.hy)
    rw [e]
    linarith
  · have e : dot ((dmdAt4 d σ κ m x z).point - (dmdAt3 l2 σ κ x z p q).point) ((dmdAt4 d σ κ m x z).point - (dmdAt3 l2 σ κ x z p q).point)
        = (m * (50 + σ * x)) ^ 2 + (m * x * κ + (κ * x + (50 + σ * x) / 100 * (x + p))) ^ 2 +
          (m * z + (z + (50 + σ * x) / 100 * (z + q))) ^ 2 := by
      have ex : (dmdAt4 d σ κ m x z).point.x - (dmdAt3 l2 σ κ x z p q).point.x
          = σ * (50 - m * (σ * x)) + κ * (m * x * κ + (κ * x + (50 + σ * x) / 100 * (x + p))) := by
        simp only [dmdAt3, dmdAt4]
        linear_combination -x * hone
      have ey : (dmdAt4 d σ κ m x z).point.y - (dmdAt3 l2 σ κ x z p q).point.y
          = -κ * (50 - m * (σ * x)) + σ * (m * x * κ + (κ * x + (50 + σ * x) / 100 * (x + p))) := by
        simp only [dmdAt3, dmdAt4]
        ring
      have ez : (dmdAt4 d σ κ m x z).point.z - (dmdAt3 l2 σ κ x z p q).point.z = m * z + (z + (50 + σ * x) / 100 * (z + q)) := by
        simp only [dmdAt3, dmdAt4]
        ring
      simp only [dot, sub_x, sub_y, sub_z]
      rw [ex, ey, ez, me]
      linear_combination ((50 - m * (σ * x)) ^ 2 + (m * x * κ + (κ * x + (50 + σ * x) / 100 * (x + p))) ^ 2) * hone
    have a1 := sq (by rw [me]; have := abs_le.mp mh; exact abs_le.mpr ⟨by linarith, by linarith⟩ : |m * (50 + σ * x)| ≤ 51)
    have b1 := mul_box mx hκ
    have a2 := sq ((abs_add_le _ _).trans (add_le_add b1 u1))
    have a3 := sq ((abs_add_le _ _).trans (add_le_add mz v1))
    rw [e]
    linarith

/-- The first lens is met. -/
theorem dmd_meets1 : Meets [.mirror M, .lens l1, .lens l2, .detector d] (dmdStart x z) (dmdAt1 l1 p q) (.lens l1) ⟨0, -1, 0⟩ := by
  obtain ⟨b1, -⟩ := dmd_lengths ha hb hf
  obtain ⟨p1, p2⟩ := hb.hp
  obtain ⟨q1, q2⟩ := hb.hq
  refine ⟨rfl, by simp, ⟨_, hf.f1⟩, (hf.q1 _).mpr ⟨rfl, ?_⟩, steep_of (c := ⟨0, 100, 0⟩) (A := 100) (B := 102) ?_ ?_ b1 (by norm_num) ?_⟩
  · refine lt_of_le_of_lt (dist_le_of (B := 124 / 10) (by norm_num) ?_) (by norm_num)
    simp only [dmdAt1, dot, sub_x, sub_y, sub_z]
    nlinarith
  · norm_num [dot, dmdAt1]
  · norm_num [dot, dmdStart]
  · rw [norm_toE, norm_eq]; norm_num [dot]

/-- The micromirrors are met. -/
theorem dmd_meets2 : Meets [.mirror M, .lens l1, .lens l2, .detector d] (dmdAt1 l1 p q) (dmdAt2 M x z) (.mirror M) ⟨0, -1, 0⟩ := by
  obtain ⟨-, b1, -⟩ := dmd_lengths ha hb hf
  obtain ⟨p1, p2⟩ := hb.hx
  obtain ⟨q1, q2⟩ := hb.hz
  refine ⟨rfl, by simp, ⟨_, hf.fM⟩, hf.qM _ rfl ?_, steep_of (c := ⟨0, 200, 0⟩) (A := 100) (B := 102) ?_ ?_ b1 (by norm_num) ?_⟩
  · refine dist_le_of (by norm_num) ?_
    simp only [dmdAt2, dot, sub_x, sub_y, sub_z]
    nlinarith
  · norm_num [dot, dmdAt2]
  · norm_num [dot, dmdAt1]
  · rw [norm_toE, norm_eq]; norm_num [dot]

/-- The second lens is met. -/
theorem dmd_meets3 : Meets [.mirror M, .lens l1, .lens l2, .detector d] (dmdAt2 M x z) (dmdAt3 l2 σ κ x z p q) (.lens l2)
    ⟨-(σ / κ), 1, 0⟩ := by
  obtain ⟨-, -, b1, -⟩ := dmd_lengths ha hb hf
  obtain ⟨y1, y2, u1, v1⟩ := dmd_at3 ha hb
  obtain ⟨h1, h2⟩ := hb.hh
  have hone := ha.one
  have hκ := ha.κlo
  have hplane : 50 - σ * (dmdAt3 l2 σ κ x z p q).point.x - κ * (200 - (dmdAt3 l2 σ κ x z p q).point.y) = 0 := by
    simp only [dmdAt3]
    linear_combination -(50 + σ * x) * hone
  have hN : ‖(⟨-(σ / κ), 1, 0⟩ : V3 ℝ).toE‖ ≤ 3 := by
    refine norm_tilted (abs_le.mpr ⟨?_, ?_⟩)
    · have := div_nonneg (by linarith [ha.σlo] : 0 ≤ σ) (by linarith : 0 ≤ κ)
      linarith
    · rw [div_le_iff₀ (by linarith)]; linarith [ha.σhi]
  refine ⟨rfl, by simp, ⟨_, hf.f2⟩, (hf.q2 _).mpr ⟨by linarith, ?_⟩,
    steep_of (c := ⟨50 * σ, 200 - 50 * κ, 0⟩) (A := 1) (B := 60) ?_ ?_ b1 (by norm_num) ?_⟩
  · refine lt_of_le_of_lt (dist_le_of (B := 12) (by norm_num) ?_) (by norm_num)
    have e : dot ((⟨50 * σ, 200 - 50 * κ, 0⟩ : V3 ℝ) - (dmdAt3 l2 σ κ x z p q).point) (⟨50 * σ, 200 - 50 * κ, 0⟩ - (dmdAt3 l2 σ κ x z p q).point)
        = (κ * x + (50 + σ * x) / 100 * (x + p)) ^ 2 + (z + (50 + σ * x) / 100 * (z + q)) ^ 2 := by
      have ex : 50 * σ - (dmdAt3 l2 σ κ x z p q).point.x = κ * (κ * x + (50 + σ * x) / 100 * (x + p)) := by
        simp only [dmdAt3]
        linear_combination -x * hone
      have ey : 200 - 50 * κ - (dmdAt3 l2 σ κ x z p q).point.y = σ * (κ * x + (50 + σ * x) / 100 * (x + p)) := by
        simp only [dmdAt3]
        ring
      have ez : 0 - (dmdAt3 l2 σ κ x z p q).point.z = z + (50 + σ * x) / 100 * (z + q) := by
        simp only [dmdAt3]
        ring
      simp only [dot, sub_x, sub_y, sub_z]
      rw [ex, ey, ez]
      linear_combination (κ * x + (50 + σ * x) / 100 * (x + p)) ^ 2 * hone
    rw [e]
    have a1 := sq_le_sq' (abs_le.mp u1).1 (abs_le.mp u1).2
    have a2 := sq_le_sq' (abs_le.mp v1).1 (abs_le.mp v1).2
    linarith
  · rw [lens2_offset ha, hplane, zero_div]
  · rw [lens2_offset ha]
    simp only [dmdAt2]
    have : (50 - σ * -x - κ * (200 - 200)) / κ = (50 + σ * x) / κ := by ring
    rw [this, le_abs, le_div_iff₀ (by linarith)]
    left
    linarith [ha.κhi]
  · norm_num; linarith

/-- The detector is met. -/
theorem dmd_meets4 : Meets [.mirror M, .lens l1, .lens l2, .detector d] (dmdAt3 l2 σ κ x z p q) (dmdAt4 d σ κ m x z) (.detector d)
    ⟨-(2 * σ * κ / (κ ^ 2 - σ ^ 2)), 1, 0⟩ := by
  obtain ⟨-, -, -, b1⟩ := dmd_lengths ha hb hf
  obtain ⟨y1, y2, u1, v1⟩ := dmd_at3 ha hb
  obtain ⟨mx, mz, mh, me⟩ := hb.mx ha
  obtain ⟨h1, h2⟩ := hb.hh
  have hone := ha.one
  have hκ := ha.κlo
  have hκ2 := cos2_pos ha
  have e4 : 100 * κ - 2 * σ * κ * (dmdAt4 d σ κ m x z).point.x - (κ ^ 2 - σ ^ 2) * (200 - (dmdAt4 d σ κ m x z).point.y) = 0 := by
    simp only [dmdAt4]
    linear_combination -100 * κ * hone
  have hσκ : 0 ≤ σ * κ ∧ σ * κ ≤ 36 / 100 := by
    have := ha.σlo
    have := ha.σhi
    have := ha.κhi
    constructor <;> nlinarith
  have hN : ‖(⟨-(2 * σ * κ / (κ ^ 2 - σ ^ 2)), 1, 0⟩ : V3 ℝ).toE‖ ≤ 3 := by
    refine norm_tilted (abs_le.mpr ⟨?_, ?_⟩)
    · have := div_nonneg (by linarith : 0 ≤ 2 * σ * κ) (by linarith : 0 ≤ κ ^ 2 - σ ^ 2)
      linarith
    · rw [div_le_iff₀ (by linarith)]; linarith
  refine ⟨rfl, by simp, ⟨_, hf.fd⟩, hf.qd _ (by linarith) (dist_le_of (by norm_num) ?_),
    steep_of (c := ⟨100 * σ, 200 - 100 * κ, 0⟩) (A := 1) (B := 60) ?_ ?_ b1 (by norm_num) ?_⟩
  · have e : dot ((⟨100 * σ, 200 - 100 * κ, 0⟩ : V3 ℝ) - (dmdAt4 d σ κ m x z).point) (⟨100 * σ, 200 - 100 * κ, 0⟩ - (dmdAt4 d σ κ m x z).point)
        = (m * x) ^ 2 + (m * z) ^ 2 := by
      simp only [dmdAt4, dot, sub_x, sub_y, sub_z]
      linear_combination (m * x) ^ 2 * (σ ^ 2 + κ ^ 2 + 1) * hone
    rw [e]
    have a1 := sq_le_sq' (abs_le.mp mx).1 (abs_le.mp mx).2
    have a2 := sq_le_sq' (abs_le.mp mz).1 (abs_le.mp mz).2
    linarith
  · rw [detector_offset ha, e4, zero_div]
  · rw [detector_offset ha]
    have hu : |σ * (κ * x + (50 + σ * x) / 100 * (x + p))| ≤ 381 / 1000 * (82 / 10) :=
      mul_box (abs_le.mpr ⟨by linarith [ha.σlo], ha.σhi⟩) u1
    have hu' := abs_le.mp hu
    have e : 100 * κ - 2 * σ * κ * (dmdAt3 l2 σ κ x z p q).point.x - (κ ^ 2 - σ ^ 2) * (200 - (dmdAt3 l2 σ κ x z p q).point.y)
        = 50 * κ + σ * (κ * x + (50 + σ * x) / 100 * (x + p)) := by
      simp only [dmdAt3]
      linear_combination (-(50 + σ * x) * κ + (50 + σ * x) / 100 * (x + p) * σ) * hone
    rw [e, le_abs, le_div_iff₀ (by linarith)]
    left
    linarith
  · norm_num; linarith

/-- The first lens. -/
theorem dmd_turn1 (hc : DmdClear x z p q) (wl k : ℝ) : Turns ⟨0, -1, 0⟩ wl k (dmdAt1 l1 p q).point (heading (dmdStart x z) (dmdAt1 l1 p q))
    (heading (dmdAt1 l1 p q) (dmdAt2 M x z)) (.lens l1) := by
  obtain ⟨b1, -⟩ := dmd_lengths ha hb hf
  have hA : dot ((dmdAt1 l1 p q).point - (dmdStart x z).point) ⟨0, 1, 0⟩ = 100 := by norm_num [dot, dmdStart, dmdAt1]
  have hne : (dmdStart x z).point ≠ (dmdAt1 l1 p q).point := by
    intro e
    have := congrArg V3.y e
    norm_num [dmdStart, dmdAt1] at this
  have ho : dot (⟨0, 1, 0⟩ : V3 ℝ) ⟨0, 1, 0⟩ = 1 := by norm_num [dot]
  refine .lens (a := (⟨0, 1, 0⟩ : V3 ℝ).toE) hf.law1.1 hf.law1.2.1 (by norm_num)
    (axisAlong_of (A := 100) (k := -1) (by norm_num) hA ho (by ext <;> norm_num))
    (axis_steep (A := 100) (by norm_num) hA b1 (by norm_num)) (fun h => ?_) ?_
  · rcases hc.first with ⟨rfl, rfl⟩ | h1 | h1
    · exact heading_eq_axis (A := 100) (by norm_num) ho (by ext <;> simp [dmdStart, dmdAt1])
    · refine absurd h (clear_of (b := ⟨1, 0, 0⟩) (B := 102) ho (by norm_num [dot]) (by norm_num [dot]) b1 ?_ hne)
      have e : dot ((dmdAt1 l1 p q).point - (dmdStart x z).point) ⟨1, 0, 0⟩ = p - x := by norm_num [dot, dmdStart, dmdAt1]
      rw [e]
      exact lt_of_lt_of_le (by norm_num) h1
    · refine absurd h (clear_of (b := ⟨0, 0, 1⟩) (B := 102) ho (by norm_num [dot]) (by norm_num [dot]) b1 ?_ hne)
      have e : dot ((dmdAt1 l1 p q).point - (dmdStart x z).point) ⟨0, 0, 1⟩ = q - z := by norm_num [dot, dmdStart, dmdAt1]
      rw [e]
      exact lt_of_lt_of_le (by norm_num) h1
  · rw [hf.law1.2.2]
    refine lensTurn_of (A := 100) (A' := 100) (by norm_num) (by norm_num) hA (by norm_num [dot, dmdAt1, dmdAt2]) ?_
    ext <;> simp only [dmdStart, dmdAt1, dmdAt2, sub_x, sub_y, sub_z, smul_x, smul_y, smul_z] <;> ring

/-- The micromirrors. -/
theorem dmd_turn2 (wl k : ℝ) : Turns ⟨0, -1, 0⟩ wl k (dmdAt2 M x z).point (heading (dmdAt1 l1 p q) (dmdAt2 M x z))
    (heading (dmdAt2 M x z) (dmdAt3 l2 σ κ x z p q)) (.mirror M) := by
  refine .micromirrors hf.lawM.1 ?_
  rw [hf.lawM.2]
  have hnn : dot (⟨s, -c, 0⟩ : V3 ℝ) ⟨s, -c, 0⟩ = 1 := by
    simp only [dot]
    linear_combination ha.half
  obtain ⟨h1, h2⟩ := hb.hh
  refine reflected_of (k := (50 + σ * x) / 100) (by linarith) (by rw [hnn]; norm_num) ?_ ?_
  · intro e
    have := congrArg V3.y e
    norm_num [dmdAt1, dmdAt2] at this
  · rw [hnn]
    have hs := ha.sin
    have hc := ha.cos
    have hh := ha.half
    obtain ⟨t, ht⟩ : ∃ t, t = (50 + σ * x) / 100 := ⟨_, rfl⟩
    ext <;> simp only [dmdAt1, dmdAt2, dmdAt3, dot, sub_x, sub_y, sub_z, smul_x, smul_y, smul_z] <;> rw [← ht]
    · linear_combination t * (100 * hs - (x + p) * hc - (x + p) * hh)
    · linear_combination t * (-100 * hc - (x + p) * hs + 100 * hh)
    · ring

/-- The second lens. -/
theorem dmd_turn3 (hc : DmdClear x z p q) (wl k : ℝ) : Turns ⟨-(σ / κ), 1, 0⟩ wl k (dmdAt3 l2 σ κ x z p q).point
    (heading (dmdAt2 M x z) (dmdAt3 l2 σ κ x z p q)) (heading (dmdAt3 l2 σ κ x z p q) (dmdAt4 d σ κ m x z)) (.lens l2) := by
  obtain ⟨-, -, b1, -⟩ := dmd_lengths ha hb hf
  obtain ⟨hA, hA'⟩ := dmd_along (M := M) (l2 := l2) (d := d) ha hb
  obtain ⟨h1, h2⟩ := hb.hh
  have hκ := ha.κlo
  have hone := ha.one
  have hme := hb.hme
  have ho : dot (⟨σ, -κ, 0⟩ : V3 ℝ) ⟨σ, -κ, 0⟩ = 1 := by
    simp only [dot]
    linear_combination hone
  have hb' : dot (⟨κ, σ, 0⟩ : V3 ℝ) ⟨κ, σ, 0⟩ = 1 := by
    simp only [dot]
    linear_combination hone
  have g0 : 0 < 50 + σ * x := by linarith
  have g1 : 0 < m * (50 + σ * x) := mul_pos (by linarith [hb.hm.1]) g0
  have hne : (dmdAt2 M x z).point ≠ (dmdAt3 l2 σ κ x z p q).point := by
    intro e
    rw [e] at hA
    simp [dot] at hA
    linarith
  have eb : dot ((dmdAt3 l2 σ κ x z p q).point - (dmdAt2 M x z).point) ⟨κ, σ, 0⟩ = -((50 + σ * x) / 100 * (p + x)) := by
    simp only [dmdAt2, dmdAt3, dot, sub_x, sub_y, sub_z]
    linear_combination -((50 + σ * x) / 100 * (p + x)) * hone
  have ez : dot ((dmdAt3 l2 σ κ x z p q).point - (dmdAt2 M x z).point) ⟨0, 0, 1⟩ = -((50 + σ * x) / 100 * (q + z)) := by
    simp only [dmdAt2, dmdAt3, dot, sub_x, sub_y, sub_z]
    ring
  have small : ∀ {a : ℝ}, 1e-5 ≤ |a| → 4e-8 * 60 < |-((50 + σ * x) / 100 * a)| := by
    intro a h
    rw [abs_neg, abs_mul, abs_of_pos (by linarith : 0 < (50 + σ * x) / 100)]
    norm_num at h ⊢
    nlinarith
  refine .lens (a := (⟨σ, -κ, 0⟩ : V3 ℝ).toE) hf.law2.1 hf.law2.2.1 (by norm_num)
    (axisAlong_of (A := 50 + σ * x) (k := -κ) g0 hA ho ?_)
    (axis_steep g0 hA b1 (by norm_num; linarith)) (fun h => ?_) ?_
  · ext <;> simp <;> field_simp
  · rcases hc.second with ⟨rfl, rfl⟩ | h1 | h1
    · refine heading_eq_axis (A := 50 + σ * x) g0 ho ?_
      ext <;> simp only [dmdAt2, dmdAt3, sub_x, sub_y, sub_z, smul_x, smul_y, smul_z] <;> ring
    · exact absurd h (clear_of (b := ⟨κ, σ, 0⟩) (B := 60) ho hb' (by simp only [dot]; ring) b1 (by rw [eb]; exact small h1) hne)
    · exact absurd h (clear_of (b := ⟨0, 0, 1⟩) (B := 60) ho (by norm_num [dot]) (by norm_num [dot]) b1 (by rw [ez]; exact small h1) hne)
  · rw [hf.law2.2.2]
    refine lensTurn_of (A := 50 + σ * x) (A' := m * (50 + σ * x)) g0 g1 hA hA' ?_
    ext <;> simp only [dmdAt2, dmdAt3, dmdAt4, sub_x, sub_y, sub_z, smul_x, smul_y, smul_z]
    · linear_combination (50 + σ * x) * (m * x * hone -
        ((50 + σ * x) * (x + p) * κ / 2500 + (x - σ * x * σ) / 25 + 2 * σ) * hme)
    · linear_combination (50 + σ * x) * (2 * κ - σ * x * κ / 25 - (50 + σ * x) * (x + p) * σ / 2500) * hme
    · linear_combination -(50 + σ * x) * (z / 25 + (50 + σ * x) * (z + q) / 2500) * hme

/-- The whole route. -/
theorem dmd_route (hc : DmdClear x z p q) (wl k : ℝ) : Route [.mirror M, .lens l1, .lens l2, .detector d] wl k
    [dmdStart x z, dmdAt1 l1 p q, dmdAt2 M x z, dmdAt3 l2 σ κ x z p q, dmdAt4 d σ κ m x z] :=
  .cons (dmd_leg1 ha hb hf) (dmd_meets1 ha hb hf) (dmd_turn1 ha hb hf hc wl k) <|
    .cons (dmd_leg2 ha hb hf) (dmd_meets2 ha hb hf) (dmd_turn2 ha hb hf wl k) <|
      .cons (dmd_leg3 ha hb hf) (dmd_meets3 ha hb hf) (dmd_turn3 ha hb hf hc wl k) <| .single (dmd_leg4 ha hb hf)

end

end Optics
