import Verif.Props.Rotations
import Verif.Props.Vectors
import Verif.Props.RayOptics
import Verif.Spec.Grating

/-!
# C37, C38: gratings
-/

namespace Optics
open V3

theorem cross_perp {n t : V3 ℝ} (hn : dot n n = 1) (ht : dot t t = 1) (h : dot n t = 0) :
    dot (cross t n) (cross t n) = 1 ∧ dot t (cross t n) = 0 ∧ dot n (cross t n) = 0 ∧
    cross t (cross t n) = -n := by
  refine ⟨?_, dot_cross_left _ _, dot_cross_right _ _, ?_⟩
  · rw [cross_dot_self, hn, ht, dot_comm t n, h]; ring
  · have ht' := ht
    have h' := h
    simp only [dot] at ht' h'
    ext <;> simp only [cross, neg_x, neg_y, neg_z]
    · linear_combination t.x * h' - n.x * ht'
    · linear_combination t.y * h' - n.y * ht'
    · linear_combination t.z * h' - n.z * ht'

theorem polar_dot_t {n t : V3 ℝ} (ht : dot t t = 1) (h : dot n t = 0) (a ρ φ : ℝ) : dot (polar n t a ρ φ) t = a := by
  unfold polar
  simp only [dot_add_left, dot_smul_left, ht, h, dot_comm (cross t n) t, dot_cross_left]; ring

theorem polar_self {n t : V3 ℝ} (hn : dot n n = 1) (ht : dot t t = 1) (h : dot n t = 0) (a ρ φ : ℝ) :
    dot (polar n t a ρ φ) (polar n t a ρ φ) = a ^ 2 + ρ ^ 2 := by
  obtain ⟨hb, hbt, hbn, -⟩ := cross_perp hn ht h
  unfold polar
  simp only [dot_add_left, dot_add_right, dot_smul_left, dot_smul_right, ht, h, hn, hb, hbt, hbn, dot_comm t n,
    dot_comm (cross t n) t, dot_comm (cross t n) n]
  linear_combination ρ ^ 2 * Real.cos_sq_add_sin_sq φ

theorem polar_dot_n {n t : V3 ℝ} (hn : dot n n = 1) (h : dot n t = 0) (a ρ φ : ℝ) :
    dot (polar n t a ρ φ) n = ρ * Real.cos φ := by
  unfold polar
  simp only [dot_add_left, dot_smul_left, dot_comm t n, h, hn, dot_comm (cross t n) n, dot_cross_right]; ring

theorem polar_dot_b {n t : V3 ℝ} (hn : dot n n = 1) (ht : dot t t = 1) (h : dot n t = 0) (a ρ φ : ℝ) :
    dot (polar n t a ρ φ) (cross t n) = ρ * Real.sin φ := by
  obtain ⟨hb, hbt, hbn, -⟩ := cross_perp hn ht h
  unfold polar
  simp only [dot_add_left, dot_smul_left, hb, hbt, hbn]; ring

theorem rodrigues_polar {n t : V3 ℝ} (hn : dot n n = 1) (ht : dot t t = 1) (h : dot n t = 0) (a ρ φ θ : ℝ) :
    rodrigues t θ (polar n t a ρ φ) = polar n t a ρ (φ + θ) := by
  have e1 : dot t (polar n t a ρ φ) = a := by rw [dot_comm, polar_dot_t ht h]
  have hcc := (cross_perp hn ht h).2.2.2
  have e2 : cross t (polar n t a ρ φ) = ρ * (Real.cos φ * cross t n + Real.sin φ * cross t (cross t n)) := by
    unfold polar
    ext <;> simp only [cross, add_x, add_y, add_z, smul_x, smul_y, smul_z] <;> ring
  unfold rodrigues
  rw [e1, e2, hcc]
  unfold polar
  rw [Real.cos_add, Real.sin_add]
  generalize cross t n = b
  ext <;> simp only [add_x, add_y, add_z, smul_x, smul_y, smul_z, neg_x, neg_y, neg_z] <;> ring

/-- The length of the in-plane part of a direction. -/
noncomputable def planeLength (d t : V3 ℝ) : ℝ := norm (projectOntoPlane d t)

/-- The code's in-plane angle of incidence. -/
noncomputable def gratingAlpha (d n t : V3 ℝ) : ℝ :=
  angleBetween (-unitVector (projectOntoPlane d t)) n (some t)

theorem project_unit (d : V3 ℝ) {t : V3 ℝ} (ht : dot t t = 1) : projectOntoPlane d t = d - (dot d t) * t := by
  rw [projectOntoPlane_eq _ _ (ne_zero_of_dot_one ht), ht, div_one]

/-- A direction in terms of the code's angle. -/
theorem direction_polar {d n t : V3 ℝ} (hn : dot n n = 1) (ht : dot t t = 1) (h : dot n t = 0)
    (hp : projectOntoPlane d t ≠ ⟨0, 0, 0⟩) :
    -d = polar n t (-dot d t) (planeLength d t) (gratingAlpha d n t) ∧
    -Real.pi < gratingAlpha d n t ∧ gratingAlpha d n t ≤ Real.pi := by
  have ht0 := ne_zero_of_dot_one ht
  have hi := unit_dot hp
  have hm : dot (-unitVector (projectOntoPlane d t)) (-unitVector (projectOntoPlane d t)) = 1 := by
    rw [dot_neg_left, dot_neg_right, neg_neg]; exact hi
  have hpt : dot t (projectOntoPlane d t) = 0 := by rw [dot_comm]; exact (C03_project_onto_plane d t ht0).1
  have hk1 : dot t (-unitVector (projectOntoPlane d t)) = 0 := by
    rw [dot_neg_right, unitVector, dot_div_right, hpt, zero_div, neg_zero]
  obtain ⟨h1, h2, -, h4, -⟩ := C05_angle_signed (-unitVector (projectOntoPlane d t)) n t (ne_zero_of_dot_one hm)
    (ne_zero_of_dot_one hn) ht hk1 (by rw [dot_comm]; exact h)
  rw [unitVector_of_unit hn, unitVector_of_unit hm] at h4
  refine ⟨?_, h1, h2⟩
  have hn' : n = polar n t 0 1 0 := by
    unfold polar; rw [Real.cos_zero, Real.sin_zero]; ext <;> simp
  have e := rodrigues_polar hn ht h 0 1 0 (gratingAlpha d n t)
  rw [← hn', zero_add] at e
  have e' : -unitVector (projectOntoPlane d t) = polar n t 0 1 (gratingAlpha d n t) := by
    rw [← e]; exact h4.symm
  have hd : -d = (-dot d t) * t + planeLength d t * -unitVector (projectOntoPlane d t) := by
    have : planeLength d t * -unitVector (projectOntoPlane d t) = -projectOntoPlane d t := by
      conv_rhs => rw [← unit_smul_norm hp]
      unfold planeLength; ext <;> simp
    rw [this, project_unit d ht]
    ext <;> simp only [sub_x, sub_y, sub_z, add_x, add_y, add_z, smul_x, smul_y, smul_z, neg_x, neg_y, neg_z] <;> ring
  rw [hd, e']
  unfold polar
  ext <;> simp only [add_x, add_y, add_z, smul_x, smul_y, smul_z] <;> ring

/-- The sign the code multiplies `alpha` with. -/
noncomputable def gratingSign (d n t : V3 ℝ) : ℝ := if gratingAlpha d n t < 0 then -1 else 1

theorem gratingSign_mul (d n t : V3 ℝ) : gratingSign d n t * gratingAlpha d n t = |gratingAlpha d n t| := by
  unfold gratingSign; split_ifs with h
  · rw [abs_of_neg h]; ring
  · rw [abs_of_nonneg (not_lt.mp h)]; ring

/-- The code's `beta`. -/
noncomputable def gratingBeta (d n t : V3 ℝ) (K : ℝ) : ℝ := Real.arcsin (K - Real.sin |gratingAlpha d n t|)

/-- What the code computes, in polar form. -/
theorem grating_eq {d n t : V3 ℝ} (hd : dot d d = 1) (hn : dot n n = 1) (ht : dot t t = 1) (h : dot n t = 0)
    (hp : projectOntoPlane d t ≠ ⟨0, 0, 0⟩) (G m wl : ℝ) :
    gratingDirection d n t G m wl = polar n t (dot d t) (planeLength d t)
      (-gratingAlpha d n t - |gratingAlpha d n t| - gratingBeta d n t (G / 1e6 * m * wl)) ∧
    (dot d t) ^ 2 + planeLength d t ^ 2 = 1 := by
  have ht0 := ne_zero_of_dot_one ht
  obtain ⟨hpol, -, -⟩ := direction_polar hn ht h hp
  have hsq : (dot d t) ^ 2 + planeLength d t ^ 2 = 1 := by
    have := polar_self hn ht h (-dot d t) (planeLength d t) (gratingAlpha d n t)
    rw [← hpol, dot_neg_left, dot_neg_right, neg_neg, hd] at this
    linarith
  refine ⟨?_, hsq⟩
  have hun : unitVector (projectOntoPlane n t) = n := by
    have : projectOntoPlane n t = n := by
      rw [project_unit n ht, h]; ext <;> simp
    rw [this, unitVector_of_unit hn]
  unfold gratingDirection
  simp only [unitVector_of_unit hd, unitVector_of_unit hn, hun]
  have ha : angleBetween (-unitVector (projectOntoPlane d t)) n (some t) = gratingAlpha d n t := rfl
  have hs : (if gratingAlpha d n t < 0.0 then (-1.0 : ℝ) else 1.0) = gratingSign d n t := by
    unfold gratingSign; rw [lit0, lit1]
  simp only [ha, hs, lit2, real_sin, real_arcsin]
  rw [gratingSign_mul, neg_mul, gratingSign_mul]
  have hb : Real.arcsin (G / 1e6 * m * wl - Real.sin |gratingAlpha d n t|) = gratingBeta d n t (G / 1e6 * m * wl) := rfl
  rw [hb]
  have hr : d - (2 * dot d n) * n = polar n t (dot d t) (planeLength d t) (-gratingAlpha d n t) := by
    have e1 : d = -polar n t (-dot d t) (planeLength d t) (gratingAlpha d n t) := by rw [← hpol, neg_neg']
    have e2 : dot d n = -(planeLength d t * Real.cos (gratingAlpha d n t)) := by
      conv_lhs => rw [e1]
      rw [dot_neg_left, polar_dot_n hn h]
    rw [e2]
    have ex := congrArg V3.x e1
    have ey := congrArg V3.y e1
    have ez := congrArg V3.z e1
    unfold polar at ex ey ez ⊢
    rw [Real.cos_neg, Real.sin_neg]
    generalize planeLength d t = ρ at *
    generalize gratingAlpha d n t = φ at *
    generalize dot d t = a at *
    generalize cross t n = b at *
    simp only [add_x, add_y, add_z, smul_x, smul_y, smul_z, neg_x, neg_y, neg_z] at ex ey ez
    ext <;> simp only [sub_x, sub_y, sub_z, add_x, add_y, add_z, smul_x, smul_y, smul_z]
    · linear_combination ex
    · linear_combination ey
    · linear_combination ez
  have turn : ∀ φ θ : ℝ, unitVector (M3.mulVec (rotationMatrixAxisAngle t θ)
      (polar n t (dot d t) (planeLength d t) φ)) = polar n t (dot d t) (planeLength d t) (φ + θ) := by
    intro φ θ
    rw [axisAngle_rodrigues ht0, unitVector_of_unit ht, rodrigues_polar hn ht h,
      unitVector_of_unit (by rw [polar_self hn ht h, hsq])]
  rw [hr, turn, turn]
  congr 1

theorem inPlaneSine_eq {d n t : V3 ℝ} (hn : dot n n = 1) (ht : dot t t = 1) (h : dot n t = 0)
    (hp : projectOntoPlane d t ≠ ⟨0, 0, 0⟩) : inPlaneSine n t d = Real.sin |gratingAlpha d n t| := by
  obtain ⟨hpol, hlo, hhi⟩ := direction_polar hn ht h hp
  have hN : 0 < planeLength d t := norm_pos hp
  unfold inPlaneSine
  rw [inner_toE, inner_toE, norm_toE, ← project_unit d ht]
  have e1 : d = -polar n t (-dot d t) (planeLength d t) (gratingAlpha d n t) := by rw [← hpol, neg_neg']
  have e2 : dot d (cross t n) = -(planeLength d t * Real.sin (gratingAlpha d n t)) := by
    conv_lhs => rw [e1]
    rw [dot_neg_left, polar_dot_b hn ht h]
  rw [e2, abs_neg, abs_mul, abs_of_pos hN]
  show planeLength d t * _ / planeLength d t = _
  rw [mul_div_cancel_left₀ _ hN.ne']
  exact (Real.abs_sin_eq_sin_abs_of_abs_le_pi (abs_le.mpr ⟨hlo.le, hhi⟩))

/-- A ray meets a grating from the front: unit vectors, grooves perpendicular to the normal, and a part of the
ray's direction in the dispersion plane. -/
structure MeetsGrating (d n t : V3 ℝ) : Prop where
  direction : ‖d.toE‖ = 1
  normal : ‖n.toE‖ = 1
  tangent : ‖t.toE‖ = 1
  perp : inner ℝ n.toE t.toE = 0
  front : inner ℝ d.toE n.toE < 0

theorem MeetsGrating.facts {d n t : V3 ℝ} (h : MeetsGrating d n t) : dot d d = 1 ∧ dot n n = 1 ∧ dot t t = 1 ∧
    dot n t = 0 ∧ dot d n < 0 ∧ projectOntoPlane d t ≠ ⟨0, 0, 0⟩ := by
  obtain ⟨h1, h2, h3, h4, h5⟩ := h
  rw [norm_toE, norm_eq_one_iff] at h1 h2 h3
  rw [inner_toE] at h4 h5
  refine ⟨h1, h2, h3, h4, h5, ?_⟩
  intro e
  rw [project_unit d h3] at e
  have : dot (d - (dot d t) * t) n = 0 := by rw [e]; simp [dot]
  rw [dot_sub_left, dot_smul_left, dot_comm t n, h4] at this
  linarith

theorem MeetsGrating.angle {d n t : V3 ℝ} (h : MeetsGrating d n t) :
    0 < Real.cos (gratingAlpha d n t) ∧ -(Real.pi / 2) < gratingAlpha d n t ∧ gratingAlpha d n t < Real.pi / 2 ∧
    dot d (cross t n) = -(planeLength d t * Real.sin (gratingAlpha d n t)) := by
  obtain ⟨hd, hn, ht, hp, hf, h0⟩ := h.facts
  obtain ⟨hpol, hlo, hhi⟩ := direction_polar hn ht hp h0
  have hN : 0 < planeLength d t := norm_pos h0
  have hc : 0 < Real.cos (gratingAlpha d n t) := by
    have := polar_dot_n hn hp (-dot d t) (planeLength d t) (gratingAlpha d n t)
    rw [← hpol, dot_neg_left] at this
    by_contra hle
    have := mul_nonpos_of_nonneg_of_nonpos hN.le (not_lt.mp hle)
    linarith
  refine ⟨hc, ?_, ?_, ?_⟩
  · by_contra hle
    have := Real.cos_nonpos_of_pi_div_two_le_of_le (x := -gratingAlpha d n t) (by linarith [not_lt.mp hle])
      (by linarith [Real.pi_pos])
    rw [Real.cos_neg] at this; linarith
  · by_contra hle
    have := Real.cos_nonpos_of_pi_div_two_le_of_le (not_lt.mp hle) (by linarith [Real.pi_pos])
    linarith
  · have := polar_dot_b hn ht hp (-dot d t) (planeLength d t) (gratingAlpha d n t)
    rw [← hpol, dot_neg_left] at this
    linarith

/-- The outgoing direction of a grating, `Ray.reflect("grating")`. -/
theorem grating_reflect (ray : Ray ℝ) (n t : V3 ℝ) (G : ℝ) (optic : OpticAttrs ℝ) (ht : optic.tangent = some t)
    (hG : optic.G = some G) : ray.reflect "grating" (some n) optic
      = .ok { ray with direction := gratingDirection ray.direction n t G ray.order ray.wavelength } := by
  unfold Ray.reflect
  rw [if_neg (by decide), if_pos rfl, ht, hG]
  rfl

/-- C37 for incidence from one side (in-plane angle of incidence not positive): the grating equation holds,
with angles counted clockwise, and the light leaves to the front. For the other side see
`C37_other_side_iff`. -/
theorem C37_grating_equation_partial (ray : Ray ℝ) (n t : V3 ℝ) (G : ℝ) (optic : OpticAttrs ℝ)
    (ht : optic.tangent = some t) (hG : optic.G = some G) (h : MeetsGrating ray.direction n t)
    (hside : 0 ≤ inner ℝ ray.direction.toE (cross t n).toE)
    (hsol : |G / 1e6 * ray.order * ray.wavelength - inPlaneSine n t ray.direction| ≤ 1) :
    ∃ d' θi θo, ray.reflect "grating" (some n) optic = .ok { ray with direction := d' } ∧
      HasAngle n t (-ray.direction) θi ∧ HasAngle n t d' θo ∧ |θi| < Real.pi / 2 ∧ |θo| ≤ Real.pi / 2 ∧
      Real.sin (-θi) + Real.sin (-θo) = G / 1e6 * ray.order * ray.wavelength := by
  obtain ⟨hd, hn, ht1, hp, hf, h0⟩ := h.facts
  obtain ⟨hc, hlo, hhi, hb⟩ := h.angle
  obtain ⟨hpol, -, -⟩ := direction_polar hn ht1 hp h0
  have hN : 0 < planeLength ray.direction t := norm_pos h0
  obtain ⟨he, -⟩ := grating_eq hd hn ht1 hp h0 G ray.order ray.wavelength
  rw [inPlaneSine_eq hn ht1 hp h0] at hsol
  rw [inner_toE, hb] at hside
  have hsin : Real.sin (gratingAlpha ray.direction n t) ≤ 0 := by nlinarith
  have hα : gratingAlpha ray.direction n t ≤ 0 := by
    by_contra hpos
    have := Real.sin_pos_of_pos_of_lt_pi (not_le.mp hpos) (by linarith [Real.pi_pos])
    linarith
  rw [abs_of_nonpos hα] at hsol he
  refine ⟨_, gratingAlpha ray.direction n t, -gratingBeta ray.direction n t (G / 1e6 * ray.order * ray.wavelength),
    grating_reflect ray n t G optic ht hG, ⟨_, _, hN, hpol⟩, ?_, abs_lt.mpr ⟨hlo, hhi⟩, ?_, ?_⟩
  · refine ⟨dot ray.direction t, planeLength ray.direction t, hN, ?_⟩
    rw [he]; congr 1; ring
  · rw [abs_neg, abs_le]; exact ⟨Real.neg_pi_div_two_le_arcsin _, Real.arcsin_le_pi_div_two _⟩
  · rw [neg_neg]
    unfold gratingBeta
    rw [abs_of_nonpos hα, Real.sin_arcsin (abs_le.mp hsol).1 (abs_le.mp hsol).2]
    ring

theorem HasAngle.sin_eq {n t v : V3 ℝ} (hn : dot n n = 1) (ht : dot t t = 1) (h : dot n t = 0) {φ ψ : ℝ}
    (h1 : HasAngle n t v φ) (h2 : HasAngle n t v ψ) : Real.sin φ = Real.sin ψ := by
  obtain ⟨a, ρ, hρ, e1⟩ := h1
  obtain ⟨b, σ, hσ, e2⟩ := h2
  have hn1 := polar_dot_n hn h a ρ φ
  have hn2 := polar_dot_n hn h b σ ψ
  have hb1 := polar_dot_b hn ht h a ρ φ
  have hb2 := polar_dot_b hn ht h b σ ψ
  rw [← e1] at hn1 hb1
  rw [← e2] at hn2 hb2
  have hsq : ρ ^ 2 = σ ^ 2 := by
    have p1 : ρ ^ 2 = dot v n ^ 2 + dot v (cross t n) ^ 2 := by
      rw [hn1, hb1]; linear_combination (-ρ ^ 2) * Real.cos_sq_add_sin_sq φ
    have p2 : σ ^ 2 = dot v n ^ 2 + dot v (cross t n) ^ 2 := by
      rw [hn2, hb2]; linear_combination (-σ ^ 2) * Real.cos_sq_add_sin_sq ψ
    rw [p1, p2]
  have hρσ : ρ = σ := by
    have := abs_eq_abs.mpr (sq_eq_sq_iff_eq_or_eq_neg.mp hsq)
    rwa [abs_of_pos hρ, abs_of_pos hσ] at this
  rw [hb1, ← hρσ] at hb2
  exact mul_left_cancel₀ hρ.ne' hb2

/-- C37 for incidence from the other side (positive in-plane angle of incidence): the grating equation holds,
with either orientation of the angles, only in the trivial case `G m λ = 0`. -/
theorem C37_other_side_iff (ray : Ray ℝ) (n t : V3 ℝ) (G : ℝ) (optic : OpticAttrs ℝ)
    (ht : optic.tangent = some t) (hG : optic.G = some G) (h : MeetsGrating ray.direction n t)
    (hside : inner ℝ ray.direction.toE (cross t n).toE < 0)
    (hsol : |G / 1e6 * ray.order * ray.wavelength - inPlaneSine n t ray.direction| ≤ 1) :
    ∃ d', ray.reflect "grating" (some n) optic = .ok { ray with direction := d' } ∧
      ((∃ θi θo, HasAngle n t (-ray.direction) θi ∧ HasAngle n t d' θo ∧
        |Real.sin θi + Real.sin θo| = |G / 1e6 * ray.order * ray.wavelength|) ↔
      G / 1e6 * ray.order * ray.wavelength = 0) := by
  obtain ⟨hd, hn, ht1, hp, hf, h0⟩ := h.facts
  obtain ⟨hc, hlo, hhi, hb⟩ := h.angle
  obtain ⟨hpol, -, -⟩ := direction_polar hn ht1 hp h0
  have hN : 0 < planeLength ray.direction t := norm_pos h0
  obtain ⟨he, -⟩ := grating_eq hd hn ht1 hp h0 G ray.order ray.wavelength
  rw [inPlaneSine_eq hn ht1 hp h0] at hsol
  rw [inner_toE, hb] at hside
  have hsin : 0 < Real.sin (gratingAlpha ray.direction n t) := by
    by_contra hle
    have := mul_nonpos_of_nonneg_of_nonpos hN.le (not_lt.mp hle)
    linarith
  have hα : 0 < gratingAlpha ray.direction n t := by
    by_contra hle
    have := Real.sin_nonpos_of_nonpos_of_neg_pi_le (not_lt.mp hle) (by linarith [Real.pi_pos])
    linarith
  have hβs : Real.sin (gratingBeta ray.direction n t (G / 1e6 * ray.order * ray.wavelength))
      = G / 1e6 * ray.order * ray.wavelength - Real.sin (gratingAlpha ray.direction n t) := by
    unfold gratingBeta
    rw [Real.sin_arcsin (abs_le.mp hsol).1 (abs_le.mp hsol).2, abs_of_pos hα]
  have hβl : -(Real.pi / 2) ≤ gratingBeta ray.direction n t (G / 1e6 * ray.order * ray.wavelength) :=
    Real.neg_pi_div_two_le_arcsin _
  have hβu : gratingBeta ray.direction n t (G / 1e6 * ray.order * ray.wavelength) ≤ Real.pi / 2 :=
    Real.arcsin_le_pi_div_two _
  rw [abs_of_pos hα] at he
  refine ⟨_, grating_reflect ray n t G optic ht hG, ?_⟩
  generalize hK : G / 1e6 * ray.order * ray.wavelength = K at *
  generalize hβ : gratingBeta ray.direction n t K = β at *
  generalize hα' : gratingAlpha ray.direction n t = α at *
  have hi : HasAngle n t (-ray.direction) α := ⟨_, _, hN, hpol⟩
  have ho : HasAngle n t (gratingDirection ray.direction n t G ray.order ray.wavelength) (-α - α - β) :=
    ⟨_, _, hN, he⟩
  have hsum : α + β = 0 ↔ K = 0 := by
    constructor
    · intro e
      have : β = -α := by linarith
      rw [this, Real.sin_neg] at hβs; linarith
    · intro e
      have : Real.sin β = Real.sin (-α) := by rw [hβs, e, Real.sin_neg]; ring
      have := Real.injOn_sin (Set.mem_Icc.mpr ⟨hβl, hβu⟩) (Set.mem_Icc.mpr ⟨by linarith, by linarith⟩) this
      linarith
  constructor
  · rintro ⟨θi, θo, h1, h2, h3⟩
    rw [h1.sin_eq hn ht1 hp hi, h2.sin_eq hn ht1 hp ho] at h3
    have e2 : Real.sin (-α - α - β) = -Real.sin (α + (α + β)) := by
      rw [← Real.sin_neg]; congr 1; ring
    have e3 : Real.sin β = Real.sin ((α + β) - α) := by congr 1; ring
    have hKe : K = Real.sin α + Real.sin β := by linarith
    rw [← hsum]
    rw [e2, Real.sin_add] at h3
    rw [hKe, e3, Real.sin_sub] at h3
    rcases abs_eq_abs.mp h3 with h4 | h4
    · have hz : Real.cos α * Real.sin (α + β) = 0 := by linarith
      have hz' : Real.sin (α + β) = 0 := by
        rcases mul_eq_zero.mp hz with hz | hz
        · exact absurd hz hc.ne'
        · exact hz
      exact (Real.sin_eq_zero_iff_of_lt_of_lt (by linarith [Real.pi_pos]) (by linarith)).mp hz'
    · have hz : Real.sin α * (1 - Real.cos (α + β)) = 0 := by linarith
      have hz' : Real.cos (α + β) = 1 := by
        rcases mul_eq_zero.mp hz with hz | hz
        · exact absurd hz hsin.ne'
        · linarith
      exact (Real.cos_eq_one_iff_of_lt_of_lt (by linarith [Real.pi_pos]) (by linarith [Real.pi_pos])).mp hz'
  · intro e
    refine ⟨α, -α - α - β, hi, ho, ?_⟩
    have : β = -α := by linarith [hsum.mpr e]
    rw [this, e, show -α - α - -α = -α by ring, Real.sin_neg, add_neg_cancel]

/-- C37 is false for positive angles of incidence: 1000 lines/mm, 500 nm, first order, 30 degrees. -/
theorem C37_counterexample :
    let d : V3 ℝ := ⟨-(1 / 2), 0, -(Real.sqrt 3 / 2)⟩
    let n : V3 ℝ := ⟨0, 0, 1⟩
    let t : V3 ℝ := ⟨0, 1, 0⟩
    MeetsGrating d n t ∧ |(1000 : ℝ) / 1e6 * 1 * 500 - inPlaneSine n t d| ≤ 1 ∧
    ∀ θi θo, HasAngle n t (-d) θi → HasAngle n t (gratingDirection d n t 1000 1 500) θo →
      |Real.sin θi + Real.sin θo| ≠ |(1000 : ℝ) / 1e6 * 1 * 500| := by
  intro d n t
  have h3 : Real.sqrt 3 * Real.sqrt 3 = 3 := Real.mul_self_sqrt (by norm_num)
  have h3p : 0 < Real.sqrt 3 := Real.sqrt_pos.mpr (by norm_num)
  have hm : MeetsGrating d n t := by
    refine ⟨?_, ?_, ?_, ?_, ?_⟩
    · rw [norm_toE, norm_eq_one_iff]; simp only [dot, d]; nlinarith
    · rw [norm_toE, norm_eq_one_iff]; norm_num [dot, n]
    · rw [norm_toE, norm_eq_one_iff]; norm_num [dot, t]
    · rw [inner_toE]; norm_num [dot, n, t]
    · rw [inner_toE]; norm_num [dot, d, n]
  have hs : inPlaneSine n t d = 1 / 2 := by
    unfold inPlaneSine
    rw [inner_toE, inner_toE, norm_toE]
    have e1 : d - (dot d t) * t = d := by ext <;> simp [dot, d, t]
    have e2 : dot d (cross t n) = -(1 / 2) := by norm_num [dot, cross, d, t, n]
    rw [e1, e2, norm_eq_one_iff.mpr hm.facts.1]; norm_num
  refine ⟨hm, by rw [hs]; norm_num, ?_⟩
  intro θi θo h1 h2 h
  obtain ⟨d', hd', hiff⟩ := C37_other_side_iff ⟨⟨0, 0, 0⟩, d, 500, 1, [], false, ""⟩ n t 1000
    ⟨⟨0, 0, 0⟩, none, none, some t, some 1000⟩ rfl rfl hm
    (by rw [inner_toE]; norm_num [dot, cross, d, t, n]) (by rw [hs]; norm_num)
  rw [grating_reflect _ n t 1000 _ rfl rfl] at hd'
  have hdd := congrArg Ray.direction (Except.ok.inj hd')
  simp only at hdd hiff
  rw [← hdd] at hiff
  have := hiff.mp ⟨θi, θo, h1, h2, h⟩
  norm_num at this

/-- C37's true part applies: the mirrored case, -30 degrees. -/
example : MeetsGrating (⟨3 / 5, 0, -(4 / 5)⟩ : V3 ℝ) ⟨0, 0, 1⟩ ⟨0, 1, 0⟩ ∧
    (0 : ℝ) ≤ inner ℝ (⟨3 / 5, 0, -(4 / 5)⟩ : V3 ℝ).toE (cross ⟨0, 1, 0⟩ ⟨0, 0, 1⟩ : V3 ℝ).toE := by
  refine ⟨⟨?_, ?_, ?_, ?_, ?_⟩, ?_⟩
  · rw [norm_toE, norm_eq_one_iff]; norm_num [dot]
  · rw [norm_toE, norm_eq_one_iff]; norm_num [dot]
  · rw [norm_toE, norm_eq_one_iff]; norm_num [dot]
  · rw [inner_toE]; norm_num [dot]
  · rw [inner_toE]; norm_num [dot]
  · rw [inner_toE]; norm_num [dot, cross]

/-! ## C38 -/

/-- C38: in order 0 a grating is a mirror; in every other order with a solvable grating equation it changes
only the direction, to a unit vector with the same component along the grooves. -/
theorem C38_grating (g : Grating ℝ) (ray : Ray ℝ) (pt n : V3 ℝ) (hn : ‖n.toE‖ = 1) (ht : ‖g.tangent.toE‖ = 1)
    (hperp : inner ℝ n.toE g.tangent.toE = 0) (hd : ‖ray.direction.toE‖ = 1) :
    (ray.order = 0 → ∃ d', g.doIntersect ray pt (some n) = .ok { ray with direction := d' } ∧
      Reflected n.toE ray.direction.toE d'.toE) ∧
    (∀ G, ray.order ≠ 0 → g.G = some G → (∀ c : ℝ, ray.direction ≠ c * g.tangent) →
      |G / 1e6 * ray.order * ray.wavelength - inPlaneSine n g.tangent ray.direction| ≤ 1 →
      ∃ d', g.doIntersect ray pt (some n) = .ok { ray with direction := d' } ∧ ‖d'.toE‖ = 1 ∧
        inner ℝ d'.toE g.tangent.toE = inner ℝ ray.direction.toE g.tangent.toE) ∧
    (ray.order ≠ 0 → g.G = none → g.doIntersect ray pt (some n) = .error .typeError) := by
  rw [norm_toE, norm_eq_one_iff] at hn ht hd
  rw [inner_toE] at hperp
  refine ⟨?_, ?_, ?_⟩
  · intro h0
    refine ⟨specular ray.direction n, ?_, specular_reflected (ne_zero_of_dot_one hd) (ne_zero_of_dot_one hn)⟩
    unfold Grating.doIntersect
    rw [if_pos (by rw [h0, real_eqb, lit0]; simp)]
    rfl
  · intro G h0 hG hpar hsol
    have hp0 : projectOntoPlane ray.direction g.tangent ≠ ⟨0, 0, 0⟩ := by
      intro e
      rw [project_unit _ ht, sub_eq_zero'] at e
      exact hpar _ e
    obtain ⟨he, hsq⟩ := grating_eq hd hn ht hperp hp0 G ray.order ray.wavelength
    refine ⟨gratingDirection ray.direction n g.tangent G ray.order ray.wavelength, ?_, ?_, ?_⟩
    · unfold Grating.doIntersect
      rw [if_neg (by rw [real_eqb, lit0]; simpa using h0)]
      exact grating_reflect ray n g.tangent G _ rfl hG
    · rw [norm_toE, norm_eq_one_iff, he, polar_self hn ht hperp, hsq]
    · rw [inner_toE, inner_toE, he, polar_dot_t ht hperp]
  · intro h0 hG
    unfold Grating.doIntersect
    rw [if_neg (by rw [real_eqb, lit0]; simpa using h0)]
    unfold Ray.reflect
    rw [if_neg (by decide), if_pos rfl]
    simp only [hG]; rfl

/-! ### In numpy -/

theorem lift_angle_signed {a b : V3 ℝ} (ha : a ≠ ⟨0, 0, 0⟩) (hb : b ≠ ⟨0, 0, 0⟩) (k : V3 ℝ) :
    angleBetween a.lift b.lift (some k.lift) = .fin (angleBetween a b (some k)) := by
  unfold angleBetween
  simp only [lift_unitVector ha, lift_unitVector hb, lift_cross, lift_dot, XR.fin_arctan2]
  rfl

theorem lift_axisAngle {k : V3 ℝ} (hk : k ≠ ⟨0, 0, 0⟩) (θ : ℝ) :
    rotationMatrixAxisAngle k.lift (.fin θ) = (rotationMatrixAxisAngle k θ).lift := by
  unfold rotationMatrixAxisAngle
  have h : k.lift / PyNum.sqrt (dot k.lift k.lift) = (k / PyNum.sqrt (dot k k)).lift := by
    rw [lift_dot, XR.fin_sqrt _ (dot_self_nonneg k)]
    exact lift_div _ (norm_pos hk).ne' k
  rw [h]
  simp only [xlit2, XR.fin_div _ _ (two_ne_zero' ℝ), XR.fin_cos, XR.fin_sin, V3.lift, XR.fin_neg, XR.fin_mul, XR.fin_add,
    XR.fin_sub, lit2, M3.lift]
  rfl

theorem nan_axisAngle (k v : V3 XR) : M3.mulVec (rotationMatrixAxisAngle k .nan) v = V3.nan := by
  unfold rotationMatrixAxisAngle
  ext <;> simp [M3.mulVec, dot, V3.nan]

theorem xlit6 : (1e6 : XR) = XR.fin 1e6 := XR.fin_ofScientific _ _ _

/-- The direction the code computes in numpy, as a function of `beta`. -/
theorem lift_grating_aux {d n t : V3 ℝ} (hd : dot d d = 1) (hn : dot n n = 1) (ht : dot t t = 1) (h : dot n t = 0)
    (hp : projectOntoPlane d t ≠ ⟨0, 0, 0⟩) (G m wl : ℝ) :
    gratingDirection d.lift n.lift t.lift (.fin G) (.fin m) (.fin wl) =
      unitVector (M3.mulVec (rotationMatrixAxisAngle t.lift
        (-PyNum.arcsin (XR.fin (G / 1e6 * m * wl - Real.sin |gratingAlpha d n t|))))
        (unitVector (M3.mulVec (rotationMatrixAxisAngle t (-gratingSign d n t * gratingAlpha d n t))
          (d - (2 * dot d n) * n))).lift) := by
  have ht0 := ne_zero_of_dot_one ht
  have hd0 := ne_zero_of_dot_one hd
  have hn0 := ne_zero_of_dot_one hn
  have hpn : projectOntoPlane n t = n := by rw [project_unit n ht, h]; ext <;> simp
  have hi : -unitVector (projectOntoPlane d t) ≠ ⟨0, 0, 0⟩ :=
    ne_zero_of_dot_one (by rw [dot_neg_left, dot_neg_right, neg_neg]; exact unit_dot hp)
  unfold gratingDirection
  simp only [lift_unitVector hn0, lift_unitVector hd0, unitVector_of_unit hd, unitVector_of_unit hn,
    lift_projectOntoPlane _ ht0, hpn, lift_unitVector hp, lift_neg, lift_angle_signed hi hn0]
  have ha : angleBetween (-unitVector (projectOntoPlane d t)) n (some t) = gratingAlpha d n t := rfl
  rw [ha]
  have hs : (if XR.fin (gratingAlpha d n t) < 0.0 then (-1.0 : XR) else 1.0) = XR.fin (gratingSign d n t) := by
    unfold gratingSign
    simp only [xlit0, xlit1, XR.fin_lt, XR.fin_neg]
    split_ifs <;> rfl
  rw [hs, xlit6, xlit2]
  simp only [XR.fin_div _ _ (show (1e6 : ℝ) ≠ 0 by norm_num), XR.fin_mul, XR.fin_sin, XR.fin_sub, gratingSign_mul,
    XR.fin_neg, lift_dot, lift_smul, lift_sub, lift_axisAngle ht0, lift_mulVec]
  rw [lift_unitVector]
  have hr : dot (d - (2 * dot d n) * n) (d - (2 * dot d n) * n) = 1 := by
    simp only [dot_sub_left, dot_sub_right, dot_smul_left, dot_smul_right, dot_comm n d, hd, hn]; ring
  exact ne_zero_of_dot_one (by rw [(axisAngle_isRotation ht0 _).dot_mulVec]; exact hr)

/-- C38 in numpy: finite if the grating equation is solvable, NaN if it is not. -/
theorem C38_nan_iff (d n t : V3 ℝ) (hd : ‖d.toE‖ = 1) (hn : ‖n.toE‖ = 1) (ht : ‖t.toE‖ = 1)
    (hperp : inner ℝ n.toE t.toE = 0) (hpar : ∀ c : ℝ, d ≠ c * t) (G m wl : ℝ) :
    (|G / 1e6 * m * wl - inPlaneSine n t d| ≤ 1 →
      gratingDirection d.lift n.lift t.lift (.fin G) (.fin m) (.fin wl) = (gratingDirection d n t G m wl).lift) ∧
    (1 < |G / 1e6 * m * wl - inPlaneSine n t d| →
      gratingDirection d.lift n.lift t.lift (.fin G) (.fin m) (.fin wl) = V3.nan) := by
  rw [norm_toE, norm_eq_one_iff] at hn ht hd
  rw [inner_toE] at hperp
  have ht0 := ne_zero_of_dot_one ht
  have hp : projectOntoPlane d t ≠ ⟨0, 0, 0⟩ := by
    intro e
    rw [project_unit _ ht, sub_eq_zero'] at e
    exact hpar _ e
  rw [inPlaneSine_eq hn ht hperp hp, lift_grating_aux hd hn ht hperp hp]
  constructor
  · intro hle
    rw [XR.fin_arcsin _ (abs_le.mp hle), XR.fin_neg, lift_axisAngle ht0, lift_mulVec]
    have hr : dot (d - (2 * dot d n) * n) (d - (2 * dot d n) * n) = 1 := by
      simp only [dot_sub_left, dot_sub_right, dot_smul_left, dot_smul_right, dot_comm n d, hd, hn]; ring
    have hu : ∀ θ : ℝ, dot (M3.mulVec (rotationMatrixAxisAngle t θ) (d - (2 * dot d n) * n))
        (M3.mulVec (rotationMatrixAxisAngle t θ) (d - (2 * dot d n) * n)) = 1 := by
      intro θ; rw [(axisAngle_isRotation ht0 _).dot_mulVec]; exact hr
    rw [lift_unitVector]
    · have hpn : projectOntoPlane n t = n := by rw [project_unit n ht, hperp]; ext <;> simp
      unfold gratingDirection
      simp only [unitVector_of_unit hd, unitVector_of_unit hn, hpn]
      have ha : angleBetween (-unitVector (projectOntoPlane d t)) n (some t) = gratingAlpha d n t := rfl
      have hs : (if gratingAlpha d n t < 0.0 then (-1.0 : ℝ) else 1.0) = gratingSign d n t := by
        unfold gratingSign; rw [lit0, lit1]
      simp only [ha, hs, lit2, real_sin, real_arcsin, gratingSign_mul]
    · rw [unitVector_of_unit (hu _)]
      exact ne_zero_of_dot_one (by rw [(axisAngle_isRotation ht0 _).dot_mulVec]; exact hu _)
  · intro hgt
    rw [XR.arcsin_out _ (fun hh => absurd (abs_le.mpr hh) (not_le.mpr hgt)), XR.neg_nan, nan_axisAngle]
    ext <;> simp [unitVector, V3.nan]

/-- C38: a ray along the grooves gets NaN in every order but 0. -/
theorem C38_along_grooves_nan (c : ℝ) (n t : V3 ℝ) (hc : c ≠ 0) (ht : ‖t.toE‖ = 1) (G m wl : XR) :
    gratingDirection (c * t : V3 ℝ).lift n.lift t.lift G m wl = V3.nan := by
  rw [norm_toE, norm_eq_one_iff] at ht
  have ht0 := ne_zero_of_dot_one ht
  have hct0 : c * t ≠ ⟨0, 0, 0⟩ := by
    intro e
    have h0 : dot (c * t) (c * t) = 0 := by rw [e]; simp [dot]
    rw [dot_smul_left, dot_smul_right, ht] at h0
    exact hc (by nlinarith)
  have hp : projectOntoPlane (unitVector (c * t)) t = ⟨0, 0, 0⟩ := by
    rw [project_unit _ ht, unitVector_eq, dot_smul_left, dot_smul_left, ht]
    ext <;> simp only [sub_x, sub_y, sub_z, smul_x, smul_y, smul_z] <;> ring
  have hun : unitVector (V3.lift ⟨0, 0, 0⟩) = V3.nan := by
    unfold unitVector
    rw [lift_norm, V3.norm_eq_zero.mpr rfl]
    ext <;> simp [V3.lift, V3.nan, XR.zero_div_zero]
  unfold gratingDirection
  simp only [lift_unitVector hct0, lift_projectOntoPlane _ ht0, hp, hun]
  have ha : ∀ w : V3 XR, angleBetween (-V3.nan) w (some t.lift) = .nan := by
    intro w
    unfold angleBetween
    simp [unitVector, V3.nan, cross, dot]
    rfl
  simp only [ha, XR.mul_nan, XR.sin_nan, XR.sub_nan]
  rw [show PyNum.arcsin XR.nan = XR.nan from rfl, XR.neg_nan, nan_axisAngle]
  ext <;> simp [unitVector, V3.nan]

/-- C38 applies, off the dispersion plane, on both sides of solvability: 600 and 2400 lines/mm at 500 nm. -/
example : let d : V3 ℝ := ⟨0, 3 / 5, -(4 / 5)⟩
    let n : V3 ℝ := ⟨0, 0, 1⟩
    let t : V3 ℝ := ⟨0, 1, 0⟩
    ‖d.toE‖ = 1 ∧ (∀ c : ℝ, d ≠ c * t) ∧ |(600 : ℝ) / 1e6 * 1 * 500 - inPlaneSine n t d| ≤ 1 ∧
      1 < |(2400 : ℝ) / 1e6 * 1 * 500 - inPlaneSine n t d| := by
  intro d n t
  have hs : inPlaneSine n t d = 0 := by
    unfold inPlaneSine
    rw [inner_toE, show dot d (cross t n) = 0 by norm_num [dot, cross, d, t, n], abs_zero, zero_div]
  rw [hs]
  refine ⟨?_, ?_, ?_, ?_⟩
  · rw [norm_toE, norm_eq_one_iff]; norm_num [dot, d]
  · intro c e
    have := congrArg V3.z e
    simp [d, t] at this
  · rw [abs_of_pos] <;> norm_num
  · rw [abs_of_pos] <;> norm_num

end Optics
