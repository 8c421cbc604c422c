import Verif.Spec.Euclid
import Mathlib.Geometry.Euclidean.Angle.Unoriented.Basic

/-!
# Specification: reflection, refraction, ideal lenses

Stated for vectors of Mathlib's Euclidean 3-space.
-/

namespace Optics

/-- Euclidean 3-space. -/
abbrev E3 := EuclideanSpace ℝ (Fin 3)

/-- The part of `d` along the surface with unit normal `n`. -/
noncomputable def tangential (n d : E3) : E3 := d - (inner ℝ d n) • n

/-- Law of reflection: `d'` is the unit vector with the direction of `d` after the component along the
normal direction is reversed. -/
structure Reflected (n d d' : E3) : Prop where
  unit : ‖d'‖ = 1
  normalReversed : ‖d‖ * inner ℝ d' n = -inner ℝ d n
  surfaceKept : ∀ u : E3, inner ℝ u n = 0 → ‖d‖ * inner ℝ d' u = inner ℝ d u

/-- Snell's law for a unit direction `d` going to `d'` at a surface with unit normal `n`, from index `η₁`
to index `η₂`: the surface components, scaled by the indices, agree (so `d'` is in the plane of incidence
and `η₁ sin θ₁ = η₂ sin θ₂`), and `d'` goes to the other side of the surface. -/
structure Refracted (η₁ η₂ : ℝ) (n d d' : E3) : Prop where
  unit : ‖d'‖ = 1
  surface : η₁ • tangential n d = η₂ • tangential n d'
  farSide : 0 ≤ inner ℝ d n * inner ℝ d' n

/-- The sine of the angle of incidence. -/
noncomputable def sinIncidence (n d : E3) : ℝ := Real.sin (InnerProductGeometry.angle d n)

theorem norm_tangential {n d : E3} (hn : ‖n‖ = 1) (hd : ‖d‖ = 1) : ‖tangential n d‖ = sinIncidence n d := by
  have h := InnerProductGeometry.sin_angle_mul_norm_mul_norm d n
  rw [hn, hd, mul_one, mul_one] at h
  have h2 : ‖tangential n d‖ ^ 2 = 1 - inner ℝ d n ^ 2 := by
    rw [tangential, norm_sub_sq_real, inner_smul_right, hd, norm_smul, hn, Real.norm_eq_abs, mul_one, sq_abs]
    ring
  have h1 : sinIncidence n d = Real.sqrt (1 - inner ℝ d n ^ 2) := by
    rw [sinIncidence, h]
    simp only [inner_self_eq_norm_sq_to_K, hd, hn]
    norm_num
    ring_nf
  rw [h1, ← h2, Real.sqrt_sq (norm_nonneg _)]

/-- The form of Snell's law in terms of angles. -/
theorem Refracted.sines {η₁ η₂ : ℝ} {n d d' : E3} (h : Refracted η₁ η₂ n d d') (hn : ‖n‖ = 1) (hd : ‖d‖ = 1)
    (h1 : 0 ≤ η₁) (h2 : 0 ≤ η₂) : η₁ * sinIncidence n d = η₂ * sinIncidence n d' := by
  rw [← norm_tangential hn hd, ← norm_tangential hn h.unit]
  have := congrArg (‖·‖) h.surface
  simpa only [norm_smul, Real.norm_eq_abs, abs_of_nonneg h1, abs_of_nonneg h2] using this

/-- The plane of incidence. -/
theorem Refracted.coplanar {η₁ η₂ : ℝ} {n d d' : E3} (h : Refracted η₁ η₂ n d d') (h2 : η₂ ≠ 0) :
    ∃ a b : ℝ, d' = a • d + b • n := by
  refine ⟨η₁ / η₂, inner ℝ d' n - η₁ / η₂ * inner ℝ d n, ?_⟩
  have e := h.surface
  unfold tangential at e
  have e' : d' - inner ℝ d' n • n = (1 / η₂) • (η₁ • (d - inner ℝ d n • n)) := by
    rw [e, smul_smul, one_div, inv_mul_cancel₀ h2, one_smul]
  have e'' := eq_add_of_sub_eq e'
  generalize inner ℝ d' n = q at *
  generalize inner ℝ d n = p at *
  rw [e'']
  rw [smul_smul, one_div, inv_mul_eq_div]
  module

end Optics

namespace Optics

/-! ## Ideal lenses -/

/-- `I` is the image of the object point `O` under an ideal lens at `P` with axis `n` and focal length `f`:
with `p` the distance of `O` from the lens plane, and `1/p + 1/q = 1/f`, the whole position relative to the
lens is scaled by `-q/p`. -/
def ImageOf (f : ℝ) (P n O I : E3) : Prop :=
  ∃ q : ℝ, q ≠ 0 ∧ 1 / |inner ℝ (O - P) n| + 1 / q = 1 / f ∧ I - P = (-(q / |inner ℝ (O - P) n|)) • (O - P)

/-- The image is at distance `|q|` from the lens plane, and magnified by `-q/p`. -/
theorem ImageOf.position {f : ℝ} {P n O I : E3} (h : ImageOf f P n O I) (hO : inner ℝ (O - P) n ≠ 0) :
    ∃ q : ℝ, 1 / |inner ℝ (O - P) n| + 1 / q = 1 / f ∧ |inner ℝ (I - P) n| = |q| ∧
      tangential n (I - P) = (-(q / |inner ℝ (O - P) n|)) • tangential n (O - P) := by
  obtain ⟨q, -, he, hI⟩ := h
  refine ⟨q, he, ?_, ?_⟩
  · rw [hI, inner_smul_left]
    simp only [conj_trivial, abs_mul, abs_neg, abs_div, abs_abs]
    exact div_mul_cancel₀ _ (abs_ne_zero.mpr hO)
  · rw [hI, tangential, tangential, inner_smul_left]
    simp only [conj_trivial]
    module

/-- Every object point off the lens plane and off the focal plane has exactly one image. -/
theorem imageOf_existsUnique (f : ℝ) (hf : f ≠ 0) (P n O : E3) (hO : inner ℝ (O - P) n ≠ 0)
    (h : |inner ℝ (O - P) n| ≠ f) : ∃! I, ImageOf f P n O I := by
  have hp : |inner ℝ (O - P) n| ≠ 0 := abs_ne_zero.mpr hO
  generalize hpe : |inner ℝ (O - P) n| = p at *
  have hpf : p - f ≠ 0 := sub_ne_zero.mpr h
  refine ⟨P + (-(p * f / (p - f) / p)) • (O - P), ⟨p * f / (p - f), ?_, ?_, ?_⟩, ?_⟩
  · exact div_ne_zero (mul_ne_zero hp hf) hpf
  · rw [hpe]; field_simp; ring
  · rw [hpe, add_sub_cancel_left]
  · rintro I ⟨q, hq, he, hI⟩
    rw [hpe] at he hI
    have : q = p * f / (p - f) := by
      field_simp at he ⊢
      linear_combination -he
    rw [← this, ← hI]; abel

end Optics
