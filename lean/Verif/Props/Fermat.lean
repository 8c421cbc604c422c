import Verif.Props.RayOptics

/-!
# C81: Fermat's principle
-/

namespace Optics
open V3

/-- Where the surface components, scaled by the indices, agree, the broken line has the least optical length. -/
theorem least_length {η₁ η₂ : ℝ} (h1 : 0 < η₁) (h2 : 0 < η₂) {n d d' : E3} (hd : ‖d‖ = 1) (hd' : ‖d'‖ = 1)
    (h : ∀ u : E3, inner ℝ u n = 0 → η₁ * inner ℝ d u = η₂ * inner ℝ d' u) {X Y : E3} (hY : inner ℝ (Y - X) n = 0)
    {s t : ℝ} (hs : 0 ≤ s) (ht : 0 ≤ t) :
    η₁ * dist (X - s • d) X + η₂ * dist X (X + t • d') ≤ η₁ * dist (X - s • d) Y + η₂ * dist Y (X + t • d') ∧
    (inner ℝ d n ≠ 0 → Y ≠ X →
      η₁ * dist (X - s • d) X + η₂ * dist X (X + t • d') < η₁ * dist (X - s • d) Y + η₂ * dist Y (X + t • d')) := by
  have e1 : dist (X - s • d) X = s := by
    rw [dist_eq_norm, sub_sub_cancel_left, _root_.norm_neg, _root_.norm_smul, hd, Real.norm_eq_abs, abs_of_nonneg hs, mul_one]
  have e2 : dist X (X + t • d') = t := by
    rw [dist_eq_norm, sub_add_cancel_left, _root_.norm_neg, _root_.norm_smul, hd', Real.norm_eq_abs, abs_of_nonneg ht, mul_one]
  have e3 : dist (X - s • d) Y = ‖(Y - X) + s • d‖ := by
    rw [dist_comm, dist_eq_norm]; congr 1; abel
  have e4 : dist Y (X + t • d') = ‖t • d' - (Y - X)‖ := by
    rw [dist_comm, dist_eq_norm]; congr 1; abel
  have i1 : inner ℝ d ((Y - X) + s • d) = inner ℝ d (Y - X) + s := by
    rw [inner_add_right, inner_smul_right, real_inner_self_eq_norm_sq, hd]; ring
  have i2 : inner ℝ d' (t • d' - (Y - X)) = t - inner ℝ d' (Y - X) := by
    rw [inner_sub_right, inner_smul_right, real_inner_self_eq_norm_sq, hd']; ring
  have b1 : inner ℝ d (Y - X) + s ≤ ‖(Y - X) + s • d‖ := by
    have := real_inner_le_norm d ((Y - X) + s • d)
    rwa [i1, hd, one_mul] at this
  have b2 : t - inner ℝ d' (Y - X) ≤ ‖t • d' - (Y - X)‖ := by
    have := real_inner_le_norm d' (t • d' - (Y - X))
    rwa [i2, hd', one_mul] at this
  have key := h _ hY
  rw [e1, e2, e3, e4]
  constructor
  · nlinarith [mul_le_mul_of_nonneg_left b1 h1.le, mul_le_mul_of_nonneg_left b2 h2.le]
  · intro hdn hne
    have b1' : inner ℝ d (Y - X) + s < ‖(Y - X) + s • d‖ := by
      refine lt_of_le_of_ne b1 fun e => hne ?_
      have hpar : inner ℝ d ((Y - X) + s • d) = ‖d‖ * ‖(Y - X) + s • d‖ := by rw [i1, e, hd, one_mul]
      have := inner_eq_norm_mul_iff_real.mp hpar
      rw [hd, one_smul] at this
      have hYX : Y - X = (‖(Y - X) + s • d‖ - s) • d := by
        rw [sub_smul, this]; abel
      rw [hYX, inner_smul_left] at hY
      have h0 : ‖(Y - X) + s • d‖ - s = 0 := (mul_eq_zero.mp hY).resolve_right hdn
      rw [h0, zero_smul] at hYX
      exact sub_eq_zero.mp hYX
    nlinarith [mul_lt_mul_of_pos_left b1' h1, mul_le_mul_of_nonneg_left b2 h2.le]

/-- C81: Fermat's principle for `Ray.reflect`: of all broken lines from a point of the incoming ray, by way of a point of the
mirror's plane, to a point of the reflected ray, the one through the point where the ray is reflected is the shortest; and it
is the only one, unless the ray runs along the mirror. -/
theorem C81_reflection (ray : Ray ℝ) (n : V3 ℝ) (optic : OpticAttrs ℝ) (hd : ‖ray.direction.toE‖ = 1) (hn : n ≠ ⟨0, 0, 0⟩) :
    ∃ d', ray.reflect "specular_flat" (some n) optic = .ok { ray with direction := d' } ∧
      ∀ X Y : E3, ∀ s t : ℝ, 0 ≤ s → 0 ≤ t → inner ℝ (Y - X) n.toE = 0 →
        let P := X - s • ray.direction.toE
        let Q := X + t • d'.toE
        dist P X + dist X Q ≤ dist P Y + dist Y Q ∧
        (inner ℝ ray.direction.toE n.toE ≠ 0 → Y ≠ X → dist P X + dist X Q < dist P Y + dist Y Q) := by
  have hd0 : ray.direction ≠ ⟨0, 0, 0⟩ := by
    intro e
    rw [norm_toE, norm_eq_one_iff, e] at hd
    simp [dot] at hd
  obtain ⟨d', e, hr, -⟩ := C30_reflection ray n optic hd0 hn
  refine ⟨d', e, fun X Y s t hs ht hY => ?_⟩
  have := least_length one_pos one_pos hd hr.unit (fun u hu => by
    rw [one_mul, one_mul]
    have := hr.surfaceKept u hu
    rw [hd, one_mul] at this
    exact this.symm) hY hs ht
  simpa only [one_mul] using this

/-- C81: Fermat's principle for `Ray.refract`: below the critical angle, of all broken lines from a point of the incoming
ray, by way of a point of the plane of the surface, to a point of the refracted ray, the one through the point where the ray
is refracted has the least optical length (length times index); and it is the only one, unless the ray runs along the surface. -/
theorem C81_refraction (ray : Ray ℝ) (n : V3 ℝ) (optic : OpticAttrs ℝ) (pt : V3 ℝ) (η₁ η₂ : ℝ) (h1 : 0 < η₁) (h2 : 0 < η₂)
    (hd : ‖ray.direction.toE‖ = 1) (hn : ‖n.toE‖ = 1) (hc : η₁ / η₂ * sinIncidence n.toE ray.direction.toE ≤ 1) :
    ∃ d', ray.refract "snells_law" (some n) optic pt (some η₁) (some η₂) = .ok { ray with direction := d' } ∧
      ∀ X Y : E3, ∀ s t : ℝ, 0 ≤ s → 0 ≤ t → inner ℝ (Y - X) n.toE = 0 →
        let P := X - s • ray.direction.toE
        let Q := X + t • d'.toE
        η₁ * dist P X + η₂ * dist X Q ≤ η₁ * dist P Y + η₂ * dist Y Q ∧
        (inner ℝ ray.direction.toE n.toE ≠ 0 → Y ≠ X → η₁ * dist P X + η₂ * dist X Q < η₁ * dist P Y + η₂ * dist Y Q) := by
  obtain ⟨d', e, hu, -, hr⟩ := C32_total_internal_reflection ray n optic pt η₁ η₂ h1 h2 hd hn
  have hr := hr hc
  refine ⟨d', e, fun X Y s t hs ht hY => least_length h1 h2 hd hu (fun u hu => ?_) hY hs ht⟩
  have := congrArg (fun v : E3 => inner ℝ v u) hr.surface
  simp only [tangential, smul_sub, inner_sub_left, inner_smul_left, RCLike.conj_to_real] at this
  rw [real_inner_comm n.toE u] at hu
  have hu' : inner ℝ n.toE u = 0 := by rw [real_inner_comm]; rw [real_inner_comm] at hu; exact hu
  rw [hu', mul_zero, mul_zero, mul_zero, mul_zero, sub_zero, sub_zero] at this
  exact this

/-- C81 applies: a ray from air to glass at an angle with sine 3/5. -/
example : ‖(⟨3 / 5, 0, -4 / 5⟩ : V3 ℝ).toE‖ = 1 ∧ ‖(⟨0, 0, 1⟩ : V3 ℝ).toE‖ = 1 ∧
    (1 : ℝ) / (3 / 2) * sinIncidence (⟨0, 0, 1⟩ : V3 ℝ).toE (⟨3 / 5, 0, -4 / 5⟩ : V3 ℝ).toE ≤ 1 ∧
    inner ℝ (⟨3 / 5, 0, -4 / 5⟩ : V3 ℝ).toE (⟨0, 0, 1⟩ : V3 ℝ).toE ≠ 0 := by
  refine ⟨?_, ?_, ?_, ?_⟩
  · rw [norm_toE, norm_eq_one_iff]; norm_num [dot]
  · rw [norm_toE, norm_eq_one_iff]; norm_num [dot]
  · have : sinIncidence (⟨0, 0, 1⟩ : V3 ℝ).toE (⟨3 / 5, 0, -4 / 5⟩ : V3 ℝ).toE ≤ 1 := Real.sin_le_one _
    linarith
  · rw [inner_toE]; norm_num [dot]

end Optics
