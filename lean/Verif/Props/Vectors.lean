import Verif.Lemmas.Rotation
import Verif.Spec.Lift
import Mathlib.Geometry.Euclidean.Angle.Unoriented.Basic

/-! # C01-C05: vector helpers -/

namespace Optics
open V3

/-! ## C01 -/

/-- C01: for a nonzero vector, `unit_vector` has (Mathlib) norm 1, is a positive multiple of the
argument, ignores positive rescaling, and is idempotent. -/
theorem C01_unit_vector (v : V3 ℝ) (h : v ≠ ⟨0, 0, 0⟩) :
    ‖(unitVector v).toE‖ = 1 ∧ (∃ c : ℝ, 0 < c ∧ unitVector v = c * v) ∧
    (∀ a : ℝ, 0 < a → unitVector (a * v) = unitVector v) ∧
    unitVector (unitVector v) = unitVector v := by
  have hp := norm_pos h
  refine ⟨by rw [norm_toE, unit_norm h], ⟨1 / norm v, by positivity, unitVector_eq v⟩, ?_,
    unitVector_of_unit (unit_dot h)⟩
  intro a ha
  have : norm v ≠ 0 := hp.ne'
  rw [unitVector, unitVector, norm_smul, abs_of_pos ha]
  ext <;> simp only [sdiv_x, sdiv_y, sdiv_z, smul_x, smul_y, smul_z] <;> field_simp

/-- C01, numpy: on finite nonzero input the numpy computation is finite and equals the real one. -/
theorem C01_unit_vector_finite (v : V3 ℝ) (h : v ≠ ⟨0, 0, 0⟩) :
    unitVector v.lift = (unitVector v).lift := by
  have hp := (norm_pos h).ne'
  have hn : norm v.lift = XR.fin (norm v) := by
    show PyNum.sqrt (XR.fin (dot v v)) = _
    rw [XR.fin_sqrt _ (dot_self_nonneg v)]; rfl
  simp only [unitVector, hn]
  ext <;> simp [V3.lift, XR.fin_div _ _ hp]

/-- C01, numpy: the zero vector gives `[nan, nan, nan]`. -/
theorem C01_unit_vector_zero : unitVector (⟨.fin 0, .fin 0, .fin 0⟩ : V3 XR) = V3.nan := by
  have hn : norm (⟨.fin 0, .fin 0, .fin 0⟩ : V3 XR) = XR.fin 0 := by
    show PyNum.sqrt (XR.fin (0 * 0 + 0 * 0 + 0 * 0)) = _
    rw [XR.fin_sqrt _ (by norm_num)]; simp
  simp only [unitVector, hn]
  ext <;> simp [V3.nan, XR.zero_div_zero]

example : (⟨3, 0, 4⟩ : V3 ℝ) ≠ ⟨0, 0, 0⟩ := by simp

/-! ## C02 -/

/-- C02: `distance_between` is Mathlib's Euclidean distance of the corresponding points. -/
theorem C02_distance_is_dist (p q : V3 ℝ) : distanceBetween p q = dist p.toE q.toE := by
  rw [dist_eq_norm, ← toE_sub, norm_toE]; rfl

/-- C02: it is a metric. -/
theorem C02_distance_metric (p q r : V3 ℝ) :
    0 ≤ distanceBetween p q ∧ (distanceBetween p q = 0 ↔ p = q) ∧
    distanceBetween p q = distanceBetween q p ∧
    distanceBetween p r ≤ distanceBetween p q + distanceBetween q r := by
  simp only [C02_distance_is_dist]
  exact ⟨dist_nonneg, by rw [dist_eq_zero]; exact toE_injective.eq_iff, dist_comm _ _,
    dist_triangle _ _ _⟩

/-- C02: it is invariant under every rigid motion `p ↦ A p + t`. -/
theorem C02_distance_rigid (A : M3 ℝ) (hA : IsRotation A) (t p q : V3 ℝ) :
    distanceBetween (M3.mulVec A p + t) (M3.mulVec A q + t) = distanceBetween p q := by
  have : M3.mulVec A p + t - (M3.mulVec A q + t) = M3.mulVec A (p - q) := by
    rw [mulVec_sub]; ext <;> simp
  rw [distanceBetween, this, hA.norm_mulVec]; rfl

example : IsRotation (rotationMatrixAxisAngle ⟨1, 2, 3⟩ 0.7) :=
  axisAngle_isRotation (by simp) _

/-! ## C03 -/

/-- `project_onto_plane` in one formula. -/
theorem projectOntoPlane_eq (x n : V3 ℝ) (hn : n ≠ ⟨0, 0, 0⟩) :
    projectOntoPlane x n = x - (dot x n / dot n n) * n := by
  have hp := (norm_pos hn).ne'
  simp only [projectOntoPlane, unitVector]
  rw [← norm_mul_self n]
  ext <;> simp only [sub_x, sub_y, sub_z, smul_x, smul_y, smul_z, sdiv_x, sdiv_y, sdiv_z] <;> field_simp

/-- C03: `project_onto_plane(x, n)` is the orthogonal projection of `x` onto the plane
perpendicular to `n`: it lies in the plane, differs from `x` by a multiple of `n`, is the
nearest point of the plane, is idempotent, and depends on `n` only up to a nonzero factor. -/
theorem C03_project_onto_plane (x n : V3 ℝ) (hn : n ≠ ⟨0, 0, 0⟩) :
    dot (projectOntoPlane x n) n = 0 ∧
    (∃ c : ℝ, projectOntoPlane x n = x - c * n) ∧
    (∀ y : V3 ℝ, dot y n = 0 →
      dist x.toE (projectOntoPlane x n).toE ≤ dist x.toE y.toE ∧
      (dist x.toE y.toE = dist x.toE (projectOntoPlane x n).toE → y = projectOntoPlane x n)) ∧
    projectOntoPlane (projectOntoPlane x n) n = projectOntoPlane x n ∧
    (∀ a : ℝ, a ≠ 0 → projectOntoPlane x (a * n) = projectOntoPlane x n) := by
  have hd := (dot_self_pos hn).ne'
  have h0 : dot (projectOntoPlane x n) n = 0 := by
    rw [projectOntoPlane_eq x n hn, dot_sub_left, dot_smul_left]; field_simp; ring
  have hpy : ∀ y : V3 ℝ, dot y n = 0 → dot (x - y) (x - y) =
      dot (x - projectOntoPlane x n) (x - projectOntoPlane x n)
      + dot (projectOntoPlane x n - y) (projectOntoPlane x n - y) := by
    intro y hy
    have hx : x - projectOntoPlane x n = (dot x n / dot n n) * n := by
      rw [projectOntoPlane_eq x n hn]; ext <;> simp
    have h1 : dot (x - projectOntoPlane x n) (projectOntoPlane x n - y) = 0 := by
      rw [hx, dot_smul_left, dot_sub_right, dot_comm n (projectOntoPlane x n), dot_comm n y, h0, hy]; ring
    have h2 : x - y = (x - projectOntoPlane x n) + (projectOntoPlane x n - y) := by
      ext <;> simp
    rw [h2, dot_add_left, dot_add_right, dot_add_right, h1,
      dot_comm (projectOntoPlane x n - y) (x - _), h1]; ring
  refine ⟨h0, ⟨_, projectOntoPlane_eq x n hn⟩, ?_, ?_, ?_⟩
  · intro y hy
    have h := hpy y hy
    simp only [← C02_distance_is_dist, distanceBetween]
    constructor
    · rw [norm_eq, norm_eq]
      apply Real.sqrt_le_sqrt
      rw [h]; linarith [dot_self_nonneg (projectOntoPlane x n - y)]
    · intro e
      rw [← norm_mul_self, ← norm_mul_self, e] at h
      exact (ext_of_dot (by linarith)).symm
  · rw [projectOntoPlane_eq (projectOntoPlane x n) n hn, h0]
    ext <;> simp
  · intro a ha
    have han : a * n ≠ ⟨0, 0, 0⟩ := by
      intro e
      apply hn
      have hx := congrArg V3.x e
      have hy := congrArg V3.y e
      have hz := congrArg V3.z e
      simp only [smul_x, smul_y, smul_z, mul_eq_zero, ha, false_or] at hx hy hz
      ext <;> assumption
    rw [projectOntoPlane_eq x n hn, projectOntoPlane_eq x _ han]
    simp only [dot_smul_left, dot_smul_right]
    ext <;> simp only [sub_x, sub_y, sub_z, smul_x, smul_y, smul_z] <;> field_simp

example : (⟨0, 2, 1⟩ : V3 ℝ) ≠ ⟨0, 0, 0⟩ ∧ dot (⟨5, 1, -2⟩ : V3 ℝ) ⟨0, 2, 1⟩ = 0 := by
  constructor
  · simp
  · norm_num [dot]

/-! ## C04 -/

/-- C04: the unsigned `angle_between` is Mathlib's angle between vectors. -/
theorem C04_angle_is_angle (v1 v2 : V3 ℝ) (h1 : v1 ≠ ⟨0, 0, 0⟩) (h2 : v2 ≠ ⟨0, 0, 0⟩) :
    angleBetween v1 v2 none = InnerProductGeometry.angle v1.toE v2.toE := by
  have n1 := (norm_pos h1).ne'
  have n2 := (norm_pos h2).ne'
  rw [InnerProductGeometry.angle, inner_toE, norm_toE, norm_toE]
  simp only [angleBetween, unitVector, real_arccos, dot_div_left, dot_div_right]
  congr 1; field_simp

/-- C04: range, symmetry, scale independence, cosine law, and the extreme values. -/
theorem C04_angle_unsigned (v1 v2 : V3 ℝ) (h1 : v1 ≠ ⟨0, 0, 0⟩) (h2 : v2 ≠ ⟨0, 0, 0⟩) :
    0 ≤ angleBetween v1 v2 none ∧ angleBetween v1 v2 none ≤ Real.pi ∧
    angleBetween v1 v2 none = angleBetween v2 v1 none ∧
    (∀ a b : ℝ, 0 < a → 0 < b → angleBetween (a * v1) (b * v2) none = angleBetween v1 v2 none) ∧
    dot v1 v2 = norm v1 * norm v2 * Real.cos (angleBetween v1 v2 none) ∧
    (angleBetween v1 v2 none = 0 ↔ ∃ c : ℝ, 0 < c ∧ v2 = c * v1) ∧
    (angleBetween v1 v2 none = Real.pi ↔ ∃ c : ℝ, c < 0 ∧ v2 = c * v1) ∧
    (angleBetween v1 v2 none = Real.pi / 2 ↔ dot v1 v2 = 0) := by
  have e := C04_angle_is_angle v1 v2 h1 h2
  have z1 : v1.toE ≠ 0 := by
    intro e0; apply h1
    have : (⟨0, 0, 0⟩ : V3 ℝ).toE = 0 := by ext i; fin_cases i <;> simp [V3.toE]
    exact toE_injective (e0.trans this.symm)
  refine ⟨?_, ?_, ?_, ?_, ?_, ?_, ?_, ?_⟩
  · rw [e]; exact InnerProductGeometry.angle_nonneg _ _
  · rw [e]; exact InnerProductGeometry.angle_le_pi _ _
  · rw [e, C04_angle_is_angle v2 v1 h2 h1, InnerProductGeometry.angle_comm]
  · intro a b ha hb
    simp only [angleBetween]
    rw [(C01_unit_vector v1 h1).2.2.1 a ha, (C01_unit_vector v2 h2).2.2.1 b hb]
  · rw [e, ← norm_toE, ← norm_toE, ← inner_toE]
    rw [mul_comm (‖v1.toE‖ * ‖v2.toE‖)]
    exact (InnerProductGeometry.cos_angle_mul_norm_mul_norm _ _).symm
  · rw [e, InnerProductGeometry.angle_eq_zero_iff]
    constructor
    · rintro ⟨_, r, hr, h⟩
      exact ⟨r, hr, toE_injective (by rw [toE_smul]; exact h)⟩
    · rintro ⟨r, hr, h⟩
      exact ⟨z1, r, hr, by rw [h, toE_smul]⟩
  · rw [e, InnerProductGeometry.angle_eq_pi_iff]
    constructor
    · rintro ⟨_, r, hr, h⟩
      exact ⟨r, hr, toE_injective (by rw [toE_smul]; exact h)⟩
    · rintro ⟨r, hr, h⟩
      exact ⟨z1, r, hr, by rw [h, toE_smul]⟩
  · rw [e, ← InnerProductGeometry.inner_eq_zero_iff_angle_eq_pi_div_two, inner_toE]

/-! ## C05 -/

/-- The cosine and sine of the signed angle. -/
theorem signed_angle_cos_sin (v1 v2 k : V3 ℝ) (h1 : v1 ≠ ⟨0, 0, 0⟩) (h2 : v2 ≠ ⟨0, 0, 0⟩)
    (hk : dot k k = 1) (hk1 : dot k v1 = 0) (hk2 : dot k v2 = 0) :
    Real.cos (angleBetween v1 v2 (some k)) = dot (unitVector v1) (unitVector v2) ∧
    Real.sin (angleBetween v1 v2 (some k)) = dot (cross (unitVector v2) (unitVector v1)) k ∧
    cross (unitVector v2) (unitVector v1)
      = dot (cross (unitVector v2) (unitVector v1)) k * k := by
  have u1 := unit_dot h1
  have u2 := unit_dot h2
  have k1 : dot k (unitVector v1) = 0 := by rw [unitVector, dot_div_right, hk1, zero_div]
  have k2 : dot k (unitVector v2) = 0 := by rw [unitVector, dot_div_right, hk2, zero_div]
  simp only [angleBetween, real_arctan2]
  generalize unitVector v1 = u at *
  generalize unitVector v2 = w at *
  have hcross : cross w u = dot (cross w u) k * k := by
    -- `k × (w × u) = w (k·u) - u (k·w) = 0`, and `k` is a unit vector
    have e : ∀ c : V3 ℝ, dot c k * k - c = cross (cross c k) k + (dot k k - 1) * c := by
      intro c
      ext <;> simp only [dot, cross, sub_x, sub_y, sub_z, smul_x, smul_y, smul_z, add_x, add_y, add_z] <;>
        ring
    have e2 : cross (cross w u) k = dot k w * u - dot k u * w := by
      ext <;> simp only [dot, cross, sub_x, sub_y, sub_z, smul_x, smul_y, smul_z] <;> ring
    have e3 := e (cross w u)
    rw [e2, k1, k2, hk] at e3
    have hx := congrArg V3.x e3
    have hy := congrArg V3.y e3
    have hz := congrArg V3.z e3
    simp [cross] at hx hy hz
    ext <;> simp [cross] <;> linarith
  have hsq : dot u w ^ 2 + dot (cross w u) k ^ 2 = 1 := by
    have l := cross_dot_self w u
    have : dot (cross w u) (cross w u) = dot (cross w u) k ^ 2 := by
      conv_lhs => rw [hcross]
      rw [dot_smul_left, dot_smul_right, hk]; ring
    rw [this, u1, u2, dot_comm w u] at l
    linarith
  have hz : (⟨dot u w, dot (cross w u) k⟩ : ℂ) ≠ 0 := by
    intro e
    have a := congrArg Complex.re e
    have b := congrArg Complex.im e
    simp at a b
    rw [a, b] at hsq; norm_num at hsq
  have hn : ‖(⟨dot u w, dot (cross w u) k⟩ : ℂ)‖ = 1 := by
    have : ‖(⟨dot u w, dot (cross w u) k⟩ : ℂ)‖ ^ 2 = 1 := by
      rw [Complex.sq_norm, Complex.normSq_mk]; linarith
    nlinarith [norm_nonneg (⟨dot u w, dot (cross w u) k⟩ : ℂ)]
  refine ⟨?_, ?_, hcross⟩
  · rw [Complex.cos_arg hz, hn]; simp
  · rw [Complex.sin_arg, hn]; simp

/-- C05: for a unit vector `k` perpendicular to both vectors, the signed `angle_between(v1, v2, k)`
lies in `(-π, π]`, its absolute value is the unsigned angle, and turning the direction of `v2`
counterclockwise about `k` by it gives the direction of `v1`, in Rodrigues' sense and with the
repository's own `rotation_matrix_axis_angle`. -/
theorem C05_angle_signed (v1 v2 k : V3 ℝ) (h1 : v1 ≠ ⟨0, 0, 0⟩) (h2 : v2 ≠ ⟨0, 0, 0⟩)
    (hk : dot k k = 1) (hk1 : dot k v1 = 0) (hk2 : dot k v2 = 0) :
    let θ := angleBetween v1 v2 (some k);
    -Real.pi < θ ∧ θ ≤ Real.pi ∧ |θ| = angleBetween v1 v2 none ∧
    rodrigues k θ (unitVector v2) = unitVector v1 ∧
    M3.mulVec (rotationMatrixAxisAngle k θ) (unitVector v2) = unitVector v1 := by
  intro θ
  obtain ⟨hc, hs, hcr⟩ := signed_angle_cos_sin v1 v2 k h1 h2 hk hk1 hk2
  have hlo : -Real.pi < θ := Complex.neg_pi_lt_arg _
  have hhi : θ ≤ Real.pi := Complex.arg_le_pi _
  have hrod : rodrigues k θ (unitVector v2) = unitVector v1 := by
    have k2 : dot k (unitVector v2) = 0 := by rw [unitVector, dot_div_right, hk2, zero_div]
    have u2 := unit_dot h2
    unfold rodrigues
    have hc' : Real.cos θ = _ := hc
    have hs' : Real.sin θ = _ := hs
    rw [hs', hc', k2]
    clear hc' hs' hs hc hlo hhi
    generalize unitVector v1 = u at *
    generalize unitVector v2 = w at *
    have e : dot (cross w u) k * cross k w = cross (dot (cross w u) k * k) w := by
      ext <;> simp only [cross, smul_x, smul_y, smul_z] <;> ring
    rw [e, ← hcr]
    simp only [dot] at u2
    ext <;> simp only [dot, cross, add_x, add_y, add_z, smul_x, smul_y, smul_z]
    · linear_combination u.x * u2
    · linear_combination u.y * u2
    · linear_combination u.z * u2
  refine ⟨hlo, hhi, ?_, hrod, ?_⟩
  · rw [angleBetween, real_arccos, ← hc]
    show |θ| = Real.arccos (Real.cos θ)
    rw [← Real.cos_abs, Real.arccos_cos (abs_nonneg _) (abs_le.mpr ⟨hlo.le, hhi⟩)]
  · rw [axisAngle_rodrigues (ne_zero_of_dot_one hk), unitVector_of_unit hk, hrod]

example : ∃ v1 v2 k : V3 ℝ, v1 ≠ ⟨0, 0, 0⟩ ∧ v2 ≠ ⟨0, 0, 0⟩ ∧ dot k k = 1 ∧ dot k v1 = 0 ∧
    dot k v2 = 0 :=
  ⟨⟨1, 2, 0⟩, ⟨-3, 1, 0⟩, ⟨0, 0, 1⟩, by simp, by simp, by norm_num [dot], by norm_num [dot],
    by norm_num [dot]⟩

end Optics
