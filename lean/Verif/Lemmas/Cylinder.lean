import Verif.Lemmas.Shapes
import Verif.Props.Rotations

/-! # The infinite cylinder: helper lemmas -/

namespace Optics
open V3

/-- Squared distance of `q` from the line through the origin along the unit vector `a`. -/
noncomputable def axQ (a q : V3 ℝ) : ℝ := dot q q - dot q a ^ 2
/-- Inner product of the components of `q` and `d` perpendicular to the unit vector `a`. -/
noncomputable def axB (a q d : V3 ℝ) : ℝ := dot q d - dot q a * dot d a

theorem axQ_nonneg {a : V3 ℝ} (ha : dot a a = 1) (q : V3 ℝ) : 0 ≤ axQ a q := by
  have := dot_sq_le q a
  rw [ha] at this; unfold axQ; linarith

theorem dist_axis {a : V3 ℝ} (ha : dot a a = 1) (c x : V3 ℝ) (s : ℝ) :
    dist x.toE (lineAt c a s).toE = Real.sqrt (axQ a (x - c) + (s - dot (x - c) a) ^ 2) := by
  rw [dist_toE_eq, norm_eq]; congr 1
  simp only [axQ, lineAt, dot, sub_x, sub_y, sub_z, add_x, add_y, add_z, smul_x, smul_y, smul_z] at *
  linear_combination (s ^ 2) * ha

theorem inCylinder_iff {a : V3 ℝ} (ha : dot a a = 1) (c x : V3 ℝ) (R : ℝ) :
    InCylinder c a |R| x ↔ axQ a (x - c) < R ^ 2 := by
  unfold InCylinder
  simp only [dist_axis ha]
  constructor
  · rintro ⟨s, hs⟩
    rw [Real.sqrt_lt (by have := axQ_nonneg ha (x - c); positivity) (abs_nonneg _), sq_abs] at hs
    nlinarith [sq_nonneg (s - dot (x - c) a)]
  · intro h
    refine ⟨dot (x - c) a, ?_⟩
    rw [Real.sqrt_lt (by have := axQ_nonneg ha (x - c); positivity) (abs_nonneg _), sq_abs]
    nlinarith

theorem onCylinder_iff {a : V3 ℝ} (ha : dot a a = 1) (c x : V3 ℝ) (R : ℝ) :
    OnCylinder c a |R| x ↔ axQ a (x - c) = R ^ 2 := by
  unfold OnCylinder
  simp only [dist_axis ha]
  have h0 := axQ_nonneg ha (x - c)
  constructor
  · rintro ⟨h1, s, hs⟩
    have h1' := h1 (dot (x - c) a)
    rw [sub_self, Real.le_sqrt (abs_nonneg _) (by positivity), sq_abs] at h1'
    have : axQ a (x - c) + (s - dot (x - c) a) ^ 2 = R ^ 2 := by
      rw [← sq_abs R, ← hs, Real.sq_sqrt (by positivity)]
    nlinarith [sq_nonneg (s - dot (x - c) a)]
  · intro h
    constructor
    · intro s
      rw [Real.le_sqrt (abs_nonneg _) (by positivity), sq_abs, h]
      nlinarith [sq_nonneg (s - dot (x - c) a)]
    · exact ⟨dot (x - c) a, by rw [h, sub_self]; simp [Real.sqrt_sq_eq_abs]⟩

theorem axQ_line (a c p d : V3 ℝ) (t : ℝ) :
    axQ a (lineAt p d t - c) = axQ a d * t ^ 2 + 2 * axB a (p - c) d * t + axQ a (p - c) := by
  simp only [axQ, axB, lineAt, dot, sub_x, sub_y, sub_z, add_x, add_y, add_z, smul_x, smul_y, smul_z]; ring

/-- The rotation used by the cylinder code. -/
noncomputable def cylRot (a : V3 ℝ) : M3 ℝ := (rotationMatrix2 a ⟨0.0, 0.0, 1.0⟩).1

theorem cylRot_dot {a : V3 ℝ} (ha : dot a a = 1) (u v : V3 ℝ) :
    dot (M3.mulVec (cylRot a) u) (M3.mulVec (cylRot a) v) = dot u v :=
  (C07_rotation_matrix2_maps a ⟨0.0, 0.0, 1.0⟩ (ne_zero_of_dot_one ha)
    (by simp [lit1])).2 u v

theorem cylRot_z {a : V3 ℝ} (ha : dot a a = 1) (u : V3 ℝ) : (M3.mulVec (cylRot a) u).z = dot u a := by
  have h := (C07_rotation_matrix2_maps a ⟨0.0, 0.0, 1.0⟩ (ne_zero_of_dot_one ha)
    (by simp [lit1])).1
  have hz : unitVector (⟨0.0, 0.0, 1.0⟩ : V3 ℝ) = ⟨0, 0, 1⟩ := by
    rw [lit0, lit1]; exact unitVector_of_unit (by norm_num [dot])
  rw [unitVector_of_unit ha, hz] at h
  have h' := cylRot_dot ha u a
  rw [cylRot, h] at h'
  rw [← h', cylRot]
  simp [dot]

theorem cylRot_xy {a : V3 ℝ} (ha : dot a a = 1) (u v : V3 ℝ) :
    (M3.mulVec (cylRot a) u).x * (M3.mulVec (cylRot a) v).x
      + (M3.mulVec (cylRot a) u).y * (M3.mulVec (cylRot a) v).y = axB a u v := by
  have h1 := cylRot_z ha u
  have h2 := cylRot_z ha v
  have h3 := cylRot_dot ha u v
  generalize M3.mulVec (cylRot a) u = U at *
  generalize M3.mulVec (cylRot a) v = W at *
  unfold axB
  rw [← h3, ← h1, ← h2]; simp only [dot]; ring

theorem pointToObjectSpace_eq (c : InfiniteCylinder ℝ) (x : V3 ℝ) :
    c.pointToObjectSpace x = ((1 / c.R) * M3.mulVec (cylRot c.direction) (x - c.center)).hom 1 := by
  unfold InfiniteCylinder.pointToObjectSpace
  obtain ⟨h1, -⟩ := C09_homogeneous x (-c.center) ⟨0, 0, 0⟩ ⟨0, 0, 0⟩ ⟨0, 0, 0⟩
  have e : x + -c.center = x - c.center := by
    ext <;> simp only [add_x, add_y, add_z, neg_x, neg_y, neg_z, sub_x, sub_y, sub_z] <;> ring
  obtain ⟨-, -, -, h4, -⟩ := C09_homogeneous (x - c.center) ⟨0, 0, 0⟩ ⟨0, 0, 0⟩ c.direction ⟨0.0, 0.0, 1.0⟩
  obtain ⟨-, -, h5, -⟩ := C09_homogeneous (M3.mulVec (cylRot c.direction) (x - c.center)) ⟨0, 0, 0⟩
    ⟨1 / c.R, 1 / c.R, 1 / c.R⟩ ⟨0, 0, 0⟩ ⟨0, 0, 0⟩
  simp only [lit1] at h1 h4 h5 ⊢
  rw [h1, e, h4, ← cylRot_def, h5]
  rfl
where
  cylRot_def {a : V3 ℝ} : cylRot a = (rotationMatrix2 a ⟨0.0, 0.0, 1⟩).1 := by
    rw [cylRot, lit1]

theorem dirToObjectSpace_eq (c : InfiniteCylinder ℝ) (d : V3 ℝ) :
    c.dirToObjectSpace d = (M3.mulVec (cylRot c.direction) d).hom 0 := by
  obtain ⟨-, -, -, h4, -⟩ := C09_homogeneous d ⟨0, 0, 0⟩ ⟨0, 0, 0⟩ c.direction ⟨0.0, 0.0, 1.0⟩
  have := h4 0
  unfold InfiniteCylinder.dirToObjectSpace cylRot
  rw [← this, ← lit0]

/-- The roots of the object-space quadratic. -/
theorem cylinderRoots_pos {A B C : ℝ} (hA : 0 < A) (h : 0 < B * B - 4 * A * C) :
    cylinderRoots A B C = (some ((-B - Real.sqrt (B * B - 4 * A * C)) / (2 * A)),
      some ((-B + Real.sqrt (B * B - 4 * A * C)) / (2 * A))) := by
  have hs := Real.mul_self_sqrt h.le
  have hp := Real.sqrt_pos.mpr h
  unfold cylinderRoots
  simp only [lit0, lit2, lit4, real_sqrt, gt_iff_lt, ge_iff_le]
  rw [if_pos h]
  generalize Real.sqrt (B * B - 4 * A * C) = r at *
  by_cases hB : 0 ≤ B
  · rw [if_pos hB]
    have : -B - r ≠ 0 := by linarith
    congr 2
    field_simp
    linear_combination hs
  · rw [if_neg hB]
    have : -B + r ≠ 0 := by linarith
    congr 2
    field_simp
    linear_combination hs

theorem cylinderRoots_zero {A B C : ℝ} (h : B * B - 4 * A * C = 0) :
    cylinderRoots A B C = (some (-B / (2 * A)), none) := by
  unfold cylinderRoots
  simp [lit0, lit2, lit4, h]

theorem cylinderRoots_neg {A B C : ℝ} (h : B * B - 4 * A * C < 0) : cylinderRoots A B C = (none, none) := by
  unfold cylinderRoots
  simp only [lit0, lit4, real_eqb, gt_iff_lt]
  rw [if_neg (by linarith)]
  simp [h.ne]

/-- Discriminant of the ray/cylinder quadratic (divided by 4). -/
noncomputable def cylDisc (c a p d : V3 ℝ) (R : ℝ) : ℝ :=
  axB a (p - c) d ^ 2 - axQ a d * (axQ a (p - c) - R ^ 2)

/-- `InfiniteCylinder.test_intersect` for a ray not parallel to the axis. -/
theorem cylinder_eq (c : InfiniteCylinder ℝ) (ha : dot c.direction c.direction = 1) (hR : c.R ≠ 0)
    (ray : Ray ℝ) (hA : 0 < axQ c.direction ray.direction) :
    c.testIntersect ray = .ok
      (let A := axQ c.direction ray.direction
       let b := axB c.direction (ray.position - c.center) ray.direction
       let D := cylDisc c.center c.direction ray.position ray.direction c.R
       let t0 := (-b - Real.sqrt D) / A
       let t1 := (-b + Real.sqrt D) / A
       let P := lineAt ray.position ray.direction
       if 0 < D then
         if 1e-12 < t0 then Hit6.two (P t0) (P t1) (c.normal (P t0)) (c.normal (P t1)) 2
         else if 1e-12 < t1 then Hit6.one (P t1) (c.normal (P t1)) 1
         else Hit6.miss 0
       else if D = 0 then Hit6.one (P (-b / A)) (c.normal (P (-b / A))) 2
       else Hit6.miss 0) := by
  unfold InfiniteCylinder.testIntersect
  have hR0 : PyNum.eqb c.R (0.0 : ℝ) = false := by simp [lit0, hR]
  simp only [hR0, Bool.false_eq_true, if_false, pointToObjectSpace_eq, dirToObjectSpace_eq, V3.hom,
    smul_x, smul_y, lit1, lit2]
  have xA := cylRot_xy ha ray.direction ray.direction
  have xB := cylRot_xy ha (ray.position - c.center) ray.direction
  have xC := cylRot_xy ha (ray.position - c.center) (ray.position - c.center)
  have qA : axB c.direction ray.direction ray.direction = axQ c.direction ray.direction := by
    unfold axB axQ; ring
  have qC : axB c.direction (ray.position - c.center) (ray.position - c.center)
      = axQ c.direction (ray.position - c.center) := by unfold axB axQ; ring
  rw [qA] at xA
  rw [qC] at xC
  unfold cylDisc
  generalize M3.mulVec (cylRot c.direction) ray.direction = U at *
  generalize M3.mulVec (cylRot c.direction) (ray.position - c.center) = W at *
  generalize axB c.direction (ray.position - c.center) ray.direction = b at *
  generalize axQ c.direction (ray.position - c.center) = Q at *
  generalize axQ c.direction ray.direction = A at *
  have eB : 2 * (1 / c.R * W.x) * U.x + 2 * (1 / c.R * W.y) * U.y = 2 * b / c.R := by
    rw [← xB]; field_simp
  have eC : 1 / c.R * W.x * (1 / c.R * W.x) + 1 / c.R * W.y * (1 / c.R * W.y) - 1
      = (Q - c.R ^ 2) / c.R ^ 2 := by
    rw [← xC]; field_simp
  rw [xA, eB, eC]
  have eD : 2 * b / c.R * (2 * b / c.R) - 4 * A * ((Q - c.R ^ 2) / c.R ^ 2)
      = (2 / |c.R|) ^ 2 * (b ^ 2 - A * (Q - c.R ^ 2)) := by
    rw [div_pow, sq_abs]; field_simp; ring
  have hk : 0 < (2 / |c.R|) ^ 2 := by have := abs_pos.mpr hR; positivity
  have hk' : 0 < 2 / |c.R| := by have := abs_pos.mpr hR; positivity
  generalize b ^ 2 - A * (Q - c.R ^ 2) = D at *
  rcases lt_trichotomy D 0 with h | h | h
  · rw [cylinderRoots_neg (by rw [eD]; nlinarith)]
    rw [if_neg (by linarith), if_neg h.ne]
  · rw [cylinderRoots_zero (by rw [eD, h, mul_zero])]
    rw [if_neg (by linarith), if_pos h]
    have : -(2 * b / c.R) / (2 * A) / (1 / c.R) = -b / A := by field_simp
    simp only [this, lineAt]
  · rw [cylinderRoots_pos hA (by rw [eD]; positivity), if_pos h]
    rw [eD, Real.sqrt_mul (by positivity), Real.sqrt_sq hk'.le]
    have hp := Real.sqrt_pos.mpr h
    simp only [clippingFloor_eq, gt_iff_lt]
    have hlt : (-b - Real.sqrt D) / A < (-b + Real.sqrt D) / A := by
      rw [div_lt_div_iff_of_pos_right hA]; linarith
    rcases lt_or_gt_of_ne hR with hneg | hpos
    · have e0 : (-(2 * b / c.R) - 2 / |c.R| * Real.sqrt D) / (2 * A) / (1 / c.R) = (-b + Real.sqrt D) / A := by
        rw [abs_of_neg hneg]; field_simp; ring
      have e1 : (-(2 * b / c.R) + 2 / |c.R| * Real.sqrt D) / (2 * A) / (1 / c.R) = (-b - Real.sqrt D) / A := by
        rw [abs_of_neg hneg]; field_simp; ring
      rw [e0, e1]
      simp only [lineAt]
      generalize (-b - Real.sqrt D) / A = t0 at *
      generalize (-b + Real.sqrt D) / A = t1 at *
      by_cases h0 : 1e-12 < t0
      · rw [if_pos ⟨by linarith, h0⟩, if_neg (by linarith), if_pos h0]
      · rw [if_neg (fun h => h0 h.2), if_neg h0, if_neg h0]
        by_cases h1 : 1e-12 < t1
        · rw [if_pos h1, if_pos h1]
        · rw [if_neg h1, if_neg h1]
    · have e0 : (-(2 * b / c.R) - 2 / |c.R| * Real.sqrt D) / (2 * A) / (1 / c.R) = (-b - Real.sqrt D) / A := by
        rw [abs_of_pos hpos]; field_simp
      have e1 : (-(2 * b / c.R) + 2 / |c.R| * Real.sqrt D) / (2 * A) / (1 / c.R) = (-b + Real.sqrt D) / A := by
        rw [abs_of_pos hpos]; field_simp
      rw [e0, e1]
      simp only [lineAt]
      generalize (-b - Real.sqrt D) / A = t0 at *
      generalize (-b + Real.sqrt D) / A = t1 at *
      by_cases h0 : 1e-12 < t0
      · rw [if_pos ⟨h0, by linarith⟩, if_pos hlt, if_pos h0]
      · rw [if_neg (fun h => h0 h.1), if_neg h0]
        by_cases h1 : 1e-12 < t1
        · rw [if_pos h1, if_neg h0, if_pos h1]
        · rw [if_neg h1, if_neg h0, if_neg h1]

/-- The parameters at which the ray's line meets the cylinder. -/
theorem onCylinder_roots {c a p d : V3 ℝ} {R : ℝ} (ha : dot a a = 1) (hA : 0 < axQ a d) (t : ℝ)
    (h : 0 ≤ cylDisc c a p d R) :
    OnCylinder c a |R| (lineAt p d t) ↔
      t = (-axB a (p - c) d - Real.sqrt (cylDisc c a p d R)) / axQ a d ∨
      t = (-axB a (p - c) d + Real.sqrt (cylDisc c a p d R)) / axQ a d := by
  rw [onCylinder_iff ha, axQ_line]
  have hs := Real.sq_sqrt h
  have hD : cylDisc c a p d R = axB a (p - c) d ^ 2 - axQ a d * (axQ a (p - c) - R ^ 2) := rfl
  rw [eq_div_iff hA.ne', eq_div_iff hA.ne']
  constructor
  · intro e
    have : (t * axQ a d - (-axB a (p - c) d - Real.sqrt (cylDisc c a p d R)))
        * (t * axQ a d - (-axB a (p - c) d + Real.sqrt (cylDisc c a p d R))) = 0 := by
      linear_combination axQ a d * e - hs - hD
    rcases mul_eq_zero.mp this with h | h
    · left; linarith
    · right; linarith
  · intro h'
    have e : (t * axQ a d + axB a (p - c) d) ^ 2 = cylDisc c a p d R := by
      rw [← hs]
      rcases h' with e | e <;> rw [e] <;> ring
    have : axQ a d * (axQ a d * t ^ 2 + 2 * axB a (p - c) d * t + axQ a (p - c) - R ^ 2) = 0 := by
      linear_combination e + hD
    have := (mul_eq_zero.mp this).resolve_left hA.ne'
    linarith

theorem onCylinder_disc {c a p d : V3 ℝ} {R : ℝ} (ha : dot a a = 1) (t : ℝ)
    (h : OnCylinder c a |R| (lineAt p d t)) :
    (axQ a d * t + axB a (p - c) d) ^ 2 = cylDisc c a p d R := by
  rw [onCylinder_iff ha, axQ_line] at h
  unfold cylDisc
  linear_combination axQ a d * h

/-- The cylinder's normal: perpendicular to the axis, from the point to the axis. -/
theorem cylinder_normal (c : InfiniteCylinder ℝ) (ha : dot c.direction c.direction = 1) (x : V3 ℝ) :
    c.normal x = unitVector ((c.center - x) - dot (c.center - x) c.direction * c.direction) := by
  unfold InfiniteCylinder.normal
  congr 1
  unfold projectOntoPlane
  rw [unitVector_of_unit ha, norm_eq_one_iff.mpr ha]
  ext <;> simp only [sub_x, sub_y, sub_z, smul_x, smul_y, smul_z, div_one]

end Optics
