import Verif.Lemmas.Lift
import Verif.Props.Cylinders

/-!
# C18, C20: a ray parallel to the axis of an infinite cylinder

Stated at `XR` (numpy's `nan`), because the code divides zero by zero here.
-/

namespace Optics
open V3

theorem nan_sub_vec (v : V3 XR) : v - V3.nan = V3.nan := by ext <;> simp [V3.nan]
theorem nan_vec_dot (v : V3 XR) : dot V3.nan v = .nan := by simp [V3.nan, dot]
theorem unitVector_nan : unitVector V3.nan = V3.nan := by
  unfold unitVector; ext <;> simp [V3.nan]

theorem projectOntoPlane_nan (n : V3 XR) : projectOntoPlane V3.nan n = V3.nan := by
  unfold projectOntoPlane
  rw [nan_vec_dot]
  ext <;> simp [V3.nan]

theorem cylinder_normal_nan (c : InfiniteCylinder XR) : c.normal V3.nan = V3.nan := by
  rw [InfiniteCylinder.normal, nan_sub_vec, projectOntoPlane_nan, unitVector_nan]

/-- C20 fails for every ray parallel to the axis, wherever it starts: such a ray meets the cylinder
nowhere (or runs inside its surface), but numpy reports a hit at `[nan, nan, nan]`. -/
theorem C20_cylinder_parallel_counterexample (c a : V3 ℝ) (ha : a ≠ ⟨0, 0, 0⟩) (R : ℝ) (hR : R ≠ 0)
    (cyl : InfiniteCylinder XR)
    (hc : InfiniteCylinder.new c.lift a.lift (some (.fin R)) none = .ok cyl)
    (ray : Ray ℝ) (k : ℝ) (hpar : ray.direction = k * a) :
    cyl.testIntersect ray.lift = .ok
      { hit := true, pt1 := some V3.nan, pt2 := none, n1 := some V3.nan, n2 := none, count := 2 } := by
  have hcyl : cyl = InfiniteCylinder.lift ⟨c, R, R * 2.0, unitVector a⟩ := by
    cases hc; rw [lift_unitVector ha]; rfl
  subst hcyl
  have hu := unit_dot ha
  set cyl : InfiniteCylinder ℝ := ⟨c, R, R * 2.0, unitVector a⟩ with hcyl
  have hua : ray.direction = (k * norm a) * unitVector a := by
    rw [hpar, unitVector_eq]
    have := (norm_pos ha).ne'
    ext <;> simp only [smul_x, smul_y, smul_z] <;> field_simp
  have hxy := cylRot_xy hu ray.direction ray.direction
  have h0 : axB (unitVector a) ray.direction ray.direction = 0 := by
    simp only [axB, hua, dot_smul_left, dot_smul_right, hu]; ring
  have hdir := lift_dirToObjectSpace cyl (ne_zero_of_dot_one hu) ray.direction
  have hpos := lift_pointToObjectSpace cyl hR (ne_zero_of_dot_one hu) ray.position
  rw [dirToObjectSpace_eq] at hdir
  change _ = ((M3.mulVec (cylRot (unitVector a)) ray.direction).hom 0).lift at hdir
  rw [h0] at hxy
  generalize M3.mulVec (cylRot (unitVector a)) ray.direction = d at *
  have hdx : d.x = 0 := by nlinarith [mul_self_nonneg d.x, mul_self_nonneg d.y]
  have hdy : d.y = 0 := by nlinarith [mul_self_nonneg d.x, mul_self_nonneg d.y]
  have hcR : cyl.lift.R = XR.fin R := rfl
  unfold InfiniteCylinder.testIntersect
  rw [hcR, xlit0, XR.fin_eqb, decide_eq_false hR]
  simp only [Bool.false_eq_true, if_false]
  rw [show ray.lift.position = ray.position.lift from rfl, show ray.lift.direction = ray.direction.lift from rfl,
    hdir, hpos]
  generalize cyl.pointToObjectSpace ray.position = p
  simp only [V4.lift, V3.hom, hdx, hdy, xlit1, xlit2]
  have hroots : cylinderRoots (XR.fin 0 * XR.fin 0 + XR.fin 0 * XR.fin 0)
      (XR.fin 2 * XR.fin p.x * XR.fin 0 + XR.fin 2 * XR.fin p.y * XR.fin 0)
      (XR.fin p.x * XR.fin p.x + XR.fin p.y * XR.fin p.y - XR.fin 1) = (some .nan, none) := by
    unfold cylinderRoots
    simp only [xlit0, xlit2, xlit4, XR.fin_mul, XR.fin_add, XR.fin_sub, XR.fin_neg, gt_iff_lt, XR.fin_lt, XR.fin_eqb, mul_zero, zero_mul,
      add_zero, sub_zero, neg_zero, lt_irrefl, if_false, XR.zero_div_zero, decide_true, if_true]
  rw [hroots]
  have hp : ray.position.lift + (XR.nan / (XR.fin 1 / XR.fin R)) * ray.direction.lift = V3.nan := by
    ext <;> simp [V3.nan]
  simp only [hp, cylinder_normal_nan]
  rfl

/-- C18 fails for a ray parallel to the axis that starts inside: the intersection count is 2. -/
theorem C18_cylinder_parallel_counterexample (c a : V3 ℝ) (ha : a ≠ ⟨0, 0, 0⟩) (R : ℝ) (hR : R ≠ 0) :
    ∃ (cyl : InfiniteCylinder XR) (ray : Ray ℝ) (r : Hit6 XR),
      InfiniteCylinder.new c.lift a.lift (some (.fin R)) none = .ok cyl ∧
      ‖ray.direction.toE‖ = 1 ∧ InCylinder c a |R| ray.position ∧
      cyl.testIntersect ray.lift = .ok r ∧ r.count % 2 = 0 := by
  refine ⟨_, ⟨c, unitVector a, 532, 0, [], false, "normal"⟩, _, rfl, ?_, ?_,
    C20_cylinder_parallel_counterexample c a ha R hR _ rfl _ (1 / norm a) (unitVector_eq a), rfl⟩
  · rw [norm_toE]; exact unit_norm ha
  · refine ⟨0, ?_⟩
    have : lineAt c a 0 = c := by ext <;> simp [lineAt]
    rw [this, dist_self]; exact abs_pos.mpr hR

/-- The hypotheses can be met: a cylinder around the z axis and a ray flying up outside of it. -/
example : ∃ cyl, InfiniteCylinder.new (V3.lift ⟨0, 0, 0⟩) (V3.lift ⟨0, 0, 1⟩) (some (.fin 1)) none = .ok cyl ∧
    cyl.testIntersect (Ray.lift ⟨⟨5, 0, 0⟩, ⟨0, 0, 1⟩, 532, 0, [], false, "normal"⟩) = .ok
      { hit := true, pt1 := some V3.nan, pt2 := none, n1 := some V3.nan, n2 := none, count := 2 } :=
  ⟨_, rfl, C20_cylinder_parallel_counterexample ⟨0, 0, 0⟩ ⟨0, 0, 1⟩ (by simp) 1 one_ne_zero _ rfl _ 1
    (by ext <;> simp)⟩

end Optics
