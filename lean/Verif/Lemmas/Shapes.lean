import Verif.Lemmas.Rotation
import Verif.Props.Vectors
import Verif.Spec.Geometry
import Verif.Model.Shapes

/-! # Shapes: helper lemmas -/

namespace Optics
open V3

theorem clippingFloor_eq : (clippingFloor : ℝ) = 1e-12 := rfl
theorem clippingFloor_pos : (0 : ℝ) < clippingFloor := by rw [clippingFloor_eq]; norm_num
theorem arbEpsilon_eq : (arbEpsilon : ℝ) = 1e-9 := rfl
theorem arbEpsilon_pos : (0 : ℝ) < arbEpsilon := by rw [arbEpsilon_eq]; norm_num

theorem dist_toE_eq (x y : V3 ℝ) : dist x.toE y.toE = norm (x - y) := (C02_distance_is_dist x y).symm

theorem onPlane_iff (c n x : V3 ℝ) : OnPlane c n x ↔ dot (x - c) n = 0 := by
  rw [OnPlane, inner_toE]

theorem onSphere_iff (c : V3 ℝ) (R : ℝ) (x : V3 ℝ) : OnSphere c R x ↔ dot (x - c) (x - c) = R ^ 2 := by
  rw [OnSphere, dist_toE_eq, ← norm_sq, ← sq_abs R]
  constructor
  · intro h; rw [h]
  · intro h
    exact (sq_eq_sq₀ (norm_nonneg _) (abs_nonneg _)).mp h

/-! ## Plane -/

/-- `Plane.test_intersect` for a plane built by the constructor and a unit direction. -/
theorem plane_eq (c n : V3 ℝ) (hn : n ≠ ⟨0, 0, 0⟩) (ray : Ray ℝ) (hd : dot ray.direction ray.direction = 1) :
    (Plane.new c n).testIntersect ray =
      if 1e-9 < |dot (unitVector n) ray.direction| then
        if 1e-9 < dot (c - ray.position) (unitVector n) / dot (unitVector n) ray.direction then
          ⟨true, some (ray.position +
            (dot (c - ray.position) (unitVector n) / dot (unitVector n) ray.direction) * ray.direction),
            some (unitVector n)⟩
        else Hit3.miss
      else Hit3.miss := by
  unfold Plane.testIntersect Plane.new
  simp only [unitVector_of_unit (unit_dot hn), unitVector_of_unit hd, real_abs, arbEpsilon_eq, gt_iff_lt]

/-! ## Sphere -/

/-- Along the ray the squared distance to the centre is a quadratic in the parameter. -/
theorem sphere_quadratic (c p d : V3 ℝ) (R t : ℝ) (hd : dot d d = 1) :
    dot (lineAt p d t - c) (lineAt p d t - c) - R ^ 2
      = (t - dot d (c - p)) ^ 2
        - (dot d (c - p) * dot d (c - p) - (dot (c - p) (c - p) - R * R)) := by
  simp only [lineAt, dot, sub_x, sub_y, sub_z, add_x, add_y, add_z, smul_x, smul_y, smul_z] at *
  linear_combination (t ^ 2) * hd

/-- Discriminant of the ray/sphere quadratic. -/
noncomputable def sphDisc (c p d : V3 ℝ) (R : ℝ) : ℝ :=
  dot d (c - p) * dot d (c - p) - (dot (c - p) (c - p) - R * R)

theorem onSphere_line (c p d : V3 ℝ) (R t : ℝ) (hd : dot d d = 1) :
    OnSphere c R (lineAt p d t) ↔ (t - dot d (c - p)) ^ 2 = sphDisc c p d R := by
  have := sphere_quadratic c p d R t hd
  rw [onSphere_iff]; unfold sphDisc
  constructor <;> intro h <;> linarith

theorem onSphere_roots (c p d : V3 ℝ) (R t : ℝ) (hd : dot d d = 1) (h : 0 < sphDisc c p d R) :
    OnSphere c R (lineAt p d t) ↔
      t = dot d (c - p) - Real.sqrt (sphDisc c p d R) ∨ t = dot d (c - p) + Real.sqrt (sphDisc c p d R) := by
  rw [onSphere_line c p d R t hd]
  have hs := Real.sq_sqrt h.le
  constructor
  · intro e
    have : (t - (dot d (c - p) - Real.sqrt (sphDisc c p d R)))
        * (t - (dot d (c - p) + Real.sqrt (sphDisc c p d R))) = 0 := by
      linear_combination e - hs
    rcases mul_eq_zero.mp this with h | h
    · left; linarith
    · right; linarith
  · rintro (e | e) <;> rw [e] <;> linear_combination hs

/-- The normal at a point of the sphere. -/
theorem sphere_normal (s : Sphere ℝ) (x : V3 ℝ) (h : OnSphere s.center s.R x) :
    s.normal x = (1 / |s.R|) * (s.center - x) := by
  rw [Sphere.normal, unitVector_eq, norm_sub_comm, ← dist_toE_eq, h]

theorem sphere_eq (s : Sphere ℝ) (ray : Ray ℝ) :
    s.testIntersect ray =
      (let vq := dot ray.direction (s.center - ray.position)
       let D := sphDisc s.center ray.position ray.direction s.R
       let t0 := vq - Real.sqrt D
       let t1 := vq + Real.sqrt D
       let P := lineAt ray.position ray.direction
       if 0 < D then
         if 1e-12 < t0 then Hit6.two (P t1) (P t0) (s.normal (P t1)) (s.normal (P t0)) 2
         else if 1e-12 < t1 then Hit6.one (P t1) (s.normal (P t1)) 1
         else Hit6.miss 0
       else if D = 0 then Hit6.one (P vq) (s.normal (P vq)) 2
       else Hit6.miss 0) := by
  unfold Sphere.testIntersect
  have hD : dot ray.direction (s.center - ray.position) * dot ray.direction (s.center - ray.position)
      - (dot (s.center - ray.position) (s.center - ray.position) - s.R * s.R)
      = sphDisc s.center ray.position ray.direction s.R := rfl
  simp only [hD, lit0, real_sqrt, real_eqb, clippingFloor_eq, gt_iff_lt, decide_eq_true_eq, lineAt]
  split_ifs with h1 h2 h3 h4 h5 h6 h7 h8 <;> first | rfl | (exfalso)
  all_goals have hs := Real.sqrt_pos.mpr h1
  all_goals first | linarith | (apply h2; constructor <;> linarith)

end Optics
