import Verif.Spec.Lift
import Verif.Lemmas.Shapes
import Verif.Lemmas.Cylinder

/-!
# From `ℝ` to numpy: finite data compute as in exact arithmetic

For each function of the model: on finite arguments, the `XR` instance gives the (finite) result of
the `ℝ` instance, under the side condition that no singular operation is met.
-/

namespace Optics
open V3

/-- A literal of the model, at `XR`. -/
theorem xlit0 : (0.0 : XR) = XR.fin 0 := by rw [XR.fin_ofScientific]; exact congrArg _ lit0
theorem xlit1 : (1.0 : XR) = XR.fin 1 := by rw [XR.fin_ofScientific]; exact congrArg _ lit1
theorem xlit2 : (2.0 : XR) = XR.fin 2 := by rw [XR.fin_ofScientific]; exact congrArg _ lit2
theorem xlit4 : (4.0 : XR) = XR.fin 4 := by rw [XR.fin_ofScientific]; exact congrArg _ lit4

namespace V3
theorem lift_add (u v : V3 ℝ) : u.lift + v.lift = (u + v).lift := rfl
theorem lift_sub (u v : V3 ℝ) : u.lift - v.lift = (u - v).lift := by
  ext <;> simp [lift]
theorem lift_neg (u : V3 ℝ) : -u.lift = (-u).lift := rfl
theorem lift_smul (a : ℝ) (u : V3 ℝ) : XR.fin a * u.lift = (a * u).lift := rfl
theorem lift_div (a : ℝ) (ha : a ≠ 0) (u : V3 ℝ) : u.lift / XR.fin a = (u / a).lift := by
  ext <;> simp [lift, XR.fin_div _ _ ha]
theorem lift_dot (u v : V3 ℝ) : dot u.lift v.lift = XR.fin (dot u v) := rfl
theorem lift_cross (u v : V3 ℝ) : cross u.lift v.lift = (cross u v).lift := by
  ext <;> simp [lift, cross]
theorem lift_norm (u : V3 ℝ) : norm u.lift = XR.fin (norm u) := by
  rw [norm, lift_dot, XR.fin_sqrt _ (dot_self_nonneg u)]; rfl
theorem lift_inj {u v : V3 ℝ} (h : u.lift = v.lift) : u = v := by
  simp only [lift, V3.mk.injEq, XR.fin_inj] at h; ext <;> simp [h]
theorem lift_mk (a b c : ℝ) : (⟨XR.fin a, XR.fin b, XR.fin c⟩ : V3 XR) = V3.lift ⟨a, b, c⟩ := rfl
theorem lift_finite (u : V3 ℝ) : u.lift.IsFinite := ⟨u, rfl⟩
end V3

theorem lift_unitVector {v : V3 ℝ} (h : v ≠ ⟨0, 0, 0⟩) : unitVector v.lift = (unitVector v).lift := by
  rw [unitVector, lift_norm, lift_div _ (norm_pos h).ne']; rfl

theorem lift_distance (u v : V3 ℝ) : distanceBetween u.lift v.lift = XR.fin (distanceBetween u v) := by
  rw [distanceBetween, lift_sub, lift_norm]; rfl

theorem lift_projectOntoPlane (x : V3 ℝ) {n : V3 ℝ} (h : n ≠ ⟨0, 0, 0⟩) :
    projectOntoPlane x.lift n.lift = (projectOntoPlane x n).lift := by
  unfold projectOntoPlane
  rw [lift_dot, lift_norm, lift_unitVector h, XR.fin_div _ _ (norm_pos h).ne']
  ext <;> simp [lift]

/-- A real 3×3 matrix as a numpy array. -/
def M3.lift (A : M3 ℝ) : M3 XR := ⟨A.r0.lift, A.r1.lift, A.r2.lift⟩
/-- A real 4-vector as a numpy array. -/
def V4.lift (v : V4 ℝ) : V4 XR := ⟨.fin v.x, .fin v.y, .fin v.z, .fin v.w⟩
/-- A real 4×4 matrix as a numpy array. -/
def M4.lift (A : M4 ℝ) : M4 XR := ⟨A.r0.lift, A.r1.lift, A.r2.lift, A.r3.lift⟩

theorem lift_mulVec (A : M3 ℝ) (v : V3 ℝ) : M3.mulVec A.lift v.lift = (M3.mulVec A v).lift := rfl
theorem lift_mulVec4 (A : M4 ℝ) (v : V4 ℝ) : M4.mulVec A.lift v.lift = (M4.mulVec A v).lift := rfl
theorem lift_eye : (M3.eye : M3 XR) = (M3.eye : M3 ℝ).lift := rfl
theorem lift_hom (p : V3 ℝ) (w : ℝ) : p.lift.hom (XR.fin w) = (p.hom w).lift := rfl

theorem lift_rotationMatrix2 {a b : V3 ℝ} (ha : a ≠ ⟨0, 0, 0⟩) (hb : b ≠ ⟨0, 0, 0⟩) :
    (rotationMatrix2 a.lift b.lift).1 = (rotationMatrix2 a b).1.lift := by
  unfold rotationMatrix2
  simp only [lift_norm, lift_div _ (norm_pos ha).ne', lift_div _ (norm_pos hb).ne', lift_cross, lift_dot,
    xlit0, XR.fin_eqb, real_eqb, lit0, decide_eq_true_eq, gt_iff_lt, XR.fin_lt]
  have ua : dot (a / norm a) (a / norm a) = 1 := unit_dot ha
  have ub : dot (b / norm b) (b / norm b) = 1 := unit_dot hb
  generalize a / norm a = u at *
  generalize b / norm b = v at *
  by_cases h : norm (cross u v) = 0
  · rw [if_pos h, if_pos h]
    split_ifs <;> rfl
  · rw [if_neg h, if_neg h]
    have hl := cross_dot_self u v
    rw [← norm_mul_self, ua, ub] at hl
    have hc : 1 + dot u v ≠ 0 := by
      intro e
      have : norm (cross u v) * norm (cross u v) = 0 := by
        rw [hl]; have : dot u v = -1 := by linarith
        rw [this]; norm_num
      exact h (mul_self_eq_zero.mp this)
    simp only [xlit1, lit1, XR.fin_add]
    generalize cross u v = w
    generalize 1 + dot u v = k at hc
    ext <;> simp [M3.lift, M3.eye, M3.mul, M3.col0, M3.col1, M3.col2, lift, dot, XR.fin_div _ _ hc, xlit0, xlit1,
      lit0, lit1]

theorem lift_rotationMatrix4 {a b : V3 ℝ} (ha : a ≠ ⟨0, 0, 0⟩) (hb : b ≠ ⟨0, 0, 0⟩) :
    rotationMatrix4 a.lift b.lift = (rotationMatrix4 a b).lift := by
  unfold rotationMatrix4
  rw [lift_rotationMatrix2 ha hb]
  rfl

/-- A real ray as a ray of numpy arrays. -/
def Ray.lift (r : Ray ℝ) : Ray XR :=
  { position := r.position.lift, direction := r.direction.lift, wavelength := .fin r.wavelength,
    order := .fin r.order, pointHistory := r.pointHistory.map V3.lift, blocked := r.blocked, type := r.type }
/-- see `Ray.lift` -/
def Hit3.lift (h : Hit3 ℝ) : Hit3 XR := ⟨h.hit, h.pt.map V3.lift, h.normal.map V3.lift⟩
/-- see `Ray.lift` -/
def Hit6.lift (h : Hit6 ℝ) : Hit6 XR :=
  ⟨h.hit, h.pt1.map V3.lift, h.pt2.map V3.lift, h.n1.map V3.lift, h.n2.map V3.lift, h.count⟩
/-- see `Ray.lift` -/
def Plane.lift (p : Plane ℝ) : Plane XR := ⟨p.center.lift, p.normal.lift⟩
/-- see `Ray.lift` -/
def Circle.lift (c : Circle ℝ) : Circle XR :=
  ⟨c.center.lift, .fin c.R, .fin c.D, c.normal.map V3.lift, c.plane.map Plane.lift⟩
/-- see `Ray.lift` -/
def Sphere.lift (s : Sphere ℝ) : Sphere XR := ⟨s.center.lift, .fin s.R, .fin s.D⟩
/-- see `Ray.lift` -/
def InfiniteCylinder.lift (c : InfiniteCylinder ℝ) : InfiniteCylinder XR :=
  ⟨c.center.lift, .fin c.R, .fin c.D, c.direction.lift⟩
/-- see `Ray.lift` -/
def Rectangle.lift (r : Rectangle ℝ) : Rectangle XR :=
  { center := r.center.lift, normal := r.normal.lift, tangent := r.tangent.lift,
    tangent2 := r.tangent2.lift, h := .fin r.h, w := .fin r.w, bounds0 := r.bounds0.lift,
    bounds1 := r.bounds1.lift, bounds2 := r.bounds2.lift, bounds3 := r.bounds3.lift,
    plane := r.plane.lift }

theorem lift_plane_testIntersect (p : Plane ℝ) (hn : p.normal ≠ ⟨0, 0, 0⟩) (ray : Ray ℝ)
    (hd : ray.direction ≠ ⟨0, 0, 0⟩) : p.lift.testIntersect ray.lift = (p.testIntersect ray).lift := by
  unfold Plane.testIntersect
  simp only [Plane.lift, Ray.lift, lift_unitVector hn, lift_unitVector hd, lift_dot, XR.fin_abs, lift_sub, real_abs,
    gt_iff_lt]
  have he : (arbEpsilon : XR) = XR.fin arbEpsilon := rfl
  simp only [he, XR.fin_lt]
  by_cases h : arbEpsilon < |dot (unitVector p.normal) (unitVector ray.direction)|
  · rw [if_pos h, if_pos h]
    have h0 : dot (unitVector p.normal) (unitVector ray.direction) ≠ 0 := by
      intro e; rw [e, abs_zero] at h; exact absurd h (not_lt.mpr arbEpsilon_pos.le)
    simp only [XR.fin_div _ _ h0, XR.fin_lt, lift_smul, lift_add]
    split_ifs <;> rfl
  · rw [if_neg h, if_neg h]; rfl

theorem lift_circle_testIntersect (c : Circle ℝ) (p : Plane ℝ) (hp : c.plane = some p)
    (hn : p.normal ≠ ⟨0, 0, 0⟩) (ray : Ray ℝ) (hd : ray.direction ≠ ⟨0, 0, 0⟩) :
    c.lift.testIntersect ray.lift = (c.testIntersect ray).map Hit3.lift := by
  unfold Circle.testIntersect
  have : c.lift.plane = some p.lift := by simp [Circle.lift, hp]
  rw [this, hp]
  simp only [lift_plane_testIntersect p hn ray hd]
  rcases p.testIntersect ray with ⟨hit, pt, n⟩
  cases hit <;> cases pt <;> simp only [Hit3.lift, Option.map_none, Option.map_some] <;> try rfl
  simp only [Circle.lift, lift_distance, XR.fin_lt]
  split_ifs <;> rfl

theorem lift_rectangle_testIntersect (r : Rectangle ℝ) (hn : r.plane.normal ≠ ⟨0, 0, 0⟩) (ray : Ray ℝ)
    (hd : ray.direction ≠ ⟨0, 0, 0⟩) : r.lift.testIntersect ray.lift = (r.testIntersect ray).lift := by
  unfold Rectangle.testIntersect
  have : r.lift.plane = r.plane.lift := rfl
  rw [this]
  simp only [lift_plane_testIntersect r.plane hn ray hd]
  rcases r.plane.testIntersect ray with ⟨hit, pt, n⟩
  cases hit <;> cases pt <;> simp only [Hit3.lift, Option.map_none, Option.map_some] <;> try rfl
  simp only [Rectangle.lift, lift_sub, lift_dot, xlit0, XR.fin_le, lit0]
  split_ifs <;> rfl

theorem lift_sphere_normal (s : Sphere ℝ) (x : V3 ℝ) (h : s.center - x ≠ ⟨0, 0, 0⟩) :
    s.lift.normal x.lift = (s.normal x).lift := by
  unfold Sphere.normal
  rw [show s.lift.center = s.center.lift from rfl, lift_sub, lift_unitVector h]

theorem onSphere_ne (s : Sphere ℝ) (hR : s.R ≠ 0) (x : V3 ℝ) (h : OnSphere s.center s.R x) :
    s.center - x ≠ ⟨0, 0, 0⟩ := by
  intro e
  rw [sub_eq_zero'] at e
  rw [OnSphere, e, dist_self] at h
  exact hR (abs_eq_zero.mp h.symm)

theorem lift_sphere_testIntersect (s : Sphere ℝ) (hR : s.R ≠ 0) (ray : Ray ℝ)
    (hd : dot ray.direction ray.direction = 1) :
    s.lift.testIntersect ray.lift = (s.testIntersect ray).lift := by
  unfold Sphere.testIntersect
  simp only [show s.lift.center = s.center.lift from rfl, show s.lift.R = XR.fin s.R from rfl,
    show ray.lift.position = ray.position.lift from rfl, show ray.lift.direction = ray.direction.lift from rfl,
    lift_sub, lift_dot, XR.fin_mul, XR.fin_sub, xlit0, XR.fin_lt, gt_iff_lt, XR.fin_eqb, real_eqb, lit0,
    decide_eq_true_eq]
  have hDD : dot ray.direction (s.center - ray.position) * dot ray.direction (s.center - ray.position)
      - (dot (s.center - ray.position) (s.center - ray.position) - s.R * s.R)
      = sphDisc s.center ray.position ray.direction s.R := rfl
  rw [hDD]
  have hc : (clippingFloor : XR) = XR.fin clippingFloor := rfl
  by_cases h : 0 < sphDisc s.center ray.position ray.direction s.R
  · rw [if_pos h, if_pos h]
    have o0 := onSphere_ne s hR _ ((onSphere_roots s.center ray.position ray.direction s.R _ hd h).mpr (Or.inl rfl))
    have o1 := onSphere_ne s hR _ ((onSphere_roots s.center ray.position ray.direction s.R _ hd h).mpr (Or.inr rfl))
    simp only [lineAt] at o0 o1
    simp only [XR.fin_sqrt _ h.le, XR.fin_sub, XR.fin_add, lift_smul, lift_add, hc, XR.fin_lt,
      lift_sphere_normal s _ o0, lift_sphere_normal s _ o1, real_sqrt]
    split_ifs <;> rfl
  · rw [if_neg h, if_neg h]
    by_cases h1 : sphDisc s.center ray.position ray.direction s.R = 0
    · rw [if_pos h1, if_pos h1]
      have o := onSphere_ne s hR _ ((onSphere_line s.center ray.position ray.direction s.R
        (dot ray.direction (s.center - ray.position)) hd).mpr (by rw [h1]; ring))
      simp only [lineAt] at o
      simp only [lift_smul, lift_add, lift_sphere_normal s _ o]
      rfl
    · rw [if_neg h1, if_neg h1]; rfl

theorem lift_translationMatrix4 (t : V3 ℝ) : translationMatrix4 t.lift = (translationMatrix4 t).lift := rfl
theorem lift_scalingMatrix4 (t : V3 ℝ) : scalingMatrix4 t.lift = (scalingMatrix4 t).lift := rfl
theorem lift_zhat : (⟨0.0, 0.0, 1.0⟩ : V3 XR) = V3.lift ⟨0.0, 0.0, 1.0⟩ := rfl
theorem zhat_ne : (⟨0.0, 0.0, 1.0⟩ : V3 ℝ) ≠ ⟨0, 0, 0⟩ := by simp [lit1]
theorem lift_hom1 (p : V3 ℝ) : p.lift.hom 1.0 = (p.hom 1.0).lift := rfl
theorem lift_hom0 (p : V3 ℝ) : p.lift.hom 0.0 = (p.hom 0.0).lift := rfl

theorem lift_pointToObjectSpace (c : InfiniteCylinder ℝ) (hR : c.R ≠ 0)
    (hd : c.direction ≠ ⟨0, 0, 0⟩) (x : V3 ℝ) :
    c.lift.pointToObjectSpace x.lift = (c.pointToObjectSpace x).lift := by
  have h3 : (1.0 : XR) / c.lift.R = XR.fin (1.0 / c.R) := by
    rw [show c.lift.R = XR.fin c.R from rfl, xlit1, XR.fin_div _ _ hR, lit1]
  simp only [InfiniteCylinder.pointToObjectSpace, show c.lift.center = c.center.lift from rfl,
    show c.lift.direction = c.direction.lift from rfl, lift_neg, lift_translationMatrix4, lift_zhat,
    lift_rotationMatrix4 hd zhat_ne, h3, lift_mk, lift_scalingMatrix4, lift_hom1, lift_mulVec4]

theorem lift_dirToObjectSpace (c : InfiniteCylinder ℝ) (hd : c.direction ≠ ⟨0, 0, 0⟩) (x : V3 ℝ) :
    c.lift.dirToObjectSpace x.lift = (c.dirToObjectSpace x).lift := by
  simp only [InfiniteCylinder.dirToObjectSpace, 
    show c.lift.direction = c.direction.lift from rfl, lift_zhat,
    lift_rotationMatrix4 hd zhat_ne, lift_hom0, lift_mulVec4]

end Optics
