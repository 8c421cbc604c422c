import Verif.Spec.Scene
import Verif.Props.CylinderParallel
import Verif.Props.Spheres
import Verif.Lemmas.CsgRay
import Verif.Props.Gratings

/-!
# What primitives and CSG trees report in numpy

Every point a tree reports is a point some leaf reported.
-/

namespace Optics
open V3

section generic
variable {α : Type}

/-- Every point of a 6-tuple comes with a normal, the pair satisfies `Q`, and a hit comes with a point. -/
structure Hit6.Sat (Q : V3 α → V3 α → Prop) (r : Hit6 α) : Prop where
  hit : r.hit = true → r.pt1 ≠ none
  fst : ∀ x, r.pt1 = some x → ∃ n, r.n1 = some n ∧ Q x n
  snd : ∀ x, r.pt2 = some x → r.pt1 ≠ none ∧ ∃ n, r.n2 = some n ∧ Q x n

theorem sat_miss (Q : V3 α → V3 α → Prop) (k : Nat) : (Hit6.miss k : Hit6 α).Sat Q :=
  ⟨(fun h => by cases h), (fun x h => by cases h), (fun x h => by cases h)⟩

theorem sat_one {Q : V3 α → V3 α → Prop} {x n : V3 α} (k : Nat) (h : Q x n) : (Hit6.one x n k).Sat Q :=
  ⟨(fun _ => by simp [Hit6.one]), (fun y hy => by cases hy; exact ⟨n, rfl, h⟩), (fun x h => by cases h)⟩

theorem sat_two {Q : V3 α → V3 α → Prop} {x y n m : V3 α} (k : Nat) (h : Q x n) (h' : Q y m) :
    (Hit6.two x y n m k).Sat Q :=
  ⟨(fun _ => by simp [Hit6.two]), (fun y hy => by cases hy; exact ⟨n, rfl, h⟩),
    (fun y hy => by cases hy; exact ⟨by simp [Hit6.two], m, rfl, h'⟩)⟩

variable [PyNum α]

/-- What `helper_findIntersects` returns for a hit. -/
structure Found.Sat (Q : V3 α → V3 α → Prop) (f : Found α) : Prop where
  ex : ∃ x n d, f.point = some x ∧ f.normal = some n ∧ f.distance = some d ∧ Q x n

theorem helper_sat {Q : V3 α → V3 α → Prop} {r : Hit6 α} (h : r.Sat Q) (hh : r.hit = true) (ray : Ray α)
    (mode : Mode) : ∃ f, helperFindIntersects r ray mode = .ok f ∧ f.Sat Q := by
  obtain ⟨hit, p1, p2, n1, n2, k⟩ := r
  cases p1 with
  | none => exact absurd rfl (h.hit hh)
  | some x =>
    obtain ⟨n, hn, hq⟩ := h.fst x rfl
    simp only at hn
    cases p2 with
    | none => exact ⟨_, rfl, ⟨x, n, _, rfl, hn, rfl, hq⟩⟩
    | some y =>
      obtain ⟨-, m, hm, hq'⟩ := h.snd y rfl
      simp only at hm
      unfold helperFindIntersects
      cases mode <;> simp only <;> split_ifs
      · exact ⟨_, rfl, ⟨x, n, _, rfl, hn, rfl, hq⟩⟩
      · exact ⟨_, rfl, ⟨y, m, _, rfl, hm, rfl, hq'⟩⟩
      · exact ⟨_, rfl, ⟨x, n, _, rfl, hn, rfl, hq⟩⟩
      · exact ⟨_, rfl, ⟨y, m, _, rfl, hm, rfl, hq'⟩⟩

theorem sat_found {Q : V3 α → V3 α → Prop} {f : Found α} (h : f.Sat Q) (k : Nat) :
    (⟨true, f.point, none, f.normal, none, k⟩ : Hit6 α).Sat Q := by
  obtain ⟨x, n, d, h1, h2, -, hq⟩ := h.ex
  rw [h1, h2]
  exact sat_one k hq

theorem union_sat {Q : V3 α → V3 α → Prop} {A B : Hit6 α} (hA : A.Sat Q) (hB : B.Sat Q) (ray : Ray α) :
    ∃ r, operCsgUnion A B ray = .ok r ∧ r.Sat Q := by
  unfold operCsgUnion
  cases ha : A.hit <;> cases hb : B.hit <;> simp only [Bool.and_true, Bool.and_false, Bool.and_self, if_true,
    Bool.false_eq_true, if_false, bind, Except.bind, pure, Except.pure]
  · exact ⟨_, rfl, sat_miss Q _⟩
  · obtain ⟨f, e, h⟩ := helper_sat hB hb ray .nearest
    simp only [e]
    exact ⟨_, rfl, sat_found h _⟩
  · obtain ⟨f, e, h⟩ := helper_sat hA ha ray .nearest
    simp only [e]
    exact ⟨_, rfl, sat_found h _⟩
  · obtain ⟨f, e, h⟩ := helper_sat hA ha ray .nearest
    obtain ⟨f', e', h'⟩ := helper_sat hB hb ray .nearest
    obtain ⟨x, n, d, h1, h2, h3, hq⟩ := h.ex
    obtain ⟨x', n', d', h1', h2', h3', hq'⟩ := h'.ex
    simp only [e, e', h1, h1', h2, h2', h3, h3', pyLt]
    split_ifs
    · exact ⟨_, rfl, sat_one _ hq⟩
    · exact ⟨_, rfl, sat_one _ hq'⟩

theorem intersect_sat {Q : V3 α → V3 α → Prop} {A B : Hit6 α} (hA : A.Sat Q) (hB : B.Sat Q) (ray : Ray α) :
    ∃ r, operCsgIntersect A B ray = .ok r ∧ r.Sat Q := by
  unfold operCsgIntersect
  cases ha : A.hit <;> cases hb : B.hit <;> simp only [Bool.and_true, Bool.and_false, Bool.and_self, if_true,
    Bool.false_eq_true, if_false, bind, Except.bind, pure, Except.pure]
  · exact ⟨_, rfl, sat_miss Q _⟩
  · exact ⟨_, rfl, sat_miss Q _⟩
  · exact ⟨_, rfl, sat_miss Q _⟩
  · obtain ⟨f, e, h⟩ := helper_sat hA ha ray .nearest
    obtain ⟨f', e', h'⟩ := helper_sat hB hb ray .nearest
    obtain ⟨g, eg, hg⟩ := helper_sat hA ha ray .farthest
    obtain ⟨g', eg', hg'⟩ := helper_sat hB hb ray .farthest
    obtain ⟨x, n, d, h1, h2, h3, hq⟩ := h.ex
    obtain ⟨x', n', d', h1', h2', h3', hq'⟩ := h'.ex
    obtain ⟨y, m, c, k1, k2, k3, kq⟩ := hg.ex
    obtain ⟨y', m', c', k1', k2', k3', kq'⟩ := hg'.ex
    simp only [e, e', eg, eg', h1, h1', h2, h2', h3, h3', k3, k3', pyLt]
    split_ifs
    all_goals first
      | exact ⟨_, rfl, sat_one _ hq⟩
      | exact ⟨_, rfl, sat_one _ hq'⟩
      | exact ⟨_, rfl, sat_miss Q _⟩

theorem difference_sat {Q : V3 α → V3 α → Prop} {A B : Hit6 α} (hA : A.Sat Q) (hB : B.Sat Q) (ray : Ray α)
    {r : Hit6 α} (hr : operCsgDifference A B ray = .ok r) : r.Sat Q := by
  unfold operCsgDifference at hr
  revert hr
  cases ha : A.hit <;> cases hb : B.hit <;> simp only [Bool.and_true, Bool.and_false, Bool.and_self, if_true,
    Bool.false_eq_true, if_false, bind, Except.bind, pure, Except.pure]
  · rintro ⟨⟩; exact sat_miss Q _
  · rintro ⟨⟩; exact sat_miss Q _
  · obtain ⟨f, e, h⟩ := helper_sat hA ha ray .nearest
    simp only [e]
    intro h; cases h
  · obtain ⟨f, e, h⟩ := helper_sat hA ha ray .nearest
    obtain ⟨f', e', h'⟩ := helper_sat hB hb ray .nearest
    obtain ⟨g, eg, hg⟩ := helper_sat hA ha ray .farthest
    obtain ⟨g', eg', hg'⟩ := helper_sat hB hb ray .farthest
    obtain ⟨x, n, d, h1, h2, h3, hq⟩ := h.ex
    obtain ⟨x', n', d', h1', h2', h3', hq'⟩ := h'.ex
    obtain ⟨y, m, c, k1, k2, k3, kq⟩ := hg.ex
    obtain ⟨y', m', c', k1', k2', k3', kq'⟩ := hg'.ex
    simp only [e, e', eg, eg', h1, h2, h3, h3', k1', k2', k3, k3', pyLt]
    split_ifs <;> rintro ⟨⟩
    all_goals first
      | exact sat_one _ hq
      | exact sat_one _ kq'
      | exact sat_miss Q _

end generic

/-! ## Primitives -/

/-- A reported pair is the `nan` vector, or finite and as `P` says. -/
def Finitely (P : V3 ℝ → V3 ℝ → Prop) (pt n : V3 XR) : Prop :=
  pt = V3.nan ∨ ∃ x m, pt = x.lift ∧ n = m.lift ∧ P x m

/-- What a reported point and normal are for a ray: on the ray's line, ahead or where the line touches the
primitive, with a unit normal. -/
def Prim.Point (p : Prim ℝ) (ray : Ray ℝ) (x n : V3 ℝ) : Prop :=
  dot n n = 1 ∧ x ∈ p.surface ∧ ∃ t, x = ray.at t ∧ (1e-12 < t ∨ ∀ s, ray.at s ∈ p.surface → ray.at s = x)

theorem hit6_lift_sat {P : V3 ℝ → V3 ℝ → Prop} {r : Hit6 ℝ} (h : r.Sat P) : r.lift.Sat (Finitely P) := by
  obtain ⟨hit, p1, p2, n1, n2, k⟩ := r
  refine ⟨fun hh => ?_, fun x hx => ?_, fun x hx => ?_⟩
  · have := h.hit hh
    cases p1 with
    | none => exact absurd rfl this
    | some x => simp [Hit6.lift]
  · cases p1 with
    | none => cases hx
    | some y =>
      obtain ⟨n, hn, hq⟩ := h.fst y rfl
      cases hx
      simp only at hn
      exact ⟨n.lift, by simp [Hit6.lift, hn], .inr ⟨y, n, rfl, rfl, hq⟩⟩
  · cases p2 with
    | none => cases hx
    | some y =>
      obtain ⟨h1, n, hn, hq⟩ := h.snd y rfl
      cases hx
      simp only at hn h1
      refine ⟨?_, n.lift, by simp [Hit6.lift, hn], .inr ⟨y, n, rfl, rfl, hq⟩⟩
      cases p1 with
      | none => exact absurd rfl h1
      | some x => simp [Hit6.lift]

theorem sphere_sat (s : Sphere ℝ) (hR : s.R ≠ 0) (ray : Ray ℝ) (hd : dot ray.direction ray.direction = 1) :
    (s.testIntersect ray).Sat ((Prim.sphere s).Point ray) := by
  have hon : ∀ t, ray.at t ∈ (Prim.sphere s).surface ↔
      (t - dot ray.direction (s.center - ray.position)) ^ 2
        = sphDisc s.center ray.position ray.direction s.R := fun t => onSphere_line _ _ _ _ _ hd
  have hn : ∀ t, ray.at t ∈ (Prim.sphere s).surface → dot (s.normal (ray.at t)) (s.normal (ray.at t)) = 1 := by
    intro t ht
    have := (sphere_normal_spec s hR _ ht).1
    rwa [norm_toE, norm_eq_one_iff] at this
  have hrep := sphere_eq s ray
  simp only at hrep
  rw [hrep]
  change ∀ t, lineAt ray.position ray.direction t ∈ _ ↔ _ at hon
  change ∀ t, lineAt ray.position ray.direction t ∈ _ →
    dot (s.normal (lineAt ray.position ray.direction t)) (s.normal (lineAt ray.position ray.direction t)) = 1 at hn
  generalize sphDisc s.center ray.position ray.direction s.R = D at *
  generalize dot ray.direction (s.center - ray.position) = vq at *
  have h0 : 0 ≤ D → lineAt ray.position ray.direction (vq - Real.sqrt D) ∈ (Prim.sphere s).surface := by
    intro h; rw [hon]; linear_combination Real.sq_sqrt h
  have h1 : 0 ≤ D → lineAt ray.position ray.direction (vq + Real.sqrt D) ∈ (Prim.sphere s).surface := by
    intro h; rw [hon]; linear_combination Real.sq_sqrt h
  split_ifs with hD a b hz
  · refine sat_two _ ⟨hn _ (h1 hD.le), h1 hD.le, _, rfl, .inl ?_⟩ ⟨hn _ (h0 hD.le), h0 hD.le, _, rfl, .inl a⟩
    have := Real.sqrt_nonneg D; linarith
  · exact sat_one _ ⟨hn _ (h1 hD.le), h1 hD.le, _, rfl, .inl b⟩
  · exact sat_miss _ _
  · have hv : lineAt ray.position ray.direction vq ∈ (Prim.sphere s).surface := by rw [hon, hz]; ring
    refine sat_one _ ⟨hn _ hv, hv, _, rfl, .inr fun u hu => ?_⟩
    have := (hon u).mp hu
    rw [hz] at this
    rw [show u = vq by linarith [pow_eq_zero_iff (two_ne_zero) |>.mp this]]; rfl
  · exact sat_miss _ _

/-- The roots of the cylinder quadratic in numpy are those over the reals. -/
theorem lift_cylinderRoots {A : ℝ} (hA : 0 < A) (B C : ℝ) :
    cylinderRoots (XR.fin A) (XR.fin B) (XR.fin C) =
      ((cylinderRoots A B C).1.map XR.fin, (cylinderRoots A B C).2.map XR.fin) := by
  unfold cylinderRoots
  simp only [xlit0, xlit2, xlit4, XR.fin_mul, XR.fin_sub, gt_iff_lt, ge_iff_le, XR.fin_lt, XR.fin_le, XR.fin_eqb,
    lit0, lit2, lit4, real_eqb, real_sqrt, XR.fin_neg]
  have h2 : 2 * A ≠ 0 := by positivity
  by_cases h : 0 < B * B - 4 * A * C
  · have hp := Real.sqrt_pos.mpr h
    simp only [h, if_true, XR.fin_sqrt _ h.le, XR.fin_sub, XR.fin_add, XR.fin_div _ _ h2]
    by_cases hB : 0 ≤ B
    · have : -B - Real.sqrt (B * B - 4 * A * C) ≠ 0 := by linarith
      simp only [hB, if_true, XR.fin_div _ _ this, Option.map_some]
    · have : -B + Real.sqrt (B * B - 4 * A * C) ≠ 0 := by linarith
      simp only [hB, if_false, XR.fin_div _ _ this, Option.map_some]
  · simp only [h, if_false, decide_eq_true_eq]
    split_ifs
    · simp only [XR.fin_div _ _ h2, Option.map_some, Option.map_none]
    · rfl

/-- They are roots. -/
theorem cylinderRoots_root {A : ℝ} (hA : 0 < A) (B C t : ℝ)
    (h : (cylinderRoots A B C).1 = some t ∨ (cylinderRoots A B C).2 = some t) : A * t ^ 2 + B * t + C = 0 := by
  rcases lt_trichotomy (B * B - 4 * A * C) 0 with hD | hD | hD
  · rw [cylinderRoots_neg hD] at h; simp at h
  · rw [cylinderRoots_zero hD] at h
    simp only [Option.some.injEq, reduceCtorEq, or_false] at h
    rw [← h]; field_simp; linarith
  · rw [cylinderRoots_pos hA hD] at h
    have hs := Real.sq_sqrt hD.le
    simp only [Option.some.injEq] at h
    generalize Real.sqrt (B * B - 4 * A * C) = q at *
    rcases h with h | h <;> rw [← h] <;> field_simp <;> linear_combination hs

theorem lift_cylinder_normal (c : InfiniteCylinder ℝ) (ha : dot c.direction c.direction = 1) (x : V3 ℝ)
    (hx : axQ c.direction (x - c.center) ≠ 0) : c.lift.normal x.lift = (c.normal x).lift := by
  unfold InfiniteCylinder.normal
  rw [show c.lift.center = c.center.lift from rfl, show c.lift.direction = c.direction.lift from rfl, lift_sub,
    lift_projectOntoPlane _ (ne_zero_of_dot_one ha), lift_unitVector]
  intro e
  rw [project_unit _ ha] at e
  apply hx
  have : dot ((c.center - x) - (dot (c.center - x) c.direction) * c.direction)
      ((c.center - x) - (dot (c.center - x) c.direction) * c.direction) = 0 := by rw [e]; simp [dot]
  rw [← this]
  simp only [axQ, dot_sub_left, dot_sub_right, dot_smul_left, dot_smul_right, ha, dot_comm c.direction]
  ring

/-- A cylinder in numpy, for a ray that is not parallel to the axis. -/
theorem lift_cylinder_testIntersect (c : InfiniteCylinder ℝ) (ha : dot c.direction c.direction = 1) (hR : c.R ≠ 0)
    (ray : Ray ℝ) (hA : 0 < axQ c.direction ray.direction) :
    c.lift.testIntersect ray.lift = (c.testIntersect ray).map Hit6.lift := by
  have hdir := lift_dirToObjectSpace c (ne_zero_of_dot_one ha) ray.direction
  have hpos := lift_pointToObjectSpace c hR (ne_zero_of_dot_one ha) ray.position
  unfold InfiniteCylinder.testIntersect
  have hR0 : PyNum.eqb c.R (0.0 : ℝ) = false := by simp [lit0, hR]
  have hR1 : PyNum.eqb c.lift.R (0.0 : XR) = false := by
    rw [show c.lift.R = XR.fin c.R from rfl, xlit0, XR.fin_eqb, decide_eq_false hR]
  have hs : (1.0 : XR) / c.lift.R = XR.fin (1.0 / c.R) := by
    rw [show c.lift.R = XR.fin c.R from rfl, xlit1, XR.fin_div _ _ hR, lit1]
  rw [hR0, hR1]
  simp only [Bool.false_eq_true, if_false]
  rw [show ray.lift.position = ray.position.lift from rfl, show ray.lift.direction = ray.direction.lift from rfl,
    hdir, hpos, hs]
  set p := c.pointToObjectSpace ray.position with hp
  set d := c.dirToObjectSpace ray.direction with hd'
  simp only [V4.lift, xlit1, xlit2, lit2, XR.fin_mul, XR.fin_add, XR.fin_sub]
  have xA := cylRot_xy ha ray.direction ray.direction
  have xB := cylRot_xy ha (ray.position - c.center) ray.direction
  have xC := cylRot_xy ha (ray.position - c.center) (ray.position - c.center)
  have qA : axB c.direction ray.direction ray.direction = axQ c.direction ray.direction := by
    unfold axB axQ; ring
  have qC : axB c.direction (ray.position - c.center) (ray.position - c.center)
      = axQ c.direction (ray.position - c.center) := by unfold axB axQ; ring
  rw [pointToObjectSpace_eq] at hp
  rw [dirToObjectSpace_eq] at hd'
  have hroot : ∀ t, (cylinderRoots (d.x * d.x + d.y * d.y) (2 * p.x * d.x + 2 * p.y * d.y)
        (p.x * p.x + p.y * p.y - 1)).1 = some t ∨
      (cylinderRoots (d.x * d.x + d.y * d.y) (2 * p.x * d.x + 2 * p.y * d.y)
        (p.x * p.x + p.y * p.y - 1)).2 = some t →
      axQ c.direction (lineAt ray.position ray.direction (t / (1 / c.R)) - c.center) ≠ 0 := by
    intro t ht
    have hAd : 0 < d.x * d.x + d.y * d.y := by
      rw [hd']; simp only [V3.hom]; rw [xA, qA]; exact hA
    have := cylinderRoots_root hAd _ _ t ht
    rw [axQ_line]
    rw [hp, hd'] at this
    simp only [V3.hom, smul_x, smul_y] at this
    rw [← qA, ← xA, ← xB, ← qC, ← xC]
    generalize M3.mulVec (cylRot c.direction) ray.direction = U at *
    generalize M3.mulVec (cylRot c.direction) (ray.position - c.center) = W at *
    have : (U.x * U.x + U.y * U.y) * (t / (1 / c.R)) ^ 2 + 2 * (W.x * U.x + W.y * U.y) * (t / (1 / c.R))
        + (W.x * W.x + W.y * W.y) = c.R ^ 2 := by
      field_simp at this ⊢
      linear_combination this
    rw [this]
    positivity
  have hAd : 0 < d.x * d.x + d.y * d.y := by
    rw [hd']; simp only [V3.hom]; rw [xA, qA]; exact hA
  rw [lift_cylinderRoots hAd]
  rw [lit1] at *
  generalize cylinderRoots (d.x * d.x + d.y * d.y) (2 * p.x * d.x + 2 * p.y * d.y)
        (p.x * p.x + p.y * p.y - 1) = T at *
  obtain ⟨t0, t1⟩ := T
  have hk : (1 : ℝ) / c.R ≠ 0 := one_div_ne_zero hR
  have hc : (clippingFloor : XR) = XR.fin clippingFloor := rfl
  cases t0 with
  | none => rfl
  | some t0 =>
    have n0 := lift_cylinder_normal c ha _ (hroot t0 (.inl rfl))
    cases t1 with
    | none =>
      simp only [Option.map_some, Option.map_none, XR.fin_div _ _ hk, lift_smul, lift_add]
      simp only [lineAt] at n0
      rw [n0]; rfl
    | some t1 =>
      have n1 := lift_cylinder_normal c ha _ (hroot t1 (.inr rfl))
      simp only [Option.map_some, XR.fin_div _ _ hk, lift_smul, lift_add, hc, gt_iff_lt, XR.fin_lt]
      simp only [lineAt] at n0 n1
      rw [n0, n1]
      split_ifs <;> rfl

theorem cylinder_sat (c : InfiniteCylinder ℝ) (ha : dot c.direction c.direction = 1) (hR : c.R ≠ 0) (ray : Ray ℝ)
    (hA : 0 < axQ c.direction ray.direction) :
    ∃ r, c.testIntersect ray = .ok r ∧ r.Sat ((Prim.cylinder c).Point ray) := by
  refine ⟨_, cylinder_eq c ha hR ray hA, ?_⟩
  simp only
  have hon : ∀ t, lineAt ray.position ray.direction t ∈ (Prim.cylinder c).surface →
      (axQ c.direction ray.direction * t + axB c.direction (ray.position - c.center) ray.direction) ^ 2
        = cylDisc c.center c.direction ray.position ray.direction c.R := fun t ht => onCylinder_disc ha t ht
  have hon' : ∀ t, 0 ≤ cylDisc c.center c.direction ray.position ray.direction c.R →
      (t = (-axB c.direction (ray.position - c.center) ray.direction
        - Real.sqrt (cylDisc c.center c.direction ray.position ray.direction c.R)) / axQ c.direction ray.direction ∨
      t = (-axB c.direction (ray.position - c.center) ray.direction
        + Real.sqrt (cylDisc c.center c.direction ray.position ray.direction c.R)) / axQ c.direction ray.direction) →
      lineAt ray.position ray.direction t ∈ (Prim.cylinder c).surface :=
    fun t h => (onCylinder_roots ha hA t h).mpr
  have hn : ∀ t, lineAt ray.position ray.direction t ∈ (Prim.cylinder c).surface →
      dot (c.normal (lineAt ray.position ray.direction t)) (c.normal (lineAt ray.position ray.direction t)) = 1 := by
    intro t ht
    have := (cylinder_normal_spec c ha hR _ ht).1
    rwa [norm_toE, norm_eq_one_iff] at this
  generalize axQ c.direction ray.direction = A at *
  generalize axB c.direction (ray.position - c.center) ray.direction = b at *
  generalize cylDisc c.center c.direction ray.position ray.direction c.R = D at *
  split_ifs with hD a b' hz
  · have h0 := hon' _ hD.le (.inl rfl)
    have h1 := hon' _ hD.le (.inr rfl)
    refine sat_two _ ⟨hn _ h0, h0, _, rfl, .inl a⟩ ⟨hn _ h1, h1, _, rfl, .inl ?_⟩
    have : (-b - Real.sqrt D) / A ≤ (-b + Real.sqrt D) / A := by
      rw [div_le_div_iff_of_pos_right hA]; linarith [Real.sqrt_nonneg D]
    linarith
  · have h1 := hon' _ hD.le (.inr rfl)
    exact sat_one _ ⟨hn _ h1, h1, _, rfl, .inl b'⟩
  · exact sat_miss _ _
  · have h0 : lineAt ray.position ray.direction (-b / A) ∈ (Prim.cylinder c).surface :=
      hon' _ hz.ge (.inl (by rw [hz, Real.sqrt_zero, sub_zero]))
    refine sat_one _ ⟨hn _ h0, h0, _, rfl, .inr fun u hu => ?_⟩
    have := hon u hu
    rw [hz] at this
    have := pow_eq_zero_iff (two_ne_zero) |>.mp this
    rw [show u = -b / A by field_simp; linarith]; rfl
  · exact sat_miss _ _

/-- What a primitive reports in numpy. -/
theorem prim_sat (p : Prim ℝ) (hp : p.WellFormed) (ray : Ray ℝ) (hd : dot ray.direction ray.direction = 1) :
    ∃ r, p.toShape.lift.testIntersect ray.lift = .ok (.six r) ∧ r.Sat (Finitely (p.Point ray)) := by
  cases p with
  | sphere s =>
    refine ⟨(s.testIntersect ray).lift, ?_, hit6_lift_sat (sphere_sat s hp ray hd)⟩
    show Except.ok (IntersectResult.six (s.lift.testIntersect ray.lift)) = _
    rw [lift_sphere_testIntersect s hp ray hd]
  | cylinder c =>
    obtain ⟨hR, ha⟩ := hp
    rw [norm_toE, norm_eq_one_iff] at ha
    show ∃ r, (do return IntersectResult.six (← c.lift.testIntersect ray.lift)) = _ ∧ _
    by_cases hA : 0 < axQ c.direction ray.direction
    · obtain ⟨r, e, h⟩ := cylinder_sat c ha hR ray hA
      refine ⟨r.lift, ?_, hit6_lift_sat h⟩
      rw [lift_cylinder_testIntersect c ha hR ray hA, e]; rfl
    · have h0 : axQ c.direction ray.direction = 0 := le_antisymm (not_lt.mp hA) (axQ_nonneg ha _)
      have hpar : ray.direction = (dot ray.direction c.direction) * c.direction := by
        rw [← sub_eq_zero', ← V3.norm_eq_zero, ← mul_self_eq_zero, norm_mul_self]
        simp only [dot_sub_left, dot_sub_right, dot_smul_left, dot_smul_right, ha, dot_comm c.direction]
        unfold axQ at h0
        linarith
      have key := C20_cylinder_parallel_counterexample c.center c.direction (ne_zero_of_dot_one ha) c.R hR
        (InfiniteCylinder.lift ⟨c.center, c.R, c.R * 2.0, c.direction⟩)
        (by
          show Except.ok _ = _
          rw [lift_unitVector (ne_zero_of_dot_one ha), unitVector_of_unit ha]; rfl) ray _ hpar
      have key' : c.lift.testIntersect ray.lift = .ok
        { hit := true, pt1 := some V3.nan, pt2 := none, n1 := some V3.nan, n2 := none, count := 2 } := key
      rw [key']
      exact ⟨_, rfl, sat_one 2 (.inl rfl)⟩

/-! ## Trees -/

theorem tree_lift (e : Csg (Prim ℝ)) : ∃ k l r, e.tree.lift = .node k l r := by
  cases e <;> exact ⟨_, _, _, rfl⟩

/-- Every point a tree reports was reported by a leaf. -/
theorem csg_sat {Q : V3 XR → V3 XR → Prop} (ray : Ray XR) : ∀ (e : Csg (Prim ℝ)),
    (∀ p, e.Mem p → ∃ r, p.toShape.lift.testIntersect ray = .ok (.six r) ∧ r.Sat Q) →
    ∀ res, testTreeIntersect e.tree.lift ray = .ok res → ∃ r, res = .six r ∧ r.Sat Q
  | .prim p, h, res, hres => by
    obtain ⟨r, e, hr⟩ := h p rfl
    have : testTreeIntersect (Csg.prim p).tree.lift ray = p.toShape.lift.testIntersect ray := rfl
    rw [this, e] at hres
    cases hres
    exact ⟨r, rfl, hr⟩
  | .op o a b, h, res, hres => by
    change testTreeIntersect (.node (Key.str o.name) a.tree.lift b.tree.lift) ray = _ at hres
    rw [testTreeIntersect] at hres
    cases ha : testTreeIntersect a.tree.lift ray with
    | error x => rw [ha] at hres; cases hres
    | ok ra =>
      obtain ⟨ra, rfl, sa⟩ := csg_sat ray a (fun p hp => h p (.inl hp)) _ ha
      cases hb : testTreeIntersect b.tree.lift ray with
      | error x => rw [ha, hb] at hres; cases hres
      | ok rb =>
        obtain ⟨rb, rfl, sb⟩ := csg_sat ray b (fun p hp => h p (.inr hp)) _ hb
        rw [ha, hb] at hres
        cases o with
        | union =>
          obtain ⟨r, er, hr⟩ := union_sat sa sb ray
          have : (do return IntersectResult.six (← operCsgUnion ra rb ray)) = Except.ok res := hres
          rw [er] at this; cases this
          exact ⟨r, rfl, hr⟩
        | intersect =>
          obtain ⟨r, er, hr⟩ := intersect_sat sa sb ray
          have : (do return IntersectResult.six (← operCsgIntersect ra rb ray)) = Except.ok res := hres
          rw [er] at this; cases this
          exact ⟨r, rfl, hr⟩
        | difference =>
          have : (do return IntersectResult.six (← operCsgDifference ra rb ray)) = Except.ok res := hres
          cases er : operCsgDifference ra rb ray with
          | error x => rw [er] at this; cases this
          | ok r =>
            rw [er] at this; cases this
            exact ⟨r, rfl, difference_sat sa sb ray er⟩

/-- Trees without `difference` always return. -/
theorem csg_returns {Q : V3 XR → V3 XR → Prop} (ray : Ray XR) : ∀ (e : Csg (Prim ℝ)), e.NoDifference →
    (∀ p, e.Mem p → ∃ r, p.toShape.lift.testIntersect ray = .ok (.six r) ∧ r.Sat Q) →
    ∃ r, testTreeIntersect e.tree.lift ray = .ok (.six r) ∧ r.Sat Q
  | .prim p, _, h => h p rfl
  | .op o a b, hn, h => by
    obtain ⟨ra, ea, sa⟩ := csg_returns ray a hn.2.1 (fun p hp => h p (.inl hp))
    obtain ⟨rb, eb, sb⟩ := csg_returns ray b hn.2.2 (fun p hp => h p (.inr hp))
    show ∃ r, testTreeIntersect (.node (Key.str o.name) a.tree.lift b.tree.lift) ray = _ ∧ _
    rw [testTreeIntersect, ea, eb]
    cases o with
    | union =>
      obtain ⟨r, er, hr⟩ := union_sat sa sb ray
      refine ⟨r, ?_, hr⟩
      show (do return IntersectResult.six (← operCsgUnion ra rb ray)) = _
      rw [er]; rfl
    | intersect =>
      obtain ⟨r, er, hr⟩ := intersect_sat sa sb ray
      refine ⟨r, ?_, hr⟩
      show (do return IntersectResult.six (← operCsgIntersect ra rb ray)) = _
      rw [er]; rfl
    | difference => exact absurd rfl hn.1

/-- Point tests of trees return in numpy. -/
theorem csg_point_returns (x : V3 XR) : ∀ (e : Csg (Prim ℝ)), e.All Prim.WellFormed →
    ∃ b, testTreePoint e.tree.lift x = .ok (some b)
  | .prim (.sphere s), _ => ⟨_, rfl⟩
  | .prim (.cylinder c), h => by
    have : testTreePoint (Csg.prim (Prim.cylinder c)).tree.lift x = (do return some (← c.lift.testPoint x)) := rfl
    rw [this]
    unfold InfiniteCylinder.testPoint
    have hR1 : PyNum.eqb c.lift.R (0.0 : XR) = false := by
      rw [show c.lift.R = XR.fin c.R from rfl, xlit0, XR.fin_eqb, decide_eq_false h.1]
    rw [hR1]
    simp only [Bool.false_eq_true, if_false]
    split_ifs <;> exact ⟨_, rfl⟩
  | .op o a b, h => by
    obtain ⟨ba, ea⟩ := csg_point_returns x a h.1
    obtain ⟨bb, eb⟩ := csg_point_returns x b h.2
    show ∃ b', testTreePoint (.node (Key.str o.name) a.tree.lift b.tree.lift) x = _
    rw [testTreePoint, ea, eb]
    cases o <;> exact ⟨_, rfl⟩

theorem csg_mem_all {P : Prim ℝ → Prop} : ∀ (e : Csg (Prim ℝ)), e.All P → ∀ p, e.Mem p → P p
  | .prim _, h, _, rfl => h
  | .op _ a b, h, p, hp => hp.elim (csg_mem_all a h.1 p) (csg_mem_all b h.2 p)

theorem csg_prims (e : Csg (Prim ℝ)) (p : Prim ℝ) (h : e.Mem p) : p ∈ e.tree.prims := by
  induction e with
  | prim q =>
    cases h
    cases p <;> simp [Csg.tree, Csg.toTree, Tree.prims, Key.prims, Shape.prims, Prim.toShape]
  | op o a b iha ihb =>
    show p ∈ [] ++ a.tree.prims ++ b.tree.prims
    rcases h with h | h
    · simp [iha h]
    · simp [ihb h]

end Optics
