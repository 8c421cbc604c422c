import Verif.Lemmas.Cylinder
import Verif.Props.Spheres

/-!
# C18-C20 for the infinite cylinder
-/

namespace Optics
open V3

theorem lineAt_unit {a : V3 ℝ} (ha : a ≠ ⟨0, 0, 0⟩) (c : V3 ℝ) (s : ℝ) :
    lineAt c a s = lineAt c (unitVector a) (s * norm a) := by
  have := (norm_pos ha).ne'
  ext <;> simp only [lineAt, unitVector, add_x, add_y, add_z, smul_x, smul_y, smul_z, sdiv_x, sdiv_y, sdiv_z] <;>
    field_simp

theorem lineAt_unit' {a : V3 ℝ} (ha : a ≠ ⟨0, 0, 0⟩) (c : V3 ℝ) (s : ℝ) :
    lineAt c (unitVector a) s = lineAt c a (s / norm a) := by
  have := (norm_pos ha).ne'
  ext <;> simp only [lineAt, unitVector, add_x, add_y, add_z, smul_x, smul_y, smul_z, sdiv_x, sdiv_y, sdiv_z] <;>
    field_simp

/-- The solid does not depend on the length of the axis vector. -/
theorem inCylinder_unit {a : V3 ℝ} (ha : a ≠ ⟨0, 0, 0⟩) (c : V3 ℝ) (r : ℝ) (x : V3 ℝ) :
    InCylinder c (unitVector a) r x ↔ InCylinder c a r x := by
  constructor
  · rintro ⟨s, hs⟩; exact ⟨_, by rw [← lineAt_unit' ha]; exact hs⟩
  · rintro ⟨s, hs⟩; exact ⟨_, by rw [← lineAt_unit ha]; exact hs⟩

theorem onCylinder_unit {a : V3 ℝ} (ha : a ≠ ⟨0, 0, 0⟩) (c : V3 ℝ) (r : ℝ) (x : V3 ℝ) :
    OnCylinder c (unitVector a) r x ↔ OnCylinder c a r x := by
  constructor
  · rintro ⟨h, s, hs⟩
    exact ⟨fun s => by rw [lineAt_unit ha]; exact h _, _, by rw [← lineAt_unit' ha]; exact hs⟩
  · rintro ⟨h, s, hs⟩
    exact ⟨fun s => by rw [lineAt_unit' ha]; exact h _, _, by rw [← lineAt_unit ha]; exact hs⟩

/-! ## C19 -/

/-- C19: `test_point` says exactly whether the point is closer than `|R|` to the axis. -/
theorem C19_cylinder_test_point (c a : V3 ℝ) (ha : a ≠ ⟨0, 0, 0⟩) (R : ℝ) (hR : R ≠ 0)
    (cyl : InfiniteCylinder ℝ) (hc : InfiniteCylinder.new c a (some R) none = .ok cyl) (x : V3 ℝ) :
    ∃ b, cyl.testPoint x = .ok b ∧ (b = true ↔ InCylinder c a |R| x) := by
  cases hc
  have hu := unit_dot ha
  unfold InfiniteCylinder.testPoint
  have hR0 : PyNum.eqb R (0.0 : ℝ) = false := by simp [lit0, hR]
  simp only [hR0, Bool.false_eq_true, if_false, pointToObjectSpace_eq, V3.hom, smul_x, smul_y, lit1]
  have xC := cylRot_xy hu (x - c) (x - c)
  have qC : axB (unitVector a) (x - c) (x - c) = axQ (unitVector a) (x - c) := by unfold axB axQ; ring
  rw [qC] at xC
  generalize M3.mulVec (cylRot (unitVector a)) (x - c) = W at *
  have e : 1 / R * W.x * (1 / R * W.x) + 1 / R * W.y * (1 / R * W.y) = axQ (unitVector a) (x - c) / R ^ 2 := by
    rw [← xC]; field_simp
  rw [e, ← inCylinder_unit ha, inCylinder_iff hu]
  have h0 := axQ_nonneg hu (x - c)
  have key : PyNum.sqrt (axQ (unitVector a) (x - c) / R ^ 2) < 1 ↔ axQ (unitVector a) (x - c) < R ^ 2 := by
    rw [real_sqrt, Real.sqrt_lt' (by norm_num), one_pow, div_lt_one (by positivity)]
  by_cases h : axQ (unitVector a) (x - c) < R ^ 2
  · exact ⟨true, by rw [if_pos (key.mpr h)], by simp [h]⟩
  · exact ⟨false, by rw [if_neg (fun h' => h (key.mp h'))], by simp [h]⟩

/-- C19, error branch. -/
theorem C19_cylinder_zero_radius (c a x : V3 ℝ) (ray : Ray ℝ) (cyl : InfiniteCylinder ℝ)
    (hc : InfiniteCylinder.new c a (some 0) none = .ok cyl) :
    cyl.testPoint x = .error .zeroDivisionError ∧ cyl.testIntersect ray = .error .zeroDivisionError := by
  cases hc
  constructor
  · simp [InfiniteCylinder.testPoint, lit0]
  · simp [InfiniteCylinder.testIntersect, lit0]

/-- A case in the scope of C19: an axis pointing straight down, a point off the axis. -/
example : ∃ cyl : InfiniteCylinder ℝ, InfiniteCylinder.new ⟨1, 0, 0⟩ ⟨0, 0, -3⟩ (some 2) none = .ok cyl ∧
    cyl.testPoint ⟨2, 1, 77⟩ = .ok true := by
  refine ⟨_, rfl, ?_⟩
  obtain ⟨b, h, hb⟩ := C19_cylinder_test_point ⟨1, 0, 0⟩ ⟨0, 0, -3⟩ (by simp) 2 (by norm_num) _ rfl ⟨2, 1, 77⟩
  have : InCylinder ⟨1, 0, 0⟩ ⟨0, 0, -3⟩ |2| ⟨2, 1, 77⟩ := by
    refine ⟨-77 / 3, ?_⟩
    rw [dist_toE_eq, norm_eq, Real.sqrt_lt' (by norm_num)]
    norm_num [lineAt, dot, abs_of_pos]
  rw [h, hb.mpr this]

/-! ## C20 -/

theorem axQ_pos_of_not_parallel {a d : V3 ℝ} (ha : a ≠ ⟨0, 0, 0⟩) (h : ¬ ∃ k : ℝ, d = k * a) :
    0 < axQ (unitVector a) d := by
  have hu := unit_dot ha
  refine lt_of_le_of_ne (axQ_nonneg hu d) fun e => h ?_
  have hz : dot (d - dot d (unitVector a) * unitVector a) (d - dot d (unitVector a) * unitVector a) = 0 := by
    have : dot (d - dot d (unitVector a) * unitVector a) (d - dot d (unitVector a) * unitVector a)
        = axQ (unitVector a) d + dot d (unitVector a) ^ 2 * (dot (unitVector a) (unitVector a) - 1) := by
      simp only [axQ, dot, sub_x, sub_y, sub_z, smul_x, smul_y, smul_z]; ring
    rw [this, ← e, hu]; ring
  have := ext_of_dot hz
  refine ⟨dot d (unitVector a) / norm a, ?_⟩
  generalize dot d (unitVector a) = k at this
  rw [this, unitVector_eq]
  ext <;> simp only [smul_x, smul_y, smul_z] <;> ring

/-- The unit normal of the cylinder at one of its points. -/
theorem cylinder_normal_spec (cyl : InfiniteCylinder ℝ) (ha : dot cyl.direction cyl.direction = 1)
    (hR : cyl.R ≠ 0) (x : V3 ℝ) (h : OnCylinder cyl.center cyl.direction |cyl.R| x) :
    ‖(cyl.normal x).toE‖ = 1 ∧ inner ℝ (cyl.normal x).toE cyl.direction.toE = 0 ∧
    x + |cyl.R| * cyl.normal x = lineAt cyl.center cyl.direction (dot (x - cyl.center) cyl.direction) := by
  rw [onCylinder_iff ha] at h
  have hp := abs_pos.mpr hR
  rw [cylinder_normal cyl ha x]
  set v := (cyl.center - x) - dot (cyl.center - x) cyl.direction * cyl.direction with hv
  have hvv : dot v v = |cyl.R| ^ 2 := by
    rw [sq_abs, ← h, hv]
    simp only [axQ, dot, sub_x, sub_y, sub_z, smul_x, smul_y, smul_z] at *
    linear_combination ((cyl.center.x - x.x) * cyl.direction.x + (cyl.center.y - x.y) * cyl.direction.y
      + (cyl.center.z - x.z) * cyl.direction.z) ^ 2 * ha
  have hn : norm v = |cyl.R| := norm_eq_of_sq hp.le hvv
  have hv0 : v ≠ ⟨0, 0, 0⟩ := by
    intro e; rw [norm_eq_zero.mpr e] at hn; exact hp.ne hn
  refine ⟨by rw [norm_toE]; exact unit_norm hv0, ?_, ?_⟩
  · rw [inner_toE, unitVector, dot_div_left, hv, dot_sub_left, dot_smul_left, ha]; ring
  · rw [unitVector, hn]
    have : |cyl.R| * (v / |cyl.R|) = v := by
      ext <;> simp only [smul_x, smul_y, smul_z, sdiv_x, sdiv_y, sdiv_z] <;> field_simp
    rw [this, hv]
    ext <;> simp only [lineAt, dot, add_x, add_y, add_z, sub_x, sub_y, sub_z, smul_x, smul_y, smul_z] <;> ring

/-- C20, rays not parallel to the axis: every point of the cylinder further than 1e-12 ahead is
reported; every reported point is on the cylinder, on the ray's line, with the inward unit normal
perpendicular to the axis; it is further than 1e-12 ahead *unless the line only touches the cylinder*
there; if two points are reported the nearer comes first; a hit is reported iff a point is.
Missing for the full claim: touching points behind the ray (`C20_cylinder_behind_counterexample`) and
rays parallel to the axis (`C20_cylinder_parallel_counterexample`). -/
theorem C20_cylinder_partial (c a : V3 ℝ) (ha : a ≠ ⟨0, 0, 0⟩) (R : ℝ) (hR : R ≠ 0)
    (cyl : InfiniteCylinder ℝ) (hc : InfiniteCylinder.new c a (some R) none = .ok cyl)
    (ray : Ray ℝ) (hd : ‖ray.direction.toE‖ = 1) (hpar : ¬ ∃ k : ℝ, ray.direction = k * a) :
    let P := lineAt ray.position ray.direction
    ∃ r, cyl.testIntersect ray = .ok r ∧
      (∀ t, 1e-12 < t → OnCylinder c a |R| (P t) → ∃ n, r.Reports (P t) n) ∧
      (∀ x n, r.Reports x n → OnCylinder c a |R| x ∧ ‖n.toE‖ = 1 ∧ inner ℝ n.toE a.toE = 0 ∧
        (∃ s, x + |R| * n = lineAt c a s) ∧
        ∃ t, x = P t ∧ (1e-12 < t ∨ ∀ s, OnCylinder c a |R| (P s) → s = t)) ∧
      (r.hit = true ↔ ∃ x n, r.Reports x n) ∧
      (∀ x y, r.pt1 = some x → r.pt2 = some y →
        dist ray.position.toE x.toE < dist ray.position.toE y.toE) := by
  cases hc
  have hu := unit_dot ha
  have hA := axQ_pos_of_not_parallel ha hpar
  rw [norm_toE, norm_eq_one_iff] at hd
  intro P
  refine ⟨_, cylinder_eq ⟨c, R, _, unitVector a⟩ hu hR ray hA, ?_⟩
  simp only
  have hnsp : ∀ t, OnCylinder c a |R| (P t) → ‖(InfiniteCylinder.normal ⟨c, R, R * 2.0, unitVector a⟩ (P t)).toE‖ = 1 ∧
      inner ℝ (InfiniteCylinder.normal ⟨c, R, R * 2.0, unitVector a⟩ (P t)).toE a.toE = 0 ∧
      ∃ s, P t + |R| * (InfiniteCylinder.normal ⟨c, R, R * 2.0, unitVector a⟩ (P t)) = lineAt c a s := by
    intro t ho
    obtain ⟨h1, h2, h3⟩ := cylinder_normal_spec ⟨c, R, R * 2.0, unitVector a⟩ hu hR (P t)
      ((onCylinder_unit ha _ _ _).mpr ho)
    refine ⟨h1, ?_, _, h3.trans (lineAt_unit' ha _ _)⟩
    simp only [inner_toE, unitVector, dot_div_right] at h2 ⊢
    exact (div_eq_zero_iff.mp h2).resolve_right (norm_pos ha).ne'
  generalize InfiniteCylinder.normal ⟨c, R, R * 2.0, unitVector a⟩ = N at *
  set A := axQ (unitVector a) ray.direction with hAdef
  set b := axB (unitVector a) (ray.position - c) ray.direction with hb
  set D := cylDisc c (unitVector a) ray.position ray.direction R with hD
  have hroots : ∀ t, 0 ≤ D → (OnCylinder c a |R| (P t) ↔
      t = (-b - Real.sqrt D) / A ∨ t = (-b + Real.sqrt D) / A) := by
    intro t h; rw [← onCylinder_unit ha]; exact onCylinder_roots hu hA t h
  have hdisc : ∀ t, OnCylinder c a |R| (P t) → 0 ≤ D := by
    intro t h; rw [← onCylinder_unit ha] at h
    rw [hD, ← onCylinder_disc hu t h]; positivity
  have hrep : ∀ t, OnCylinder c a |R| (P t) → (1e-12 < t ∨ ∀ s, OnCylinder c a |R| (P s) → s = t) →
      OnCylinder c a |R| (P t) ∧ ‖(N (P t)).toE‖ = 1 ∧ inner ℝ (N (P t)).toE a.toE = 0 ∧
        (∃ s, P t + |R| * (N (P t)) = lineAt c a s) ∧
        ∃ t', P t = P t' ∧ (1e-12 < t' ∨ ∀ s, OnCylinder c a |R| (P s) → s = t') := by
    intro t h h'
    obtain ⟨h1, h2, h3⟩ := hnsp t h
    exact ⟨h, h1, h2, h3, t, rfl, h'⟩
  have hdist : ∀ t, 0 ≤ t → dist ray.position.toE (P t).toE = t := by
    intro t ht
    rw [dist_toE_eq, norm_sub_comm]
    show norm (ray.position + t * ray.direction - ray.position) = t
    rw [add_sub_cancel', norm_smul, norm_eq_one_iff.mpr hd, abs_of_nonneg ht, mul_one]
  by_cases h0 : 0 < D
  · have hp := Real.sqrt_pos.mpr h0
    have hlt : (-b - Real.sqrt D) / A < (-b + Real.sqrt D) / A := by
      rw [div_lt_div_iff_of_pos_right hA]; linarith
    have hr := fun t => hroots t h0.le
    rw [if_pos h0]
    generalize (-b - Real.sqrt D) / A = t0 at *
    generalize (-b + Real.sqrt D) / A = t1 at *
    have o0 := (hr t0).mpr (Or.inl rfl)
    have o1 := (hr t1).mpr (Or.inr rfl)
    by_cases h1 : 1e-12 < t0
    · rw [if_pos h1]
      refine ⟨?_, ?_, ⟨fun _ => ⟨_, _, Or.inl ⟨rfl, rfl⟩⟩, fun _ => rfl⟩, ?_⟩
      · intro t _ h
        rcases (hr t).mp h with rfl | rfl
        · exact ⟨_, Or.inl ⟨rfl, rfl⟩⟩
        · exact ⟨_, Or.inr ⟨rfl, rfl⟩⟩
      · rintro x n (⟨hx, hn⟩ | ⟨hx, hn⟩) <;> cases hx <;> cases hn
        · exact hrep t0 o0 (Or.inl h1)
        · exact hrep t1 o1 (Or.inl (by linarith))
      · intro x y hx hy
        cases hx; cases hy
        have : (0:ℝ) < 1e-12 := by norm_num
        rw [hdist _ (by linarith), hdist _ (by linarith)]; exact hlt
    · rw [if_neg h1]
      by_cases h2 : 1e-12 < t1
      · rw [if_pos h2]
        refine ⟨?_, ?_, ⟨fun _ => ⟨_, _, Or.inl ⟨rfl, rfl⟩⟩, fun _ => rfl⟩, ?_⟩
        · intro t ht h
          rcases (hr t).mp h with rfl | rfl
          · exact absurd ht h1
          · exact ⟨_, Or.inl ⟨rfl, rfl⟩⟩
        · rintro x n (⟨hx, hn⟩ | ⟨hx, hn⟩) <;> cases hx
          cases hn
          exact hrep t1 o1 (Or.inl h2)
        · intro x y hx hy; cases hy
      · rw [if_neg h2]
        refine ⟨?_, ?_, ?_, ?_⟩
        · intro t ht h
          rcases (hr t).mp h with rfl | rfl
          · exact absurd ht h1
          · exact absurd ht h2
        all_goals simp [Hit6.miss, Hit6.Reports]
  · rw [if_neg h0]
    by_cases h1 : D = 0
    · rw [if_pos h1]
      have hr := fun t => hroots t h1.ge
      simp only [h1, Real.sqrt_zero, sub_zero, add_zero, or_self] at hr
      refine ⟨?_, ?_, ⟨fun _ => ⟨_, _, Or.inl ⟨rfl, rfl⟩⟩, fun _ => rfl⟩, ?_⟩
      · intro t ht h
        rw [(hr t).mp h]
        exact ⟨_, Or.inl ⟨rfl, rfl⟩⟩
      · rintro x n (⟨hx, hn⟩ | ⟨hx, hn⟩) <;> cases hx
        cases hn
        exact hrep _ ((hr _).mpr rfl) (Or.inr fun s hs => (hr s).mp hs)
      · intro x y hx hy; cases hy
    · rw [if_neg h1]
      refine ⟨?_, ?_, ?_, ?_⟩
      · intro t ht h
        exact absurd (lt_of_le_of_ne (hdisc t h) (Ne.symm h1)) h0
      all_goals simp [Hit6.miss, Hit6.Reports]

/-- C20 fails for a line that touches the cylinder behind the ray: the ray flies away from the
cylinder but a hit is reported. -/
theorem C20_cylinder_behind_counterexample :
    let cyl : InfiniteCylinder ℝ := ⟨⟨0, 0, 0⟩, 1, 2, ⟨0, 0, 1⟩⟩
    let ray : Ray ℝ := ⟨⟨5, 1, 0⟩, ⟨1, 0, 0⟩, 532, 0, [], false, "normal"⟩
    (∃ r, cyl.testIntersect ray = .ok r ∧ r.hit = true ∧ r.pt1 = some ⟨0, 1, 0⟩) ∧
    ∀ t, 0 ≤ t → ¬ OnCylinder cyl.center cyl.direction |cyl.R| (lineAt ray.position ray.direction t) := by
  intro cyl ray
  have hu : dot cyl.direction cyl.direction = 1 := by norm_num [dot, cyl]
  have hA : axQ cyl.direction ray.direction = 1 := by norm_num [axQ, dot, cyl, ray]
  have hD : cylDisc cyl.center cyl.direction ray.position ray.direction cyl.R = 0 := by
    norm_num [cylDisc, axQ, axB, dot, cyl, ray]
  have hb : axB cyl.direction (ray.position - cyl.center) ray.direction = 5 := by
    norm_num [axB, dot, cyl, ray]
  constructor
  · refine ⟨_, cylinder_eq cyl hu (by norm_num [cyl]) ray (by rw [hA]; norm_num), ?_⟩
    simp only [hD, hb, hA, lt_irrefl, if_false, if_true]
    refine ⟨rfl, ?_⟩
    simp only [Hit6.one, Option.some.injEq, lineAt]
    ext <;> norm_num [ray]
  · intro t ht h
    rw [onCylinder_roots hu (by rw [hA]; norm_num) t hD.ge, hD, hb, hA] at h
    norm_num at h
    linarith

/-! ## C18, cylinder -/

/-- C18 for cylinders: for a ray not parallel to the axis that does not start on the cylinder (nor
within 1e-12 before it) the returned intersection count is odd exactly if the ray starts inside. -/
theorem C18_cylinder_parity_partial (c a : V3 ℝ) (ha : a ≠ ⟨0, 0, 0⟩) (R : ℝ) (hR : R ≠ 0)
    (cyl : InfiniteCylinder ℝ) (hc : InfiniteCylinder.new c a (some R) none = .ok cyl)
    (ray : Ray ℝ) (hpar : ¬ ∃ k : ℝ, ray.direction = k * a)
    (hstart : ∀ t, 0 ≤ t → t ≤ 1e-12 → ¬ OnCylinder c a |R| (lineAt ray.position ray.direction t)) :
    ∃ r, cyl.testIntersect ray = .ok r ∧ (r.count % 2 = 1 ↔ InCylinder c a |R| ray.position) := by
  cases hc
  have hu := unit_dot ha
  have hA := axQ_pos_of_not_parallel ha hpar
  refine ⟨_, cylinder_eq ⟨c, R, _, unitVector a⟩ hu hR ray hA, ?_⟩
  simp only
  rw [← inCylinder_unit ha, inCylinder_iff hu]
  have hroots : ∀ t, 0 ≤ cylDisc c (unitVector a) ray.position ray.direction R →
      (OnCylinder c a |R| (lineAt ray.position ray.direction t) ↔
        t = (-axB (unitVector a) (ray.position - c) ray.direction
            - Real.sqrt (cylDisc c (unitVector a) ray.position ray.direction R)) / axQ (unitVector a) ray.direction ∨
        t = (-axB (unitVector a) (ray.position - c) ray.direction
            + Real.sqrt (cylDisc c (unitVector a) ray.position ray.direction R)) / axQ (unitVector a) ray.direction) := by
    intro t h; rw [← onCylinder_unit ha]; exact onCylinder_roots hu hA t h
  have hDdef : cylDisc c (unitVector a) ray.position ray.direction R
    = axB (unitVector a) (ray.position - c) ray.direction ^ 2
      - axQ (unitVector a) ray.direction * (axQ (unitVector a) (ray.position - c) - R ^ 2) := rfl
  generalize axQ (unitVector a) ray.direction = A at *
  generalize axB (unitVector a) (ray.position - c) ray.direction = b at *
  generalize cylDisc c (unitVector a) ray.position ray.direction R = D at *
  generalize axQ (unitVector a) (ray.position - c) = Q at *
  have hz : (0:ℝ) < 1e-12 := by norm_num
  have hin : Q < R ^ 2 ↔ b ^ 2 < D := by
    constructor
    · intro h; nlinarith
    · intro h
      by_contra h'
      have : 0 ≤ A * (Q - R ^ 2) := mul_nonneg hA.le (by linarith)
      linarith
  rw [hin]
  by_cases h0 : 0 < D
  · have hp := Real.sqrt_pos.mpr h0
    have hs := Real.sq_sqrt h0.le
    have hor := fun t => hroots t h0.le
    rw [if_pos h0]
    have f0 : ∀ {x : ℝ}, 0 < x / A ↔ 0 < x := fun {x} => ⟨fun h => by
      by_contra hc; exact absurd (div_nonpos_of_nonpos_of_nonneg (not_lt.mp hc) hA.le) (not_le.mpr h),
      fun h => div_pos h hA⟩
    have f1 : ∀ {x : ℝ}, x / A < 0 ↔ x < 0 := fun {x} => ⟨fun h => by
      by_contra hc; exact absurd (div_nonneg (not_lt.mp hc) hA.le) (not_le.mpr h),
      fun h => div_neg_of_neg_of_pos h hA⟩
    by_cases h1 : 1e-12 < (-b - Real.sqrt D) / A
    · rw [if_pos h1]
      have := f0.mp (hz.trans h1)
      simp only [Hit6.two]
      constructor
      · intro h; omega
      · intro h; nlinarith
    · rw [if_neg h1]
      have n0 : -b - Real.sqrt D < 0 := by
        rw [← f1]
        by_contra hc
        exact hstart _ (not_lt.mp hc) (not_lt.mp h1) ((hor _).mpr (Or.inl rfl))
      by_cases h2 : 1e-12 < (-b + Real.sqrt D) / A
      · rw [if_pos h2]
        have := f0.mp (hz.trans h2)
        simp only [Hit6.one]
        constructor
        · intro _; nlinarith
        · intro _; trivial
      · rw [if_neg h2]
        have n1 : -b + Real.sqrt D < 0 := by
          rw [← f1]
          by_contra hc
          exact hstart _ (not_lt.mp hc) (not_lt.mp h2) ((hor _).mpr (Or.inr rfl))
        simp only [Hit6.miss]
        constructor
        · intro h; omega
        · intro h; nlinarith
  · have hD := not_lt.mp h0
    rw [if_neg h0]
    have : ¬ b ^ 2 < D := by nlinarith [sq_nonneg b]
    split_ifs <;> simp [Hit6.one, Hit6.miss, this]

/-- A case in the scope of C18 and C20: a ray starting on the axis of a unit cylinder. -/
example : (¬ ∃ k : ℝ, (⟨1, 0, 0⟩ : V3 ℝ) = k * (⟨0, 0, 1⟩ : V3 ℝ)) ∧
    (∀ t : ℝ, 0 ≤ t → t ≤ 1e-12 → ¬ OnCylinder ⟨0, 0, 0⟩ ⟨0, 0, 1⟩ |1| (lineAt ⟨0, 0, 0⟩ ⟨1, 0, 0⟩ t)) ∧
    OnCylinder ⟨0, 0, 0⟩ ⟨0, 0, 1⟩ |1| (lineAt ⟨0, 0, 0⟩ ⟨1, 0, 0⟩ 1) := by
  have hu : dot (⟨0, 0, 1⟩ : V3 ℝ) ⟨0, 0, 1⟩ = 1 := by norm_num [dot]
  refine ⟨?_, ?_, ?_⟩
  · rintro ⟨k, hk⟩
    have := congrArg V3.x hk
    norm_num at this
  · intro t h0 h1 h
    rw [onCylinder_iff hu] at h
    norm_num [axQ, lineAt, dot] at h
    nlinarith
  · rw [onCylinder_iff hu]; norm_num [axQ, lineAt, dot]

end Optics
