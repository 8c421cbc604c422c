import Verif.Lemmas.Shapes

/-!
# C15-C18 for the sphere

`1e-12` is `INTERSECT_CLIPPING_FLOOR`.
-/

namespace Optics
open V3

/-- The 6-tuple `r` reports the point `x` with normal `n`. -/
def Hit6.Reports {α : Type} (r : Hit6 α) (x n : V3 α) : Prop :=
  (r.pt1 = some x ∧ r.n1 = some n) ∨ (r.pt2 = some x ∧ r.n2 = some n)

/-- C15: membership in the open ball. -/
theorem C15_sphere_test_point (c : V3 ℝ) (R : ℝ) (s : Sphere ℝ) (hs : Sphere.new c (some R) none = .ok s)
    (x : V3 ℝ) : s.testPoint x = true ↔ x.toE ∈ Metric.ball c.toE R := by
  cases hs
  unfold Sphere.testPoint
  have hdist : distanceBetween x c = dist x.toE c.toE := C02_distance_is_dist _ _
  rw [Metric.mem_ball, ← hdist]
  simp

/-- The same for a sphere however it was built. -/
theorem C15_sphere_test_point_radius (s : Sphere ℝ) (x : V3 ℝ) :
    s.testPoint x = true ↔ InBall s.center s.R x := by
  unfold Sphere.testPoint InBall
  have hdist : distanceBetween x s.center = dist x.toE s.center.toE := C02_distance_is_dist _ _
  rw [← hdist]
  simp

/-- In particular a sphere of negative (or zero) radius contains no point. -/
theorem C15_sphere_nonpositive_radius (s : Sphere ℝ) (h : s.R ≤ 0) (x : V3 ℝ) : s.testPoint x = false := by
  rw [← Bool.not_eq_true, C15_sphere_test_point_radius, InBall, not_lt]
  exact h.trans dist_nonneg

/-- A case in the scope of C15. -/
example : ∃ s : Sphere ℝ, Sphere.new ⟨1, 0, 0⟩ (some 2) none = .ok s ∧ s.testPoint ⟨2, 1, 0⟩ = true := by
  refine ⟨_, rfl, (C15_sphere_test_point _ _ _ rfl _).mpr ?_⟩
  rw [Metric.mem_ball, dist_toE_eq, norm_eq, Real.sqrt_lt' (by norm_num)]
  norm_num [dot]

/-! ## C16 -/

theorem tangent_iff (c p d : V3 ℝ) (R : ℝ) (hd : dot d d = 1) : Tangent c R p d ↔ sphDisc c p d R = 0 := by
  have e : ∀ t, dot (lineAt p d t - c) d = t - dot d (c - p) := by
    intro t
    simp only [lineAt, dot, sub_x, sub_y, sub_z, add_x, add_y, add_z, smul_x, smul_y, smul_z] at *
    linear_combination t * hd
  unfold Tangent
  simp only [inner_toE, e, onSphere_line c p d R _ hd]
  constructor
  · rintro ⟨t, h1, h2⟩; rw [← h1, h2]; norm_num
  · intro h; exact ⟨dot d (c - p), by rw [h]; ring, by ring⟩

/-- The normal `Sphere.test_intersect` attaches to a point of the sphere. -/
theorem sphere_normal_spec (s : Sphere ℝ) (hR : s.R ≠ 0) (x : V3 ℝ) (h : OnSphere s.center s.R x) :
    ‖(s.normal x).toE‖ = 1 ∧ s.center - x = |s.R| * s.normal x := by
  have hp := abs_pos.mpr hR
  rw [sphere_normal s x h]
  have hnorm : norm (s.center - x) = |s.R| := by rw [norm_sub_comm, ← dist_toE_eq]; exact h
  constructor
  · rw [norm_toE, norm_smul, hnorm, abs_of_pos (by positivity)]; field_simp
  · generalize s.center - x = v
    ext <;> simp only [smul_x, smul_y, smul_z] <;> field_simp

/-- C16, what holds without exception: every point `Sphere.test_intersect` reports lies on the sphere
and on the ray's line, its normal is the unit vector from the point to the centre, and the point is
further than 1e-12 ahead *or the line is tangent there*; every hit comes with a point.
Missing for the full claim: a tangent point may be behind the ray (`C16_sphere_behind_counterexample`). -/
theorem C16_sphere_sound_partial (s : Sphere ℝ) (hR : s.R ≠ 0) (ray : Ray ℝ) (hd : ‖ray.direction.toE‖ = 1) :
    let r := s.testIntersect ray
    (r.hit = true ↔ ∃ x n, r.Reports x n) ∧
    ∀ x n, r.Reports x n →
      OnSphere s.center s.R x ∧ ‖n.toE‖ = 1 ∧ s.center - x = |s.R| * n ∧
      ∃ t, x = lineAt ray.position ray.direction t ∧
        (1e-12 < t ∨ inner ℝ (x - s.center).toE ray.direction.toE = 0) := by
  rw [norm_toE, norm_eq_one_iff] at hd
  intro r
  have hr : r = _ := sphere_eq s ray
  simp only at hr
  set vq := dot ray.direction (s.center - ray.position) with hvq
  set D := sphDisc s.center ray.position ray.direction s.R with hD
  have hon : ∀ t, OnSphere s.center s.R (lineAt ray.position ray.direction t) ↔ (t - vq) ^ 2 = D :=
    fun t => onSphere_line _ _ _ _ t hd
  have hpt : ∀ t, OnSphere s.center s.R (lineAt ray.position ray.direction t) → 1e-12 < t →
      ∀ x n, x = lineAt ray.position ray.direction t → n = s.normal x →
      OnSphere s.center s.R x ∧ ‖n.toE‖ = 1 ∧ s.center - x = |s.R| * n ∧
      ∃ t, x = lineAt ray.position ray.direction t ∧
        (1e-12 < t ∨ inner ℝ (x - s.center).toE ray.direction.toE = 0) := by
    intro t h1 h2 x n hx hn
    subst hn hx
    obtain ⟨a, b⟩ := sphere_normal_spec s hR _ h1
    exact ⟨h1, a, b, t, rfl, Or.inl h2⟩
  by_cases h0 : 0 < D
  · have hs := Real.sq_sqrt h0.le
    have hp := Real.sqrt_pos.mpr h0
    have o0 : OnSphere s.center s.R (lineAt ray.position ray.direction (vq - Real.sqrt D)) :=
      (hon _).mpr (by linear_combination hs)
    have o1 : OnSphere s.center s.R (lineAt ray.position ray.direction (vq + Real.sqrt D)) :=
      (hon _).mpr (by linear_combination hs)
    rw [if_pos h0] at hr
    by_cases h1 : 1e-12 < vq - Real.sqrt D
    · rw [if_pos h1] at hr; rw [hr]
      refine ⟨⟨fun _ => ⟨_, _, Or.inl ⟨rfl, rfl⟩⟩, fun _ => rfl⟩, ?_⟩
      rintro x n (⟨ha, hb⟩ | ⟨ha, hb⟩) <;> cases ha <;> cases hb
      · exact hpt _ o1 (by linarith) _ _ rfl rfl
      · exact hpt _ o0 h1 _ _ rfl rfl
    · rw [if_neg h1] at hr
      by_cases h2 : 1e-12 < vq + Real.sqrt D
      · rw [if_pos h2] at hr; rw [hr]
        refine ⟨⟨fun _ => ⟨_, _, Or.inl ⟨rfl, rfl⟩⟩, fun _ => rfl⟩, ?_⟩
        rintro x n (⟨ha, hb⟩ | ⟨ha, hb⟩) <;> cases ha
        cases hb
        exact hpt _ o1 h2 _ _ rfl rfl
      · rw [if_neg h2] at hr; rw [hr]
        constructor <;> simp [Hit6.miss, Hit6.Reports]
  · rw [if_neg h0] at hr
    by_cases h1 : D = 0
    · rw [if_pos h1] at hr; rw [hr]
      refine ⟨⟨fun _ => ⟨_, _, Or.inl ⟨rfl, rfl⟩⟩, fun _ => rfl⟩, ?_⟩
      rintro x n (⟨ha, hb⟩ | ⟨ha, hb⟩) <;> cases ha
      cases hb
      have o : OnSphere s.center s.R (lineAt ray.position ray.direction vq) :=
        (hon _).mpr (by rw [h1]; ring)
      obtain ⟨a, b⟩ := sphere_normal_spec s hR _ o
      refine ⟨o, a, b, vq, rfl, Or.inr ?_⟩
      rw [inner_toE, hvq]
      simp only [lineAt, dot, sub_x, sub_y, sub_z, add_x, add_y, add_z, smul_x, smul_y, smul_z] at *
      linear_combination (ray.direction.x * (s.center.x - ray.position.x)
        + ray.direction.y * (s.center.y - ray.position.y)
        + ray.direction.z * (s.center.z - ray.position.z)) * hd
    · rw [if_neg h1] at hr; rw [hr]
      constructor <;> simp [Hit6.miss, Hit6.Reports]

/-- C16 in full for rays whose line is not tangent to the sphere. -/
theorem C16_sphere_sound_not_tangent_partial (s : Sphere ℝ) (hR : s.R ≠ 0) (ray : Ray ℝ)
    (hd : ‖ray.direction.toE‖ = 1) (hT : ¬ Tangent s.center s.R ray.position ray.direction)
    (x n : V3 ℝ) (h : (s.testIntersect ray).Reports x n) :
    OnSphere s.center s.R x ∧ ‖n.toE‖ = 1 ∧ s.center - x = |s.R| * n ∧
      ∃ t, 1e-12 < t ∧ x = lineAt ray.position ray.direction t := by
  obtain ⟨h1, h2, h3, t, ht, h4⟩ := (C16_sphere_sound_partial s hR ray hd).2 x n h
  refine ⟨h1, h2, h3, t, ?_, ht⟩
  rcases h4 with h4 | h4
  · exact h4
  · subst ht; exact absurd ⟨t, h1, h4⟩ hT

/-- C16 is false in general: this ray starts 5 beyond the point where its line touches the unit
sphere and flies away from it, but the touching point, 5 behind, is reported as a hit. -/
theorem C16_sphere_behind_counterexample :
    let s : Sphere ℝ := ⟨⟨0, 0, 0⟩, 1, 2⟩
    let ray : Ray ℝ := ⟨⟨5, 1, 0⟩, ⟨1, 0, 0⟩, 532, 0, [], false, "normal"⟩
    (s.testIntersect ray).hit = true ∧ (s.testIntersect ray).pt1 = some ⟨0, 1, 0⟩ ∧
    ∀ t, 0 ≤ t → ¬ OnSphere s.center s.R (lineAt ray.position ray.direction t) := by
  intro s ray
  have hr := sphere_eq s ray
  have hD : sphDisc s.center ray.position ray.direction s.R = 0 := by norm_num [sphDisc, dot, s, ray]
  simp only [hD, lt_irrefl, if_false, if_true] at hr
  rw [hr]
  refine ⟨rfl, ?_, ?_⟩
  · simp only [Hit6.one, Option.some.injEq, lineAt]
    ext <;> norm_num [dot, s, ray]
  · intro t ht h
    rw [onSphere_line _ _ _ _ _ (by norm_num [dot, ray]), hD] at h
    norm_num [dot, s, ray] at h
    linarith

/-- A case in the scope of C16: a ray through the middle of a sphere of radius 2. -/
example : ¬ Tangent ⟨0, 0, 0⟩ 2 ⟨-5, 1, 0⟩ ⟨1, 0, 0⟩ ∧
    ∃ x n, (Sphere.testIntersect ⟨⟨0, 0, 0⟩, 2, 4⟩
      ⟨⟨-5, 1, 0⟩, ⟨1, 0, 0⟩, 532, 0, [], false, "normal"⟩ : Hit6 ℝ).Reports x n := by
  have hD : sphDisc ⟨0, 0, 0⟩ ⟨-5, 1, 0⟩ ⟨1, 0, 0⟩ 2 = 3 := by norm_num [sphDisc, dot]
  constructor
  · rw [tangent_iff _ _ _ _ (by norm_num [dot]), hD]; norm_num
  · rw [sphere_eq]
    simp only [hD]
    have : Real.sqrt 3 < 2 := by rw [Real.sqrt_lt' (by norm_num)]; norm_num
    rw [if_pos (by norm_num), if_pos (by norm_num [dot]; linarith)]
    exact ⟨_, _, Or.inl ⟨rfl, rfl⟩⟩

/-! ## C17 -/

/-- C17, completeness, without exception: every point of the sphere further than 1e-12 ahead on the
ray is reported. -/
theorem C17_sphere_complete (s : Sphere ℝ) (ray : Ray ℝ) (hd : ‖ray.direction.toE‖ = 1) (t : ℝ)
    (ht : 1e-12 < t) (h : OnSphere s.center s.R (lineAt ray.position ray.direction t)) :
    (s.testIntersect ray).hit = true ∧
    ∃ n, (s.testIntersect ray).Reports (lineAt ray.position ray.direction t) n := by
  rw [norm_toE, norm_eq_one_iff] at hd
  rw [sphere_eq s ray]
  simp only
  by_cases h0 : 0 < sphDisc s.center ray.position ray.direction s.R
  · have hp := Real.sqrt_pos.mpr h0
    rcases (onSphere_roots _ _ _ _ _ hd h0).mp h with e | e
    · rw [if_pos h0, if_pos (by rw [← e]; exact ht), ← e]
      exact ⟨rfl, _, Or.inr ⟨rfl, rfl⟩⟩
    · rw [if_pos h0, ← e]
      split_ifs
      · exact ⟨rfl, _, Or.inl ⟨rfl, rfl⟩⟩
      · exact ⟨rfl, _, Or.inl ⟨rfl, rfl⟩⟩
  · rw [onSphere_line _ _ _ _ _ hd] at h
    have h1 : sphDisc s.center ray.position ray.direction s.R = 0 := by
      have := sq_nonneg (t - dot ray.direction (s.center - ray.position)); linarith
    rw [h1] at h
    have e : t = dot ray.direction (s.center - ray.position) := by
      have := pow_eq_zero_iff (two_ne_zero) |>.mp h; linarith
    rw [if_neg h0, if_pos h1, ← e]
    exact ⟨rfl, _, Or.inl ⟨rfl, rfl⟩⟩

/-- C17, no false hits, for rays whose line is not tangent; together with completeness: a hit is
reported iff the ray meets the sphere further than 1e-12 ahead.  (For tangent lines false:
`C16_sphere_behind_counterexample`.)  When two points are reported, the far one comes first. -/
theorem C17_sphere_no_false_hit_partial (s : Sphere ℝ) (ray : Ray ℝ)
    (hd : ‖ray.direction.toE‖ = 1) (hT : ¬ Tangent s.center s.R ray.position ray.direction) :
    ((s.testIntersect ray).hit = true ↔
      ∃ t, 1e-12 < t ∧ OnSphere s.center s.R (lineAt ray.position ray.direction t)) ∧
    (∀ x y, (s.testIntersect ray).pt1 = some x → (s.testIntersect ray).pt2 = some y →
      dist ray.position.toE y.toE < dist ray.position.toE x.toE) := by
  constructor
  · constructor
    · intro h
      rw [norm_toE, norm_eq_one_iff] at hd
      rw [tangent_iff _ _ _ _ hd] at hT
      rw [sphere_eq s ray] at h
      simp only [hT, if_false] at h
      split_ifs at h with h0 h1 h2
      · exact ⟨_, h1, (onSphere_roots _ _ _ _ _ hd h0).mpr (Or.inl rfl)⟩
      · exact ⟨_, h2, (onSphere_roots _ _ _ _ _ hd h0).mpr (Or.inr rfl)⟩
      · simp [Hit6.miss] at h
      · simp [Hit6.miss] at h
    · rintro ⟨t, ht, h⟩
      exact (C17_sphere_complete s ray hd t ht h).1
  · intro x y hx hy
    rw [norm_toE, norm_eq_one_iff] at hd
    have hdist : ∀ t, 0 ≤ t → dist ray.position.toE (lineAt ray.position ray.direction t).toE = t := by
      intro t ht
      rw [dist_toE_eq, norm_sub_comm, lineAt, add_sub_cancel', norm_smul, norm_eq_one_iff.mpr hd,
        abs_of_nonneg ht, mul_one]
    rw [sphere_eq s ray] at hx hy
    simp only at hx hy
    split_ifs at hx hy with h0 h1 h2 h3
    · cases hx; cases hy
      have hp := Real.sqrt_pos.mpr h0
      have : (0:ℝ) < 1e-12 := by norm_num
      rw [hdist _ (by linarith), hdist _ (by linarith)]; linarith
    all_goals cases hy

/-! ## C18, sphere -/

theorem inBall_iff (c p d : V3 ℝ) (R : ℝ) : InBall c |R| p ↔ dot d (c - p) ^ 2 < sphDisc c p d R := by
  unfold InBall
  rw [dist_toE_eq, norm_sub_comm, norm_eq, Real.sqrt_lt (dot_self_nonneg _) (abs_nonneg _), sq_abs]
  unfold sphDisc
  constructor <;> intro h <;> nlinarith

/-- C18 for spheres: for a ray that does not start on the sphere (nor within 1e-12 before it) the
returned intersection count is odd exactly if the ray starts inside.  Tangent lines included. -/
theorem C18_sphere_parity (s : Sphere ℝ) (ray : Ray ℝ) (hd : ‖ray.direction.toE‖ = 1)
    (hstart : ∀ t, 0 ≤ t → t ≤ 1e-12 → ¬ OnSphere s.center s.R (lineAt ray.position ray.direction t)) :
    (s.testIntersect ray).count % 2 = 1 ↔ InBall s.center |s.R| ray.position := by
  rw [norm_toE, norm_eq_one_iff] at hd
  rw [inBall_iff _ _ ray.direction, sphere_eq s ray]
  simp only
  have hon := fun t => onSphere_roots s.center ray.position ray.direction s.R t hd
  generalize dot ray.direction (s.center - ray.position) = vq at *
  generalize sphDisc s.center ray.position ray.direction s.R = D at *
  by_cases h0 : 0 < D
  · have hp := Real.sqrt_pos.mpr h0
    have hs := Real.sq_sqrt h0.le
    have hor := fun t => hon t h0
    rw [if_pos h0]
    by_cases h1 : 1e-12 < vq - Real.sqrt D
    · rw [if_pos h1]
      have : (0:ℝ) < 1e-12 := by norm_num
      simp only [Hit6.two]
      constructor
      · intro h; omega
      · intro h; nlinarith
    · rw [if_neg h1]
      have n0 : vq - Real.sqrt D < 0 := by
        by_contra hc
        exact hstart _ (not_lt.mp hc) (not_lt.mp h1) ((hor _).mpr (Or.inl rfl))
      by_cases h2 : 1e-12 < vq + Real.sqrt D
      · rw [if_pos h2]
        have : (0:ℝ) < 1e-12 := by norm_num
        simp only [Hit6.one]
        constructor
        · intro _; nlinarith
        · intro _; trivial
      · rw [if_neg h2]
        have n1 : vq + Real.sqrt D < 0 := by
          by_contra hc
          exact hstart _ (not_lt.mp hc) (not_lt.mp h2) ((hor _).mpr (Or.inr rfl))
        simp only [Hit6.miss]
        constructor
        · intro h; omega
        · intro h; nlinarith
  · have hD := not_lt.mp h0
    rw [if_neg h0]
    have : ¬ vq ^ 2 < D := by nlinarith [sq_nonneg vq]
    split_ifs <;> simp [Hit6.one, Hit6.miss, this]

/-- C18, the code's own words: the parity agrees with `test_point` of the starting point. -/
theorem C18_sphere_parity_test_point (s : Sphere ℝ) (hR : 0 < s.R) (ray : Ray ℝ)
    (hd : ‖ray.direction.toE‖ = 1)
    (hstart : ∀ t, 0 ≤ t → t ≤ 1e-12 → ¬ OnSphere s.center s.R (lineAt ray.position ray.direction t)) :
    (s.testIntersect ray).count % 2 = 1 ↔ s.testPoint ray.position = true := by
  rw [C18_sphere_parity s ray hd hstart, C15_sphere_test_point_radius, abs_of_pos hR]

/-- The hypothesis of C18 cannot be dropped: a ray starting inside, less than 1e-12 before the
surface and flying out, has count 0. -/
theorem C18_sphere_start_near_surface :
    let s : Sphere ℝ := ⟨⟨0, 0, 0⟩, 1, 2⟩
    let ray : Ray ℝ := ⟨⟨1 - 1e-13, 0, 0⟩, ⟨1, 0, 0⟩, 532, 0, [], false, "normal"⟩
    (s.testIntersect ray).count = 0 ∧ InBall s.center s.R ray.position := by
  intro s ray
  constructor
  · have hD : sphDisc s.center ray.position ray.direction s.R = 1 := by norm_num [sphDisc, dot, s, ray]
    rw [sphere_eq]
    simp only [hD]
    rw [if_pos (by norm_num), if_neg (by norm_num [dot, s, ray]), if_neg (by norm_num [dot, s, ray])]
    rfl
  · rw [InBall, dist_toE_eq, norm_eq, Real.sqrt_lt' (by norm_num [s])]
    norm_num [dot, s, ray]

/-- A case in the scope of C18: a ray starting at the centre. -/
example : (∀ t : ℝ, 0 ≤ t → t ≤ 1e-12 → ¬ OnSphere ⟨0, 0, 0⟩ 1 (lineAt ⟨0, 0, 0⟩ ⟨1, 0, 0⟩ t)) ∧
    InBall ⟨0, 0, 0⟩ |1| ⟨0, 0, 0⟩ := by
  constructor
  · intro t h0 h1 h
    rw [onSphere_iff] at h
    norm_num [lineAt, dot] at h
    nlinarith
  · rw [InBall]; norm_num

end Optics
