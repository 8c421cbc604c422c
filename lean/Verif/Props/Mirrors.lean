import Verif.Lemmas.BallHit

/-!
# C54, C55: mirrors
-/

namespace Optics
open V3

/-! ## C54 -/

/-- C54 is false: with the default `dmd_normal=None` no mirror can be constructed, whatever the other arguments
(`unit_vector(None)` raises `TypeError`). -/
theorem C54_counterexample {α : Type} [PyNum α] (position : V3 α) (shape : String) (normal : Option (V3 α))
    (D w h f : Option α) (tangent : Option (V3 α)) (type : String) :
    Mirror.new position shape normal D w h f tangent type none = .error .typeError := rfl

/-- C54, what holds: with a `dmd_normal` (used or not) a flat disc can be constructed from a normal and a diameter. -/
theorem C54_disc_partial {α : Type} [PyNum α] (position n : V3 α) (D : α) (w h f : Option α) (tangent : Option (V3 α))
    (type : String) (dmd : V3 α) :
    ∃ m, Mirror.new position "circular_flat" (some n) (some D) w h f tangent type (some dmd) = .ok m :=
  ⟨_, rfl⟩

/-- C54: a convex ball needs a diameter only. -/
theorem C54_convex_partial {α : Type} [PyNum α] (position : V3 α) (n : Option (V3 α)) (D : α) (w h f : Option α)
    (tangent : Option (V3 α)) (type : String) (dmd : V3 α) :
    ∃ m, Mirror.new position "circular_convex_spherical" n (some D) w h f tangent type (some dmd) = .ok m :=
  ⟨_, rfl⟩

/-- C54: a concave mirror needs a normal, a diameter and a focal length. -/
theorem C54_concave_partial {α : Type} [PyNum α] (position n : V3 α) (D f : α) (w h : Option α)
    (tangent : Option (V3 α)) (type : String) (dmd : V3 α) :
    ∃ m, Mirror.new position "circular_concave_spherical" (some n) (some D) w h (some f) tangent type (some dmd)
      = .ok m :=
  ⟨_, rfl⟩

/-- C54: a rectangle needs non-negative sides, a normal and a tangent that is perpendicular to it within `1e-8`; and
these conditions are necessary. -/
theorem C54_rectangle_partial (position n t : V3 ℝ) (hn : n ≠ ⟨0, 0, 0⟩) (ht : t ≠ ⟨0, 0, 0⟩) (D f : Option ℝ) (w h : ℝ)
    (type : String) (dmd : V3 ℝ) :
    (∃ m, Mirror.new position "rectangular_flat" (some n) D (some w) (some h) f (some t) type (some dmd) = .ok m) ↔
      |inner ℝ n.toE t.toE| ≤ 1e-8 * (‖n.toE‖ * ‖t.toE‖) ∧ 0 ≤ h ∧ 0 ≤ w := by
  have key : isclose (dot (unitVector n) (unitVector t)) 0.0 rtolDefault atolDefault = true ↔
      |inner ℝ n.toE t.toE| ≤ 1e-8 * (‖n.toE‖ * ‖t.toE‖) := by
    have a : (atolDefault : ℝ) = 1e-8 := rfl
    simp only [isclose, lit0, real_abs, sub_zero, abs_zero, mul_zero, add_zero, decide_eq_true_eq, a]
    have h1 := norm_pos hn
    have h2 := norm_pos ht
    rw [unitVector, unitVector, dot_div_left, dot_div_right, abs_div, abs_div, abs_of_pos h1, abs_of_pos h2, inner_toE,
      norm_toE, norm_toE, div_div, div_le_iff₀ (by positivity), mul_comm (norm t)]
  unfold Mirror.new Rectangle.new checkHAndW
  simp only [need, bind, Except.bind, pure, Except.pure, if_true, lit0]
  rw [if_neg (show ¬ ("rectangular_flat" = "circular_flat") by decide)]
  simp only [lit0] at key
  by_cases hc : isclose (dot (unitVector n) (unitVector t)) 0 rtolDefault atolDefault = true
  · have hk := key.mp hc
    simp only [hc, Bool.not_true, Bool.false_eq_true, if_false]
    by_cases h1 : h < 0
    · simp only [if_pos h1]
      refine ⟨?_, fun hh => absurd hh.2.1 (not_le.mpr h1)⟩
      rintro ⟨m, hm⟩; cases hm
    · simp only [if_neg h1]
      by_cases h2 : w < 0
      · simp only [if_pos h2]
        refine ⟨?_, fun hh => absurd hh.2.2 (not_le.mpr h2)⟩
        rintro ⟨m, hm⟩; cases hm
      · simp only [if_neg h2]
        exact ⟨fun _ => ⟨hk, not_lt.mp h1, not_lt.mp h2⟩, fun _ => ⟨_, rfl⟩⟩
  · have hc' := Bool.not_eq_true _ ▸ hc
    simp only [hc', Bool.not_false, if_true]
    refine ⟨?_, fun hh => absurd (key.mpr hh.1) hc⟩
    rintro ⟨m, hm⟩; cases hm

/-- C54: any other shape is refused. -/
theorem C54_unknown_shape {α : Type} [PyNum α] (position : V3 α) (shape : String) (n : Option (V3 α))
    (D w h f : Option α) (tangent : Option (V3 α)) (type : String) (dmd : V3 α) (h1 : shape ≠ "circular_flat")
    (h2 : shape ≠ "rectangular_flat") (h3 : shape ≠ "circular_concave_spherical")
    (h4 : shape ≠ "circular_convex_spherical") :
    Mirror.new position shape n D w h f tangent type (some dmd) = .error .valueError := by
  unfold Mirror.new
  simp only [need, bind, Except.bind, if_neg h1, if_neg h2, if_neg h3, if_neg h4]

/-! ## C55 -/

theorem smul_inv_of_smul {c : ℝ} {k n : V3 ℝ} (hc : c ≠ 0) (h : c * k = n) : k = c⁻¹ * n := by
  subst h
  ext <;> simp only [smul_x, smul_y, smul_z] <;> field_simp

/-- A unit vector along `n` is the one `unit_vector` makes. -/
theorem unit_along {n k : V3 ℝ} (hn : n ≠ ⟨0, 0, 0⟩) (hk : ‖n.toE‖ * k = n) : unitVector n = k := by
  have h0 := norm_pos hn
  rw [← norm_toE] at h0
  rw [unitVector_eq, ← norm_toE, smul_inv_of_smul h0.ne' hk, one_div]

/-- What a mirror does when handed a unit normal along `n`. -/
theorem mirror_acts_along (m : Mirror ℝ) {dmd : V3 ℝ} (hdmd : dmd ≠ ⟨0, 0, 0⟩) (hm : m.dmdNormal = unitVector dmd)
    (ray : Ray ℝ) (hd : dot ray.direction ray.direction = 1) (x k n : V3 ℝ) (hn : n ≠ ⟨0, 0, 0⟩)
    (hk1 : ‖k.toE‖ = 1) (hk : ‖n.toE‖ * k = n) :
    ∃ d', m.doIntersect ray x (some k) = .ok { ray with direction := d' } ∧
      MirrorLaw m.type dmd.toE n.toE ray.direction.toE d'.toE := by
  have h0 := norm_pos hn
  rw [← norm_toE] at h0
  exact mirror_acts m hdmd hm ray hd x k n ‖n.toE‖⁻¹ (inv_ne_zero h0.ne') (smul_inv_of_smul h0.ne' hk)
    (by rwa [norm_toE, norm_eq_one_iff] at hk1)

/-- C55 for a flat disc: it is hit exactly where C13 says a disc is, and an ordinary mirror reflects the ray about
the normal it was built with, a DMD about the DMD normal; position, history and so on are not touched. -/
theorem C55_flat_disc (position n : V3 ℝ) (hn : n ≠ ⟨0, 0, 0⟩) (D : ℝ) (w h f : Option ℝ) (t : Option (V3 ℝ))
    (type : String) (dmd : V3 ℝ) (hdmd : dmd ≠ ⟨0, 0, 0⟩) (m : Mirror ℝ)
    (hm : Mirror.new position "circular_flat" (some n) (some D) w h f t type (some dmd) = .ok m)
    (ray : Ray ℝ) (hd : ‖ray.direction.toE‖ = 1) :
    let P := lineAt ray.position ray.direction
    ∃ r, m.testIntersect ray = .ok r ∧
      (r.hit = true ↔ 1e-9 * ‖n.toE‖ < |inner ℝ n.toE ray.direction.toE| ∧
        ∃ t, 1e-9 < t ∧ OnPlane position n (P t) ∧ dist (P t).toE position.toE < D / 2) ∧
      (r.hit = true → ∃ t, 1e-9 < t ∧ r.pt = some (P t) ∧ OnPlane position n (P t) ∧
        ∀ ray' : Ray ℝ, ray'.direction = ray.direction →
          ∃ d', m.doIntersect ray' (P t) r.normal = .ok { ray' with direction := d' } ∧
            MirrorLaw type dmd.toE n.toE ray.direction.toE d'.toE) := by
  intro P
  simp only [Mirror.new, need, bind, Except.bind, pure, Except.pure, if_true] at hm
  cases hC : Circle.new position (some n) none (some D) with
  | error e => rw [hC] at hm; cases hm
  | ok C =>
  rw [hC] at hm
  obtain rfl := Except.ok.inj hm
  have hR : C.R = D / 2 := by
    obtain ⟨-, -, -, h4⟩ := circle_new_ok hC
    simp only [checkRAndD, lit2] at h4
    have := Prod.mk.inj (Except.ok.inj h4)
    exact this.1.symm
  obtain ⟨-, hCn, -, -⟩ := circle_new_ok hC
  obtain ⟨r, hr, h1, h2, h3⟩ := C13_circle position n hn none (some D) C hC ray hd
  have hd' : dot ray.direction ray.direction = 1 := by rwa [norm_toE, norm_eq_one_iff] at hd
  obtain ⟨b, e⟩ := flat_single true ray (.circle C) r none
    (by show (do return IntersectResult.three (← C.testIntersect ray)) = _; rw [hr]; rfl)
    (fun hh => by obtain ⟨t, -, e, -⟩ := h3 hh; exact ⟨_, e, rfl⟩) (fun hh => (h2 hh).1)
    (fun _ hh => by
      obtain ⟨t, -, -, -, -, k, hk, hk1, hk2⟩ := h3 hh
      unfold Shape.normalAttr
      simp only [hCn, Option.map_some, hk, unit_along hn hk2])
  refine ⟨⟨r.hit, r.pt, r.normal, .none⟩, ?_, ?_, fun hh => ?_⟩
  · unfold Mirror.testIntersect
    simp only [true_or, if_true, e]
    rfl
  · rw [← hR]; exact h1
  · obtain ⟨t, ht, e1, e2, -, k, hk, hk1, hk2⟩ := h3 hh
    refine ⟨t, ht, e1, e2, fun ray' hr' => ?_⟩
    have := mirror_acts_along ⟨position, "circular_flat", some D, w, h, f, type, unitVector dmd, some (unitVector n),
      [.circle C]⟩ hdmd rfl ray' (by rw [hr']; exact hd') (P t) k n hn hk1 hk2
    rw [hr'] at this
    simp only [hk]
    exact this

/-- C55 for a flat rectangle: it is hit exactly where C14 says a rectangle is, and reflects likewise. -/
theorem C55_flat_rectangle (position n tan : V3 ℝ) (hn : n ≠ ⟨0, 0, 0⟩) (htan : tan ≠ ⟨0, 0, 0⟩) (D f : Option ℝ)
    (w h : ℝ) (hw : 0 < w) (hh : 0 < h) (type : String) (dmd : V3 ℝ) (hdmd : dmd ≠ ⟨0, 0, 0⟩) (m : Mirror ℝ)
    (hm : Mirror.new position "rectangular_flat" (some n) D (some w) (some h) f (some tan) type (some dmd) = .ok m)
    (ray : Ray ℝ) (hd : ‖ray.direction.toE‖ = 1) :
    let P := lineAt ray.position ray.direction
    ∃ t1 t2 : V3 ℝ, t1 = unitVector tan ∧ t2 = cross (unitVector n) t1 ∧
    ∃ r, m.testIntersect ray = .ok r ∧
      (r.hit = true ↔ 1e-9 * ‖n.toE‖ < |inner ℝ n.toE ray.direction.toE| ∧
        ∃ t, 1e-9 < t ∧ OnPlane position n (P t) ∧ |inner ℝ (P t - position).toE t1.toE| ≤ h / 2 ∧
          |inner ℝ (P t - position).toE t2.toE| ≤ w / 2 * ‖t2.toE‖ ^ 2) ∧
      (r.hit = true → ∃ t, 1e-9 < t ∧ r.pt = some (P t) ∧ OnPlane position n (P t) ∧
        ∀ ray' : Ray ℝ, ray'.direction = ray.direction →
          ∃ d', m.doIntersect ray' (P t) r.normal = .ok { ray' with direction := d' } ∧
            MirrorLaw type dmd.toE n.toE ray.direction.toE d'.toE) := by
  intro P
  simp only [Mirror.new, need, bind, Except.bind, pure, Except.pure, if_true] at hm
  rw [if_neg (show ¬ ("rectangular_flat" = "circular_flat") by decide)] at hm
  cases hC : Rectangle.new position n tan (some h) (some w) with
  | error e => rw [hC] at hm; cases hm
  | ok C =>
  rw [hC] at hm
  obtain rfl := Except.ok.inj hm
  obtain ⟨-, -, -, -, -, -, hCn, htt, ht2, -⟩ := rectangle_new_ok hC
  obtain ⟨-, -, -, -, -, h1, h2, h3⟩ := C14_rectangle position n tan hn htan h w hh hw C hC ray hd
  have hd' : dot ray.direction ray.direction = 1 := by rwa [norm_toE, norm_eq_one_iff] at hd
  rw [htt, ht2] at h1
  obtain ⟨b, e⟩ := flat_single true ray (.rectangle C) (C.testIntersect ray) none rfl
    (fun hh => by obtain ⟨t, -, e, -⟩ := h3 hh; exact ⟨_, e, rfl⟩) (fun hh => (h2 hh).1)
    (fun _ hh => by
      obtain ⟨t, -, -, -, -, -, k, hk, hk1, hk2⟩ := h3 hh
      unfold Shape.normalAttr
      simp only [hCn, hk, unit_along hn hk2])
  refine ⟨_, _, rfl, rfl, ⟨(C.testIntersect ray).hit, (C.testIntersect ray).pt, (C.testIntersect ray).normal, .none⟩,
    ?_, h1, fun hh => ?_⟩
  · unfold Mirror.testIntersect
    simp only [or_true, if_true, e]
    rfl
  · obtain ⟨t, ht, e1, e2, -, -, k, hk, hk1, hk2⟩ := h3 hh
    refine ⟨t, ht, e1, e2, fun ray' hr' => ?_⟩
    have := mirror_acts_along ⟨position, "rectangular_flat", D, some w, some h, f, type, unitVector dmd,
      some (unitVector n), [.rectangle C]⟩ hdmd rfl ray' (by rw [hr']; exact hd') (P t) k n hn hk1 hk2
    rw [hr'] at this
    simp only [hk]
    exact this

/-- The normal of a sphere, as a multiple of the radius vector. -/
theorem sphere_normal_radius (s : Sphere ℝ) (hR : s.R ≠ 0) {x : V3 ℝ} (h : OnSphere s.center s.R x) :
    s.normal x = (-(1 / |s.R|)) * (x - s.center) ∧ dot (s.normal x) (s.normal x) = 1 := by
  refine ⟨?_, ?_⟩
  · rw [sphere_normal s x h]
    ext <;> simp only [smul_x, smul_y, smul_z, sub_x, sub_y, sub_z] <;> ring
  · have := (sphere_normal_spec s hR x h).1
    rwa [norm_toE, norm_eq_one_iff] at this

/-- C55 for a convex mirror (a ball): a ray whose line does not touch it hits it iff it meets the sphere further than
`1e-12` ahead, at the first such point, and is reflected about the radius there. -/
theorem C55_convex (position : V3 ℝ) (n : Option (V3 ℝ)) (D : ℝ) (hD : D ≠ 0) (w h f : Option ℝ) (t : Option (V3 ℝ))
    (type : String) (dmd : V3 ℝ) (hdmd : dmd ≠ ⟨0, 0, 0⟩) (m : Mirror ℝ)
    (hm : Mirror.new position "circular_convex_spherical" n (some D) w h f t type (some dmd) = .ok m)
    (ray : Ray ℝ) (hd : ‖ray.direction.toE‖ = 1) (hT : ¬ Tangent position (D / 2) ray.position ray.direction) :
    let P := lineAt ray.position ray.direction
    ∃ r, m.testIntersect ray = .ok r ∧
      (r.hit = true ↔ ∃ t, 1e-12 < t ∧ OnSphere position (D / 2) (P t)) ∧
      (r.hit = true → ∃ t, FirstOnSphere position (D / 2) ray.position ray.direction t ∧ r.pt = some (P t) ∧
        ∀ ray' : Ray ℝ, ray'.direction = ray.direction →
          ∃ d', m.doIntersect ray' (P t) r.normal = .ok { ray' with direction := d' } ∧
            MirrorLaw type dmd.toE (P t - position).toE ray.direction.toE d'.toE) := by
  intro P
  have hd' : dot ray.direction ray.direction = 1 := by rwa [norm_toE, norm_eq_one_iff] at hd
  simp only [Mirror.new, need, bind, Except.bind, pure, Except.pure, Sphere.new, checkRAndD, lit2] at hm
  rw [if_neg (by decide), if_neg (by decide), if_neg (by decide), if_pos trivial] at hm
  obtain rfl := Except.ok.inj hm
  have hR : (⟨position, D / 2, D⟩ : Sphere ℝ).R ≠ 0 := by simp [hD]
  have hacts : ∀ t, OnSphere position (D / 2) (P t) → ∀ ray' : Ray ℝ, ray'.direction = ray.direction →
      ∃ d', Mirror.doIntersect ⟨position, "circular_convex_spherical", some D, w, h, f, type, unitVector dmd, none,
          [.sphere ⟨position, D / 2, D⟩]⟩ ray' (P t) (some (-(⟨position, D / 2, D⟩ : Sphere ℝ).normal (P t)))
          = .ok { ray' with direction := d' } ∧
        MirrorLaw type dmd.toE (P t - position).toE ray.direction.toE d'.toE := by
    intro t ho ray' hr'
    obtain ⟨e1, e2⟩ := sphere_normal_radius ⟨position, D / 2, D⟩ hR ho
    have := mirror_acts ⟨position, "circular_convex_spherical", some D, w, h, f, type, unitVector dmd, none,
          [.sphere ⟨position, D / 2, D⟩]⟩ hdmd rfl ray' (by rw [hr']; exact hd') (P t)
      (-(⟨position, D / 2, D⟩ : Sphere ℝ).normal (P t)) (P t - position) (1 / |D / 2|)
      (one_div_ne_zero (abs_ne_zero.mpr hR))
      (by rw [e1]; ext <;> simp only [neg_x, neg_y, neg_z, smul_x, smul_y, smul_z, sub_x, sub_y, sub_z] <;> ring)
      (by rw [dot_neg_left, dot_neg_right, neg_neg, e2])
    rw [hr'] at this
    exact this
  have e : ∀ v, [Shape.sphere (⟨position, D / 2, D⟩ : Sphere ℝ)].foldlM (sphereStep ray) v
      = sphereStep ray v (.sphere ⟨position, D / 2, D⟩) := by
    intro v
    rw [List.foldlM_cons]
    cases sphereStep ray v (.sphere ⟨position, D / 2, D⟩) <;> rfl
  unfold Mirror.testIntersect
  rw [if_neg (show ¬ ("circular_convex_spherical" = "circular_flat" ∨ "circular_convex_spherical" = "rectangular_flat")
      by decide), if_neg (show ¬ "circular_convex_spherical" = "circular_concave_spherical" by decide),
    if_pos (show "circular_convex_spherical" = "circular_convex_spherical" from rfl)]
  simp only [e, sphereStep, bind, Except.bind, pure, Except.pure, bound]
  rcases ball_hit ⟨position, D / 2, D⟩ ray hd' hT with ⟨hs, hno⟩ | ⟨t, far, mm, ht, hi, hs, hf⟩ | ⟨t, ht, hi, hs⟩
  · rw [hs]
    refine ⟨_, rfl, ⟨fun h => (by cases h), ?_⟩, fun h => (by cases h)⟩
    rintro ⟨t, ht, ho⟩
    exact absurd ho (hno t ht)
  · rw [hs, if_pos (show (Hit6.two _ _ _ _ _).hit = true from rfl), sphereUpdate_enter _ _ _ _ _ _ hf]
    exact ⟨_, rfl, ⟨fun _ => ⟨t, ht.ahead, ht.on⟩, fun _ => rfl⟩, fun _ => ⟨t, ht, rfl, hacts t ht.on⟩⟩
  · rw [hs, if_pos (show (Hit6.one _ _ _).hit = true from rfl), sphereUpdate_leave]
    exact ⟨_, rfl, ⟨fun _ => ⟨t, ht.ahead, ht.on⟩, fun _ => rfl⟩, fun _ => ⟨t, ht, rfl, hacts t ht.on⟩⟩

/-- A sphere that reports a second point reports both normals. -/
theorem sphere_two_normals (s : Sphere ℝ) (ray : Ray ℝ) (y : V3 ℝ) (h : (s.testIntersect ray).pt2 = some y) :
    ∃ k1 k2, (s.testIntersect ray).n1 = some k1 ∧ (s.testIntersect ray).n2 = some k2 := by
  rw [sphere_eq] at h ⊢
  simp only at h ⊢
  split_ifs at h ⊢ with h0 h1 h2 h3
  · exact ⟨_, _, rfl, rfl⟩
  all_goals cases h

/-- C55 for a concave mirror: if it reports a hit, the point `x` lies on the ray's line and on the sphere of radius
`2|f|` about the centre of curvature; the line crosses the aperture disc at a point `q`, and `x` is a nearest one to
`q` of the points the sphere reports; the ray is reflected about the radius at `x`. -/
theorem C55_concave (position n : V3 ℝ) (hn : n ≠ ⟨0, 0, 0⟩) (D f : ℝ) (hf : f ≠ 0) (w h : Option ℝ)
    (t : Option (V3 ℝ)) (type : String) (dmd : V3 ℝ) (hdmd : dmd ≠ ⟨0, 0, 0⟩) (m : Mirror ℝ)
    (hm : Mirror.new position "circular_concave_spherical" (some n) (some D) w h (some f) t type (some dmd) = .ok m)
    (ray : Ray ℝ) (hd : ‖ray.direction.toE‖ = 1) (r : Hit4 ℝ) (hr : m.testIntersect ray = .ok r)
    (hhit : r.hit = true) :
    let P := lineAt ray.position ray.direction
    let C := position + (2 * f) * unitVector n
    ∃ t, r.pt = some (P t) ∧ OnSphere C (2 * f) (P t) ∧
      (∃ u, 1e-9 < u ∧ OnPlane position n (P u) ∧ dist (P u).toE position.toE < D / 2 ∧
        ∀ s, 1e-12 < s → OnSphere C (2 * f) (P s) → dist (P u).toE (P t).toE ≤ dist (P u).toE (P s).toE) ∧
      ∀ ray' : Ray ℝ, ray'.direction = ray.direction →
        ∃ d', m.doIntersect ray' (P t) r.normal = .ok { ray' with direction := d' } ∧
          MirrorLaw type dmd.toE (P t - C).toE ray.direction.toE d'.toE := by
  intro P CC
  have hd' : dot ray.direction ray.direction = 1 := by rwa [norm_toE, norm_eq_one_iff] at hd
  simp only [Mirror.new, need, bind, Except.bind, pure, Except.pure, Sphere.new, checkRAndD, lit2] at hm
  rw [if_neg (by decide), if_neg (by decide), if_pos trivial] at hm
  cases hC : Circle.new position (some n) none (some D) with
  | error e => rw [hC] at hm; cases hm
  | ok C =>
  rw [hC] at hm
  obtain rfl := Except.ok.inj hm
  have hCR : C.R = D / 2 := by
    obtain ⟨-, -, -, h4⟩ := circle_new_ok hC
    simp only [checkRAndD, lit2] at h4
    exact (Prod.mk.inj (Except.ok.inj h4)).1.symm
  have eC : position + f * 2 * unitVector n = CC := by rw [mul_comm f 2]
  have eR : f * 2 = 2 * f := mul_comm _ _
  rw [eC, eR] at hr ⊢
  set s : Sphere ℝ := ⟨CC, 2 * f, 2 * f * 2⟩ with hs
  have hR : s.R ≠ 0 := by simp [hs, hf]
  obtain ⟨cr, hcr, h1, h2, h3⟩ := C13_circle position n hn none (some D) C hC ray hd
  obtain ⟨hs1, hs2⟩ := C16_sphere_sound_partial s hR ray hd
  have hs3 := C17_sphere_complete s ray hd
  have hacts : ∀ t, OnSphere CC (2 * f) (P t) → ∀ ray' : Ray ℝ, ray'.direction = ray.direction →
      ∃ d', Mirror.doIntersect ⟨position, "circular_concave_spherical", some D, w, h, some f, type, unitVector dmd,
          some (unitVector n), [.circle C, .sphere s]⟩ ray' (P t) (some (s.normal (P t)))
          = .ok { ray' with direction := d' } ∧
        MirrorLaw type dmd.toE (P t - CC).toE ray.direction.toE d'.toE := by
    intro t ho ray' hr'
    obtain ⟨e1, e2⟩ := sphere_normal_radius s hR ho
    have := mirror_acts ⟨position, "circular_concave_spherical", some D, w, h, some f, type, unitVector dmd,
          some (unitVector n), [.circle C, .sphere s]⟩ hdmd rfl ray' (by rw [hr']; exact hd') (P t)
      (s.normal (P t)) (P t - CC) (-(1 / |s.R|))
      (neg_ne_zero.mpr (one_div_ne_zero (abs_ne_zero.mpr hR))) e1 e2
    rw [hr'] at this
    exact this
  have hnormal : ∀ x k, (s.testIntersect ray).Reports x k → k = s.normal x := by
    intro x k hk
    obtain ⟨a, b, c, -⟩ := hs2 x k hk
    have := smul_inv_of_smul (abs_ne_zero.mpr hR) c.symm
    rw [sphere_normal s x a, this, one_div]
  unfold Mirror.testIntersect at hr
  rw [if_neg (show ¬ ("circular_concave_spherical" = "circular_flat" ∨ "circular_concave_spherical" = "rectangular_flat")
      by decide), if_pos (show "circular_concave_spherical" = "circular_concave_spherical" from rfl)] at hr
  simp only [firstSphere, firstCircle, bound, bind, Except.bind, hcr, pure, Except.pure] at hr
  have two := sphere_two_normals s ray
  generalize s.testIntersect ray = q at *
  obtain ⟨qh, q1, q2, m1, m2, k⟩ := q
  cases qh with
  | false => simp only [Bool.false_eq_true, if_false] at hr; obtain rfl := Except.ok.inj hr; cases hhit
  | true =>
    simp only [if_true] at hr
    cases hch : cr.hit with
    | false =>
      simp only [hch, Bool.false_eq_true, if_false] at hr; obtain rfl := Except.ok.inj hr; cases hhit
    | true =>
      obtain ⟨u, hu, e1, e2, e3, -⟩ := h3 hch
      rw [hCR] at e3
      simp only [hch, if_true, e1, need] at hr
      cases q1 with
      | none => cases hr
      | some x =>
        simp only at hr
        have hdist : ∀ a b : V3 ℝ, distanceBetween a b = dist a.toE b.toE := fun a b => (dist_toE_eq a b).symm
        cases q2 with
        | none =>
          simp only at hr
          obtain rfl := Except.ok.inj hr
          cases m1 with
          | none =>
            obtain ⟨a, b, hab⟩ := hs1.mp rfl
            rcases hab with ⟨-, hb⟩ | ⟨hb, -⟩ <;> cases hb
          | some k1 =>
            obtain ⟨a, -, -, t, rfl, -⟩ := hs2 x k1 (.inl ⟨rfl, rfl⟩)
            have := hnormal _ _ (.inl ⟨rfl, rfl⟩)
            subst this
            refine ⟨t, rfl, a, ⟨u, hu, e2, e3, fun v hv ho => ?_⟩, hacts t a⟩
            obtain ⟨-, k', hk' | hk'⟩ := hs3 v hv ho
            · have := Option.some.inj hk'.1
              exact le_of_eq (congrArg (fun z : V3 ℝ => dist (P u).toE z.toE) this)
            · cases hk'.1
        | some y =>
          simp only at hr
          obtain ⟨k1, k2, e4, e5⟩ := two y rfl
          simp only at e4 e5
          subst e4 e5
          obtain ⟨a, -, -, t, rfl, -⟩ := hs2 x k1 (.inl ⟨rfl, rfl⟩)
          obtain ⟨a', -, -, t', rfl, -⟩ := hs2 y k2 (.inr ⟨rfl, rfl⟩)
          have n1 := hnormal _ _ (.inl ⟨rfl, rfl⟩)
          have n2 := hnormal _ _ (.inr ⟨rfl, rfl⟩)
          subst n1 n2
          rw [hdist, hdist] at hr
          split_ifs at hr with hlt
          · obtain rfl := Except.ok.inj hr
            refine ⟨t, rfl, a, ⟨u, hu, e2, e3, fun v hv ho => ?_⟩, hacts t a⟩
            obtain ⟨-, k', hk' | hk'⟩ := hs3 v hv ho
            · have := Option.some.inj hk'.1
              exact le_of_eq (congrArg (fun z : V3 ℝ => dist (P u).toE z.toE) this)
            · have := Option.some.inj hk'.1
              exact hlt.le.trans_eq (congrArg (fun z : V3 ℝ => dist (P u).toE z.toE) this)
          · obtain rfl := Except.ok.inj hr
            refine ⟨t', rfl, a', ⟨u, hu, e2, e3, fun v hv ho => ?_⟩, hacts t' a'⟩
            obtain ⟨-, k', hk' | hk'⟩ := hs3 v hv ho
            · have := Option.some.inj hk'.1
              exact (not_lt.mp hlt).trans_eq (congrArg (fun z : V3 ℝ => dist (P u).toE z.toE) this)
            · have := Option.some.inj hk'.1
              exact le_of_eq (congrArg (fun z : V3 ℝ => dist (P u).toE z.toE) this)

/-- C55 for a convex mirror whose sphere the ray's line touches: it reports the touching point (even behind the ray)
and reflects about the radius there. -/
theorem C55_convex_tangent (position : V3 ℝ) (n : Option (V3 ℝ)) (D : ℝ) (hD : D ≠ 0) (w h f : Option ℝ)
    (t : Option (V3 ℝ)) (type : String) (dmd : V3 ℝ) (hdmd : dmd ≠ ⟨0, 0, 0⟩) (m : Mirror ℝ)
    (hm : Mirror.new position "circular_convex_spherical" n (some D) w h f t type (some dmd) = .ok m)
    (ray : Ray ℝ) (hd : ‖ray.direction.toE‖ = 1) (hT : Tangent position (D / 2) ray.position ray.direction) :
    ∃ r t, m.testIntersect ray = .ok r ∧ r.hit = true ∧ r.pt = some (lineAt ray.position ray.direction t) ∧
      OnSphere position (D / 2) (lineAt ray.position ray.direction t) ∧
      ∀ ray' : Ray ℝ, ray'.direction = ray.direction →
        ∃ d', m.doIntersect ray' (lineAt ray.position ray.direction t) r.normal = .ok { ray' with direction := d' } ∧
          MirrorLaw type dmd.toE (lineAt ray.position ray.direction t - position).toE ray.direction.toE d'.toE := by
  have hd' : dot ray.direction ray.direction = 1 := by rwa [norm_toE, norm_eq_one_iff] at hd
  simp only [Mirror.new, need, bind, Except.bind, pure, Except.pure, Sphere.new, checkRAndD, lit2] at hm
  rw [if_neg (by decide), if_neg (by decide), if_neg (by decide), if_pos trivial] at hm
  obtain rfl := Except.ok.inj hm
  set s : Sphere ℝ := ⟨position, D / 2, D⟩ with hs
  have hR : s.R ≠ 0 := by simp [hs, hD]
  have hr := sphere_eq s ray
  have hT' := (tangent_iff s.center ray.position ray.direction s.R hd').mp hT
  simp only [hT', lt_irrefl, if_false, if_true] at hr
  have ho : OnSphere s.center s.R
      (lineAt ray.position ray.direction (dot ray.direction (s.center - ray.position))) := by
    rw [onSphere_line _ _ _ _ _ hd', hT']; ring
  generalize dot ray.direction (s.center - ray.position) = t at hr ho
  refine ⟨⟨true, some (lineAt ray.position ray.direction t), some (-s.normal (lineAt ray.position ray.direction t)),
    .count 2⟩, t, ?_, rfl, rfl, ho, ?_⟩
  · have e : ∀ v, [Shape.sphere s].foldlM (sphereStep ray) v = sphereStep ray v (.sphere s) := by
      intro v
      rw [List.foldlM_cons]
      cases sphereStep ray v (.sphere s) <;> rfl
    unfold Mirror.testIntersect
    rw [if_neg (show ¬ ("circular_convex_spherical" = "circular_flat" ∨
        "circular_convex_spherical" = "rectangular_flat") by decide),
      if_neg (show ¬ "circular_convex_spherical" = "circular_concave_spherical" by decide),
      if_pos (show "circular_convex_spherical" = "circular_convex_spherical" from rfl)]
    simp only [e, sphereStep, bind, Except.bind, pure, Except.pure, bound]
    rw [hr, if_pos (show (Hit6.one _ _ _).hit = true from rfl), sphereUpdate_leave]
    rfl
  · intro ray' hr'
    obtain ⟨e1, e2⟩ := sphere_normal_radius s hR ho
    have := mirror_acts ⟨position, "circular_convex_spherical", some D, w, h, f, type, unitVector dmd, none,
          [.sphere s]⟩ hdmd rfl ray' (by rw [hr']; exact hd') (lineAt ray.position ray.direction t)
      (-s.normal (lineAt ray.position ray.direction t)) (lineAt ray.position ray.direction t - position) (1 / |D / 2|)
      (one_div_ne_zero (abs_ne_zero.mpr hR))
      (by rw [e1]; ext <;> simp only [neg_x, neg_y, neg_z, smul_x, smul_y, smul_z, sub_x, sub_y, sub_z, hs] <;> ring)
      (by rw [dot_neg_left, dot_neg_right, neg_neg, e2])
    rw [hr'] at this
    exact this

/-- When a concave mirror is hit: the line meets the sphere ahead and crosses the aperture disc ahead. -/
theorem C55_concave_hit (position n : V3 ℝ) (hn : n ≠ ⟨0, 0, 0⟩) (D f : ℝ) (hf : f ≠ 0) (w h : Option ℝ)
    (t : Option (V3 ℝ)) (type : String) (dmd : V3 ℝ) (m : Mirror ℝ)
    (hm : Mirror.new position "circular_concave_spherical" (some n) (some D) w h (some f) t type (some dmd) = .ok m)
    (ray : Ray ℝ) (hd : ‖ray.direction.toE‖ = 1)
    (hT : ¬ Tangent (position + (2 * f) * unitVector n) (2 * f) ray.position ray.direction) :
    let P := lineAt ray.position ray.direction
    ∃ r, m.testIntersect ray = .ok r ∧
      (r.hit = true ↔ (∃ t, 1e-12 < t ∧ OnSphere (position + (2 * f) * unitVector n) (2 * f) (P t)) ∧
        1e-9 * ‖n.toE‖ < |inner ℝ n.toE ray.direction.toE| ∧
          ∃ u, 1e-9 < u ∧ OnPlane position n (P u) ∧ dist (P u).toE position.toE < D / 2) := by
  intro P
  have hd' : dot ray.direction ray.direction = 1 := by rwa [norm_toE, norm_eq_one_iff] at hd
  simp only [Mirror.new, need, bind, Except.bind, pure, Except.pure, Sphere.new, checkRAndD, lit2] at hm
  rw [if_neg (by decide), if_neg (by decide), if_pos trivial] at hm
  cases hC : Circle.new position (some n) none (some D) with
  | error e => rw [hC] at hm; cases hm
  | ok C =>
  rw [hC] at hm
  obtain rfl := Except.ok.inj hm
  have hCR : C.R = D / 2 := by
    obtain ⟨-, -, -, h4⟩ := circle_new_ok hC
    simp only [checkRAndD, lit2] at h4
    exact (Prod.mk.inj (Except.ok.inj h4)).1.symm
  rw [mul_comm f 2]
  set s : Sphere ℝ := ⟨position + 2 * f * unitVector n, 2 * f, 2 * f * 2⟩ with hs
  obtain ⟨cr, hcr, h1, -, h3⟩ := C13_circle position n hn none (some D) C hC ray hd
  rw [hCR] at h1
  unfold Mirror.testIntersect
  rw [if_neg (show ¬ ("circular_concave_spherical" = "circular_flat" ∨ "circular_concave_spherical" = "rectangular_flat")
      by decide), if_pos (show "circular_concave_spherical" = "circular_concave_spherical" from rfl)]
  simp only [firstSphere, firstCircle, bound, bind, Except.bind, hcr, pure, Except.pure]
  rcases ball_hit s ray hd' hT with ⟨hs, hno⟩ | ⟨t, far, mm, ht, hi, hs, -⟩ | ⟨t, ht, hi, hs⟩
  · rw [hs]
    refine ⟨_, rfl, fun h => (by cases h), ?_⟩
    rintro ⟨⟨t, ht, ho⟩, -⟩
    exact absurd ho (hno t ht)
  all_goals
    rw [hs]
    simp only [Hit6.one, Hit6.two, if_true]
    cases hch : cr.hit with
    | false => exact ⟨_, rfl, fun h => (by cases h), fun h => absurd (h1.mpr h.2) (by rw [hch]; decide)⟩
    | true =>
      obtain ⟨u, -, e1, -⟩ := h3 hch
      simp only [if_true, e1, need]
      first
        | exact ⟨_, rfl, fun _ => ⟨⟨t, ht.ahead, ht.on⟩, h1.mp hch⟩, fun _ => rfl⟩
        | split_ifs <;> exact ⟨_, rfl, fun _ => ⟨⟨t, ht.ahead, ht.on⟩, h1.mp hch⟩, fun _ => rfl⟩

/-! ## Cases meeting the hypotheses -/

/-- A ray down the z axis. -/
noncomputable def mirrorRay : Ray ℝ := ⟨⟨0, 0, 5⟩, ⟨0, 0, -1⟩, 532, 0, [⟨0, 0, 5⟩], false, "normal"⟩

theorem mirrorRay_unit : ‖mirrorRay.direction.toE‖ = 1 := by
  rw [norm_toE, norm_eq_one_iff]; norm_num [mirrorRay, dot]

/-- A DMD is hit; its mirrors are tilted against its face. -/
example : ∃ m r, Mirror.new (⟨0, 0, 0⟩ : V3 ℝ) "circular_flat" (some ⟨1, 0, 1⟩) (some 2) none none none none "dmd"
      (some ⟨0, 0, 1⟩) = .ok m ∧ m.testIntersect mirrorRay = .ok r ∧ r.hit = true := by
  obtain ⟨m, hm⟩ := C54_disc_partial (⟨0, 0, 0⟩ : V3 ℝ) ⟨1, 0, 1⟩ 2 none none none none "dmd" ⟨0, 0, 1⟩
  have hn : (⟨1, 0, 1⟩ : V3 ℝ) ≠ ⟨0, 0, 0⟩ := by simp
  obtain ⟨r, hr, h1, -⟩ := C55_flat_disc _ _ hn _ _ _ _ _ _ ⟨0, 0, 1⟩ (by simp) m hm mirrorRay mirrorRay_unit
  refine ⟨m, r, hm, hr, h1.mpr ⟨?_, 5, by norm_num, ?_, ?_⟩⟩
  · rw [inner_toE, norm_toE]
    have : V3.norm (⟨1, 0, 1⟩ : V3 ℝ) ≤ 2 := by
      unfold V3.norm
      rw [real_sqrt, Real.sqrt_le_iff]
      norm_num [dot]
    norm_num [mirrorRay, dot]
    linarith
  · norm_num [OnPlane, inner_toE, lineAt, mirrorRay, dot]
  · norm_num [dist_toE_eq, lineAt, mirrorRay, V3.norm, dot]

/-- A ball mirror is hit from outside along a line that does not touch it. -/
example : ∃ m r, Mirror.new (⟨0, 0, 0⟩ : V3 ℝ) "circular_convex_spherical" none (some 4) none none none none "normal"
      (some ⟨0, 0, 1⟩) = .ok m ∧ m.testIntersect mirrorRay = .ok r ∧ r.hit = true := by
  obtain ⟨m, hm⟩ := C54_convex_partial (⟨0, 0, 0⟩ : V3 ℝ) none 4 none none none none "normal" ⟨0, 0, 1⟩
  have hd := mirrorRay_unit
  rw [norm_toE, norm_eq_one_iff] at hd
  obtain ⟨r, hr, h1, -⟩ := C55_convex _ _ _ (by norm_num) _ _ _ _ _ ⟨0, 0, 1⟩ (by simp) m hm mirrorRay mirrorRay_unit
    (by rw [tangent_iff _ _ _ _ hd]; norm_num [sphDisc, mirrorRay, dot])
  refine ⟨m, r, hm, hr, h1.mpr ⟨3, by norm_num, ?_⟩⟩
  rw [onSphere_line _ _ _ _ _ hd]; norm_num [sphDisc, mirrorRay, dot]

/-- A concave mirror of focal length 3 is hit from inside its sphere. -/
example : ∃ m r, Mirror.new (⟨0, 0, 0⟩ : V3 ℝ) "circular_concave_spherical" (some ⟨0, 0, 1⟩) (some 4) none none (some 3)
      none "normal" (some ⟨0, 0, 1⟩) = .ok m ∧ m.testIntersect mirrorRay = .ok r ∧ r.hit = true := by
  obtain ⟨m, hm⟩ := C54_concave_partial (⟨0, 0, 0⟩ : V3 ℝ) ⟨0, 0, 1⟩ 4 3 none none none "normal" ⟨0, 0, 1⟩
  have hd := mirrorRay_unit
  rw [norm_toE, norm_eq_one_iff] at hd
  have e : unitVector (⟨0, 0, 1⟩ : V3 ℝ) = ⟨0, 0, 1⟩ := unitVector_of_unit (by norm_num [dot])
  obtain ⟨r, hr, h1⟩ := C55_concave_hit _ _ (by simp) _ _ (by norm_num) _ _ _ _ _ m hm mirrorRay mirrorRay_unit
    (by rw [tangent_iff _ _ _ _ hd, e]; norm_num [sphDisc, mirrorRay, dot])
  refine ⟨m, r, hm, hr, h1.mpr ⟨⟨5, by norm_num, ?_⟩, ?_, 5, by norm_num, ?_, ?_⟩⟩
  · rw [onSphere_line _ _ _ _ _ hd, e]; norm_num [sphDisc, mirrorRay, dot]
  · rw [norm_toE, norm_eq_one_iff.mpr (by norm_num [dot]), inner_toE]; norm_num [mirrorRay, dot]
  · norm_num [OnPlane, inner_toE, lineAt, mirrorRay, dot]
  · norm_num [dist_toE_eq, lineAt, mirrorRay, V3.norm, dot]

end Optics
