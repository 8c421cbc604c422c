import Verif.Lemmas.Shapes

/-!
# C12-C14: intersection of a ray with a plane, a disc, a rectangle

`1e-9` is `ARB_EPSILON_VALUE`.  The rays have unit direction, as every ray built by `Ray(...)` has.
-/

namespace Optics
open V3

theorem onPlane_line {c n : V3 ℝ} (hn : n ≠ ⟨0, 0, 0⟩) (p d : V3 ℝ) (t : ℝ) :
    OnPlane c n (lineAt p d t) ↔ t * dot (unitVector n) d = dot (c - p) (unitVector n) := by
  have h := (norm_pos hn).ne'
  have e : dot (lineAt p d t - c) n
      = norm n * (t * dot (unitVector n) d - dot (c - p) (unitVector n)) := by
    rw [unitVector, dot_div_left, dot_div_right]
    field_simp
    simp only [lineAt, dot, sub_x, sub_y, sub_z, add_x, add_y, add_z, smul_x, smul_y, smul_z]; ring
  rw [onPlane_iff, e, mul_eq_zero]
  constructor
  · rintro (h' | h')
    · exact absurd h' h
    · linarith
  · intro h'; right; linarith

/-- C12: sound and complete.  With `n̂·d` the sine of the angle between ray and plane. -/
theorem C12_plane (c n : V3 ℝ) (hn : n ≠ ⟨0, 0, 0⟩) (ray : Ray ℝ) (hd : ‖ray.direction.toE‖ = 1) :
    let r := (Plane.new c n).testIntersect ray
    let P := lineAt ray.position ray.direction
    (r.hit = true ↔ 1e-9 * ‖n.toE‖ < |inner ℝ n.toE ray.direction.toE| ∧ ∃ t, 1e-9 < t ∧ OnPlane c n (P t)) ∧
    (r.hit = false → r.pt = none ∧ r.normal = none) ∧
    (r.hit = true → ∃ t, 1e-9 < t ∧ r.pt = some (P t) ∧ OnPlane c n (P t) ∧
      (∀ s, OnPlane c n (P s) → s = t) ∧
      ∃ m, r.normal = some m ∧ ‖m.toE‖ = 1 ∧ ‖n.toE‖ * m = n) := by
  rw [norm_toE, norm_eq_one_iff] at hd
  have hpos := norm_pos hn
  have hu : norm n * unitVector n = n := by
    rw [unitVector]; ext <;> simp only [smul_x, smul_y, smul_z, sdiv_x, sdiv_y, sdiv_z] <;> field_simp
  have hin : |inner ℝ n.toE ray.direction.toE| = norm n * |dot (unitVector n) ray.direction| := by
    rw [inner_toE, unitVector, dot_div_left, abs_div, abs_of_pos hpos]; field_simp
  have hlt : (1e-9 * ‖n.toE‖ < |inner ℝ n.toE ray.direction.toE|) ↔
      1e-9 < |dot (unitVector n) ray.direction| := by
    rw [hin, norm_toE, mul_comm, mul_lt_mul_iff_right₀ hpos]
  intro r P
  have hr : r = _ := plane_eq c n hn ray hd
  rw [hlt]
  by_cases h1 : 1e-9 < |dot (unitVector n) ray.direction|
  · have hden : dot (unitVector n) ray.direction ≠ 0 := by
      intro e; rw [e, abs_zero] at h1; norm_num at h1
    have hon : ∀ t, OnPlane c n (P t) ↔
        t = dot (c - ray.position) (unitVector n) / dot (unitVector n) ray.direction := by
      intro t; rw [onPlane_line hn, eq_div_iff hden]
    rw [if_pos h1] at hr
    by_cases h2 : 1e-9 < dot (c - ray.position) (unitVector n) / dot (unitVector n) ray.direction
    · rw [if_pos h2] at hr
      rw [hr]
      refine ⟨⟨fun _ => ⟨h1, _, h2, (hon _).mpr rfl⟩, fun _ => rfl⟩, by simp, fun _ => ?_⟩
      refine ⟨_, h2, rfl, (hon _).mpr rfl, fun s hs => (hon s).mp hs, _, rfl, ?_, ?_⟩
      · rw [norm_toE]; exact unit_norm hn
      · rw [norm_toE]; exact hu
    · rw [if_neg h2] at hr
      rw [hr]
      refine ⟨⟨by simp [Hit3.miss], ?_⟩, fun _ => ⟨rfl, rfl⟩, by simp [Hit3.miss]⟩
      rintro ⟨-, t, ht, ho⟩
      rw [(hon t).mp ho] at ht; exact absurd ht h2
  · rw [if_neg h1] at hr
    rw [hr]
    exact ⟨⟨by simp [Hit3.miss], fun h => absurd h.1 h1⟩, fun _ => ⟨rfl, rfl⟩, by simp [Hit3.miss]⟩

/-- A case in the scope of C12: a slanted ray that hits. -/
example : ((Plane.new ⟨0, 0, 0⟩ ⟨0, 0, 2⟩).testIntersect
    ⟨⟨0, 0, 5⟩, ⟨0.6, 0, -0.8⟩, 0, 0, [], false, ""⟩ : Hit3 ℝ).hit = true := by
  apply (C12_plane _ _ (by simp) _ _).1.mpr
  · refine ⟨?_, 6.25, by norm_num, ?_⟩
    · rw [inner_toE, norm_toE, norm_eq]
      simp only [dot]
      rw [show (0 : ℝ) * 0 + 0 * 0 + 2 * 2 = 2 ^ 2 by norm_num, Real.sqrt_sq (by norm_num)]
      norm_num [abs_of_pos]
    · rw [onPlane_iff]; norm_num [lineAt, dot]
  · rw [norm_toE, norm_eq_one_iff]; norm_num [dot]

/-! ## C13 -/

/-- C13: a disc is hit iff its plane is hit at a point closer than `R` to the centre; the point and
normal are then those of the plane, otherwise nothing is reported. -/
theorem C13_circle (c n : V3 ℝ) (hn : n ≠ ⟨0, 0, 0⟩) (R D : Option ℝ) (C : Circle ℝ)
    (hC : Circle.new c (some n) R D = .ok C) (ray : Ray ℝ) (hd : ‖ray.direction.toE‖ = 1) :
    ∃ r, C.testIntersect ray = .ok r ∧
      let P := lineAt ray.position ray.direction
      (r.hit = true ↔ 1e-9 * ‖n.toE‖ < |inner ℝ n.toE ray.direction.toE| ∧
        ∃ t, 1e-9 < t ∧ OnPlane c n (P t) ∧ dist (P t).toE c.toE < C.R) ∧
      (r.hit = false → r.pt = none ∧ r.normal = none) ∧
      (r.hit = true → ∃ t, 1e-9 < t ∧ r.pt = some (P t) ∧ OnPlane c n (P t) ∧ dist (P t).toE c.toE < C.R ∧
        ∃ m, r.normal = some m ∧ ‖m.toE‖ = 1 ∧ ‖n.toE‖ * m = n) := by
  have hCc : C.center = c ∧ C.plane = some (Plane.new c n) := by
    unfold Circle.new at hC
    rcases hc : checkRAndD R D with e' | ⟨r, d⟩ <;> rw [hc] at hC <;> cases hC
    exact ⟨rfl, rfl⟩
  obtain ⟨h1, h2, h3⟩ := C12_plane c n hn ray hd
  unfold Circle.testIntersect
  rw [hCc.2, hCc.1]
  simp only
  generalize (Plane.new c n).testIntersect ray = q at h1 h2 h3
  rcases q with ⟨hit, pt, nm⟩
  simp only at h1 h2 h3
  cases hit with
  | false =>
    refine ⟨Hit3.miss, by simp, ?_⟩
    refine ⟨⟨by simp [Hit3.miss], ?_⟩, fun _ => ⟨rfl, rfl⟩, by simp [Hit3.miss]⟩
    rintro ⟨ha, t, ht, ho, -⟩
    exact absurd (h1.mpr ⟨ha, t, ht, ho⟩) (by simp)
  | true =>
    obtain ⟨t, ht, hpt, ho, huniq, m, hm, hm1, hm2⟩ := h3 rfl
    obtain ⟨ha, -⟩ := h1.mp rfl
    subst hpt hm
    simp only
    have hdist : distanceBetween (lineAt ray.position ray.direction t) c =
      dist (lineAt ray.position ray.direction t).toE c.toE := C02_distance_is_dist _ _
    rw [hdist]
    by_cases hR : dist (lineAt ray.position ray.direction t).toE c.toE < C.R
    · rw [if_pos hR]
      refine ⟨_, rfl, ⟨fun _ => ⟨ha, t, ht, ho, hR⟩, fun _ => rfl⟩, by simp, fun _ => ?_⟩
      exact ⟨t, ht, rfl, ho, hR, m, rfl, hm1, hm2⟩
    · rw [if_neg hR]
      refine ⟨_, rfl, ⟨by simp [Hit3.miss], ?_⟩, fun _ => ⟨rfl, rfl⟩, by simp [Hit3.miss]⟩
      rintro ⟨-, s, hs, hso, hsR⟩
      rw [huniq s hso] at hsR; exact absurd hsR hR

/-- C13, error branch: a circle without a normal cannot be intersected. -/
theorem C13_circle_no_normal {α : Type} [PyNum α] (c : V3 α) (R D : Option α) (C : Circle α)
    (hC : Circle.new c none R D = .ok C) (ray : Ray α) : C.testIntersect ray = .error .attributeError := by
  unfold Circle.new at hC
  rcases hc : checkRAndD R D with e' | ⟨r, d⟩ <;> rw [hc] at hC <;> cases hC
  rfl

/-- A case in the scope of C13: a disc of radius 4 is hit off centre. -/
example : ∃ C r, Circle.new (⟨0, 0, 0⟩ : V3 ℝ) (some ⟨0, 0, 2⟩) (some 4) none = .ok C ∧
    C.testIntersect ⟨⟨0, 0, 5⟩, ⟨0.6, 0, -0.8⟩, 0, 0, [], false, ""⟩ = .ok r ∧ r.hit = true := by
  obtain ⟨r, h, hit, -⟩ := C13_circle (⟨0, 0, 0⟩ : V3 ℝ) ⟨0, 0, 2⟩ (by simp) (some 4) none _ rfl
    ⟨⟨0, 0, 5⟩, ⟨0.6, 0, -0.8⟩, 0, 0, [], false, ""⟩ (by rw [norm_toE, norm_eq_one_iff]; norm_num [dot])
  refine ⟨_, r, rfl, h, hit.mpr ⟨?_, 6.25, by norm_num, ?_, ?_⟩⟩
  · rw [inner_toE, norm_toE, norm_eq]
    simp only [dot]
    rw [show (0 : ℝ) * 0 + 0 * 0 + 2 * 2 = 2 ^ 2 by norm_num, Real.sqrt_sq (by norm_num)]
    norm_num [abs_of_pos]
  · rw [onPlane_iff]; norm_num [lineAt, dot]
  · rw [dist_toE_eq, norm_eq, Real.sqrt_lt' (by norm_num)]
    norm_num [lineAt, dot]

/-! ## C14 -/

/-- What a successfully built rectangle looks like. -/
theorem rectangle_new_ok {c n t : V3 ℝ} {h w : Option ℝ} {r : Rectangle ℝ}
    (hr : Rectangle.new c n t h w = .ok r) :
    |dot (unitVector n) (unitVector t)| ≤ 1e-8 ∧ h = some r.h ∧ w = some r.w ∧ 0 ≤ r.h ∧ 0 ≤ r.w ∧
    r.center = c ∧ r.normal = unitVector n ∧ r.tangent = unitVector t ∧
    r.tangent2 = cross (unitVector n) (unitVector t) ∧ r.plane = Plane.new c n ∧
    r.bounds0 = c + (r.h / 2) * r.tangent - (r.w / 2) * r.tangent2 ∧
    r.bounds1 = c + (r.h / 2) * r.tangent + (r.w / 2) * r.tangent2 ∧
    r.bounds2 = c - (r.h / 2) * r.tangent + (r.w / 2) * r.tangent2 ∧
    r.bounds3 = c - (r.h / 2) * r.tangent - (r.w / 2) * r.tangent2 := by
  unfold Rectangle.new at hr
  simp only at hr
  split_ifs at hr with h1
  have hcl : |dot (unitVector n) (unitVector t)| ≤ 1e-8 := by
    simp only [isclose, Bool.not_eq_true', decide_eq_false_iff_not, not_not, lit0, real_abs, sub_zero,
      abs_zero, mul_zero, add_zero] at h1
    exact h1
  rcases hc : checkHAndW h w with e' | ⟨a, b⟩ <;> rw [hc] at hr <;> cases hr
  have hc' : h = some a ∧ w = some b ∧ 0 ≤ a ∧ 0 ≤ b := by
    rcases h with _ | h <;> rcases w with _ | w <;> simp only [checkHAndW, lit0] at hc
    · cases hc
    · cases hc
    · cases hc
    · split_ifs at hc with h2 h3
      cases hc
      exact ⟨rfl, rfl, not_lt.mp h2, not_lt.mp h3⟩
  refine ⟨hcl, hc'.1, hc'.2.1, hc'.2.2.1, hc'.2.2.2, rfl, rfl, rfl, rfl, rfl, ?_, ?_, ?_, ?_⟩ <;> simp only [lit2]

/-- The rectangle's own test of a point of its plane: offsets along the two edges. -/
theorem rectangle_window {c u t M : V3 ℝ} {h w : ℝ} (ht : dot t t = 1) (hut : dot t u = 0)
    (hh : 0 < h) (hw : 0 < w) :
    ((0 ≤ dot ((c + (h / 2) * t + (w / 2) * u) - (c + (h / 2) * t - (w / 2) * u))
          (M - (c + (h / 2) * t - (w / 2) * u)) ∧
      dot ((c + (h / 2) * t + (w / 2) * u) - (c + (h / 2) * t - (w / 2) * u))
          (M - (c + (h / 2) * t - (w / 2) * u)) ≤
        dot ((c + (h / 2) * t + (w / 2) * u) - (c + (h / 2) * t - (w / 2) * u))
          ((c + (h / 2) * t + (w / 2) * u) - (c + (h / 2) * t - (w / 2) * u))) ↔
      |dot (M - c) u| ≤ w / 2 * dot u u) ∧
    ((0 ≤ dot ((c - (h / 2) * t + (w / 2) * u) - (c + (h / 2) * t + (w / 2) * u))
          (M - (c + (h / 2) * t + (w / 2) * u)) ∧
      dot ((c - (h / 2) * t + (w / 2) * u) - (c + (h / 2) * t + (w / 2) * u))
          (M - (c + (h / 2) * t + (w / 2) * u)) ≤
        dot ((c - (h / 2) * t + (w / 2) * u) - (c + (h / 2) * t + (w / 2) * u))
          ((c - (h / 2) * t + (w / 2) * u) - (c + (h / 2) * t + (w / 2) * u))) ↔
      |dot (M - c) t| ≤ h / 2) := by
  have e1 : dot ((c + (h / 2) * t + (w / 2) * u) - (c + (h / 2) * t - (w / 2) * u))
          (M - (c + (h / 2) * t - (w / 2) * u)) = w * (dot (M - c) u + w / 2 * dot u u) := by
    simp only [dot, sub_x, sub_y, sub_z, add_x, add_y, add_z, smul_x, smul_y, smul_z] at *
    linear_combination (-(h * w / 2)) * hut
  have e2 : dot ((c + (h / 2) * t + (w / 2) * u) - (c + (h / 2) * t - (w / 2) * u))
          ((c + (h / 2) * t + (w / 2) * u) - (c + (h / 2) * t - (w / 2) * u)) = w * (w * dot u u) := by
    simp only [dot, sub_x, sub_y, sub_z, add_x, add_y, add_z, smul_x, smul_y, smul_z] at *; ring
  have e3 : dot ((c - (h / 2) * t + (w / 2) * u) - (c + (h / 2) * t + (w / 2) * u))
          (M - (c + (h / 2) * t + (w / 2) * u)) = h * (h / 2 - dot (M - c) t) := by
    simp only [dot, sub_x, sub_y, sub_z, add_x, add_y, add_z, smul_x, smul_y, smul_z] at *
    linear_combination (h * w / 2) * hut + (h ^ 2 / 2) * ht
  have e4 : dot ((c - (h / 2) * t + (w / 2) * u) - (c + (h / 2) * t + (w / 2) * u))
          ((c - (h / 2) * t + (w / 2) * u) - (c + (h / 2) * t + (w / 2) * u)) = h * h := by
    simp only [dot, sub_x, sub_y, sub_z, add_x, add_y, add_z, smul_x, smul_y, smul_z] at *
    linear_combination (h ^ 2) * ht
  rw [e1, e2, e3, e4, mul_le_mul_iff_right₀ hw, mul_le_mul_iff_right₀ hh, mul_nonneg_iff_of_pos_left hw,
    mul_nonneg_iff_of_pos_left hh, abs_le, abs_le]
  constructor <;> constructor <;> rintro ⟨h1, h2⟩ <;> constructor <;> linarith

/-- C14: a rectangle with positive sides is hit iff its plane is hit at a point whose offset from the
centre along the (unit) tangent is at most `h/2` and whose offset along `tangent2 = n × t` is at most
`w/2` (times `|tangent2|²`, which is 1 for an exactly perpendicular tangent; the constructor only
checks perpendicularity to 1e-8, so `|tangent2|²` is at least `1 - 1e-16`). -/
theorem C14_rectangle (c n t : V3 ℝ) (hn : n ≠ ⟨0, 0, 0⟩) (ht : t ≠ ⟨0, 0, 0⟩) (h w : ℝ) (hh : 0 < h)
    (hw : 0 < w) (r : Rectangle ℝ) (hr : Rectangle.new c n t (some h) (some w) = .ok r)
    (ray : Ray ℝ) (hd : ‖ray.direction.toE‖ = 1) :
    let res := r.testIntersect ray
    let P := lineAt ray.position ray.direction
    ‖r.tangent.toE‖ = 1 ∧ inner ℝ r.tangent.toE r.tangent2.toE = 0 ∧
    1 - 1e-16 ≤ ‖r.tangent2.toE‖ ^ 2 ∧ ‖r.tangent2.toE‖ ^ 2 ≤ 1 ∧
    (inner ℝ n.toE t.toE = 0 → ‖r.tangent2.toE‖ = 1) ∧
    (res.hit = true ↔ 1e-9 * ‖n.toE‖ < |inner ℝ n.toE ray.direction.toE| ∧
      ∃ s, 1e-9 < s ∧ OnPlane c n (P s) ∧ |inner ℝ (P s - c).toE r.tangent.toE| ≤ h / 2 ∧
        |inner ℝ (P s - c).toE r.tangent2.toE| ≤ w / 2 * ‖r.tangent2.toE‖ ^ 2) ∧
    (res.hit = false → res.pt = none ∧ res.normal = none) ∧
    (res.hit = true → ∃ s, 1e-9 < s ∧ res.pt = some (P s) ∧ OnPlane c n (P s) ∧
      |inner ℝ (P s - c).toE r.tangent.toE| ≤ h / 2 ∧
      |inner ℝ (P s - c).toE r.tangent2.toE| ≤ w / 2 * ‖r.tangent2.toE‖ ^ 2 ∧
      ∃ m, res.normal = some m ∧ ‖m.toE‖ = 1 ∧ ‖n.toE‖ * m = n) := by
  obtain ⟨hcl, e1, e2, -, -, hc, hnn, htt, ht2, hp, b0, b1, b2, -⟩ := rectangle_new_ok hr
  have e1' : r.h = h := (Option.some.inj e1).symm
  have e2' : r.w = w := (Option.some.inj e2).symm
  have hnu := unit_dot hn
  have htu := unit_dot ht
  have hsq : dot r.tangent2 r.tangent2 = 1 - dot (unitVector n) (unitVector t) ^ 2 := by
    rw [ht2, cross_dot_self, hnu, htu]; ring
  have hperp : dot r.tangent r.tangent2 = 0 := by rw [ht2, htt]; exact dot_cross_right _ _
  have hbd : dot (unitVector n) (unitVector t) ^ 2 ≤ 1e-16 := by
    rw [← sq_abs]
    have := abs_nonneg (dot (unitVector n) (unitVector t))
    nlinarith
  obtain ⟨h1, h2, h3⟩ := C12_plane c n hn ray hd
  intro res P
  have hwin := fun M => rectangle_window (c := c) (M := M) (t := r.tangent) (u := r.tangent2)
    (by rw [htt]; exact htu) hperp hh hw
  simp only [norm_toE, norm_sq, inner_toE] at h1 h2 h3 ⊢
  refine ⟨by rw [htt]; exact unit_norm ht, hperp, by rw [hsq]; linarith,
    by rw [hsq]; nlinarith [sq_nonneg (dot (unitVector n) (unitVector t))], ?_, ?_⟩
  · intro hz
    rw [norm_eq_one_iff, hsq, unitVector, unitVector, dot_div_left, dot_div_right, hz]; norm_num
  have hres : res = r.testIntersect ray := rfl
  unfold Rectangle.testIntersect at hres
  rw [hp] at hres
  simp only [b0, b1, b2, e1', e2', lit0, (hwin _).1, (hwin _).2] at hres
  clear_value res
  subst hres
  generalize (Plane.new c n).testIntersect ray = q at h1 h2 h3 ⊢
  rcases q with ⟨hit, pt, nm⟩
  simp only at h1 h2 h3
  cases hit with
  | false =>
    refine ⟨⟨by simp [Hit3.miss], ?_⟩, fun _ => ⟨rfl, rfl⟩, by simp [Hit3.miss]⟩
    rintro ⟨ha, s, hs, ho, -⟩
    exact absurd (h1.mpr ⟨ha, s, hs, ho⟩) (by simp)
  | true =>
    obtain ⟨s, hs, hpt, ho, huniq, m, hm, hm1, hm2⟩ := h3 rfl
    obtain ⟨ha, -⟩ := h1.mp rfl
    subst hpt hm
    simp only
    by_cases hA : |dot (P s - c) r.tangent2| ≤ w / 2 * dot r.tangent2 r.tangent2
    · by_cases hB : |dot (P s - c) r.tangent| ≤ h / 2
      · rw [if_pos hA, if_pos hB]
        exact ⟨⟨fun _ => ⟨ha, s, hs, ho, hB, hA⟩, fun _ => rfl⟩, by simp,
          fun _ => ⟨s, hs, rfl, ho, hB, hA, m, rfl, hm1, hm2⟩⟩
      · rw [if_pos hA, if_neg hB]
        refine ⟨⟨by simp [Hit3.miss], ?_⟩, fun _ => ⟨rfl, rfl⟩, by simp [Hit3.miss]⟩
        rintro ⟨-, s', -, ho', hB', -⟩
        rw [huniq s' ho'] at hB'; exact absurd hB' hB
    · rw [if_neg hA]
      refine ⟨⟨by simp [Hit3.miss], ?_⟩, fun _ => ⟨rfl, rfl⟩, by simp [Hit3.miss]⟩
      rintro ⟨-, s', -, ho', -, hA'⟩
      rw [huniq s' ho'] at hA'; exact absurd hA' hA

/-- The rectangle used in the examples: 2 by 6 in the plane `z = 0`. -/
theorem example_rectangle : ∃ r : Rectangle ℝ,
    Rectangle.new (⟨0, 0, 0⟩ : V3 ℝ) ⟨0, 0, 1⟩ ⟨1, 0, 0⟩ (some 2) (some 6) = .ok r := by
  have h1 : unitVector (⟨0, 0, 1⟩ : V3 ℝ) = ⟨0, 0, 1⟩ := unitVector_of_unit (by norm_num [dot])
  have h2 : unitVector (⟨1, 0, 0⟩ : V3 ℝ) = ⟨1, 0, 0⟩ := unitVector_of_unit (by norm_num [dot])
  unfold Rectangle.new
  simp only [h1, h2, dot, checkHAndW]
  norm_num [isclose, atolDefault, rtolDefault, bind, Except.bind, pure, Except.pure]

/-- A case in the scope of C14: hit near the rim (offsets 0.5 along the tangent, 2.9 across). -/
example : ∃ r : Rectangle ℝ, Rectangle.new (⟨0, 0, 0⟩ : V3 ℝ) ⟨0, 0, 1⟩ ⟨1, 0, 0⟩ (some 2) (some 6) = .ok r ∧
    (r.testIntersect ⟨⟨0.5, 2.9, 5⟩, ⟨0, 0, -1⟩, 0, 0, [], false, ""⟩).hit = true := by
  obtain ⟨r, hr⟩ := example_rectangle
  have h1 : unitVector (⟨0, 0, 1⟩ : V3 ℝ) = ⟨0, 0, 1⟩ := unitVector_of_unit (by norm_num [dot])
  have h2 : unitVector (⟨1, 0, 0⟩ : V3 ℝ) = ⟨1, 0, 0⟩ := unitVector_of_unit (by norm_num [dot])
  have ho := rectangle_new_ok hr
  have ht : r.tangent = ⟨1, 0, 0⟩ := by rw [ho.2.2.2.2.2.2.2.1, h2]
  have ht2 : r.tangent2 = ⟨0, 1, 0⟩ := by rw [ho.2.2.2.2.2.2.2.2.1, h1, h2]; ext <;> norm_num [cross]
  refine ⟨r, hr, ?_⟩
  apply (C14_rectangle _ _ _ (by simp) (by simp) 2 6 (by norm_num) (by norm_num) r hr _
    (by rw [norm_toE, norm_eq_one_iff]; norm_num [dot])).2.2.2.2.2.1.mpr
  refine ⟨?_, 5, by norm_num, ?_, ?_, ?_⟩
  · rw [inner_toE, norm_toE, norm_eq_one_iff.mpr (by norm_num [dot])]; norm_num [dot]
  · rw [onPlane_iff]; norm_num [lineAt, dot]
  · rw [inner_toE, ht]; norm_num [lineAt, dot, abs_of_pos]
  · rw [inner_toE, ht2, norm_toE, norm_eq_one_iff.mpr (by norm_num [dot])]; norm_num [lineAt, dot, abs_of_pos]

/-- Outside the scope of C14 (sides must be positive): the constructor accepts a rectangle of width
0, and such a rectangle is hit arbitrarily far from its centre: it behaves like an infinite strip. -/
theorem C14_zero_width_is_infinite_strip (y : ℝ) :
    ∃ r : Rectangle ℝ, Rectangle.new (⟨0, 0, 0⟩ : V3 ℝ) ⟨0, 0, 1⟩ ⟨1, 0, 0⟩ (some 2) (some 0) = .ok r ∧
    (r.testIntersect ⟨⟨0, y, 5⟩, ⟨0, 0, -1⟩, 0, 0, [], false, ""⟩).hit = true := by
  have h1 : unitVector (⟨0, 0, 1⟩ : V3 ℝ) = ⟨0, 0, 1⟩ := unitVector_of_unit (by norm_num [dot])
  have h2 : unitVector (⟨1, 0, 0⟩ : V3 ℝ) = ⟨1, 0, 0⟩ := unitVector_of_unit (by norm_num [dot])
  have : ∃ r : Rectangle ℝ, Rectangle.new (⟨0, 0, 0⟩ : V3 ℝ) ⟨0, 0, 1⟩ ⟨1, 0, 0⟩ (some 2) (some 0) = .ok r := by
    unfold Rectangle.new
    simp only [h1, h2, dot, checkHAndW]
    norm_num [isclose, atolDefault, rtolDefault, bind, Except.bind, pure, Except.pure]
  obtain ⟨r, hr⟩ := this
  refine ⟨r, hr, ?_⟩
  obtain ⟨-, e1, e2, -, -, hc, hnn, htt, ht2, hp, b0, b1, b2, -⟩ := rectangle_new_ok hr
  have hh : r.h = 2 := (Option.some.inj e1).symm
  have hw : r.w = 0 := (Option.some.inj e2).symm
  have hres := plane_eq (⟨0, 0, 0⟩ : V3 ℝ) ⟨0, 0, 1⟩ (by simp)
    ⟨⟨0, y, 5⟩, ⟨0, 0, -1⟩, 0, 0, [], false, ""⟩ (by norm_num [dot])
  rw [h1] at hres
  norm_num [dot] at hres
  unfold Rectangle.testIntersect
  rw [hp, hres]
  rw [htt, h2] at b0 b1 b2
  simp only [b0, b1, b2, hh, hw, dot, sub_x, sub_y, sub_z, add_x, add_y, add_z, smul_x, smul_y, smul_z]
  norm_num

end Optics
