import Verif.Spec.Csg
import Verif.Props.Spheres
import Verif.Props.Cylinders

/-! # What a primitive reports for a ray in general position -/

namespace Optics
open V3

/-- The normal the code reports at a point of a primitive. -/
noncomputable def Prim.normalAt : Prim ℝ → V3 ℝ → V3 ℝ
  | .sphere s => s.normal
  | .cylinder c => c.normal

/-- Distances along a ray of unit direction. -/
theorem distance_at (ray : Ray ℝ) (hd : dot ray.direction ray.direction = 1) (t : ℝ) :
    distanceBetween ray.position (ray.at t) = |t| := by
  unfold distanceBetween Ray.at lineAt
  have : ray.position - (ray.position + t * ray.direction) = (-t) * ray.direction := by
    ext <;> simp only [sub_x, sub_y, sub_z, add_x, add_y, add_z, smul_x, smul_y, smul_z] <;> ring
  rw [this, norm_smul, norm_eq_one_iff.mpr hd, mul_one, abs_neg]

/-- What `test_intersect` of a primitive reports: nothing, entry and exit, or only the exit. -/
inductive Reports (p : Prim ℝ) (ray : Ray ℝ) : Hit6 ℝ → Prop where
  | miss (h : ∀ t, 0 ≤ t → ray.at t ∉ p.solid) : Reports p ray (Hit6.miss 0)
  | through (t0 t1 : ℝ) (h0 : 1e-12 < t0) (h1 : t0 < t1)
      (s0 : ray.at t0 ∈ p.surface) (s1 : ray.at t1 ∈ p.surface)
      (h : ∀ t, 0 ≤ t → (ray.at t ∈ p.solid ↔ t0 < t ∧ t < t1)) (r : Hit6 ℝ)
      (hr : r = Hit6.two (ray.at t0) (ray.at t1) (p.normalAt (ray.at t0)) (p.normalAt (ray.at t1)) 2 ∨
            r = Hit6.two (ray.at t1) (ray.at t0) (p.normalAt (ray.at t1)) (p.normalAt (ray.at t0)) 2) :
      Reports p ray r
  | leave (t1 : ℝ) (h1 : 1e-12 < t1) (s1 : ray.at t1 ∈ p.surface)
      (h : ∀ t, 0 ≤ t → (ray.at t ∈ p.solid ↔ t < t1)) :
      Reports p ray (Hit6.one (ray.at t1) (p.normalAt (ray.at t1)) 1)

/-- A primitive whose solid the line crosses between the parameters `t0 < t1`. -/
theorem reports_of_roots (p : Prim ℝ) (ray : Ray ℝ) (t0 t1 : ℝ) (hlt : t0 < t1)
    (hin : ∀ t, ray.at t ∈ p.solid ↔ t0 < t ∧ t < t1)
    (h0 : ray.at t0 ∈ p.surface) (h1 : ray.at t1 ∈ p.surface) (hg : p.General ray) (two : Hit6 ℝ)
    (htwo : two = Hit6.two (ray.at t0) (ray.at t1) (p.normalAt (ray.at t0)) (p.normalAt (ray.at t1)) 2 ∨
            two = Hit6.two (ray.at t1) (ray.at t0) (p.normalAt (ray.at t1)) (p.normalAt (ray.at t0)) 2) :
    Reports p ray
      (if 1e-12 < t0 then two
       else if 1e-12 < t1 then Hit6.one (ray.at t1) (p.normalAt (ray.at t1)) 1
       else Hit6.miss 0) := by
  split_ifs with a b
  · exact .through t0 t1 a hlt h0 h1 (fun t _ => hin t) two htwo
  · refine .leave t1 b h1 (fun t ht => ?_)
    rw [hin]
    have : t0 < 0 := by
      by_contra hc
      exact hg.startClear t0 (not_lt.mp hc) (not_lt.mp a) h0
    exact ⟨fun h => h.2, fun h => ⟨by linarith, h⟩⟩
  · refine .miss (fun t ht => ?_)
    rw [hin]
    have : t1 < 0 := by
      by_contra hc
      exact hg.startClear t1 (not_lt.mp hc) (not_lt.mp b) h1
    intro h
    linarith [h.2]

theorem sphere_reports (s : Sphere ℝ) (hR : 0 < s.R) (ray : Ray ℝ)
    (hd : dot ray.direction ray.direction = 1) (hg : (Prim.sphere s).General ray) :
    Reports (.sphere s) ray (s.testIntersect ray) := by
  have hin : ∀ t, ray.at t ∈ (Prim.sphere s).solid ↔
      (t - dot ray.direction (s.center - ray.position)) ^ 2
        < sphDisc s.center ray.position ray.direction s.R := by
    intro t
    show InBall s.center s.R (lineAt ray.position ray.direction t) ↔ _
    have := sphere_quadratic s.center ray.position ray.direction s.R t hd
    rw [InBall, dist_toE_eq, norm_eq, Real.sqrt_lt' hR]
    unfold sphDisc
    constructor <;> intro h <;> linarith
  have hon : ∀ t, ray.at t ∈ (Prim.sphere s).surface ↔
      (t - dot ray.direction (s.center - ray.position)) ^ 2
        = sphDisc s.center ray.position ray.direction s.R := by
    intro t; exact onSphere_line _ _ _ _ _ hd
  have hrep := sphere_eq s ray
  simp only at hrep
  rw [hrep]
  generalize sphDisc s.center ray.position ray.direction s.R = D at *
  generalize dot ray.direction (s.center - ray.position) = vq at *
  by_cases hD : 0 < D
  · rw [if_pos hD]
    have hp := Real.sqrt_pos.mpr hD
    have hs := Real.sq_sqrt hD.le
    refine reports_of_roots (.sphere s) ray (vq - Real.sqrt D) (vq + Real.sqrt D) (by linarith) ?_ ?_ ?_ hg _
      (Or.inr rfl)
    · intro t
      rw [hin, ← sq_abs, ← Real.lt_sqrt (abs_nonneg _), abs_lt]
      constructor <;> rintro ⟨h1, h2⟩ <;> constructor <;> linarith
    · rw [hon]; linear_combination hs
    · rw [hon]; linear_combination hs
  · rw [if_neg hD]
    have hne : D ≠ 0 := by
      intro h0
      obtain ⟨t, ht⟩ := hg.notTangent vq (by rw [hon, h0]; ring)
      rw [hin, h0] at ht
      nlinarith [sq_nonneg (t - vq)]
    rw [if_neg hne]
    refine .miss (fun t _ ht => ?_)
    rw [hin] at ht
    nlinarith [sq_nonneg (t - vq), lt_of_le_of_ne (not_lt.mp hD) hne]

theorem cylinder_reports (c : InfiniteCylinder ℝ) (ha : dot c.direction c.direction = 1) (hR : c.R ≠ 0)
    (ray : Ray ℝ) (hg : (Prim.cylinder c).General ray) :
    ∃ r, c.testIntersect ray = .ok r ∧ Reports (.cylinder c) ray r := by
  have hA : 0 < axQ c.direction ray.direction := by
    have := axQ_pos_of_not_parallel (ne_zero_of_dot_one ha) hg.notParallel
    rwa [unitVector_of_unit ha] at this
  refine ⟨_, cylinder_eq c ha hR ray hA, ?_⟩
  simp only
  have hin : ∀ t, ray.at t ∈ (Prim.cylinder c).solid ↔
      (axQ c.direction ray.direction * t + axB c.direction (ray.position - c.center) ray.direction) ^ 2
        < cylDisc c.center c.direction ray.position ray.direction c.R := by
    intro t
    show InCylinder c.center c.direction |c.R| (lineAt ray.position ray.direction t) ↔ _
    rw [inCylinder_iff ha, axQ_line]
    unfold cylDisc
    generalize axQ c.direction ray.direction = A at *
    rw [← sub_pos, ← mul_pos_iff_of_pos_left hA, ← sub_pos (b := (_ : ℝ) ^ 2)]
    constructor <;> intro h <;> nlinarith
  have hon : ∀ t, ray.at t ∈ (Prim.cylinder c).surface ↔
      (axQ c.direction ray.direction * t + axB c.direction (ray.position - c.center) ray.direction) ^ 2
        = cylDisc c.center c.direction ray.position ray.direction c.R := by
    intro t
    show OnCylinder c.center c.direction |c.R| (lineAt ray.position ray.direction t) ↔ _
    rw [onCylinder_iff ha, axQ_line]
    unfold cylDisc
    generalize axQ c.direction ray.direction = A at *
    constructor
    · intro h; linear_combination A * h
    · intro h
      have : A * (A * t ^ 2 + 2 * axB c.direction (ray.position - c.center) ray.direction * t
        + axQ c.direction (ray.position - c.center) - c.R ^ 2) = 0 := by linear_combination h
      rcases mul_eq_zero.mp this with h | h
      · exact absurd h hA.ne'
      · linarith
  generalize axQ c.direction ray.direction = A at *
  generalize axB c.direction (ray.position - c.center) ray.direction = b at *
  generalize cylDisc c.center c.direction ray.position ray.direction c.R = D at *
  by_cases hD : 0 < D
  · rw [if_pos hD]
    have hp := Real.sqrt_pos.mpr hD
    have hs := Real.sq_sqrt hD.le
    refine reports_of_roots (.cylinder c) ray ((-b - Real.sqrt D) / A) ((-b + Real.sqrt D) / A)
      (by rw [div_lt_div_iff_of_pos_right hA]; linarith) ?_ ?_ ?_ hg _ (Or.inl rfl)
    · intro t
      rw [hin, ← sq_abs, ← Real.lt_sqrt (abs_nonneg _), abs_lt, div_lt_iff₀ hA, lt_div_iff₀ hA]
      constructor <;> rintro ⟨h1, h2⟩ <;> constructor <;> linarith
    · rw [hon, mul_div_cancel₀ _ hA.ne']; linear_combination hs
    · rw [hon, mul_div_cancel₀ _ hA.ne']; linear_combination hs
  · rw [if_neg hD]
    have hne : D ≠ 0 := by
      intro h0
      obtain ⟨t, ht⟩ := hg.notTangent (-b / A) (by rw [hon, h0, mul_div_cancel₀ _ hA.ne']; ring)
      rw [hin, h0] at ht
      nlinarith [sq_nonneg (A * t + b)]
    rw [if_neg hne]
    refine .miss (fun t _ ht => ?_)
    rw [hin] at ht
    nlinarith [sq_nonneg (A * t + b), lt_of_le_of_ne (not_lt.mp hD) hne]

/-- What a leaf of a tree reports. -/
theorem prim_reports (p : Prim ℝ) (hp : p.Solid) (ray : Ray ℝ) (hd : dot ray.direction ray.direction = 1)
    (hg : p.General ray) :
    ∃ r, p.toShape.testIntersect ray = .ok (.six r) ∧ Reports p ray r := by
  cases p with
  | sphere s => exact ⟨_, rfl, sphere_reports s hp ray hd hg⟩
  | cylinder c =>
    obtain ⟨hR, ha⟩ := hp
    rw [norm_toE, norm_eq_one_iff] at ha
    obtain ⟨r, h1, h2⟩ := cylinder_reports c ha hR ray hg
    refine ⟨r, ?_, h2⟩
    show (do return IntersectResult.six (← c.testIntersect ray)) = _
    rw [h1]; rfl

theorem helper_through {ray : Ray ℝ} (hd : dot ray.direction ray.direction = 1) {t0 t1 : ℝ} (h0 : 1e-12 < t0)
    (h1 : t0 < t1) {n0 n1 : V3 ℝ} {k : ℕ} {r : Hit6 ℝ}
    (hr : r = Hit6.two (ray.at t0) (ray.at t1) n0 n1 k ∨ r = Hit6.two (ray.at t1) (ray.at t0) n1 n0 k) :
    helperFindIntersects r ray .nearest = .ok ⟨some (ray.at t0), some n0, some t0, 2⟩ ∧
    helperFindIntersects r ray .farthest = .ok ⟨some (ray.at t1), some n1, some t1, 2⟩ := by
  have a0 : |t0| = t0 := abs_of_pos (by linarith)
  have a1 : |t1| = t1 := abs_of_pos (by linarith)
  rcases hr with rfl | rfl
  · constructor <;> simp [helperFindIntersects, Hit6.two, distance_at ray hd, a0, a1, h1, h1.le]
  · constructor <;> simp [helperFindIntersects, Hit6.two, distance_at ray hd, a0, a1, h1, h1.le]

theorem helper_one {ray : Ray ℝ} (hd : dot ray.direction ray.direction = 1) {t : ℝ} (h : 1e-12 < t)
    (r : Hit6 ℝ) (h1 : r.pt1 = some (ray.at t)) (h2 : r.pt2 = none) (m : Mode) :
    helperFindIntersects r ray m = .ok ⟨some (ray.at t), r.n1, some t, 1⟩ := by
  have a : |t| = t := abs_of_pos (by linarith)
  simp [helperFindIntersects, h1, h2, distance_at ray hd, a]

theorem firstCrossing_unique {ray : Ray ℝ} {S : Set (V3 ℝ)} {s t : ℝ} (hs : FirstCrossing ray S s)
    (ht : FirstCrossing ray S t) : s = t := by
  have key : ∀ s t, FirstCrossing ray S s → FirstCrossing ray S t → ¬ s < t := by
    intro s t hs ht h
    obtain ⟨u, h1, h2, h3⟩ := hs.2.2 (t - s) (by linarith)
    exact h3 (ht.2.1 u (by linarith [hs.1]) (by linarith))
  rcases lt_trichotomy s t with h | h | h
  · exact absurd h (key s t hs ht)
  · exact h
  · exact absurd h (key t s ht hs)

/-- First entry, for a ray that starts outside. -/
theorem firstCrossing_entry {ray : Ray ℝ} {S : Set (V3 ℝ)} {t0 t1 : ℝ} (h0 : 0 < t0) (h1 : t0 < t1)
    (hout : ∀ t, 0 ≤ t → t < t0 → ray.at t ∉ S) (hin : ∀ t, t0 < t → t < t1 → ray.at t ∈ S) :
    FirstCrossing ray S t0 := by
  have hz : ray.at 0 ∉ S := hout 0 le_rfl h0
  refine ⟨h0, fun s hs hs' => ?_, fun ε hε => ?_⟩
  · exact iff_of_false (hout s hs.le hs') hz
  · refine ⟨t0 + min ε (t1 - t0) / 2, ?_, ?_, ?_⟩
    · have : 0 < min ε (t1 - t0) := lt_min hε (by linarith)
      linarith
    · have := min_le_left ε (t1 - t0)
      linarith
    · have h2 : 0 < min ε (t1 - t0) := lt_min hε (by linarith)
      have := min_le_right ε (t1 - t0)
      intro h
      exact hz (h.mp (hin _ (by linarith) (by linarith)))

/-- First exit, for a ray that starts inside. -/
theorem firstCrossing_exit {ray : Ray ℝ} {S : Set (V3 ℝ)} {t0 t1 : ℝ} (h0 : 0 < t0) (h1 : t0 < t1)
    (hin : ∀ t, 0 ≤ t → t < t0 → ray.at t ∈ S) (hout : ∀ t, t0 < t → t < t1 → ray.at t ∉ S) :
    FirstCrossing ray S t0 := by
  have hz : ray.at 0 ∈ S := hin 0 le_rfl h0
  refine ⟨h0, fun s hs hs' => ?_, fun ε hε => ?_⟩
  · exact iff_of_true (hin s hs.le hs') hz
  · refine ⟨t0 + min ε (t1 - t0) / 2, ?_, ?_, ?_⟩
    · have : 0 < min ε (t1 - t0) := lt_min hε (by linarith)
      linarith
    · have := min_le_left ε (t1 - t0)
      linarith
    · have h2 : 0 < min ε (t1 - t0) := lt_min hε (by linarith)
      have := min_le_right ε (t1 - t0)
      intro h
      exact hout _ (by linarith) (by linarith) (h.mpr hz)

theorem tree_op_eq {α : Type} [PyNum α] (o : CsgOp) (a b : Csg (Prim α)) (ray : Ray α) (ra rb : Hit6 α)
    (ha : testTreeIntersect a.tree ray = .ok (.six ra)) (hb : testTreeIntersect b.tree ray = .ok (.six rb)) :
    testTreeIntersect (Csg.op o a b).tree ray = (match o with
      | .union => operCsgUnion ra rb ray
      | .intersect => operCsgIntersect ra rb ray
      | .difference => operCsgDifference ra rb ray).map IntersectResult.six := by
  show testTreeIntersect (.node _ a.tree b.tree) ray = _
  rw [testTreeIntersect, ha, hb]
  cases o
  · show (do return IntersectResult.six (← operCsgUnion ra rb ray)) = _
    cases operCsgUnion ra rb ray <;> rfl
  · show (do return IntersectResult.six (← operCsgIntersect ra rb ray)) = _
    cases operCsgIntersect ra rb ray <;> rfl
  · show (do return IntersectResult.six (← operCsgDifference ra rb ray)) = _
    cases operCsgDifference ra rb ray <;> rfl

end Optics
