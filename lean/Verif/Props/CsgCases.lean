import Verif.Props.CsgRays
import Verif.Props.TreeErrors

/-!
# C25-C27: concrete scenes, and the configurations in which the reported point is wrong

Balls with centre on the x axis, seen by a ray along the x axis: everything happens on a line.
-/

namespace Optics
open V3

/-- The ball about `(c, 0, 0)` of radius `R`. -/
noncomputable def axisBall (c R : ℝ) : Prim ℝ := .sphere ⟨⟨c, 0, 0⟩, R, 2 * R⟩

/-- The ray from the origin along the x axis. -/
noncomputable def axisRay : Ray ℝ :=
  { position := ⟨0, 0, 0⟩, direction := ⟨1, 0, 0⟩, wavelength := 532, order := 0,
    pointHistory := [⟨0, 0, 0⟩], blocked := false, type := "lightray" }

theorem axisRay_unit : ‖axisRay.direction.toE‖ = 1 := by
  rw [norm_toE, norm_eq_one_iff]; norm_num [dot, axisRay]

theorem axisBall_solid {c R : ℝ} (hR : 0 < R) (t : ℝ) :
    axisRay.at t ∈ (axisBall c R).solid ↔ c - R < t ∧ t < c + R := by
  show InBall ⟨c, 0, 0⟩ R (lineAt axisRay.position axisRay.direction t) ↔ _
  rw [InBall, dist_toE_eq, norm_eq, Real.sqrt_lt' hR]
  simp only [lineAt, axisRay, dot, add_x, add_y, add_z, sub_x, sub_y, sub_z, smul_x, smul_y, smul_z]
  constructor
  · intro h; constructor <;> nlinarith
  · rintro ⟨h1, h2⟩; nlinarith

theorem axisBall_surface {c R : ℝ} (hR : 0 < R) (t : ℝ) :
    axisRay.at t ∈ (axisBall c R).surface ↔ t = c - R ∨ t = c + R := by
  show OnSphere ⟨c, 0, 0⟩ R (lineAt axisRay.position axisRay.direction t) ↔ _
  rw [onSphere_iff]
  simp only [lineAt, axisRay, dot, add_x, add_y, add_z, sub_x, sub_y, sub_z, smul_x, smul_y, smul_z]
  constructor
  · intro h
    have : (t - (c - R)) * (t - (c + R)) = 0 := by linear_combination h
    rcases mul_eq_zero.mp this with h | h
    · left; linarith
    · right; linarith
  · rintro (rfl | rfl) <;> ring

theorem axisBall_general {c R : ℝ} (hR : 0 < R) (h0 : c - R < 0 ∨ 1e-12 < c - R)
    (h1 : c + R < 0 ∨ 1e-12 < c + R) : (axisBall c R).General axisRay := by
  refine ⟨id, fun t _ => ⟨c, (axisBall_solid hR c).mpr ⟨by linarith, by linarith⟩⟩, fun t ht ht' h => ?_⟩
  rcases (axisBall_surface hR t).mp h with rfl | rfl
  · rcases h0 with h | h <;> linarith
  · rcases h1 with h | h <;> linarith

theorem axisBall_noTie {c R d S : ℝ} (hR : 0 < R) (hS : 0 < S) (h1 : c - R ≠ d - S) (h2 : c - R ≠ d + S)
    (h3 : c + R ≠ d - S) (h4 : c + R ≠ d + S) : NoTie axisRay (axisBall c R) (axisBall d S) := by
  intro t _ h h'
  rcases (axisBall_surface hR t).mp h with rfl | rfl <;>
  rcases (axisBall_surface hS _).mp h' with h | h <;> contradiction

theorem axisBall_start {c R : ℝ} (hR : 0 < R) :
    axisRay.position ∈ (axisBall c R).solid ↔ c - R < 0 ∧ 0 < c + R := by
  rw [← at_zero, axisBall_solid hR]

/-- A ball in front of the ray: what its leaf reports. -/
theorem axisBall_passes {c R : ℝ} (hR : 0 < R) (h : 1e-12 < c - R) :
    ∃ r, testTreeIntersect (Csg.prim (axisBall c R)).tree axisRay = .ok (.six r) ∧ r.hit = true ∧
      r.pt1 = some (axisRay.at (c + R)) ∧
      helperFindIntersects r axisRay .nearest = .ok ⟨some (axisRay.at (c - R)),
        some ((axisBall c R).normalAt (axisRay.at (c - R))), some (c - R), 2⟩ ∧
      helperFindIntersects r axisRay .farthest = .ok ⟨some (axisRay.at (c + R)),
        some ((axisBall c R).normalAt (axisRay.at (c + R))), some (c + R), 2⟩ := by
  have hd : dot axisRay.direction axisRay.direction = 1 := by norm_num [dot, axisRay]
  have hD : sphDisc ⟨c, 0, 0⟩ axisRay.position axisRay.direction R = R ^ 2 := by
    simp only [sphDisc, axisRay, dot, sub_x, sub_y, sub_z]; ring
  have hq : dot axisRay.direction ((⟨c, 0, 0⟩ : V3 ℝ) - axisRay.position) = c := by
    simp only [axisRay, dot, sub_x, sub_y, sub_z]; ring
  refine ⟨(⟨⟨c, 0, 0⟩, R, 2 * R⟩ : Sphere ℝ).testIntersect axisRay, rfl, ?_⟩
  rw [sphere_eq]
  simp only [hD, hq, Real.sqrt_sq hR.le]
  rw [if_pos (by positivity), if_pos h]
  have := helper_through (ray := axisRay) hd (t0 := c - R) (t1 := c + R) h (by linarith) (Or.inr rfl)
    (n0 := (axisBall c R).normalAt (axisRay.at (c - R))) (n1 := (axisBall c R).normalAt (axisRay.at (c + R)))
    (k := 2)
  exact ⟨rfl, rfl, this.1, this.2⟩

/-! ## C25 -/

/-- C25 applies: three overlapping balls ahead of the ray, the nearest one last in the tree.  The union is
entered at distance 1. -/
example : ∃ r, testTreeIntersect
      (Csg.op .union (.op .union (.prim (axisBall 5 1)) (.prim (axisBall 6 3))) (.prim (axisBall 2 1))).tree axisRay
        = .ok (.six r) ∧ r.pt1 = some (axisRay.at 1) := by
  have u := axisRay_unit
  obtain ⟨r, h1, h2, h3, -⟩ := C25_union .union (.op .union (.prim (axisBall 5 1)) (.prim (axisBall 6 3)))
    (.prim (axisBall 2 1)) ⟨rfl, ⟨rfl, trivial, trivial⟩, trivial⟩
    ⟨⟨show (0 : ℝ) < 1 by norm_num, show (0 : ℝ) < 3 by norm_num⟩, show (0 : ℝ) < 1 by norm_num⟩ axisRay u
    ⟨⟨axisBall_general (by norm_num) (by norm_num) (by norm_num),
      axisBall_general (by norm_num) (by norm_num) (by norm_num)⟩,
      axisBall_general (by norm_num) (by norm_num) (by norm_num)⟩
    (by
      rintro ((h | h) | h)
      · exact absurd ((axisBall_start (by norm_num)).mp h) (by norm_num)
      · exact absurd ((axisBall_start (by norm_num)).mp h) (by norm_num)
      · exact absurd ((axisBall_start (by norm_num)).mp h) (by norm_num))
  refine ⟨r, h1, ?_⟩
  have hf : FirstCrossing axisRay ((Csg.op .union (.op .union (.prim (axisBall 5 1)) (.prim (axisBall 6 3)))
      (.prim (axisBall 2 1))).den Prim.solid) 1 := by
    refine firstCrossing_entry (t1 := 3) (by norm_num) (by norm_num) ?_ ?_
    · rintro t ht ht' ((h | h) | h)
      · have := (axisBall_solid (by norm_num) t).mp h; linarith
      · have := (axisBall_solid (by norm_num) t).mp h; linarith
      · have := (axisBall_solid (by norm_num) t).mp h; linarith
    · intro t ht ht'
      exact Or.inr ((axisBall_solid (by norm_num) t).mpr ⟨by linarith, by linarith⟩)
  rcases h3 with ⟨_, h⟩ | ⟨_, t, ht, h⟩
  · exact absurd h (not_never_of_first hf)
  · rw [ht, firstCrossing_unique h hf]

/-- C25 needs a start outside: from inside the overlap of two balls the union node reports a point in the
interior of the union. -/
theorem C25_union_inside_wrong :
    ¬ Correct axisRay ((axisBall 0 1).solid ∪ (axisBall 1 3).solid)
      (testTreeIntersect (Csg.op .union (.prim (axisBall 0 1)) (.prim (axisBall 1 3))).tree axisRay) := by
  rw [C25_union_correct_iff (axisBall 0 1) (axisBall 1 3) (show (0 : ℝ) < 1 by norm_num) (show (0 : ℝ) < 3 by norm_num) axisRay axisRay_unit
    (axisBall_general (by norm_num) (by norm_num) (by norm_num))
    (axisBall_general (by norm_num) (by norm_num) (by norm_num))
    (axisBall_noTie (by norm_num) (by norm_num) (by norm_num) (by norm_num) (by norm_num) (by norm_num))]
  rintro (⟨h, _⟩ | ⟨h, _⟩)
  · exact h ((axisBall_start (by norm_num)).mpr (by norm_num))
  · refine h (iff_of_true ((axisBall_start (by norm_num)).mpr (by norm_num))
      ((axisBall_start (by norm_num)).mpr (by norm_num)))

/-- C25 needs an operator at the root: a tree that is a single sphere reports the far point first. -/
theorem C25_lone_sphere_far_point :
    ∃ r, testTreeIntersect (Csg.prim (axisBall 5 1)).tree axisRay = .ok (.six r) ∧
      r.pt1 = some (axisRay.at 6) ∧ FirstCrossing axisRay (axisBall 5 1).solid 4 := by
  obtain ⟨r, h1, _, h3, _⟩ := axisBall_passes (c := 5) (R := 1) (by norm_num) (by norm_num)
  refine ⟨r, h1, by rw [h3]; norm_num, firstCrossing_entry (t1 := 6) (by norm_num) (by norm_num) ?_ ?_⟩
  · intro t ht ht' h
    have := (axisBall_solid (by norm_num) t).mp h; linarith
  · intro t ht ht'
    exact (axisBall_solid (by norm_num) t).mpr ⟨by linarith, by linarith⟩

/-! ## C26 -/

/-- C26 applies: the lens-shaped common part of two balls, entered at distance 3. -/
example : ∃ r, testTreeIntersect (Csg.op .intersect (.prim (axisBall 3 1)) (.prim (axisBall 4 1))).tree axisRay
    = .ok (.six r) ∧ r.pt1 = some (axisRay.at 3) := by
  obtain ⟨r, h1, h2, -⟩ := C26_intersect_partial (axisBall 3 1) (axisBall 4 1) (show (0 : ℝ) < 1 by norm_num)
    (show (0 : ℝ) < 1 by norm_num) axisRay axisRay_unit
    (axisBall_general (by norm_num) (by norm_num) (by norm_num))
    (axisBall_general (by norm_num) (by norm_num) (by norm_num))
    (axisBall_noTie (by norm_num) (by norm_num) (by norm_num) (by norm_num) (by norm_num) (by norm_num))
  refine ⟨r, h1, ?_⟩
  have hf : FirstCrossing axisRay ((axisBall 3 1).solid ∩ (axisBall 4 1).solid) 3 := by
    refine firstCrossing_entry (t1 := 4) (by norm_num) (by norm_num) ?_ ?_
    · intro t ht ht' h
      have := (axisBall_solid (by norm_num) t).mp h.2; linarith
    · intro t ht ht'
      exact ⟨(axisBall_solid (by norm_num) t).mpr ⟨by linarith, by linarith⟩,
        (axisBall_solid (by norm_num) t).mpr ⟨by linarith, by linarith⟩⟩
  rcases h2 with ⟨_, h⟩ | ⟨_, t, ht, h⟩
  · exact absurd h (not_never_of_first hf)
  · rw [ht, firstCrossing_unique h hf]

/-- C26 is false when the ray meets both surfaces at the same point: the intersection of any primitive
with itself is missed by every ray that passes through it from outside. -/
theorem C26_self_intersection_missed (A : Prim ℝ) (hA : A.Solid) (ray : Ray ℝ) (hd : ‖ray.direction.toE‖ = 1)
    (gA : A.General ray) (hout : ray.position ∉ A.solid) (t : ℝ) (ht : 0 ≤ t) (hin : ray.at t ∈ A.solid) :
    ∃ r, testTreeIntersect (Csg.op .intersect (.prim A) (.prim A)).tree ray = .ok (.six r) ∧ r.hit = false := by
  rw [norm_toE, norm_eq_one_iff] at hd
  obtain ⟨r, e, p⟩ := prim_passes A hA ray hd gA
  refine ⟨Hit6.miss (r.count + r.count), ?_, rfl⟩
  rw [tree_op_eq .intersect _ _ ray r r e e]
  simp only
  cases p with
  | never h => exact absurd hin (h t ht)
  | through a0 a1 ha0 ha01 sa0 sa1 hain _ hita near far =>
    simp [operCsgIntersect, hita, near, far, bind, Except.bind, pyLt, pure, Except.pure, Except.map]
  | leave a1 ha1 sa1 hain _ hita botha =>
    exact absurd ((hain 0 le_rfl).mpr (by linarith)) (by rw [at_zero]; exact hout)

/-- The concrete case: a ball intersected with itself. -/
theorem C26_counterexample :
    ¬ Correct axisRay ((axisBall 5 1).solid ∩ (axisBall 5 1).solid)
      (testTreeIntersect (Csg.op .intersect (.prim (axisBall 5 1)) (.prim (axisBall 5 1))).tree axisRay) := by
  obtain ⟨r, h1, h2⟩ := C26_self_intersection_missed (axisBall 5 1) (show (0 : ℝ) < 1 by norm_num) axisRay
    axisRay_unit (axisBall_general (by norm_num) (by norm_num) (by norm_num))
    (fun h => by have := (axisBall_start (by norm_num)).mp h; norm_num at this) 5 (by norm_num)
    ((axisBall_solid (by norm_num) 5).mpr (by norm_num))
  rw [h1, correct_ok]
  have hf : FirstCrossing axisRay ((axisBall 5 1).solid ∩ (axisBall 5 1).solid) 4 := by
    rw [Set.inter_self]
    refine firstCrossing_entry (t1 := 6) (by norm_num) (by norm_num) ?_ ?_
    · intro t ht ht' h
      have := (axisBall_solid (by norm_num) t).mp h; linarith
    · intro t ht ht'
      exact (axisBall_solid (by norm_num) t).mpr ⟨by linarith, by linarith⟩
  rintro (⟨_, h⟩ | ⟨h, _⟩)
  · exact not_never_of_first hf h
  · rw [h2] at h; cases h

/-- C26 is false of nested intersections: three balls have a common part that the ray enters at distance
3, but the tree `(A n B) n C` reports a miss, because the result of the inner node carries one point and
is taken for a ray starting inside. -/
theorem C26_nested_counterexample :
    ¬ Correct axisRay (((axisBall 5 4).solid ∩ (axisBall 6 4).solid) ∩ (axisBall 7 4).solid)
      (testTreeIntersect (Csg.op .intersect (.op .intersect (.prim (axisBall 5 4)) (.prim (axisBall 6 4)))
        (.prim (axisBall 7 4))).tree axisRay) := by
  have hd : dot axisRay.direction axisRay.direction = 1 := by norm_num [dot, axisRay]
  obtain ⟨ra, ea, hita, -, na, fa⟩ := axisBall_passes (c := 5) (R := 4) (by norm_num) (by norm_num)
  obtain ⟨rb, eb, hitb, -, nb, fb⟩ := axisBall_passes (c := 6) (R := 4) (by norm_num) (by norm_num)
  obtain ⟨rc, ec, hitc, -, nc, fc⟩ := axisBall_passes (c := 7) (R := 4) (by norm_num) (by norm_num)
  have e1 : operCsgIntersect ra rb axisRay = .ok ⟨true, some (axisRay.at (6 - 4)), none,
      some ((axisBall 6 4).normalAt (axisRay.at (6 - 4))), none, ra.count + rb.count⟩ := by
    simp only [operCsgIntersect, hita, hitb, na, nb, fa, fb, bind, Except.bind, pyLt, pure, Except.pure]
    norm_num
  have e2 := tree_op_eq .intersect _ _ axisRay ra rb ea eb
  simp only at e2
  rw [e1] at e2
  have h1 := fun m => helper_one (ray := axisRay) hd (t := 6 - 4) (by norm_num)
    ⟨true, some (axisRay.at (6 - 4)), none,
      some ((axisBall 6 4).normalAt (axisRay.at (6 - 4))), none, ra.count + rb.count⟩ rfl rfl m
  rw [tree_op_eq .intersect _ _ axisRay _ rc e2 ec]
  simp only
  have e3 : operCsgIntersect ⟨true, some (axisRay.at (6 - 4)), none,
      some ((axisBall 6 4).normalAt (axisRay.at (6 - 4))), none, ra.count + rb.count⟩ rc axisRay
      = .ok (Hit6.miss (ra.count + rb.count + rc.count)) := by
    simp only [operCsgIntersect, hitc, h1, nc, fc, bind, Except.bind, pyLt, pure, Except.pure]
    norm_num
  rw [e3]
  refine fun h => not_never_of_first (u := 3) ?_ (describes_miss.mp (correct_ok.mp h))
  refine firstCrossing_entry (t1 := 9) (by norm_num) (by norm_num) ?_ ?_
  · intro t ht ht' h
    have := (axisBall_solid (by norm_num) t).mp h.2; linarith
  · intro t ht ht'
    refine ⟨⟨?_, ?_⟩, ?_⟩ <;> refine (axisBall_solid (by norm_num) t).mpr ⟨?_, ?_⟩ <;> linarith

/-! ## C27 -/

/-- C27 applies: a bite out of the far side of a ball; entered at distance 2. -/
example : Correct axisRay ((axisBall 5 3).solid \ (axisBall 8 1).solid)
    (testTreeIntersect (Csg.op .difference (.prim (axisBall 5 3)) (.prim (axisBall 8 1))).tree axisRay) := by
  rw [C27_difference_correct_iff_partial (axisBall 5 3) (axisBall 8 1) (show (0 : ℝ) < 3 by norm_num) (show (0 : ℝ) < 1 by norm_num) axisRay
    axisRay_unit
    (axisBall_general (by norm_num) (by norm_num) (by norm_num))
    (axisBall_general (by norm_num) (by norm_num) (by norm_num))
    (axisBall_noTie (by norm_num) (by norm_num) (by norm_num) (by norm_num) (by norm_num) (by norm_num))]
  refine Or.inr (Or.inl ⟨?_, ?_, 5, 8, by norm_num, by norm_num, ?_, ?_⟩)
  · rw [axisBall_start (by norm_num)]; norm_num
  · rw [axisBall_start (by norm_num)]; norm_num
  · rw [axisBall_solid (by norm_num)]; norm_num
  · rw [axisBall_solid (by norm_num)]; norm_num

/-- C27 is false: whenever the ray hits A and misses B the call raises `ValueError`, for every pair of
results of the operands and over every number type. -/
theorem C27_only_A_raises {α : Type} [PyNum α] (resA resB : Hit6 α) (ray : Ray α) (ha : resA.hit = true)
    (hp : ∃ p, resA.pt1 = some p) (hb : resB.hit = false) :
    operCsgDifference resA resB ray = .error .valueError := by
  obtain ⟨p, hp⟩ := hp
  rcases resA with ⟨h, p1, p2, n1, n2, c⟩
  simp only at ha hp
  subst ha hp
  cases p2 with
  | none => simp [operCsgDifference, hb, helperFindIntersects, bind, Except.bind]
  | some q =>
    simp only [operCsgDifference, hb, helperFindIntersects, bind, Except.bind, Bool.and_false, if_true,
      Bool.false_eq_true, if_false]
    by_cases c : distanceBetween ray.position p < distanceBetween ray.position q
    · rw [if_pos c]
    · rw [if_neg c]

/-- C27 is false: with B wholly in front of A the reported point is the exit from B, in empty space. -/
theorem C27_counterexample_front :
    ¬ Correct axisRay ((axisBall 8 1).solid \ (axisBall 3 1).solid)
      (testTreeIntersect (Csg.op .difference (.prim (axisBall 8 1)) (.prim (axisBall 3 1))).tree axisRay) := by
  rw [C27_difference_correct_iff_partial (axisBall 8 1) (axisBall 3 1) (show (0 : ℝ) < 1 by norm_num) (show (0 : ℝ) < 1 by norm_num) axisRay
    axisRay_unit
    (axisBall_general (by norm_num) (by norm_num) (by norm_num))
    (axisBall_general (by norm_num) (by norm_num) (by norm_num))
    (axisBall_noTie (by norm_num) (by norm_num) (by norm_num) (by norm_num) (by norm_num) (by norm_num))]
  rintro (h | ⟨_, _, t, s, ht, hs, h1, h2⟩ | ⟨h, _⟩ | ⟨h, _⟩)
  · exact h 8 (by norm_num) ((axisBall_solid (by norm_num) 8).mpr (by norm_num))
  · have := (axisBall_solid (by norm_num) t).mp h1
    have := (axisBall_solid (by norm_num) s).mp h2
    linarith
  · have := (axisBall_start (by norm_num)).mp h; norm_num at this
  · have := (axisBall_start (by norm_num)).mp h; norm_num at this

/-- C27 is false: from inside A with a hole B ahead, the entry into the hole is not the point reported. -/
theorem C27_counterexample_inside :
    ¬ Correct axisRay ((axisBall 0 9).solid \ (axisBall 4 1).solid)
      (testTreeIntersect (Csg.op .difference (.prim (axisBall 0 9)) (.prim (axisBall 4 1))).tree axisRay) := by
  rw [C27_difference_correct_iff_partial (axisBall 0 9) (axisBall 4 1) (show (0 : ℝ) < 9 by norm_num) (show (0 : ℝ) < 1 by norm_num) axisRay
    axisRay_unit
    (axisBall_general (by norm_num) (by norm_num) (by norm_num))
    (axisBall_general (by norm_num) (by norm_num) (by norm_num))
    (axisBall_noTie (by norm_num) (by norm_num) (by norm_num) (by norm_num) (by norm_num) (by norm_num))]
  rintro (h | ⟨h, _⟩ | ⟨_, h, _⟩ | ⟨_, _, _, h⟩)
  · exact h 0 (by norm_num) ((axisBall_solid (by norm_num) 0).mpr (by norm_num))
  · exact h ((axisBall_start (by norm_num)).mpr (by norm_num))
  · have := (axisBall_start (by norm_num)).mp h; norm_num at this
  · exact h 4 (by norm_num) ⟨(axisBall_solid (by norm_num) 4).mpr (by norm_num),
      (axisBall_solid (by norm_num) 4).mpr (by norm_num)⟩

/-- C28 is false: a ball minus another ball that the ray does not meet raises `ValueError`. -/
theorem C28_counterexample :
    testTreeIntersect (Csg.op .difference (.prim (axisBall 5 1))
      (.prim (.sphere ⟨⟨5, 10, 0⟩, 1, 2⟩))).tree axisRay = .error .valueError := by
  obtain ⟨ra, ea, hita, hp, -⟩ := axisBall_passes (c := 5) (R := 1) (by norm_num) (by norm_num)
  have hb : ((⟨⟨5, 10, 0⟩, 1, 2⟩ : Sphere ℝ).testIntersect axisRay).hit = false := by
    have hD : sphDisc ⟨5, 10, 0⟩ axisRay.position axisRay.direction 1 = -99 := by
      simp only [sphDisc, axisRay, dot, sub_x, sub_y, sub_z]; norm_num
    rw [sphere_eq]
    simp only [hD]
    rw [if_neg (by norm_num), if_neg (by norm_num)]
    rfl
  rw [tree_op_eq .difference _ _ axisRay ra ((⟨⟨5, 10, 0⟩, 1, 2⟩ : Sphere ℝ).testIntersect axisRay) ea rfl]
  simp only
  rw [C27_only_A_raises ra _ axisRay hita ⟨_, hp⟩ hb]
  rfl

/-- C28 applies: the same two balls under union and intersect. -/
example : ∃ r, testTreeIntersect (Csg.op .union (.op .intersect (.prim (axisBall 5 1)) (.prim (axisBall 5 2)))
    (.prim (axisBall 9 1))).tree axisRay = .ok (.six r) ∧ (r.hit = true → ∃ p, r.pt1 = some p) :=
  C28_returns_partial (.op .union (.op .intersect (.prim (axisBall 5 1)) (.prim (axisBall 5 2)))
    (.prim (axisBall 9 1))) ⟨⟨trivial, trivial⟩, trivial⟩ ⟨by decide, ⟨by decide, trivial, trivial⟩, trivial⟩ axisRay

end Optics
