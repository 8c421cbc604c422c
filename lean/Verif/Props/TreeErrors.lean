import Verif.Spec.Csg

/-!
# C28: which trees `test_tree_intersect` accepts

Over every number type, hence also for IEEE doubles.
-/

namespace Optics
open V3
variable {α : Type} [PyNum α]

/-- A primitive whose `test_intersect` does not divide by zero. -/
def Prim.NonzeroRadius : Prim α → Prop
  | .sphere _ => True
  | .cylinder c => PyNum.eqb c.R 0.0 = false

/-- A result in which a hit comes with a point. -/
def Pointed (r : Hit6 α) : Prop := r.hit = true → ∃ p, r.pt1 = some p

theorem sphere_pointed (s : Sphere α) (ray : Ray α) : Pointed (s.testIntersect ray) := by
  unfold Sphere.testIntersect Pointed
  simp only
  split_ifs <;> first | exact fun _ => ⟨_, rfl⟩ | exact fun h => by cases h

theorem cylinder_pointed (c : InfiniteCylinder α) (h : PyNum.eqb c.R 0.0 = false) (ray : Ray α) :
    ∃ r, c.testIntersect ray = .ok r ∧ Pointed r := by
  unfold InfiniteCylinder.testIntersect
  rw [h]
  simp only [Bool.false_eq_true, if_false]
  split
  · split_ifs <;> first | exact ⟨_, rfl, fun _ => ⟨_, rfl⟩⟩ | exact ⟨_, rfl, fun h => by cases h⟩
  · exact ⟨_, rfl, fun _ => ⟨_, rfl⟩⟩
  · exact ⟨_, rfl, fun h => by cases h⟩

theorem helper_pointed (r : Hit6 α) (h : ∃ p, r.pt1 = some p) (ray : Ray α) (m : Mode) :
    ∃ p n d k, helperFindIntersects r ray m = .ok ⟨some p, n, some d, k⟩ := by
  obtain ⟨p, hp⟩ := h
  unfold helperFindIntersects
  rw [hp]
  cases r.pt2 with
  | none => exact ⟨_, _, _, _, rfl⟩
  | some q =>
    cases m
    · simp only; split_ifs <;> exact ⟨_, _, _, _, rfl⟩
    · simp only; split_ifs <;> exact ⟨_, _, _, _, rfl⟩

theorem union_pointed (a b : Hit6 α) (ha : Pointed a) (hb : Pointed b) (ray : Ray α) :
    ∃ r, operCsgUnion a b ray = .ok r ∧ Pointed r := by
  unfold operCsgUnion
  cases h1 : a.hit <;> cases h2 : b.hit
  · exact ⟨_, rfl, fun h => by cases h⟩
  · obtain ⟨p, n, d, k, e⟩ := helper_pointed b (hb h2) ray .nearest
    simp only [e, bind, Except.bind]
    exact ⟨_, rfl, fun _ => ⟨_, rfl⟩⟩
  · obtain ⟨p, n, d, k, e⟩ := helper_pointed a (ha h1) ray .nearest
    simp only [e, bind, Except.bind]
    exact ⟨_, rfl, fun _ => ⟨_, rfl⟩⟩
  · obtain ⟨p, n, d, k, e⟩ := helper_pointed a (ha h1) ray .nearest
    obtain ⟨p', n', d', k', e'⟩ := helper_pointed b (hb h2) ray .nearest
    simp only [e, e', bind, Except.bind, pyLt, Bool.and_self, if_true]
    cases decide (d < d') <;> exact ⟨_, rfl, fun _ => ⟨_, rfl⟩⟩

theorem intersect_pointed (a b : Hit6 α) (ha : Pointed a) (hb : Pointed b) (ray : Ray α) :
    ∃ r, operCsgIntersect a b ray = .ok r ∧ Pointed r := by
  unfold operCsgIntersect
  cases h1 : a.hit <;> cases h2 : b.hit
  · exact ⟨_, rfl, fun h => by cases h⟩
  · exact ⟨_, rfl, fun h => by cases h⟩
  · exact ⟨_, rfl, fun h => by cases h⟩
  · obtain ⟨p, n, d, k, e⟩ := helper_pointed a (ha h1) ray .nearest
    obtain ⟨p', n', d', k', e'⟩ := helper_pointed b (hb h2) ray .nearest
    obtain ⟨q, m, f, l, g⟩ := helper_pointed a (ha h1) ray .farthest
    obtain ⟨q', m', f', l', g'⟩ := helper_pointed b (hb h2) ray .farthest
    simp only [e, e', g, g', bind, Except.bind, pyLt, Bool.and_self, if_true, pure, Except.pure]
    split_ifs <;> first | exact ⟨_, rfl, fun _ => ⟨_, rfl⟩⟩ | exact ⟨_, rfl, fun h => by cases h⟩

theorem difference_pointed (a b : Hit6 α) (ha : Pointed a) (hb : Pointed b) (ray : Ray α) :
    (∃ r, operCsgDifference a b ray = .ok r ∧ Pointed r ∧ (a.hit = true → b.hit = true)) ∨
    (operCsgDifference a b ray = .error .valueError ∧ a.hit = true ∧ b.hit = false) := by
  unfold operCsgDifference
  cases h1 : a.hit <;> cases h2 : b.hit
  · exact Or.inl ⟨_, rfl, (fun h => by cases h), (fun h => by cases h)⟩
  · exact Or.inl ⟨_, rfl, (fun h => by cases h), (fun h => by cases h)⟩
  · obtain ⟨p, n, d, k, e⟩ := helper_pointed a (ha h1) ray .nearest
    refine Or.inr ⟨?_, rfl, rfl⟩
    simp only [e, bind, Except.bind]
    rfl
  · obtain ⟨p, n, d, k, e⟩ := helper_pointed a (ha h1) ray .nearest
    obtain ⟨p', n', d', k', e'⟩ := helper_pointed b (hb h2) ray .nearest
    obtain ⟨q, m, f, l, g⟩ := helper_pointed a (ha h1) ray .farthest
    obtain ⟨q', m', f', l', g'⟩ := helper_pointed b (hb h2) ray .farthest
    left
    simp only [e, e', g, g', bind, Except.bind, pyLt, Bool.and_self, if_true, pure, Except.pure]
    split_ifs <;> first
      | exact ⟨_, rfl, (fun _ => ⟨_, rfl⟩), fun _ => trivial⟩
      | exact ⟨_, rfl, (fun h => by cases h), fun _ => trivial⟩

theorem tree_total (e : Csg (Prim α)) (hz : e.All Prim.NonzeroRadius) (ray : Ray α) :
    (∃ r, testTreeIntersect e.tree ray = .ok (.six r) ∧ Pointed r) ∨
    (testTreeIntersect e.tree ray = .error .valueError ∧ ¬ e.NoDifference) := by
  induction e with
  | prim p =>
    cases p with
    | sphere s => exact Or.inl ⟨_, rfl, sphere_pointed s ray⟩
    | cylinder c =>
      obtain ⟨r, h, hp⟩ := cylinder_pointed c hz ray
      refine Or.inl ⟨r, ?_, hp⟩
      show (do return IntersectResult.six (← c.testIntersect ray)) = _
      rw [h]; rfl
  | op o a b iha ihb =>
    have hstep : testTreeIntersect (Csg.op o a b).tree ray =
        (do let resA ← testTreeIntersect a.tree ray
            let resB ← testTreeIntersect b.tree ray
            match resA, resB with
            | .none, _ => Key.testIntersect (.str o.name) ray
            | _, .none => Key.testIntersect (.str o.name) ray
            | a, b => do
              let oper ← intersectOper (α := α) (.str o.name)
              let a6 ← asHit6 a
              let b6 ← asHit6 b
              return .six (← oper a6 b6 ray)) := by
      rfl
    rcases iha hz.1 with ⟨ra, ea, pa⟩ | ⟨ea, na⟩
    · rcases ihb hz.2 with ⟨rb, eb, pb⟩ | ⟨eb, nb⟩
      · rw [hstep, ea, eb]
        cases o with
        | union =>
          obtain ⟨r, h, hp⟩ := union_pointed ra rb pa pb ray
          refine Or.inl ⟨r, ?_, hp⟩
          show (do return IntersectResult.six (← operCsgUnion ra rb ray)) = _
          rw [h]; rfl
        | intersect =>
          obtain ⟨r, h, hp⟩ := intersect_pointed ra rb pa pb ray
          refine Or.inl ⟨r, ?_, hp⟩
          show (do return IntersectResult.six (← operCsgIntersect ra rb ray)) = _
          rw [h]; rfl
        | difference =>
          rcases difference_pointed ra rb pa pb ray with ⟨r, h, hp, _⟩ | ⟨h, _, _⟩
          · refine Or.inl ⟨r, ?_, hp⟩
            show (do return IntersectResult.six (← operCsgDifference ra rb ray)) = _
            rw [h]; rfl
          · refine Or.inr ⟨?_, fun h => h.1 rfl⟩
            show (do return IntersectResult.six (← operCsgDifference ra rb ray)) = _
            rw [h]; rfl
      · refine Or.inr ⟨?_, fun h => nb h.2.2⟩
        rw [hstep, ea, eb]; rfl
    · refine Or.inr ⟨?_, fun h => na h.2.1⟩
      rw [hstep, ea]; rfl

/-- C28, the true part: without difference operators `test_tree_intersect` returns a 6-tuple, with a point
whenever it reports a hit, for every tree of spheres and cylinders of nonzero radius and every ray.  What
is missing: difference operators, see `C28_counterexample` and `C28_only_value_error`. -/
theorem C28_returns_partial (e : Csg (Prim α)) (hz : e.All Prim.NonzeroRadius) (hn : e.NoDifference)
    (ray : Ray α) :
    ∃ r, testTreeIntersect e.tree ray = .ok (.six r) ∧ (r.hit = true → ∃ p, r.pt1 = some p) := by
  rcases tree_total e hz ray with h | ⟨_, h⟩
  · exact h
  · exact absurd hn h

/-- C28: with difference operators the only possible exception is the `ValueError` of line 613. -/
theorem C28_only_value_error (e : Csg (Prim α)) (hz : e.All Prim.NonzeroRadius) (ray : Ray α) :
    (∃ r, testTreeIntersect e.tree ray = .ok (.six r)) ∨ testTreeIntersect e.tree ray = .error .valueError := by
  rcases tree_total e hz ray with ⟨r, h, _⟩ | ⟨h, _⟩
  · exact Or.inl ⟨r, h⟩
  · exact Or.inr h

/-- C28: a single difference of primitives raises exactly if the ray hits A and misses B. -/
theorem C28_difference_raises_iff (A B : Prim α) (hA : A.NonzeroRadius) (hB : B.NonzeroRadius) (ray : Ray α) :
    testTreeIntersect (Csg.op .difference (.prim A) (.prim B)).tree ray = .error .valueError ↔
      ∃ ra rb, A.toShape.testIntersect ray = .ok (.six ra) ∧ B.toShape.testIntersect ray = .ok (.six rb) ∧
        ra.hit = true ∧ rb.hit = false := by
  have key : ∀ p : Prim α, p.NonzeroRadius → ∃ r, p.toShape.testIntersect ray = .ok (.six r) ∧ Pointed r := by
    intro p hp
    cases p with
    | sphere s => exact ⟨_, rfl, sphere_pointed s ray⟩
    | cylinder c =>
      obtain ⟨r, h, hq⟩ := cylinder_pointed c hp ray
      refine ⟨r, ?_, hq⟩
      show (do return IntersectResult.six (← c.testIntersect ray)) = _
      rw [h]; rfl
  obtain ⟨ra, ea, pa⟩ := key A hA
  obtain ⟨rb, eb, pb⟩ := key B hB
  have h : testTreeIntersect (Csg.op .difference (.prim A) (.prim B)).tree ray
      = (do return IntersectResult.six (← operCsgDifference ra rb ray)) := by
    have ea' : testTreeIntersect (Tree.node (Key.shape A.toShape) .nil .nil) ray = .ok (.six ra) := ea
    have eb' : testTreeIntersect (Tree.node (Key.shape B.toShape) .nil .nil) ray = .ok (.six rb) := eb
    show testTreeIntersect (.node _ (Tree.node _ .nil .nil) (Tree.node _ .nil .nil)) ray = _
    rw [testTreeIntersect, ea', eb']
    rfl
  rw [h]
  rcases difference_pointed ra rb pa pb ray with ⟨r, h, hp, hi⟩ | ⟨h, h1, h2⟩
  · rw [h]
    constructor
    · intro h; cases h
    · rintro ⟨ra', rb', ea', eb', h1, h2⟩
      rw [ea] at ea'; cases ea'
      rw [eb] at eb'; cases eb'
      rw [hi h1] at h2; cases h2
  · rw [h]
    exact iff_of_true rfl ⟨ra, rb, ea, eb, h1, h2⟩

/-! ### Ill-formed trees -/

/-- C28: an operator node of two subtrees that return results, whose name is not one of the three, raises
`KeyError`. -/
theorem C28_unknown_operator (name : String) (l r : Tree (Key α)) (ray : Ray α) (a b : IntersectResult α)
    (hl : testTreeIntersect l ray = .ok a) (hr : testTreeIntersect r ray = .ok b)
    (ha : a ≠ .none) (hb : b ≠ .none)
    (hn : name ≠ "union" ∧ name ≠ "difference" ∧ name ≠ "intersect") :
    testTreeIntersect (.node (.str name) l r) ray = .error .keyError := by
  rw [testTreeIntersect, hl, hr]
  have hk : intersectOper (α := α) (.str name) = .error .keyError := by
    simp [intersectOper, hn.1, hn.2.1, hn.2.2]
  cases a <;> cases b <;> first | contradiction | (simp only [bind, Except.bind, hk])

/-- C28: a flat shape (3-tuple result) below an operator raises `IndexError`, on either side. -/
theorem C28_flat_leaf (o : CsgOp) (l r : Tree (Key α)) (ray : Ray α) (a b : IntersectResult α)
    (hl : testTreeIntersect l ray = .ok a) (hr : testTreeIntersect r ray = .ok b)
    (ha : a ≠ .none) (hb : b ≠ .none) (hflat : (∃ h, a = .three h) ∨ ∃ h, b = .three h) :
    testTreeIntersect (.node (.str o.name) l r) ray = .error .indexError := by
  have hk : ∃ f, intersectOper (α := α) (.str o.name) = .ok f := by cases o <;> exact ⟨_, rfl⟩
  obtain ⟨f, hk⟩ := hk
  rw [testTreeIntersect, hl, hr]
  cases a <;> cases b <;> first
    | contradiction
    | (simp only [bind, Except.bind, hk, asHit6]; done)
    | (rcases hflat with ⟨h, e⟩ | ⟨h, e⟩ <;> cases e)

/-- C28: planes, rectangles and circles with a normal are such flat leaves. -/
theorem C28_flat_leaves (ray : Ray α) (s : Shape α)
    (hs : (∃ p, s = .plane p) ∨ (∃ q, s = .rectangle q) ∨ (∃ c pl, s = .circle c ∧ c.plane = some pl)) :
    ∃ h, testTreeIntersect (.node (.shape s) .nil .nil) ray = .ok (.three h) := by
  rcases hs with ⟨p, rfl⟩ | ⟨q, rfl⟩ | ⟨c, pl, rfl, hc⟩
  · exact ⟨_, rfl⟩
  · exact ⟨_, rfl⟩
  · have : ∃ h, c.testIntersect ray = .ok h := by
      unfold Circle.testIntersect
      rw [hc]
      simp only
      split
      · split_ifs <;> exact ⟨_, rfl⟩
      · exact ⟨_, rfl⟩
    obtain ⟨h, e⟩ := this
    refine ⟨h, ?_⟩
    show (do return IntersectResult.three (← c.testIntersect ray)) = _
    rw [e]; rfl

/-- C28: a finite `Cylinder` leaf (its `test_intersect` returns `None`) below an operator raises
`AttributeError`: the operator's name is asked for `test_intersect`. -/
theorem C28_finite_cylinder_leaf (name : String) (l r : Tree (Key α)) (ray : Ray α) (a b : IntersectResult α)
    (hl : testTreeIntersect l ray = .ok a) (hr : testTreeIntersect r ray = .ok b) (h : a = .none ∨ b = .none) :
    testTreeIntersect (.node (.str name) l r) ray = .error .attributeError := by
  rw [testTreeIntersect, hl, hr]
  cases a <;> cases b <;> first | rfl | (rcases h with h | h <;> cases h)

/-- C28: an operator without children raises `AttributeError`. -/
theorem C28_bare_operator (name : String) (ray : Ray α) :
    testTreeIntersect (.node (.str name) .nil .nil : Tree (Key α)) ray = .error .attributeError := rfl

end Optics
