import Verif.Props.Trees
import Verif.Model.Optics

/-!
# C29: `get_index_at_point`
-/

namespace Optics
open V3

/-- What `get_index_at_point` should return for a list of optics and a point, when every solid is a set:
the index of the first compound containing the point, or 1.  `inside c x` says that `x` is in `c`. -/
inductive IndexAt {α : Type} [PyNum α] (inside : Compound α → Prop) : List (Optic α) → α → Prop where
  | world : IndexAt inside [] 1.0
  | found (c : Compound α) (rest : List (Optic α)) (h : inside c) : IndexAt inside (.compound c :: rest) c.index
  | skip (o : Optic α) (rest : List (Optic α)) (n : α) (h : ∀ c, o = .compound c → ¬ inside c)
      (hr : IndexAt inside rest n) : IndexAt inside (o :: rest) n

/-- C29, any number type: if the point tests of the compounds decide membership then
`get_index_at_point` returns the index of the first compound containing the point, else 1. -/
theorem C29_first_compound {α : Type} [PyNum α] (inside : Compound α → Prop) (x : V3 α) (optics : List (Optic α))
    (h : ∀ c, Optic.compound c ∈ optics → ∃ b, testTreePoint c.tree x = .ok (some b) ∧ (b = true ↔ inside c)) :
    ∃ n, getIndexAtPoint optics x = .ok n ∧ IndexAt inside optics n := by
  induction optics with
  | nil => exact ⟨_, rfl, .world⟩
  | cons o rest ih =>
    obtain ⟨n, e, hn⟩ := ih (fun c hc => h c (List.mem_cons_of_mem _ hc))
    have other : (∀ c, o ≠ .compound c) → o.getIndexAtPointIfInside x = .ok none := by
      intro h; cases o <;> first | rfl | exact absurd rfl (h _)
    cases ho : o with
    | compound c =>
      obtain ⟨b, hb, hb'⟩ := h c (by rw [ho]; exact List.mem_cons_self)
      cases b with
      | true =>
        refine ⟨c.index, ?_, .found c rest (hb'.mp rfl)⟩
        rw [getIndexAtPoint, Optic.getIndexAtPointIfInside, Compound.getIndexAtPointIfInside, hb]
        rfl
      | false =>
        refine ⟨n, ?_, .skip _ rest n (fun c' hc' hin => ?_) hn⟩
        · rw [getIndexAtPoint, Optic.getIndexAtPointIfInside, Compound.getIndexAtPointIfInside, hb]
          exact e
        · cases hc'
          exact absurd (hb'.mpr hin) (by decide)
    | _ =>
      rw [← ho]
      refine ⟨n, ?_, .skip o rest n (fun c hc => by rw [ho] at hc; cases hc) hn⟩
      rw [getIndexAtPoint, other (fun c hc => by rw [ho] at hc; cases hc)]
      exact e

/-- C29 over the reals, for compounds that are CSG expressions of spheres and infinite cylinders: the index
of the first compound whose solid contains the point, else 1; it never raises.  What is missing of the
claim: optics that are not compounds do not count (`C29_counterexample`). -/
theorem C29_index_partial (optics : List (Optic ℝ)) (x : V3 ℝ)
    (h : ∀ c, Optic.compound c ∈ optics → ∃ e : Csg (Prim ℝ), e.All Prim.WellFormed ∧ c.tree = e.tree) :
    ∃ n, getIndexAtPoint optics x = .ok n ∧
      IndexAt (fun c => ∃ e : Csg (Prim ℝ), e.All Prim.WellFormed ∧ c.tree = e.tree ∧ x ∈ e.den Prim.solid)
        optics n := by
  refine C29_first_compound _ x optics (fun c hc => ?_)
  obtain ⟨e, hw, ht⟩ := h c hc
  obtain ⟨b, hb, hb'⟩ := C22_test_tree_point e hw x
  refine ⟨b, by rw [ht, hb], ?_⟩
  rw [hb']
  constructor
  · exact fun hx => ⟨e, hw, ht, hx⟩
  · rintro ⟨e', hw', ht', hx⟩
    obtain ⟨b', h1, h2⟩ := C22_test_tree_point e' hw' x
    rw [← ht', ht, hb] at h1
    cases h1
    exact hb'.mp (h2.mpr hx)

/-- C29 applies: in an air bubble listed before the glass ball that surrounds it the index is that of the
bubble. -/
example : getIndexAtPoint
    [Optic.compound ⟨(Csg.prim (.sphere (⟨⟨0, 0, 0⟩, 1, 2⟩ : Sphere ℝ))).tree, "refract", 1⟩,
     Optic.compound ⟨(Csg.prim (.sphere (⟨⟨0, 0, 0⟩, 5, 10⟩ : Sphere ℝ))).tree, "refract", 3 / 2⟩] ⟨3, 0, 0⟩
    = .ok (3 / 2) := by
  have h1 : (⟨⟨0, 0, 0⟩, 1, 2⟩ : Sphere ℝ).testPoint ⟨3, 0, 0⟩ = false := by
    rw [Bool.eq_false_iff, ne_eq, C15_sphere_test_point_radius, InBall, dist_toE_eq, norm_eq]
    rw [Real.sqrt_lt' (by norm_num)]
    norm_num [dot]
  have h2 : (⟨⟨0, 0, 0⟩, 5, 10⟩ : Sphere ℝ).testPoint ⟨3, 0, 0⟩ = true := by
    rw [C15_sphere_test_point_radius, InBall, dist_toE_eq, norm_eq]
    rw [Real.sqrt_lt' (by norm_num)]
    norm_num [dot]
  have e1 : testTreePoint (Csg.prim (.sphere (⟨⟨0, 0, 0⟩, 1, 2⟩ : Sphere ℝ))).tree ⟨3, 0, 0⟩ = .ok (some false) := by
    rw [← h1]; rfl
  have e2 : testTreePoint (Csg.prim (.sphere (⟨⟨0, 0, 0⟩, 5, 10⟩ : Sphere ℝ))).tree ⟨3, 0, 0⟩ = .ok (some true) := by
    rw [← h2]; rfl
  simp only [getIndexAtPoint, Optic.getIndexAtPointIfInside, Compound.getIndexAtPointIfInside, e1, e2, bind,
    Except.bind, pure, Except.pure]

/-- C29 is false of other optics: no optic that is not a Compound contributes, whatever it is. -/
theorem C29_only_compounds {α : Type} [PyNum α] (optics : List (Optic α)) (x : V3 α)
    (h : ∀ o ∈ optics, ∀ c, o ≠ .compound c) : getIndexAtPoint optics x = .ok 1.0 := by
  obtain ⟨n, e, hn⟩ := C29_first_compound (fun _ => False) x optics
    (fun c hc => absurd rfl (h _ hc c))
  rw [e]
  clear e
  induction hn with
  | world => rfl
  | found c rest hf => exact hf.elim
  | skip o rest n _ _ ih => exact ih (fun o ho => h o (List.mem_cons_of_mem _ ho))

/-- The concrete case: the centre of a glass ball `Lens` of index 1.5 has index 1. -/
theorem C29_counterexample :
    ∃ l : Lens ℝ, Lens.new ⟨0, 0, 0⟩ none "spherical" (some 2) none none none "normal" (3 / 2) = .ok l ∧
      l.index = 3 / 2 ∧ (∃ s, l.surfaces = [.sphere s] ∧ InBall s.center s.R ⟨0, 0, 0⟩) ∧
      getIndexAtPoint [.lens l] ⟨0, 0, 0⟩ = .ok 1 := by
  refine ⟨_, rfl, rfl, ⟨_, rfl, ?_⟩, ?_⟩
  · show InBall ⟨0, 0, 0⟩ ((2 : ℝ) / 2.0) ⟨0, 0, 0⟩
    rw [InBall, dist_self]; norm_num
  · rw [C29_only_compounds _ _ (by simp)]
    rw [lit1]

end Optics
