import Verif.Spec.Crossing
import Verif.Props.GlassBall
import Verif.Props.Trees
import Verif.Lemmas.Cylinder
import Mathlib.Topology.Order.IntermediateValue

/-!
# C57: the refractive indices at the surface of a Compound
-/

namespace Optics
open V3

/-! ## Solids between surfaces -/

/-- A continuous function without zeros on `(0, r]` keeps its sign there. -/
theorem sign_kept {f : ℝ → ℝ} (hf : Continuous f) {r : ℝ} (h : ∀ u, 0 < u → u ≤ r → f u ≠ 0) {u : ℝ} (hu : 0 < u)
    (hr : u ≤ r) : f u < 0 ↔ f r < 0 := by
  constructor
  · intro h1
    by_contra h2
    obtain ⟨z, hz, e⟩ := intermediate_value_Icc hr hf.continuousOn ⟨h1.le, not_lt.mp h2⟩
    exact h z (hu.trans_le hz.1) hz.2 e
  · intro h1
    by_contra h2
    obtain ⟨z, hz, e⟩ := intermediate_value_Icc' hr hf.continuousOn ⟨h1.le, not_lt.mp h2⟩
    exact h z (hu.trans_le hz.1) hz.2 e

theorem prim_steady (p : Prim ℝ) (hp : p.WellFormed) (x d : V3 ℝ) {r : ℝ}
    (h : ∀ u, 0 < u → u ≤ r → lineAt x d u ∉ p.surface) : Steady p.solid x d r := by
  intro u hu hur
  cases p with
  | sphere s =>
    by_cases hR : 0 < s.R
    · have key : ∀ v, lineAt x d v ∈ (Prim.sphere s).solid ↔
          dot (lineAt x d v - s.center) (lineAt x d v - s.center) - s.R ^ 2 < 0 := by
        intro v
        show InBall s.center s.R _ ↔ _
        rw [InBall, dist_toE_eq, norm_eq, Real.sqrt_lt (dot_self_nonneg _) hR.le, sub_neg]
      rw [key, key]
      refine sign_kept (f := fun v => dot (lineAt x d v - s.center) (lineAt x d v - s.center) - s.R ^ 2) ?_ ?_ hu hur
      · simp only [dot, lineAt, sub_x, sub_y, sub_z, add_x, add_y, add_z, smul_x, smul_y, smul_z]
        fun_prop
      · intro v hv hvr e
        refine h v hv hvr ((onSphere_iff _ _ _).mpr ?_)
        linarith
    · have key : ∀ v, lineAt x d v ∉ (Prim.sphere s).solid := by
        intro v hv
        have : dist (lineAt x d v).toE s.center.toE < s.R := hv
        have := dist_nonneg (x := (lineAt x d v).toE) (y := s.center.toE)
        linarith
      exact iff_of_false (key u) (key r)
  | cylinder c =>
    obtain ⟨hR, ha⟩ := hp
    rw [norm_toE, norm_eq_one_iff] at ha
    have key : ∀ v, lineAt x d v ∈ (Prim.cylinder c).solid ↔
        axQ c.direction (lineAt x d v - c.center) - c.R ^ 2 < 0 := by
      intro v
      rw [sub_neg]
      exact inCylinder_iff ha _ _ _
    rw [key, key]
    refine sign_kept (f := fun v => axQ c.direction (lineAt x d v - c.center) - c.R ^ 2) ?_ ?_ hu hur
    · simp only [axQ, dot, lineAt, sub_x, sub_y, sub_z, add_x, add_y, add_z, smul_x, smul_y, smul_z]
      fun_prop
    · intro v hv hvr e
      refine h v hv hvr ((onCylinder_iff ha _ _ _).mpr ?_)
      linarith

/-- Where the line meets no primitive's surface it does not enter or leave the compound solid. -/
theorem csg_steady (e : Csg (Prim ℝ)) (x d : V3 ℝ) {r : ℝ}
    (h : e.All (fun p => p.WellFormed ∧ ∀ u, 0 < u → u ≤ r → lineAt x d u ∉ p.surface)) :
    Steady (e.den Prim.solid) x d r := by
  induction e with
  | prim p => exact prim_steady p h.1 x d h.2
  | op o a b iha ihb =>
    intro u hu hr
    have h1 := iha h.1 u hu hr
    have h2 := ihb h.2 u hu hr
    cases o with
    | union => exact or_congr h1 h2
    | intersect => exact and_congr h1 h2
    | difference => exact and_congr h1 (not_congr h2)

/-! ## C57 -/

/-- C57, with the code's tolerance: if within `1e-8` after the hit point the ray does not enter or leave the solid
once more, a refracting Compound bends it by Snell's law about the normal it is handed, from index 1 to its own if
the ray goes into the solid there and from its own to 1 if it goes out. What is missing: solids or ray chords
thinner than `1e-8` (`C57_counterexample`). -/
theorem C57_indices_partial (e : Csg (Prim ℝ)) (hw : e.All Prim.WellFormed) (index : ℝ) (hi : 0 < index) (ray : Ray ℝ)
    (hd : ‖ray.direction.toE‖ = 1) (pt k : V3 ℝ) (hk : ‖k.toE‖ = 1)
    (hs : Steady (e.den Prim.solid) pt ray.direction 1e-8) :
    ∃ d', Compound.doIntersect ⟨e.tree, "refract", index⟩ ray pt (some k) = .ok { ray with direction := d' } ∧
      (GoesInto (e.den Prim.solid) pt ray.direction → GlassLaw 1 index k.toE ray.direction.toE d'.toE) ∧
      (GoesOut (e.den Prim.solid) pt ray.direction → GlassLaw index 1 k.toE ray.direction.toE d'.toE) := by
  obtain ⟨b, hb, hb'⟩ := C22_test_tree_point e hw (lineAt pt ray.direction 1e-8)
  have hk1 : dot k k = 1 := by rwa [norm_toE, norm_eq_one_iff] at hk
  have hk0 := ne_zero_of_dot_one hk1
  have hku := unitVector_of_unit hk1
  have hpos : ∀ ε > 0, ∃ u : ℝ, 0 < u ∧ u < ε ∧ u ≤ 1e-8 := by
    intro ε hε
    exact ⟨min (ε / 2) 1e-8, by positivity, (min_le_left _ _).trans_lt (by linarith), min_le_right _ _⟩
  have eI : ∀ b, testTreePoint e.tree (lineAt pt ray.direction 1e-8) = .ok (some b) →
      Compound.doIntersect ⟨e.tree, "refract", index⟩ ray pt (some k) =
        ray.refract "snells_law" (some k) ⟨pt, none, none, none, none⟩ pt (some (if b then 1 else index))
          (some (if b then index else 1)) := by
    intro b hb
    unfold Compound.doIntersect
    rw [if_neg (show ¬ "refract" = "reflect" by decide), if_pos (show "refract" = "refract" from rfl)]
    have : Compound.getIndexAtPointIfInside ⟨e.tree, "refract", index⟩ (pt + (1e-8 : ℝ) * ray.direction)
        = .ok (if b then some index else none) := by
      unfold Compound.getIndexAtPointIfInside
      rw [show testTreePoint e.tree (pt + (1e-8 : ℝ) * ray.direction) = _ from hb]
      cases b <;> rfl
    simp only [bind, Except.bind, this]
    cases b <;> simp [indexOfTheWorld, lit1]
  rw [eI b hb]
  obtain ⟨d', h1, h2⟩ := snell_glass ray hd ⟨pt, none, none, none, none⟩ pt k k (if b then 1 else index)
    (if b then index else 1) (by split_ifs <;> positivity) (by split_ifs <;> positivity) hk0 (.inl hku.symm)
  refine ⟨d', h1, ?_, ?_⟩
  · rintro ⟨ε, hε, h⟩
    obtain ⟨u, hu, hue, hu8⟩ := hpos ε hε
    rw [hb'.mpr ((hs u hu hu8).mp (h u hu hue))] at h2
    exact h2
  · rintro ⟨ε, hε, h⟩
    obtain ⟨u, hu, hue, hu8⟩ := hpos ε hε
    have : b = false := by
      cases b with
      | false => rfl
      | true => exact absurd ((hs u hu hu8).mpr (hb'.mp rfl)) (h u hu hue)
    rw [this] at h2
    exact h2

/-- C57, in terms of the primitives: it suffices that the ray meets none of their surfaces within `1e-8` after the
hit point. -/
theorem C57_clear_surfaces_partial (e : Csg (Prim ℝ)) (hw : e.All Prim.WellFormed) (index : ℝ) (hi : 0 < index)
    (ray : Ray ℝ) (hd : ‖ray.direction.toE‖ = 1) (pt k : V3 ℝ) (hk : ‖k.toE‖ = 1)
    (hs : e.All (fun p => ∀ u, 0 < u → u ≤ 1e-8 → lineAt pt ray.direction u ∉ p.surface)) :
    (GoesInto (e.den Prim.solid) pt ray.direction ∨ GoesOut (e.den Prim.solid) pt ray.direction) ∧
    ∃ d', Compound.doIntersect ⟨e.tree, "refract", index⟩ ray pt (some k) = .ok { ray with direction := d' } ∧
      (GoesInto (e.den Prim.solid) pt ray.direction → GlassLaw 1 index k.toE ray.direction.toE d'.toE) ∧
      (GoesOut (e.den Prim.solid) pt ray.direction → GlassLaw index 1 k.toE ray.direction.toE d'.toE) := by
  have both : ∀ e : Csg (Prim ℝ), e.All Prim.WellFormed →
      e.All (fun p => ∀ u, 0 < u → u ≤ 1e-8 → lineAt pt ray.direction u ∉ p.surface) →
      e.All (fun p => p.WellFormed ∧ ∀ u, 0 < u → u ≤ 1e-8 → lineAt pt ray.direction u ∉ p.surface) := by
    intro e
    induction e with
    | prim p => exact fun h1 h2 => ⟨h1, h2⟩
    | op o a b iha ihb => exact fun h1 h2 => ⟨iha h1.1 h2.1, ihb h1.2 h2.2⟩
  have hst := csg_steady e pt ray.direction (both e hw hs)
  refine ⟨?_, C57_indices_partial e hw index hi ray hd pt k hk hst⟩
  by_cases h : lineAt pt ray.direction 1e-8 ∈ e.den Prim.solid
  · exact .inl ⟨1e-8, by norm_num, fun u hu h8 => (hst u hu h8.le).mpr h⟩
  · exact .inr ⟨1e-8, by norm_num, fun u hu h8 hm => h ((hst u hu h8.le).mp hm)⟩

/-- C57: a reflecting Compound reflects about the normal; any other behaviour raises. -/
theorem C57_other_behaviours (c : Compound ℝ) (ray : Ray ℝ) (hd : ‖ray.direction.toE‖ = 1) (pt k : V3 ℝ)
    (hk : ‖k.toE‖ = 1) :
    (c.surfaceBehavior = "reflect" → ∃ d', c.doIntersect ray pt (some k) = .ok { ray with direction := d' } ∧
      Reflected k.toE ray.direction.toE d'.toE) ∧
    (c.surfaceBehavior ≠ "reflect" → c.surfaceBehavior ≠ "refract" →
      c.doIntersect ray pt (some k) = .error .valueError) := by
  have hd' : dot ray.direction ray.direction = 1 := by rwa [norm_toE, norm_eq_one_iff] at hd
  have hk1 : dot k k = 1 := by rwa [norm_toE, norm_eq_one_iff] at hk
  unfold Compound.doIntersect
  refine ⟨fun h => ?_, fun h1 h2 => by rw [if_neg h1, if_neg h2]⟩
  rw [if_pos h]
  exact ⟨specular ray.direction k, rfl, specular_reflected (ne_zero_of_dot_one hd') (ne_zero_of_dot_one hk1)⟩

/-- C57 fails for a solid thinner than the code's `1e-8`: a ray that enters a glass ball of radius `1e-9` (index 2)
is handled as if it left glass, and is totally reflected. -/
theorem C57_counterexample : ∃ (s : Sphere ℝ) (ray : Ray ℝ) (pt k : V3 ℝ) (d' : V3 ℝ),
    s.R = 1e-9 ∧ OnSphere s.center s.R pt ∧ ‖k.toE‖ = 1 ∧ s.center + s.R * k = pt ∧
    GoesInto ((Csg.prim (Prim.sphere s)).den Prim.solid) pt ray.direction ∧
    Compound.doIntersect ⟨(Csg.prim (Prim.sphere s)).tree, "refract", 2⟩ ray pt (some k)
      = .ok { ray with direction := d' } ∧
    Reflected k.toE ray.direction.toE d'.toE ∧ ¬ Refracted 1 2 k.toE ray.direction.toE d'.toE := by
  let s : Sphere ℝ := ⟨⟨0, 0, 0⟩, 1e-9, 2e-9⟩
  let pt : V3 ℝ := ⟨3 / 5 * 1e-9, 0, 4 / 5 * 1e-9⟩
  let k : V3 ℝ := ⟨3 / 5, 0, 4 / 5⟩
  let ray : Ray ℝ := ⟨⟨0, 0, 1⟩, ⟨0, 0, -1⟩, 532, 0, [], false, "normal"⟩
  have hd : dot ray.direction ray.direction = 1 := by norm_num [ray, dot]
  have hd' : ‖ray.direction.toE‖ = 1 := by rw [norm_toE, norm_eq_one_iff]; exact hd
  have hk1 : dot k k = 1 := by norm_num [k, dot]
  have hk : ‖k.toE‖ = 1 := by rw [norm_toE, norm_eq_one_iff]; exact hk1
  have hon : OnSphere s.center s.R pt := by rw [onSphere_iff]; norm_num [s, pt, dot]
  have hw : (Csg.prim (Prim.sphere s)).All Prim.WellFormed := by
    show s.R ≠ 0
    norm_num [s]
  have hin : ∀ u, lineAt pt ray.direction u ∈ (Csg.prim (Prim.sphere s)).den Prim.solid ↔ 0 < u ∧ u < 8 / 5 * 1e-9 := by
    intro u
    show InBall s.center s.R _ ↔ _
    rw [InBall, dist_toE_eq, norm_eq, Real.sqrt_lt (dot_self_nonneg _) (by norm_num [s])]
    have : dot (lineAt pt ray.direction u - s.center) (lineAt pt ray.direction u - s.center) - s.R ^ 2
        = u * (u - 8 / 5 * 1e-9) := by
      simp only [dot, lineAt, s, pt, ray, sub_x, sub_y, sub_z, add_x, add_y, add_z, smul_x, smul_y, smul_z]; ring
    rw [← sub_neg, this]
    constructor
    · intro h
      rcases mul_neg_iff.mp h with ⟨h1, h2⟩ | ⟨h1, h2⟩
      · exact ⟨h1, by linarith⟩
      · exfalso; linarith
    · rintro ⟨h1, h2⟩
      exact mul_neg_of_pos_of_neg h1 (by linarith)
  have hsin : sinIncidence k.toE ray.direction.toE = 3 / 5 := by
    have e := inner_sq hk hd'
    rw [inner_toE, show dot ray.direction k = -(4 / 5) by norm_num [ray, k, dot]] at e
    have : sinIncidence k.toE ray.direction.toE ^ 2 = (3 / 5) ^ 2 := by linear_combination e
    exact (sq_eq_sq₀ (sinIncidence_nonneg _ _) (by norm_num)).mp this
  obtain ⟨b, hb, hb'⟩ := C22_test_tree_point (.prim (.sphere s)) hw (lineAt pt ray.direction 1e-8)
  have hbf : b = false := by
    cases b with
    | false => rfl
    | true =>
      have := (hin _).mp (hb'.mp rfl)
      norm_num at this
  subst hbf
  obtain ⟨d', h1, h2⟩ := snell_glass ray hd' ⟨pt, none, none, none, none⟩ pt k k 2 1 two_pos one_pos
    (ne_zero_of_dot_one hk1) (.inl (unitVector_of_unit hk1).symm)
  have hr := h2.reflects (by rw [hsin]; norm_num)
  refine ⟨s, ray, pt, k, d', rfl, hon, hk, ?_, ⟨8 / 5 * 1e-9, by norm_num, fun u h h' => (hin u).mpr ⟨h, h'⟩⟩, ?_, hr, ?_⟩
  · ext <;> norm_num [s, k, pt]
  · rw [← h1]
    unfold Compound.doIntersect
    rw [if_neg (show ¬ "refract" = "reflect" by decide), if_pos (show "refract" = "refract" from rfl)]
    have : Compound.getIndexAtPointIfInside ⟨(Csg.prim (Prim.sphere s)).tree, "refract", 2⟩
        (pt + (1e-8 : ℝ) * ray.direction) = .ok none := by
      unfold Compound.getIndexAtPointIfInside
      rw [show testTreePoint (Csg.prim (Prim.sphere s)).tree (pt + (1e-8 : ℝ) * ray.direction) = _ from hb]
      rfl
    simp only [bind, Except.bind, this]
    simp [indexOfTheWorld, lit1]
  · intro hf
    have f := hf.farSide
    have g := hr.normalReversed
    rw [hd', one_mul] at g
    rw [g, inner_toE, show dot ray.direction k = -(4 / 5) by norm_num [ray, k, dot]] at f
    norm_num at f

/-- A case meeting the hypotheses of `C57_clear_surfaces_partial`: a ray entering a ball of radius 5. -/
example : GoesInto ((Csg.prim (Prim.sphere (⟨⟨0, 0, 0⟩, 5, 10⟩ : Sphere ℝ))).den Prim.solid) ⟨3, 0, 4⟩ ⟨0, 0, -1⟩ ∧
    (Csg.prim (Prim.sphere (⟨⟨0, 0, 0⟩, 5, 10⟩ : Sphere ℝ))).All Prim.WellFormed ∧
    (Csg.prim (Prim.sphere (⟨⟨0, 0, 0⟩, 5, 10⟩ : Sphere ℝ))).All
      (fun p => ∀ u, 0 < u → u ≤ 1e-8 → lineAt ⟨3, 0, 4⟩ ⟨0, 0, -1⟩ u ∉ p.surface) := by
  refine ⟨⟨1, one_pos, fun u h1 h2 => ?_⟩, ?_, ?_⟩
  · show InBall _ _ _
    rw [InBall, dist_toE_eq, norm_eq, Real.sqrt_lt (dot_self_nonneg _) (by norm_num)]
    simp only [dot, lineAt, sub_x, sub_y, sub_z, add_x, add_y, add_z, smul_x, smul_y, smul_z]
    nlinarith
  · show (5 : ℝ) ≠ 0
    norm_num
  · intro u h1 h2 h
    have := (onSphere_iff _ _ _).mp h
    simp only [dot, lineAt, sub_x, sub_y, sub_z, add_x, add_y, add_z, smul_x, smul_y, smul_z] at this
    nlinarith

end Optics
