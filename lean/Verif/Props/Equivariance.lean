import Verif.Lemmas.MoveRun
import Verif.Spec.Equivariance
import Verif.Props.Motions
import Verif.Props.SoundnessCases
import Verif.Props.IdealLenses

/-!
# C69: tracing commutes with rigid motion

`optics.map (Optic.move g)` is the moved scene: `C69_constructors` shows that it is what the constructors return for
moved arguments.
-/

namespace Optics
open V3

/-- C69: calling a constructor with moved arguments gives the moved optic, or the same exception. -/
theorem C69_constructors (g : Motion) (p n t : V3 ℝ) (n? t? dmd : Option (V3 ℝ)) (shape type : String)
    (D w h f G : Option ℝ) (index : ℝ) (id : Nat) :
    (Mirror.new (g.pt p) shape (n?.map g.dir) D w h f (t?.map g.dir) type (dmd.map g.dir)).map Optic.mirror
      = (Mirror.new p shape n? D w h f t? type dmd).map (fun m => (Optic.mirror m).move g) ∧
    (Lens.new (g.pt p) (n?.map g.dir) shape D w h f type index).map Optic.lens
      = (Lens.new p n? shape D w h f type index).map (fun l => (Optic.lens l).move g) ∧
    (Grating.new (g.pt p) (g.dir n) (g.dir t) shape w h G).map Optic.grating
      = (Grating.new p n t shape w h G).map (fun r => (Optic.grating r).move g) ∧
    (Detector.new id (g.pt p) (g.dir n) (g.dir t) shape w h).map Optic.detector
      = (Detector.new id p n t shape w h).map (fun d => (Optic.detector d).move g) := by
  refine ⟨?_, ?_, ?_, ?_⟩
  · unfold Mirror.new
    cases dmd with
    | none => rfl
    | some dmd =>
      by_cases s1 : shape = "circular_flat"
      · simp only [s1, if_true]
        cases n? with
        | none => rfl
        | some n =>
          simp only [Option.map_some, need, bind, Except.bind, pure, Except.pure]
          rw [show some (g.dir n) = (some n).map g.dir from rfl, circle_new_move]
          cases Circle.new p (some n) none D with
          | error e => rfl
          | ok c => simp [Except.map, Optic.move, g.unitVector_dir, Shape.move]
      by_cases s2 : shape = "rectangular_flat"
      · simp only [s2, show ¬ ("rectangular_flat" = "circular_flat") by decide, if_true, if_false]
        cases n? with
        | none => rfl
        | some n =>
          cases t? with
          | none => rfl
          | some t =>
            simp only [Option.map_some, need, bind, Except.bind, pure, Except.pure]
            rw [rectangle_new_move]
            cases Rectangle.new p n t h w with
            | error e => rfl
            | ok c => simp [Except.map, Optic.move, g.unitVector_dir, Shape.move]
      by_cases s3 : shape = "circular_concave_spherical"
      · simp only [s3, show ¬ ("circular_concave_spherical" = "circular_flat") by decide,
          show ¬ ("circular_concave_spherical" = "rectangular_flat") by decide, if_true, if_false]
        cases n? with
        | none => rfl
        | some n =>
          cases f with
          | none => rfl
          | some f =>
            simp only [Option.map_some, need, bind, Except.bind, pure, Except.pure]
            rw [show some (g.dir n) = (some n).map g.dir from rfl, circle_new_move, g.unitVector_dir, g.dir_smul, g.pt_add,
              sphere_new_move]
            cases Circle.new p (some n) none D with
            | error e => rfl
            | ok c =>
              cases Sphere.new (p + f * 2.0 * unitVector n) (some (f * 2.0)) none with
              | error e => rfl
              | ok s => simp [Except.map, Optic.move, g.unitVector_dir, Shape.move]
      by_cases s4 : shape = "circular_convex_spherical"
      · simp only [s4, show ¬ ("circular_convex_spherical" = "circular_flat") by decide,
          show ¬ ("circular_convex_spherical" = "rectangular_flat") by decide,
          show ¬ ("circular_convex_spherical" = "circular_concave_spherical") by decide, if_true, if_false]
        simp only [Option.map_some, need, bind, Except.bind, pure, Except.pure]
        rw [sphere_new_move]
        cases Sphere.new p none D with
        | error e => rfl
        | ok s => simp [Except.map, Optic.move, g.unitVector_dir, Shape.move]
      · simp only [s1, s2, s3, s4, if_false]; rfl
  · unfold Lens.new
    have e1 : (n?.map g.dir).map unitVector = (n?.map unitVector).map g.dir := by
      cases n? <;> simp [g.unitVector_dir]
    by_cases s1 : shape = "spherical_biconvex"
    · simp only [s1, if_true, bind, Except.bind, pure, Except.pure]
      rw [circle_new_move, e1]
      cases Circle.new p n? none D with
      | error e => rfl
      | ok c => rfl
    by_cases s2 : shape = "spherical"
    · simp only [s2, show ¬ ("spherical" = "spherical_biconvex") by decide, if_true, if_false, bind, Except.bind, pure,
        Except.pure]
      rw [sphere_new_move, e1]
      cases Sphere.new p none D with
      | error e => rfl
      | ok c => rfl
    · simp only [s1, s2, if_false]; rfl
  · unfold Grating.new
    by_cases s1 : shape = "rectangular_flat"
    · simp only [s1, if_true, bind, Except.bind, pure, Except.pure, g.unitVector_dir]
      rw [rectangle_new_move]
      cases Rectangle.new p n t h w <;> rfl
    · simp only [s1, if_false]; rfl
  · unfold Detector.new
    by_cases s1 : shape = "rectangular_flat"
    · simp only [s1, if_true, bind, Except.bind, pure, Except.pure, g.unitVector_dir]
      rw [rectangle_new_move]
      cases Rectangle.new p n t h w <;> rfl
    · simp only [s1, if_false]; rfl

theorem twin_corresponds {g : Motion} {optics : List (Optic ℝ)} {s s'} (h : Twin g optics s s') :
    s.Corresponds g s' :=
  ⟨h.ray, h.log, h.remaining, h.interactions⟩

theorem runs_correspond (g : Motion) {optics : List (Optic ℝ)} (hw : ∀ o ∈ optics, o.WellFormed)
    (hgo : g.IsTranslation ∨ ∀ o ∈ optics, ¬ o.ThinLens) (ray : Ray ℝ) (hd : ‖ray.direction.toE‖ = 1)
    (md : ℝ) (mi : Option Int) (fuel : Nat) :
    (ray.lift.run (.fin md) (optics.map Optic.lift) mi fuel).Corresponds g
      ((ray.move g).lift.run (.fin md) ((optics.map (Optic.move g)).map Optic.lift) mi fuel) := by
  rw [norm_toE, norm_eq_one_iff] at hd
  have h := run_twin g hw hgo (mi := mi) hd fuel 0 (RunState.init ray.lift (.fin md)) (RunState.init (ray.move g).lift (.fin md))
    (.zero _) ⟨ray_lift_move g ray, rfl, rfl, rfl, rfl, .none⟩
  unfold Ray.run
  generalize runLoop (.fin md) (optics.map Optic.lift) mi fuel (RunState.init ray.lift (.fin md)) = A at h
  generalize runLoop (.fin md) ((optics.map (Optic.move g)).map Optic.lift) mi fuel
    (RunState.init (ray.move g).lift (.fin md)) = B at h
  cases h with
  | finished h => exact twin_corresponds h
  | raised e h => exact ⟨rfl, twin_corresponds h⟩
  | outOfFuel h => exact twin_corresponds h

/-- C69 in numpy: translate a well-formed scene and the ray, and the whole trace is translated: every point of the
history, the position and every row in `hit_data`; the blocking and the interaction count stay the same, and the run ends
in the same way, with the same exception if there is one.  `fuel = 0, 1, 2, …` gives the states after each pass. -/
theorem C69_translation (g : Motion) (ht : g.IsTranslation) {optics : List (Optic ℝ)}
    (hw : ∀ o ∈ optics, o.WellFormed) (ray : Ray ℝ) (hd : ‖ray.direction.toE‖ = 1)
    (md : ℝ) (mi : Option Int) (fuel : Nat) :
    (ray.lift.run (.fin md) (optics.map Optic.lift) mi fuel).Corresponds g
      ((ray.move g).lift.run (.fin md) ((optics.map (Optic.move g)).map Optic.lift) mi fuel) :=
  runs_correspond g hw (.inl ht) ray hd md mi fuel

/-- C69: what `Corresponds` says of a translation: the direction is the same, and finite points have been shifted by the
vector of the translation. -/
theorem C69_directions (g : Motion) (ht : g.IsTranslation) {s s' : RunState XR} (h : s.Corresponds g s') :
    s'.ray.direction = s.ray.direction ∧
    (∀ p : V3 ℝ, s.ray.position = p.lift → s'.ray.position = (p + g.w).lift) ∧
    (∀ P : List (V3 ℝ), s.ray.pointHistory = P.map V3.lift → s'.ray.pointHistory = P.map fun p => (p + g.w).lift) ∧
    (∀ rows : List (DetHit ℝ), s.log = rows.map DetHit.lift →
      s'.log = rows.map fun r => ({ r with pt := r.pt + g.w } : DetHit ℝ).lift) := by
  obtain ⟨h1, h2, -, -⟩ := h
  have hp : ∀ p, g.pt p = p + g.w := by
    intro p
    have e : M3.mulVec g.A p = p := ht p
    unfold Motion.pt
    rw [e]
  rw [h1, h2]
  refine ⟨dirX_translation ht _, ?_, ?_, ?_⟩
  · intro p e
    show g.ptX s.ray.position = _
    rw [e, g.ptX_lift, hp]
  · intro P e
    show s.ray.pointHistory.map g.ptX = _
    rw [e, List.map_map]
    refine List.map_congr_left (fun p _ => ?_)
    show g.ptX p.lift = _
    rw [g.ptX_lift, hp]
  · intro rows e
    rw [e, List.map_map]
    refine List.map_congr_left (fun r _ => ?_)
    show DetHit.moveX g r.lift = _
    unfold DetHit.moveX DetHit.lift
    simp only [g.ptX_lift, hp]

/-- C69, for all rigid motions: so it is for rotations followed by translations, if no lens of type `"ideal"` is among
the optics. -/
theorem C69_rigid (g : Motion) {optics : List (Optic ℝ)}
    (hw : ∀ o ∈ optics, o.WellFormed) (hl : ∀ l : Lens ℝ, .lens l ∈ optics → l.type ≠ "ideal") (ray : Ray ℝ)
    (hd : ‖ray.direction.toE‖ = 1) (md : ℝ) (mi : Option Int) (fuel : Nat) :
    (ray.lift.run (.fin md) (optics.map Optic.lift) mi fuel).Corresponds g
      ((ray.move g).lift.run (.fin md) ((optics.map (Optic.move g)).map Optic.lift) mi fuel) := by
  refine runs_correspond g hw (.inr ?_) ray hd md mi fuel
  intro o ho h
  cases o with
  | lens l => exact hl l ho h
  | _ => exact h

/-- A turn about z by the angle with cosine 3/5 and sine 4/5. -/
noncomputable def exampleTurn : Motion :=
  ⟨⟨⟨3 / 5, -(4 / 5), 0⟩, ⟨4 / 5, 3 / 5, 0⟩, ⟨0, 0, 1⟩⟩, by rw [isRotation_iff]; norm_num [dot, cross], ⟨0, 0, 0⟩⟩

/-- C69 for rotations is false of `"ideal"` lenses: a ray through the centre of the lens, tilted by `1.2e-8` against the
axis, goes straight on; turned together with the lens about the axis of the lens, it leaves along the axis. -/
theorem C69_rotation_counterexample :
    let k : ℝ := 6 / 10 ^ 9
    let d : V3 ℝ := ⟨2 * k / (1 + k ^ 2), 0, (1 - k ^ 2) / (1 + k ^ 2)⟩
    let n : V3 ℝ := ⟨0, 0, 1⟩
    let o : V3 ℝ := ⟨0, 0, 0⟩
    let g := exampleTurn
    dot d d = 1 ∧ g.pt o = o ∧ g.dir n = n ∧
    thinLensDirection o d o n (some 1) o = .ok d ∧
    thinLensDirection (g.pt o) (g.dir d) (g.pt o) (g.dir n) (some 1) (g.pt o) = .ok n ∧ g.dir d ≠ n := by
  intro k d n o g
  have hd : dot d d = 1 := by norm_num [dot, d, k]
  have hn : dot n n = 1 := by norm_num [dot, n]
  have hgo : g.pt o = o := by ext <;> norm_num [g, exampleTurn, Motion.pt, M3.mulVec, dot, o]
  have hgn : g.dir n = n := by ext <;> norm_num [g, exampleTurn, Motion.dir, M3.mulVec, dot, n]
  have hgd : g.dir d = ⟨3 / 5 * (2 * k / (1 + k ^ 2)), 4 / 5 * (2 * k / (1 + k ^ 2)), (1 - k ^ 2) / (1 + k ^ 2)⟩ := by
    ext <;> norm_num [g, exampleTurn, Motion.dir, M3.mulVec, dot, d]
  have hor : orientedNormal n d = n := by
    unfold orientedNormal; rw [if_neg (by norm_num [dot, d, n, k])]
  have hor' : orientedNormal n (g.dir d) = n := by
    unfold orientedNormal; rw [if_neg (by rw [hgd]; norm_num [dot, n, k])]
  have hdn : |dot d n| = (1 - k ^ 2) / (1 + k ^ 2) := by
    rw [abs_of_nonneg] <;> norm_num [dot, d, n, k]
  have hcl : allclose d n 1e-10 atolDefault = false := by
    simp only [allclose, isclose, Bool.and_eq_false_iff, real_abs, atolDefault, d, n, k]
    refine .inl (.inl (decide_eq_false ?_))
    rw [abs_of_nonneg] <;> norm_num
  have hcl' : allclose (g.dir d) n 1e-10 atolDefault = true := by
    rw [hgd]
    simp only [allclose, isclose, Bool.and_eq_true, real_abs, atolDefault, n, k]
    refine ⟨⟨decide_eq_true ?_, decide_eq_true ?_⟩, decide_eq_true ?_⟩
    · rw [abs_of_nonneg] <;> norm_num
    · rw [abs_of_nonneg] <;> norm_num
    · rw [abs_of_nonpos] <;> norm_num
  refine ⟨hd, hgo, hgn, ?_, ?_, ?_⟩
  · rw [thinLens_eq hd hn (by rw [hdn]; norm_num [k]), hor, if_neg (by rw [hcl]; decide), hdn,
      unitVector_of_sq (d := (1 + k ^ 2) / (1 - k ^ 2)) (by norm_num [k]) (by norm_num [dot, d, o, k])]
    congr 1
    ext <;> norm_num [d, o, k]
  · rw [hgo, hgn, thinLens_eq (by rw [g.dot_dir]; exact hd) hn (by rw [hgd]; norm_num [dot, n, k, abs_of_pos]), hor',
      if_pos hcl', unitVector_of_unit (by norm_num [dot, n, o])]
    congr 1
    ext <;> norm_num [n, o]
  · rw [hgd]
    intro e
    have := congrArg V3.x e
    norm_num [n, k] at this

/-- A scene in the scope of C69 whose run meets a mirror and a detector (`SoundnessCases`), and a motion that rotates and
translates: the moved ray starts at `(1, 2, 8)`. -/
example : (∀ o ∈ mirrorAndDetector, o.WellFormed) ∧ ‖downRay.direction.toE‖ = 1 ∧
    (∀ l : Lens ℝ, .lens l ∈ mirrorAndDetector → l.type ≠ "ideal") ∧ ¬ exampleMotion.IsTranslation ∧
    exampleMotion.pt downRay.position = ⟨1, 2, 8⟩ := by
  refine ⟨mirrorAndDetector_wf, ?_, ?_, ?_, ?_⟩
  · rw [norm_toE, norm_eq_one_iff]; norm_num [dot, downRay]
  · intro l hl
    rcases List.mem_cons.mp hl with h | h
    · cases h
    · cases List.mem_singleton.mp h
  · intro h
    have := congrArg V3.x (h ⟨1, 0, 0⟩)
    norm_num [exampleMotion, Motion.dir, M3.mulVec, dot] at this
  · ext <;> norm_num [exampleMotion, Motion.pt, M3.mulVec, dot, downRay]

/-- A translation. -/
example : (Motion.mk ⟨⟨1, 0, 0⟩, ⟨0, 1, 0⟩, ⟨0, 0, 1⟩⟩ (by rw [isRotation_iff]; norm_num [dot, cross]) ⟨1, 2, 3⟩).IsTranslation := by
  intro d
  ext <;> simp [Motion.dir, M3.mulVec, dot]

end Optics
