import Verif.Lemmas.RealRun
import Verif.Lemmas.RealBuild
import Verif.Props.SoundnessCases

/-!
# C89: with finite numbers numpy computes what real numbers would

The model of `run` in numpy floats (`nan`, infinities, divisions by zero that do not raise) and the model in real numbers
give the same outcome, state and record, as long as no ray runs along a cylinder and no grating is asked for an order it
does not have: there numpy gives `nan`, for which real numbers have no counterpart.
-/

namespace Optics
open V3

variable {optics : List (Optic ℝ)}

/-! ## Building -/

/-- C89: `Ray(...)`. -/
theorem C89_ray (p d : V3 ℝ) (hd : d ≠ ⟨0, 0, 0⟩) (wl o : ℝ) (type : String) :
    Ray.new p.lift d.lift (.fin wl) (.fin o) type = (Ray.new p d wl o type).lift := lift_ray_new p hd wl o type

/-- C89: `Mirror(...)`, exceptions included. -/
theorem C89_mirror (position : V3 ℝ) (shape : String) (n t dmd : Option (V3 ℝ)) (hn : NonZeroVec n) (ht : NonZeroVec t)
    (hdmd : NonZeroVec dmd) (D w h f : Option ℝ) (type : String) :
    Mirror.new position.lift shape (n.map V3.lift) (D.map XR.fin) (w.map XR.fin) (h.map XR.fin) (f.map XR.fin)
      (t.map V3.lift) type (dmd.map V3.lift) = (Mirror.new position shape n D w h f t type dmd).map Mirror.lift :=
  lift_mirror_new position shape hn ht hdmd D w h f type

/-- C89: `Lens(...)`, exceptions included. -/
theorem C89_lens (position : V3 ℝ) (n : Option (V3 ℝ)) (hn : NonZeroVec n) (shape : String) (D w h f : Option ℝ)
    (type : String) (index : ℝ) :
    Lens.new position.lift (n.map V3.lift) shape (D.map XR.fin) (w.map XR.fin) (h.map XR.fin) (f.map XR.fin) type (.fin index)
      = (Lens.new position n shape D w h f type index).map Lens.lift := lift_lens_new position hn shape D w h f type index

/-- C89: `Grating(...)`, exceptions included. -/
theorem C89_grating (position n t : V3 ℝ) (hn : n ≠ ⟨0, 0, 0⟩) (ht : t ≠ ⟨0, 0, 0⟩) (shape : String) (w h G : Option ℝ) :
    Grating.new position.lift n.lift t.lift shape (w.map XR.fin) (h.map XR.fin) (G.map XR.fin)
      = (Grating.new position n t shape w h G).map Grating.lift := lift_grating_new position hn ht shape w h G

/-- C89: `Detector(...)`, exceptions included. -/
theorem C89_detector (id : Nat) (position n t : V3 ℝ) (hn : n ≠ ⟨0, 0, 0⟩) (ht : t ≠ ⟨0, 0, 0⟩) (shape : String)
    (w h : Option ℝ) :
    Detector.new id position.lift n.lift t.lift shape (w.map XR.fin) (h.map XR.fin)
      = (Detector.new id position n t shape w h).map Detector.lift := lift_detector_new id position hn ht shape w h

/-- C89: a direction is needed.  `Ray(...)` with the zero vector is a ray without a direction in numpy. -/
theorem C89_needs_a_direction (p : V3 ℝ) (wl o : ℝ) (type : String) :
    (Ray.new p.lift (V3.lift ⟨0, 0, 0⟩) (.fin wl) (.fin o) type).direction = V3.nan ∧
    ∀ r : Ray ℝ, Ray.new p.lift (V3.lift ⟨0, 0, 0⟩) (.fin wl) (.fin o) type ≠ r.lift := by
  have h : (Ray.new p.lift (V3.lift ⟨0, 0, 0⟩) (.fin wl) (.fin o) type).direction = V3.nan := unitVector_zero
  refine ⟨h, fun r e => ?_⟩
  rw [e] at h
  exact XR.noConfusion (congrArg V3.x h)

/-! ## Running -/

/-- C89: what an optic answers a ray of finite numbers. -/
theorem C89_test {o : Optic ℝ} (hw : o.WellFormed) (ray : Ray ℝ) (hd : ‖ray.direction.toE‖ = 1)
    (hc : CrossesCylinders [o] ray) :
    o.lift.testIntersect ray.lift = (o.testIntersect ray).map Hit4.lift := by
  rw [norm_toE, norm_eq_one_iff] at hd
  exact optic_lift hw hd (hc o (List.mem_singleton.mpr rfl))

/-- C89: the whole run, however long and however it ends; `difference` trees, which may raise, included. -/
theorem C89_same_run (hw : ∀ o ∈ optics, o.WellFormed) (ray : Ray ℝ) (hd : ‖ray.direction.toE‖ = 1) (md : ℝ)
    (mi : Option Int) (hreg : RegularRun md optics mi ray) (fuel : Nat) :
    ray.lift.run (.fin md) (optics.map Optic.lift) mi fuel = (ray.run md optics mi fuel).lift := by
  rw [norm_toE, norm_eq_one_iff] at hd
  exact run_lift hw hreg fuel 0 (RunState.init ray md) (.zero _) hd

/-- C89: scenes without cylinders and gratings need no further condition. -/
theorem C89_without_cylinders_and_gratings (hw : ∀ o ∈ optics, o.WellFormed)
    (hc : ∀ o ∈ optics, ∀ c, Prim.cylinder c ∉ o.prims) (hg : ∀ g, .grating g ∉ optics)
    (ray : Ray ℝ) (hd : ‖ray.direction.toE‖ = 1) (md : ℝ) (mi : Option Int) (fuel : Nat) :
    ray.lift.run (.fin md) (optics.map Optic.lift) mi fuel = (ray.run md optics mi fuel).lift :=
  C89_same_run hw ray hd md mi (fun _ _ _ => ⟨fun o ho c h => absurd h (hc o ho c), fun g h => absurd h (hg g)⟩) fuel

/-- C89: nor do gratings, for rays of order 0. -/
theorem C89_order_zero (hw : ∀ o ∈ optics, o.WellFormed) (hc : ∀ o ∈ optics, ∀ c, Prim.cylinder c ∉ o.prims)
    (ray : Ray ℝ) (hd : ‖ray.direction.toE‖ = 1) (ho : ray.order = 0) (md : ℝ) (mi : Option Int) (fuel : Nat) :
    ray.lift.run (.fin md) (optics.map Optic.lift) mi fuel = (ray.run md optics mi fuel).lift := by
  refine C89_same_run hw ray hd md mi (fun n s hp => ⟨fun o ho c h => absurd h (hc o ho c), fun g _ _ => .inl ?_⟩) fuel
  exact passes_invariant (P := fun s => s.ray.order = 0)
    (fun s s' h0 _ hs => (step_frame hs).2.2.1.trans h0) hp ho

/-- C89: the condition on gratings is needed.  In the scene of `C68_counterexample` numpy ends in a state that no
run in real numbers ends in. -/
theorem C89_needs_an_order : (Optic.grating fineGrating).WellFormed ∧ ‖orderRay.direction.toE‖ = 1 ∧
    ∀ out : Outcome ℝ, orderRay.lift.run (.fin 100) [(Optic.grating fineGrating).lift] none 3 ≠ out.lift := by
  obtain ⟨h1, h2, s, h3, h4, -⟩ := C68_counterexample
  refine ⟨h1, h2, fun out h => ?_⟩
  rw [h3] at h
  cases out with
  | finished s' =>
    injection h with h
    rw [h] at h4
    exact XR.noConfusion (congrArg V3.x h4)
  | raised e s' => cases h
  | outOfFuel s' => cases h

/-- A scene in the scope of `C89_without_cylinders_and_gratings`: what is known of the run in numpy floats (down to the
mirror, up to the detector, one row written) holds of the run in real numbers. -/
example : ∃ s, downRay.run 100 mirrorAndDetector none 3 = .finished s ∧ s.ray.position = ⟨0, 0, 20⟩ ∧
    s.ray.blocked = true ∧ s.log.length = 1 := by
  obtain ⟨s, hs, hr, hl⟩ := down_run
  have key := C89_order_zero mirrorAndDetector_wf (fun o ho c h => by
    rcases List.mem_cons.mp ho with rfl | ho
    · simp [Optic.prims, discMirror, Shape.prims] at h
    · cases List.mem_singleton.mp ho
      simp [Optic.prims, squareDetector, Shape.prims] at h) downRay
    (by rw [norm_toE, norm_eq_one_iff]; norm_num [dot, downRay]) rfl 100 none 3
  rw [hs] at key
  cases hrun : downRay.run 100 mirrorAndDetector none 3 with
  | raised e s' => rw [hrun] at key; cases key
  | outOfFuel s' => rw [hrun] at key; cases key
  | finished s' =>
    rw [hrun] at key
    injection key with key
    subst key
    refine ⟨s', rfl, lift_inj (congrArg Ray.position hr), congrArg Ray.blocked hr, ?_⟩
    have := congrArg List.length hl
    rwa [show s'.lift.log = s'.log.map DetHit.lift from rfl, List.length_map] at this

end Optics
