import Verif.Lemmas.SceneAct
import Verif.Spec.Scene

/-!
# The constructors in numpy floats build what they build in real numbers
-/

namespace Optics
open V3

theorem lift_checkRAndD (R D : Option ℝ) :
    checkRAndD (R.map XR.fin) (D.map XR.fin) = (checkRAndD R D).map fun p => (XR.fin p.1, XR.fin p.2) := by
  cases R with
  | none =>
    cases D with
    | none => rfl
    | some D =>
      show Except.ok (XR.fin D / 2.0, XR.fin D) = Except.ok (XR.fin (D / 2.0), XR.fin D)
      rw [xlit2, lit2, XR.fin_div _ _ two_ne_zero]
  | some R =>
    cases D with
    | none => rfl
    | some D =>
      simp only [checkRAndD, Option.map_some]
      have : isclose (XR.fin D) (XR.fin R * 2.0) 1e-8 1e-8 = isclose D (R * 2.0) 1e-8 1e-8 := by
        unfold isclose
        rw [XR.fin_ofScientific, XR.fin_ofScientific]
        simp only [XR.fin_sub, XR.fin_abs, XR.fin_mul, XR.fin_add, XR.fin_le, real_abs]
      rw [this]
      split_ifs <;> rfl

theorem lift_checkHAndW (h w : Option ℝ) :
    checkHAndW (h.map XR.fin) (w.map XR.fin) = (checkHAndW h w).map fun p => (XR.fin p.1, XR.fin p.2) := by
  cases h with
  | none => rfl
  | some h =>
    cases w with
    | none => rfl
    | some w =>
      simp only [checkHAndW, Option.map_some, xlit0, lit0, XR.fin_lt]
      split_ifs <;> rfl

theorem lift_ray_new (p : V3 ℝ) {d : V3 ℝ} (hd : d ≠ ⟨0, 0, 0⟩) (wl o : ℝ) (type : String) :
    Ray.new p.lift d.lift (.fin wl) (.fin o) type = (Ray.new p d wl o type).lift := by
  unfold Ray.new
  rw [lift_unitVector hd]; rfl

theorem lift_plane_new (c : V3 ℝ) {n : V3 ℝ} (hn : n ≠ ⟨0, 0, 0⟩) : Plane.new c.lift n.lift = (Plane.new c n).lift := by
  unfold Plane.new
  rw [lift_unitVector hn]; rfl

theorem lift_circle_new (c : V3 ℝ) {n : Option (V3 ℝ)} (hn : NonZeroVec n) (R D : Option ℝ) :
    Circle.new c.lift (n.map V3.lift) (R.map XR.fin) (D.map XR.fin) = (Circle.new c n R D).map Circle.lift := by
  unfold Circle.new
  rw [lift_checkRAndD]
  cases checkRAndD R D with
  | error e => rfl
  | ok p =>
    cases n with
    | none => rfl
    | some n =>
      have hn : n ≠ ⟨0, 0, 0⟩ := fun e => hn (by rw [e])
      simp only [Option.map_some, Except.map, bind, Except.bind, pure, Except.pure]
      rw [lift_unitVector hn, lift_plane_new c hn]; rfl

theorem lift_sphere_new (c : V3 ℝ) (R D : Option ℝ) :
    Sphere.new c.lift (R.map XR.fin) (D.map XR.fin) = (Sphere.new c R D).map Sphere.lift := by
  unfold Sphere.new
  rw [lift_checkRAndD]
  cases checkRAndD R D <;> rfl

theorem lift_cylinder_new (c : V3 ℝ) {a : V3 ℝ} (ha : a ≠ ⟨0, 0, 0⟩) (R D : Option ℝ) :
    InfiniteCylinder.new c.lift a.lift (R.map XR.fin) (D.map XR.fin)
      = (InfiniteCylinder.new c a R D).map InfiniteCylinder.lift := by
  unfold InfiniteCylinder.new
  rw [lift_checkRAndD, lift_unitVector ha]
  cases checkRAndD R D <;> rfl

theorem lift_rectangle_new (c : V3 ℝ) {n t : V3 ℝ} (hn : n ≠ ⟨0, 0, 0⟩) (ht : t ≠ ⟨0, 0, 0⟩) (h w : Option ℝ) :
    Rectangle.new c.lift n.lift t.lift (h.map XR.fin) (w.map XR.fin) = (Rectangle.new c n t h w).map Rectangle.lift := by
  unfold Rectangle.new
  have hi : isclose (dot (unitVector n).lift (unitVector t).lift) 0.0 rtolDefault atolDefault
      = isclose (dot (unitVector n) (unitVector t)) 0.0 rtolDefault atolDefault := by
    unfold isclose rtolDefault atolDefault
    rw [lift_dot, XR.fin_ofScientific, XR.fin_ofScientific, XR.fin_ofScientific]
    simp only [XR.fin_sub, XR.fin_abs, XR.fin_mul, XR.fin_add, XR.fin_le, real_abs]
  simp only [lift_unitVector hn, lift_unitVector ht, hi, lift_checkHAndW, lift_plane_new c hn, lift_cross]
  split_ifs
  · rfl
  · cases checkHAndW h w with
    | error e => rfl
    | ok p =>
      simp only [Except.map, bind, Except.bind, pure, Except.pure, xlit2, lit2, XR.fin_div _ _ two_ne_zero, lift_smul,
        lift_add, lift_sub]
      rfl

theorem lift_mirror_new (position : V3 ℝ) (shape : String) {n t dmd : Option (V3 ℝ)} (hn : NonZeroVec n)
    (ht : NonZeroVec t) (hdmd : NonZeroVec dmd) (D w h f : Option ℝ) (type : String) :
    Mirror.new position.lift shape (n.map V3.lift) (D.map XR.fin) (w.map XR.fin) (h.map XR.fin) (f.map XR.fin)
      (t.map V3.lift) type (dmd.map V3.lift) = (Mirror.new position shape n D w h f t type dmd).map Mirror.lift := by
  unfold Mirror.new
  cases dmd with
  | none => rfl
  | some dmd =>
  have hdmd : dmd ≠ ⟨0, 0, 0⟩ := fun e => hdmd (by rw [e])
  simp only [Option.map_some, need, bind, Except.bind, pure, Except.pure, lift_unitVector hdmd]
  split_ifs
  · cases n with
    | none => rfl
    | some n =>
      have hn0 : n ≠ ⟨0, 0, 0⟩ := fun e => hn (by rw [e])
      have e := lift_circle_new position hn none D
      simp only [Option.map_some, Option.map_none] at e
      simp only [Option.map_some, e]
      cases Circle.new position (some n) none D with
      | error e => rfl
      | ok c => simp only [Except.map, lift_unitVector hn0]; rfl
  · cases n with
    | none => rfl
    | some n =>
    cases t with
    | none => rfl
    | some t =>
      have hn0 : n ≠ ⟨0, 0, 0⟩ := fun e => hn (by rw [e])
      have ht0 : t ≠ ⟨0, 0, 0⟩ := fun e => ht (by rw [e])
      simp only [Option.map_some, lift_rectangle_new position hn0 ht0]
      cases Rectangle.new position n t h w with
      | error e => rfl
      | ok c => simp only [Except.map, lift_unitVector hn0]; rfl
  · cases n with
    | none => rfl
    | some n =>
    cases f with
    | none => rfl
    | some f =>
      have hn0 : n ≠ ⟨0, 0, 0⟩ := fun e => hn (by rw [e])
      have e := lift_circle_new position hn none D
      have e' := lift_sphere_new (position + (f * 2.0) * unitVector n) (some (f * 2.0)) none
      simp only [Option.map_some, Option.map_none] at e e'
      have ef : XR.fin f * 2.0 = XR.fin (f * 2.0) := by rw [xlit2, lit2, XR.fin_mul]
      simp only [Option.map_some, e, lift_unitVector hn0, ef, lift_smul, lift_add, e']
      cases Circle.new position (some n) none D with
      | error e => rfl
      | ok c => cases Sphere.new (position + (f * 2.0) * unitVector n) (some (f * 2.0)) none <;> rfl
  · have e := lift_sphere_new position none D
    simp only [Option.map_none] at e
    rw [e]
    cases Sphere.new position none D <;> rfl
  · rfl

theorem lift_lens_new (position : V3 ℝ) {n : Option (V3 ℝ)} (hn : NonZeroVec n) (shape : String) (D w h f : Option ℝ)
    (type : String) (index : ℝ) :
    Lens.new position.lift (n.map V3.lift) shape (D.map XR.fin) (w.map XR.fin) (h.map XR.fin) (f.map XR.fin) type (.fin index)
      = (Lens.new position n shape D w h f type index).map Lens.lift := by
  unfold Lens.new
  have hu : (n.map V3.lift).map unitVector = (n.map unitVector).map V3.lift := by
    cases n with
    | none => rfl
    | some n => exact congrArg some (lift_unitVector fun e => hn (by rw [e]))
  simp only [bind, Except.bind, pure, Except.pure, hu]
  split_ifs
  · have e := lift_circle_new position hn none D
    simp only [Option.map_none] at e
    rw [e]
    cases Circle.new position n none D <;> rfl
  · have e := lift_sphere_new position none D
    simp only [Option.map_none] at e
    rw [e]
    cases Sphere.new position none D <;> rfl
  · rfl

theorem lift_grating_new (position : V3 ℝ) {n t : V3 ℝ} (hn : n ≠ ⟨0, 0, 0⟩) (ht : t ≠ ⟨0, 0, 0⟩) (shape : String)
    (w h G : Option ℝ) :
    Grating.new position.lift n.lift t.lift shape (w.map XR.fin) (h.map XR.fin) (G.map XR.fin)
      = (Grating.new position n t shape w h G).map Grating.lift := by
  unfold Grating.new
  simp only [bind, Except.bind, pure, Except.pure, lift_rectangle_new position hn ht, lift_unitVector hn,
    lift_unitVector ht]
  split_ifs
  · cases Rectangle.new position n t h w <;> rfl
  · rfl

theorem lift_detector_new (id : Nat) (position : V3 ℝ) {n t : V3 ℝ} (hn : n ≠ ⟨0, 0, 0⟩) (ht : t ≠ ⟨0, 0, 0⟩) (shape : String)
    (w h : Option ℝ) :
    Detector.new id position.lift n.lift t.lift shape (w.map XR.fin) (h.map XR.fin)
      = (Detector.new id position n t shape w h).map Detector.lift := by
  unfold Detector.new
  simp only [bind, Except.bind, pure, Except.pure, lift_rectangle_new position hn ht, lift_unitVector hn,
    lift_unitVector ht]
  split_ifs
  · cases Rectangle.new position n t h w <;> rfl
  · rfl

end Optics
