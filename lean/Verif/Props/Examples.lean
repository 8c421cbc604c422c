import Verif.Props.Probes

/-!
# C93: the example scripts run without an exception, but for the seven that make a mirror
-/

namespace Optics
open V3

/-- What a computation that does not raise returns. -/
def Builds {β : Type} (m : Py β) (P : β → Prop) : Prop := ∃ a, m = .ok a ∧ P a

theorem builds_bind {β γ : Type} {m : Py β} {k : β → Py γ} {Q : β → Prop} {P : γ → Prop} (h : Builds m Q)
    (hk : ∀ a, Q a → Builds (k a) P) : Builds (m >>= k) P := by
  obtain ⟨a, rfl, ha⟩ := h
  exact hk a ha

theorem builds_pure {β : Type} {a : β} {P : β → Prop} (h : P a) : Builds (pure a) P := ⟨a, rfl, h⟩

theorem rectangle_builds {c n t : V3 ℝ} {h w : ℝ} (ht : dot n t = 0) (hh : 0 ≤ h) (hw : 0 ≤ w) :
    Builds (Rectangle.new c n t (some h) (some w)) fun _ => True := by
  have hc : isclose (dot (unitVector n) (unitVector t)) 0.0 rtolDefault atolDefault = true := by
    rw [unitVector_eq, unitVector_eq, dot_smul_left, dot_smul_right, ht, mul_zero, mul_zero, lit0]
    simp only [isclose]
    apply decide_eq_true
    simp only [real_abs, rtolDefault, atolDefault]
    norm_num
  have e : checkHAndW (some h) (some w) = .ok (h, w) := by
    simp only [checkHAndW, lit0]
    rw [if_neg (not_lt.mpr hh), if_neg (not_lt.mpr hw)]
  unfold Rectangle.new
  simp only [hc, e]
  exact ⟨_, rfl, trivial⟩

theorem detector_builds {id : ℕ} {c n t : V3 ℝ} {h w : ℝ} (ht : dot n t = 0) (hh : 0 ≤ h) (hw : 0 ≤ w) (hn : n ≠ ⟨0, 0, 0⟩)
    (ht' : t ≠ ⟨0, 0, 0⟩) : Builds (Detector.new id c n t "rectangular_flat" (some w) (some h)) fun d => (Optic.detector d).WellFormed := by
  obtain ⟨r, hr, -⟩ := rectangle_builds (c := c) ht hh hw
  have e : Builds (Detector.new id c n t "rectangular_flat" (some w) (some h)) fun _ => True := by
    unfold Detector.new
    simp only [hr]
    exact ⟨_, rfl, trivial⟩
  obtain ⟨d, hd, -⟩ := e
  exact ⟨d, hd, .detector hn ht' hd⟩

theorem grating_builds {c n t : V3 ℝ} {h w G : ℝ} (ht : dot n t = 0) (hh : 0 ≤ h) (hw : 0 ≤ w) (hn : n ≠ ⟨0, 0, 0⟩)
    (ht' : t ≠ ⟨0, 0, 0⟩) :
    Builds (Grating.new c n t "rectangular_flat" (some w) (some h) (some G)) fun d => (Optic.grating d).WellFormed := by
  obtain ⟨r, hr, -⟩ := rectangle_builds (c := c) ht hh hw
  have e : Builds (Grating.new c n t "rectangular_flat" (some w) (some h) (some G)) fun _ => True := by
    unfold Grating.new
    simp only [hr]
    exact ⟨_, rfl, trivial⟩
  obtain ⟨d, hd, -⟩ := e
  exact ⟨d, hd, .grating hn ht' hd⟩

theorem dmd_builds {c n t m : V3 ℝ} {h w : ℝ} {type : String} (ht : dot n t = 0) (hh : 0 ≤ h) (hw : 0 ≤ w) (hn : n ≠ ⟨0, 0, 0⟩)
    (ht' : t ≠ ⟨0, 0, 0⟩) (hm : m ≠ ⟨0, 0, 0⟩) :
    Builds (Mirror.new c "rectangular_flat" (some n) none (some w) (some h) none (some t) type (some m))
      fun d => (Optic.mirror d).WellFormed := by
  obtain ⟨r, hr, -⟩ := rectangle_builds (c := c) ht hh hw
  have e : Builds (Mirror.new c "rectangular_flat" (some n) none (some w) (some h) none (some t) type (some m)) fun _ => True := by
    unfold Mirror.new
    simp [need, hr, bind, Except.bind, pure, Except.pure, Builds]
  obtain ⟨d, hd, -⟩ := e
  exact ⟨d, hd, .mirror (D := none) (f := none) (fun h => hn (Option.some.inj h)) (fun h => ht' (Option.some.inj h)) hm nofun nofun hd⟩

theorem lens_builds {c n : V3 ℝ} {D f index : ℝ} {type : String} (hn : n ≠ ⟨0, 0, 0⟩) (hD : D ≠ 0) (hf : f ≠ 0) (hi : 0 < index) :
    Builds (Lens.new c (some n) "spherical_biconvex" (some D) none none (some f) type index) fun l => (Optic.lens l).WellFormed :=
  ⟨_, rfl, .lens (shape := "spherical_biconvex") (w := none) (h := none) (fun h => hn (Option.some.inj h)) nofun
    (fun h => hD (Option.some.inj h)) hi rfl fun _ => ⟨rfl, f, rfl, hf⟩⟩

theorem sphere_builds {c : V3 ℝ} {D : ℝ} (hD : 0 < D) : Builds (Sphere.new c none (some D)) fun s => s.R ≠ 0 := by
  unfold Sphere.new checkRAndD
  refine ⟨_, rfl, ?_⟩
  change D / 2.0 ≠ 0
  rw [lit2]; positivity

/-- A scene on which no run raises. -/
def Safe (optics : List (Optic ℝ)) : Prop := (∀ o ∈ optics, o.WellFormed) ∧ ∀ o ∈ optics, o.NoDifference

theorem safe_nil : Safe [] := ⟨by simp, by simp⟩

theorem safe_cons {o : Optic ℝ} {l : List (Optic ℝ)} (h : o.WellFormed) (h' : o.NoDifference) (hl : Safe l) : Safe (o :: l) :=
  ⟨List.forall_mem_cons.mpr ⟨h, hl.1⟩, List.forall_mem_cons.mpr ⟨h', hl.2⟩⟩

theorem e_ne {x y z : ℝ} (h : x ≠ 0 ∨ y ≠ 0 ∨ z ≠ 0) : (⟨x, y, z⟩ : V3 ℝ) ≠ ⟨0, 0, 0⟩ := by
  intro e
  rw [V3.mk.injEq] at e
  tauto

theorem flat_safe {o : Optic ℝ} {l : List (Optic ℝ)} (h : o.WellFormed) (h' : ∀ c, o ≠ .compound c) (hl : Safe l) : Safe (o :: l) :=
  safe_cons h (fun c hc => absurd hc (h' c)) hl

theorem csg_safe {e : Csg (Prim ℝ)} {behavior : String} {index : ℝ} (he : e.All Prim.WellFormed) (hn : e.NoDifference)
    (hb : behavior = "reflect" ∨ behavior = "refract") (hi : 0 < index) : Safe [.compound ⟨e.tree, behavior, index⟩] :=
  safe_cons (.compound he hb hi) (fun _ hc => by obtain rfl := Optic.compound.inj hc; exact ⟨e, rfl, hn, he⟩) safe_nil

theorem pair_safe {P Q : Sphere ℝ} (hP : P.R ≠ 0) (hQ : Q.R ≠ 0) {behavior : String} {index : ℝ}
    (hb : behavior = "reflect" ∨ behavior = "refract") (hi : 0 < index) : Builds (pairScene "intersect" P Q behavior index) Safe :=
  ⟨_, pairScene_eq _ _ _ _ _, csg_safe (e := .op .intersect (.prim (.sphere P)) (.prim (.sphere Q))) ⟨hP, hQ⟩ ⟨by decide, trivial, trivial⟩ hb hi⟩

theorem unionScene_safe : Builds (unionScene (α := ℝ)) Safe := by
  unfold unionScene
  refine builds_bind (sphere_builds (by norm_num)) fun a ha => builds_bind (sphere_builds (by norm_num)) fun b hb =>
    builds_bind (sphere_builds (by norm_num)) fun c hc => ?_
  exact ⟨_, rfl, csg_safe (e := .op .union (.prim (.sphere a)) (.op .union (.prim (.sphere b)) (.prim (.sphere c)))) ⟨ha, hb, hc⟩
    ⟨by decide, trivial, by decide, trivial, trivial⟩ (.inl rfl) (by norm_num)⟩

theorem intersectScene_safe : Builds (intersectScene (α := ℝ)) Safe := by
  unfold intersectScene
  exact builds_bind (sphere_builds (by norm_num)) fun a ha => builds_bind (sphere_builds (by norm_num)) fun b hb =>
    pair_safe ha hb (.inl rfl) (by norm_num)

theorem singletScene_safe : Builds (singletScene (α := ℝ)) Safe := by
  unfold singletScene
  exact builds_bind (sphere_builds (by norm_num)) fun a ha => builds_bind (sphere_builds (by norm_num)) fun b hb =>
    pair_safe ha hb (.inr rfl) (by norm_num)

theorem bestformScene_safe : Builds (bestformScene (α := ℝ)) Safe := by
  unfold bestformScene
  exact builds_bind (sphere_builds (by norm_num)) fun a ha => builds_bind (sphere_builds (by norm_num)) fun b hb =>
    pair_safe ha hb (.inr rfl) (by norm_num)

theorem cylinderScene_safe : Builds (cylinderScene (α := ℝ)) Safe := by
  unfold cylinderScene
  refine builds_bind (Q := fun c => (Prim.cylinder c).WellFormed) ?_ fun c hc =>
    ⟨_, rfl, csg_safe (e := .prim (.cylinder c)) hc trivial (.inl rfl) (by norm_num)⟩
  refine ⟨_, rfl, ?_, ?_⟩
  · change (2.0 : ℝ) ≠ 0
    norm_num
  · rw [norm_toE]
    exact unit_norm (e_ne (by norm_num))

theorem thinlensScene_safe : Builds (thinlensScene (α := ℝ)) Safe := by
  unfold thinlensScene
  exact builds_bind (lens_builds (e_ne (by norm_num)) (by norm_num) (by norm_num) (by norm_num)) fun a ha =>
    builds_pure (flat_safe ha nofun safe_nil)

theorem telescopeScene_safe : Builds (telescopeScene (α := ℝ)) Safe := by
  unfold telescopeScene
  exact builds_bind (lens_builds (e_ne (by norm_num)) (by norm_num) (by norm_num) (by norm_num)) fun a ha =>
    builds_bind (lens_builds (e_ne (by norm_num)) (by norm_num) (by norm_num) (by norm_num)) fun b hb =>
    builds_bind (detector_builds (by norm_num [dot]) (by norm_num) (by norm_num) (e_ne (by norm_num)) (e_ne (by norm_num))) fun c hc =>
    builds_pure (flat_safe ha nofun (flat_safe hb nofun (flat_safe hc nofun safe_nil)))

theorem imagingScene_safe : Builds (imagingScene (α := ℝ)) Safe := by
  unfold imagingScene
  exact builds_bind (lens_builds (e_ne (by norm_num)) (by norm_num) (by norm_num) (by norm_num)) fun a ha =>
    builds_bind (detector_builds (by norm_num [dot]) (by norm_num) (by norm_num) (e_ne (by norm_num)) (e_ne (by norm_num))) fun c hc =>
    builds_pure (flat_safe ha nofun (flat_safe hc nofun safe_nil))

theorem relayScene_safe : Builds (relayScene (α := ℝ)) Safe := by
  unfold relayScene
  exact builds_bind (lens_builds (e_ne (by norm_num)) (by norm_num) (by norm_num) (by norm_num)) fun a ha =>
    builds_bind (lens_builds (e_ne (by norm_num)) (by norm_num) (by norm_num) (by norm_num)) fun b hb =>
    builds_bind (detector_builds (by norm_num [dot]) (by norm_num) (by norm_num) (e_ne (by norm_num)) (e_ne (by norm_num))) fun c hc =>
    builds_pure (flat_safe ha nofun (flat_safe hb nofun (flat_safe hc nofun safe_nil)))

theorem dmdScene_safe : Builds (dmdScene (α := ℝ)) Safe := by
  unfold dmdScene
  exact builds_bind (lens_builds (e_ne (by norm_num)) (by norm_num) (by norm_num) (by norm_num)) fun a ha =>
    builds_bind (dmd_builds (by norm_num [dot]) (by norm_num) (by norm_num) (e_ne (by norm_num)) (e_ne (by norm_num)) (e_ne (by norm_num))) fun m hm =>
    builds_bind (lens_builds (e_ne (by norm_num)) (by norm_num) (by norm_num) (by norm_num)) fun b hb =>
    builds_bind (detector_builds (by norm_num [dot]) (by norm_num) (by norm_num) (e_ne (by norm_num)) (e_ne (by norm_num))) fun c hc =>
    builds_pure (flat_safe hm nofun (flat_safe ha nofun (flat_safe hb nofun (flat_safe hc nofun safe_nil))))

/-- The normal of the grating, a unit vector perpendicular to its lines. -/
theorem littrow_normal (θ : ℝ) : (rotationMatrixAxisAngle (⟨0.0, 0.0, 1.0⟩ : V3 ℝ) θ).mulVec ⟨0.0, -1.0, 0.0⟩ = ⟨Real.sin θ, -Real.cos θ, 0⟩ := by
  have e : (⟨0.0, 0.0, 1.0⟩ : V3 ℝ) = ⟨0, 0, 1⟩ := by norm_num
  rw [e, axisAngle_rodrigues (e_ne (by norm_num)), unitVector_of_unit (by norm_num [dot])]
  ext <;> norm_num [rodrigues, cross, dot]

theorem gratingScene_safe : Builds (gratingScene (α := ℝ)) Safe := by
  unfold gratingScene
  simp only [littrow_normal]
  refine builds_bind (grating_builds (by norm_num [dot]) (by norm_num) (by norm_num) (e_ne ?_) (e_ne (by norm_num))) fun a ha =>
    builds_pure (flat_safe ha nofun safe_nil)
  by_contra h
  push Not at h
  have := Real.sin_sq_add_cos_sq (PyNum.arcsin ((600.0 : ℝ) / 1e6 * 1.0 * 700.0 / 2.0))
  rw [h.1, neg_eq_zero.mp h.2.1] at this
  norm_num at this

/-! ## The rays of the scripts -/

theorem new_unit {p d : V3 ℝ} (h : d ≠ ⟨0, 0, 0⟩) (wl order : ℝ) (type : String) : ‖(Ray.new p d wl order type).direction.toE‖ = 1 := by
  rw [norm_toE]
  exact unit_norm h

theorem objectRays_unit (size : ℝ) (xRes zRes angleRes : Int) (hx : 1 ≤ xRes) (hz : 1 ≤ zRes) (ha : 1 ≤ angleRes) :
    Builds (objectRays size xRes zRes angleRes) fun rays => rays.length = (xRes * zRes * angleRes).toNat ∧
      ∀ r ∈ rays, ‖r.direction.toE‖ = 1 := by
  obtain ⟨xs, ex, lx, -⟩ := imageAxis_spec xRes (size / 2) hx
  obtain ⟨zs, ez, lz, -⟩ := imageAxis_spec zRes (size / 2) hz
  obtain ⟨as, ea, la, -⟩ := imageAxis_spec angleRes (PyNum.arctan2 ((1.0 : ℝ) / 2.0 / 8.0) 1.0) ha
  simp only [lit2] at ea
  obtain ⟨grid, hgrid⟩ : ∃ g, g = xs.flatMap fun x => zs.flatMap fun z => as.map fun a => (x, z, a) := ⟨_, rfl⟩
  refine ⟨grid.map fun p => Ray.new ⟨p.1, 0.0, p.2.1⟩ ⟨0.0, Real.cos p.2.2, Real.sin p.2.2⟩
    (if p.1 * p.1 + p.2.1 * p.2.1 ≤ 5.0 * 5.0 / 4.0 then 680.0 else 450.0) 0.0 "normal", ?_, ?_, fun r hr => ?_⟩
  · unfold objectRays imageRays
    simp only [lit2, neg_div, ex, ez, ea]
    rw [hgrid]
    simp only [bind, Except.bind, pure, Except.pure, if_true, List.zip_map', List.map_map]
    rfl
  · simp only [List.length_map, hgrid, List.length_flatMap, lx, lz, la, List.map_const', List.sum_replicate, smul_eq_mul]
    obtain ⟨a, rfl⟩ := Int.eq_ofNat_of_zero_le (by omega : 0 ≤ xRes)
    obtain ⟨b, rfl⟩ := Int.eq_ofNat_of_zero_le (by omega : 0 ≤ zRes)
    obtain ⟨c, rfl⟩ := Int.eq_ofNat_of_zero_le (by omega : 0 ≤ angleRes)
    rw [← Int.natCast_mul, ← Int.natCast_mul]
    simp only [Int.toNat_natCast]; ring
  · obtain ⟨p, -, rfl⟩ := List.mem_map.mp hr
    refine new_unit (e_ne ?_) _ _ _
    by_contra h
    push Not at h
    have := Real.sin_sq_add_cos_sq p.2.2
    rw [h.2.1, h.2.2] at this
    norm_num at this

/-! ## C93 -/

/-- A script that builds its scene and its rays, and on which for every stream of random numbers no run raises. -/
def Script.Runs (s : Script ℝ) : Prop :=
  ∃ optics rays, s.scene = .ok optics ∧ s.rays = .ok rays ∧ ∀ samples all, s.allRays rays samples = some all →
    ∀ r ∈ all, ∀ fuel : ℕ, s.distance / 1e-12 + 1 ≤ fuel →
      ∃ st, r.lift.run (.fin s.distance) (optics.map Optic.lift) none fuel = .finished st

theorem runs_of_safe {s : Script ℝ} (hs : Builds s.scene Safe) (hr : Builds s.rays fun rays => ∀ r ∈ rays, ‖r.direction.toE‖ = 1)
    (hd : 0 ≤ s.distance) : s.Runs := by
  obtain ⟨optics, ho, h1, h2⟩ := hs
  obtain ⟨rays, hrays, hu⟩ := hr
  refine ⟨optics, rays, ho, hrays, fun samples all hall r hmem fuel hf => ?_⟩
  refine C71_no_exception h1 h2 r ?_ _ none fuel (by rw [max_eq_left hd]; exact hf)
  unfold Script.allRays at hall
  split at hall
  · rw [← Option.some.inj hall] at hmem
    exact hu r hmem
  · obtain ⟨new, rfl, -, hn⟩ := C53_faerie_fire _ _ _ _ _ _ hall
    rcases List.mem_append.mp hmem with h | h
    · exact hu r h
    · exact (hn r h).2.1

/-- C93: the seven scripts that make a `Mirror` without a `dmd_normal` fail, in any arithmetic, with a `TypeError` while building the scene. -/
theorem C93_mirror_scripts {α : Type} [PyNum α] : ∀ m ∈ mirrorScenes (α := α), m = .error .typeError := by
  unfold mirrorScenes
  simp only [List.forall_mem_cons]
  exact ⟨rfl, rfl, rfl, rfl, rfl, rfl, rfl, by simp⟩

theorem differenceScript_runs : Script.Runs ⟨differenceScene, .ok [], some (150.0 - 50.0, ⟨0.0, 50.0, 0.0⟩, 1000), 150.0⟩ := by
  have n1 : (150.0 : ℝ) - 50.0 = 100 := by norm_num
  have n2 : (⟨0.0, 50.0, 0.0⟩ : V3 ℝ) = ⟨0, 50, 0⟩ := by norm_num
  have n3 : (150.0 : ℝ) = 150 := by norm_num
  refine ⟨_, [], differenceScene_eq, rfl, fun samples all hall r hmem fuel hf => ?_⟩
  simp only [Script.allRays, n1, n2] at hall
  obtain ⟨optics, ho, -, h⟩ := C92_difference_script _ _ _ hall
  rw [differenceScene_eq] at ho
  obtain rfl := Except.ok.inj ho
  have : 2 ≤ fuel := by
    have h2 : (2 : ℝ) ≤ fuel := by
      dsimp only at hf
      norm_num at hf ⊢
      linarith
    exact_mod_cast h2
  obtain ⟨st, hst, -⟩ := h r hmem fuel this
  exact ⟨st, by rw [n3]; exact hst⟩

/-- C93: each of the other twelve scripts builds its scene, and every ray it runs comes to its end without an exception. -/
theorem C93_example_scripts : ∀ s ∈ exampleScripts (α := ℝ), s.Runs := by
  unfold exampleScripts
  simp only [List.forall_mem_cons]
  have none_ : Builds (.ok [] : Py (List (Ray ℝ))) fun rays => ∀ r ∈ rays, ‖r.direction.toE‖ = 1 := ⟨_, rfl, by simp⟩
  have single : Builds (.ok singletRays : Py (List (Ray ℝ))) fun rays => ∀ r ∈ rays, ‖r.direction.toE‖ = 1 := by
    refine ⟨_, rfl, fun r hr => ?_⟩
    obtain ⟨z, -, rfl⟩ := List.mem_map.mp hr
    exact new_unit (e_ne (by norm_num)) _ _ _
  have obj : ∀ (size : ℝ) (a b c : Int), 1 ≤ a → 1 ≤ b → 1 ≤ c →
      Builds (objectRays size a b c) fun rays => ∀ r ∈ rays, ‖r.direction.toE‖ = 1 := by
    intro size a b c ha hb hc
    obtain ⟨rays, h1, -, h2⟩ := objectRays_unit size a b c ha hb hc
    exact ⟨rays, h1, h2⟩
  refine ⟨runs_of_safe unionScene_safe ⟨_, rfl, fun r hr => ?_⟩ (by norm_num), runs_of_safe intersectScene_safe none_ (by norm_num),
    differenceScript_runs, runs_of_safe singletScene_safe single (by norm_num), runs_of_safe bestformScene_safe single (by norm_num),
    runs_of_safe cylinderScene_safe ⟨_, rfl, fun r hr => ?_⟩ (by norm_num), runs_of_safe thinlensScene_safe ⟨_, rfl, fun r hr => ?_⟩ (by norm_num),
    runs_of_safe telescopeScene_safe (obj _ _ _ _ (by norm_num) (by norm_num) (by norm_num)) (by norm_num),
    runs_of_safe imagingScene_safe (obj _ _ _ _ (by norm_num) (by norm_num) (by norm_num)) (by norm_num),
    runs_of_safe relayScene_safe (obj _ _ _ _ (by norm_num) (by norm_num) (by norm_num)) (by norm_num),
    runs_of_safe gratingScene_safe ⟨_, rfl, fun r hr => ?_⟩ (by norm_num),
    runs_of_safe dmdScene_safe (obj _ _ _ _ (by norm_num) (by norm_num) (by norm_num)) (by norm_num), by simp⟩
  · obtain ⟨x, -, hr⟩ := List.mem_flatMap.mp hr
    obtain ⟨z, -, rfl⟩ := List.mem_map.mp hr
    exact new_unit (e_ne (by norm_num)) _ _ _
  · obtain ⟨z, -, rfl⟩ := List.mem_map.mp hr
    exact new_unit (e_ne (by norm_num)) _ _ _
  · obtain ⟨x, -, hr⟩ := List.mem_flatMap.mp hr
    obtain ⟨z, -, rfl⟩ := List.mem_map.mp hr
    exact new_unit (e_ne (by norm_num)) _ _ _
  · obtain ⟨z, -, rfl⟩ := List.mem_map.mp hr
    exact new_unit (e_ne (by norm_num)) _ _ _

theorem lens_index {P Q : Sphere ℝ} (hP : P.R ≠ 0) (hQ : Q.R ≠ 0) {behavior : String} {index : ℝ} (x : V3 ℝ) :
    (x ∈ (Prim.sphere P).solid → x ∈ (Prim.sphere Q).solid →
      getIndexAtPoint [.compound ⟨(Csg.op .intersect (.prim (.sphere P)) (.prim (.sphere Q))).tree, behavior, index⟩] x = .ok index) ∧
    (x ∉ (Prim.sphere P).solid →
      getIndexAtPoint [.compound ⟨(Csg.op .intersect (.prim (.sphere P)) (.prim (.sphere Q))).tree, behavior, index⟩] x = .ok 1) := by
  obtain ⟨b, hb, hb'⟩ := C22_test_tree_point (Csg.op .intersect (.prim (.sphere P)) (.prim (.sphere Q))) ⟨hP, hQ⟩ x
  refine ⟨fun h1 h2 => ?_, fun h1 => ?_⟩
  · have : b = true := hb'.mpr ⟨h1, h2⟩
    simp [getIndexAtPoint, Optic.getIndexAtPointIfInside, Compound.getIndexAtPointIfInside, hb, this, bind, Except.bind, pure, Except.pure]
  · have : b = false := by
      rw [Bool.eq_false_iff]
      exact fun h => h1 (hb'.mp h).1
    simp [getIndexAtPoint, Optic.getIndexAtPointIfInside, Compound.getIndexAtPointIfInside, hb, this, bind, Except.bind, pure, Except.pure,
      indexOfTheWorld, lit1]

theorem y_dist (a b : ℝ) : dist (⟨0, a, 0⟩ : V3 ℝ).toE (⟨0, b, 0⟩ : V3 ℝ).toE = |a - b| := by
  rw [dist_toE_eq, norm_eq]
  simp only [dot, sub_x, sub_y, sub_z]
  rw [← Real.sqrt_sq_eq_abs]
  congr 1; ring

/-- C93: the indices that script_testSingletLens.py and script_testBestformLens.py print: air at the origin, glass in the lens. -/
theorem C93_printed_indices :
    (∃ optics, singletScene (α := ℝ) = .ok optics ∧ getIndexAtPoint optics ⟨0, 0, 0⟩ = .ok 1 ∧
      getIndexAtPoint optics ⟨0, 400, 0⟩ = .ok 1.5167) ∧
    ∃ optics, bestformScene (α := ℝ) = .ok optics ∧ getIndexAtPoint optics ⟨0, 0, 0⟩ = .ok 1 ∧
      getIndexAtPoint optics ⟨0, 400, 0⟩ = .ok 1.5167 := by
  have out : ∀ y R : ℝ, R ≤ |0 - y| → ¬ dist (⟨0, 0, 0⟩ : V3 ℝ).toE (⟨0, y, 0⟩ : V3 ℝ).toE < R := by
    intro y R h
    rw [y_dist, not_lt]
    exact h
  have inn : ∀ y R : ℝ, |400 - y| < R → dist (⟨0, 400, 0⟩ : V3 ℝ).toE (⟨0, y, 0⟩ : V3 ℝ).toE < R := by
    intro y R h
    rw [y_dist]
    exact h
  refine ⟨⟨_, singletScene_eq, (lens_index (by norm_num) (by norm_num) _).2 (out _ _ ?_),
      (lens_index (by norm_num) (by norm_num) _).1 (inn _ _ ?_) (inn _ _ ?_)⟩,
    _, bestformScene_eq, (lens_index (by norm_num) (by norm_num) _).2 (out _ _ ?_),
      (lens_index (by norm_num) (by norm_num) _).1 (inn _ _ ?_) (inn _ _ ?_)⟩ <;> norm_num [abs_lt, le_abs]

/-- C93 is about something: the script of the union has 76 rays, the imaging script 75. -/
example : (unionRays (α := ℝ)).length = 76 ∧ ∃ rays, objectRays (10.0 : ℝ) 5 5 3 = .ok rays ∧ rays.length = 75 := by
  refine ⟨by simp [unionRays, linspace, Function.comp_def], ?_⟩
  obtain ⟨rays, h, hl, -⟩ := objectRays_unit 10.0 5 5 3 (by norm_num) (by norm_num) (by norm_num)
  exact ⟨rays, h, by rw [hl]; rfl⟩

end Optics
