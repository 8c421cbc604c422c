import Verif.Lemmas.Concrete

/-!
# C40, C48, C50, C51, C68, C71: concrete scenes
-/

namespace Optics
open V3

theorem xr_not_gt {a b : ℝ} (h : a ≤ b) : ¬ (XR.fin a > XR.fin b) := not_lt.mpr h
theorem xr_gt_floor {a : ℝ} (h : 1e-12 < a) : XR.fin a > clippingFloor := h

/-! ## A mirror, and a detector behind the source -/

/-- A disc mirror at the origin facing up, and a detector 20 above it facing down. -/
noncomputable def mirrorAndDetector : List (Optic ℝ) :=
  [.mirror (discMirror ⟨0, 0, 0⟩ ⟨0, 0, 1⟩ 5), .detector (squareDetector 7 ⟨0, 0, 20⟩ ⟨0, 0, -1⟩ ⟨1, 0, 0⟩ 5)]

/-- A ray from 5 above the mirror, downwards. -/
noncomputable def downRay : Ray ℝ :=
  { position := ⟨0, 0, 5⟩, direction := ⟨0, 0, -1⟩, wavelength := 532, order := 0, pointHistory := [⟨0, 0, 5⟩],
    blocked := false, type := "normal" }

theorem downRay_new : Ray.new (⟨0, 0, 5⟩ : V3 ℝ) ⟨0, 0, -1⟩ 532 0 "normal" = downRay := by
  unfold Ray.new downRay
  rw [unitVector_of_unit (by norm_num [dot])]

theorem mirrorAndDetector_wf : ∀ o ∈ mirrorAndDetector, o.WellFormed := by
  intro o ho
  rcases List.mem_cons.mp ho with rfl | ho
  · exact discMirror_wf _ (by norm_num [dot]) (by norm_num)
  · obtain rfl := List.mem_singleton.mp ho
    exact squareDetector_wf _ _ (by norm_num [dot]) (by norm_num [dot]) (by norm_num [dot]) (by norm_num)

/-- The ray on its way back up, at the mirror. -/
noncomputable def upRay : Ray ℝ :=
  { downRay with position := ⟨0, 0, 0⟩, direction := ⟨0, 0, 1⟩, pointHistory := [⟨0, 0, 5⟩, ⟨0, 0, 0⟩] }

/-- The ray at the detector. -/
noncomputable def endRay : Ray ℝ :=
  { upRay with position := ⟨0, 0, 20⟩, pointHistory := [⟨0, 0, 5⟩, ⟨0, 0, 0⟩, ⟨0, 0, 20⟩], blocked := true }

theorem down_pass : ∃ s, runStep (.fin 100) (mirrorAndDetector.map Optic.lift) (RunState.init downRay.lift (.fin 100))
    = .next s ∧ s.ray = upRay.lift ∧ s.remaining = .fin 95 ∧ s.log = [] ∧ s.interactions = 1 := by
  have hd : dot downRay.direction downRay.direction = 1 := by norm_num [dot, downRay]
  have hat : downRay.at 5 = ⟨0, 0, 0⟩ := by rw [at_eq]; ext <;> norm_num [downRay]
  have h1 : (Optic.mirror (discMirror ⟨0, 0, 0⟩ ⟨0, 0, 1⟩ 5)).lift.testIntersect downRay.lift
      = .ok ⟨true, some (downRay.at 5).lift, some (V3.lift ⟨0, 0, 1⟩), .none⟩ := by
    refine discMirror_hit (by norm_num [dot]) hd (by norm_num [dot, downRay]) (by norm_num)
      (by norm_num [dot, downRay]) ?_
    rw [hat, distance_of_sq le_rfl (by norm_num [dot])]; norm_num
  have h2 : (Optic.detector (squareDetector 7 ⟨0, 0, 20⟩ ⟨0, 0, -1⟩ ⟨1, 0, 0⟩ 5)).lift.testIntersect downRay.lift
      = .ok ⟨false, none, none, .none⟩ := by
    exact squareDetector_miss 7 (T := -15) (by norm_num [dot]) hd (by norm_num [dot, downRay]) (by norm_num)
      (by norm_num [dot, downRay])
  rw [hat] at h1
  have hdist : distanceBetween downRay.lift.position (V3.lift ⟨0, 0, 0⟩) = .fin 5 := by
    show distanceBetween (V3.lift ⟨0, 0, 5⟩) _ = _
    rw [lift_distance, distance_of_sq (d := 5) (by norm_num) (by norm_num [dot])]
  have s1 := scanStep_new (rem := .fin 100) (v := ⟨false, none, none, none⟩) (show Optic.skipped _ = false from rfl) h1 rfl rfl
    (by rw [hdist]; exact xr_not_gt (by norm_num)) (by rw [hdist]; exact xr_gt_floor (by norm_num))
    (by rw [hdist]; rfl)
  have s2 := scanStep_miss (rem := .fin 100) (v := ⟨true, some (distanceBetween downRay.lift.position (V3.lift ⟨0, 0, 0⟩)),
    some ⟨(Optic.mirror (discMirror ⟨0, 0, 0⟩ ⟨0, 0, 1⟩ 5)).lift, V3.lift ⟨0, 0, 0⟩, some (V3.lift ⟨0, 0, 1⟩)⟩, some .none⟩)
    (show Optic.skipped _ = false from rfl) h2 rfl
  have hsc := scan_two (Optic.mirror (discMirror ⟨0, 0, 0⟩ ⟨0, 0, 1⟩ 5)).lift
    (Optic.detector (squareDetector 7 ⟨0, 0, 20⟩ ⟨0, 0, -1⟩ ⟨1, 0, 0⟩ 5)).lift (RunState.init downRay.lift (.fin 100)) s1 s2
  have hfl : (RunState.init downRay.lift (.fin 100)).flown (V3.lift ⟨0, 0, 0⟩) = (downRay.movedTo ⟨0, 0, 0⟩).lift := by
    unfold RunState.flown
    show downRay.lift.movedTo (downRay.lift.position + distanceBetween downRay.lift.position _ * downRay.lift.direction) = _
    rw [hdist, lift_fly, hat]
  have hact : (Optic.mirror (discMirror ⟨0, 0, 0⟩ ⟨0, 0, 1⟩ 5)).lift.doIntersect
      ((RunState.init downRay.lift (.fin 100)).flown (V3.lift ⟨0, 0, 0⟩)) (V3.lift ⟨0, 0, 0⟩)
      (some (V3.lift ⟨0, 0, 1⟩)) .none = .ok (upRay.lift, []) := by
    rw [hfl]
    show (do return (← (discMirror ⟨0, 0, 0⟩ ⟨0, 0, 1⟩ 5).lift.doIntersect _ _ _, [])) = _
    have : (discMirror ⟨0, 0, 0⟩ ⟨0, 0, 1⟩ 5).lift.doIntersect (downRay.movedTo ⟨0, 0, 0⟩).lift (V3.lift ⟨0, 0, 0⟩)
        (some (V3.lift ⟨0, 0, 1⟩)) = .ok upRay.lift := by
      have e : specular (V3.lift ⟨0, 0, -1⟩) (V3.lift ⟨0, 0, 1⟩) = V3.lift ⟨0, 0, 1⟩ := by
        rw [lift_specular (by simp) (by simp), specular_eq_unit (by norm_num [dot]) (by norm_num [dot])]
        congr 1
        ext <;> norm_num [dot]
      show Except.ok { (downRay.movedTo ⟨0, 0, 0⟩).lift with direction := specular (V3.lift ⟨0, 0, -1⟩) (V3.lift ⟨0, 0, 1⟩) } = _
      rw [e]; rfl
    rw [this]; rfl
  refine ⟨_, runStep_act hsc rfl rfl rfl (by decide) hact, rfl, ?_, rfl, rfl⟩
  show XR.fin 100 - distanceBetween downRay.lift.position _ = _
  rw [hdist, XR.fin_sub]; norm_num

theorem up_pass {s : RunState XR} (hr : s.ray = upRay.lift) (hrem : s.remaining = .fin 95) (hl : s.log = []) :
    ∃ s', runStep (.fin 100) (mirrorAndDetector.map Optic.lift) s = .next s' ∧ s'.ray = endRay.lift ∧
      s'.remaining = .fin 75 ∧ s'.log = [⟨7, V3.lift ⟨0, 0, 20⟩, .fin 532⟩] ∧
      s'.interactions = s.interactions + 1 := by
  have hd : dot upRay.direction upRay.direction = 1 := by norm_num [dot, upRay]
  have hat : upRay.at 20 = ⟨0, 0, 20⟩ := by rw [at_eq]; ext <;> norm_num [upRay]
  have h1 : (Optic.mirror (discMirror ⟨0, 0, 0⟩ ⟨0, 0, 1⟩ 5)).lift.testIntersect s.ray
      = .ok ⟨false, none, none, .none⟩ := by
    rw [hr]
    exact discMirror_miss (t := 0) (by norm_num [dot]) hd (by norm_num [dot, upRay]) (by norm_num)
      (by norm_num [dot, upRay])
  have h2 : (Optic.detector (squareDetector 7 ⟨0, 0, 20⟩ ⟨0, 0, -1⟩ ⟨1, 0, 0⟩ 5)).lift.testIntersect s.ray
      = .ok ⟨true, some (V3.lift ⟨0, 0, 20⟩), some (V3.lift ⟨0, 0, -1⟩), .none⟩ := by
    rw [hr]
    exact squareDetector_hit 7 (T := 20) (by norm_num [dot]) (by norm_num [dot]) (by norm_num [dot]) hd
      (by norm_num [dot, upRay]) (by norm_num) hat
  have hdist : distanceBetween s.ray.position (V3.lift ⟨0, 0, 20⟩) = .fin 20 := by
    rw [hr]
    show distanceBetween (V3.lift ⟨0, 0, 0⟩) _ = _
    rw [lift_distance, distance_of_sq (d := 20) (by norm_num) (by norm_num [dot])]
  have s1 := scanStep_miss (rem := s.remaining) (v := ⟨false, none, s.selected, s.sfo⟩)
    (show Optic.skipped _ = false from rfl) h1 rfl
  have s2 := scanStep_new (rem := s.remaining) (v := ⟨false, none, s.selected, some .none⟩)
    (show Optic.skipped _ = false from rfl) h2 rfl rfl
    (by rw [hdist, hrem]; exact xr_not_gt (by norm_num)) (by rw [hdist]; exact xr_gt_floor (by norm_num))
    (by rw [hdist]; rfl)
  have hsc := scan_two _ _ s s1 s2
  have hfl : s.flown (V3.lift ⟨0, 0, 20⟩) = (upRay.movedTo ⟨0, 0, 20⟩).lift := by
    unfold RunState.flown
    rw [hdist, hr, lift_fly, hat]
  have hact : (Optic.detector (squareDetector 7 ⟨0, 0, 20⟩ ⟨0, 0, -1⟩ ⟨1, 0, 0⟩ 5)).lift.doIntersect
      (s.flown (V3.lift ⟨0, 0, 20⟩)) (V3.lift ⟨0, 0, 20⟩)
      (some (V3.lift ⟨0, 0, -1⟩)) .none = .ok (endRay.lift, [⟨7, V3.lift ⟨0, 0, 20⟩, .fin 532⟩]) := by
    rw [hfl]; rfl
  refine ⟨_, runStep_act hsc rfl rfl rfl (by rw [hr]; decide) hact, rfl, ?_, ?_, rfl⟩
  · show s.remaining - distanceBetween s.ray.position _ = _
    rw [hdist, hrem, XR.fin_sub]; norm_num
  · show s.log ++ _ = _
    rw [hl]; rfl

/-- The run: down to the mirror and up to the detector. -/
theorem down_run : ∃ s, downRay.lift.run (.fin 100) (mirrorAndDetector.map Optic.lift) none 3 = .finished s ∧
    s.ray = endRay.lift ∧ s.log = [⟨7, V3.lift ⟨0, 0, 20⟩, .fin 532⟩] := by
  obtain ⟨s1, h1, r1, m1, l1, -⟩ := down_pass
  obtain ⟨s2, h2, r2, m2, l2, -⟩ := up_pass r1 m1 l1
  refine ⟨s2, ?_, r2, l2⟩
  unfold Ray.run
  rw [runLoop_next _ ?_ h1, runLoop_next _ ?_ h2, runLoop_stop _ ?_]
  · unfold RunState.continues
    rw [r2]
    show (_ && !true) = false
    simp
  · unfold RunState.continues
    rw [r1, m1, xlit0, decide_eq_true (show (XR.fin 95 > XR.fin 0) from (by norm_num : (0:ℝ) < 95))]
    rfl
  · unfold RunState.continues
    rw [show (RunState.init downRay.lift (.fin 100)).remaining = .fin 100 from rfl, xlit0,
      decide_eq_true (show (XR.fin 100 > XR.fin 0) from (by norm_num : (0:ℝ) < 100))]
    rfl

/-- A run in the scope of C40, C48, C50, C68 and C71: down to the mirror, up to the detector, 25 of the 100 units of
the budget used, one row `[0, 0, 20, 532]` written. -/
example : (∀ o ∈ mirrorAndDetector, o.WellFormed) ∧ (∀ o ∈ mirrorAndDetector, o.NoDifference) ∧
    ‖downRay.direction.toE‖ = 1 ∧ GratingsDiffract 100 mirrorAndDetector none downRay ∧
    ∃ s, downRay.lift.run (.fin 100) (mirrorAndDetector.map Optic.lift) none 3 = .finished s ∧
      s.ray = endRay.lift ∧ s.log = [⟨7, V3.lift ⟨0, 0, 20⟩, .fin 532⟩] ∧
      pathLength endRay.pointHistory = 25 := by
  refine ⟨mirrorAndDetector_wf, ?_, ?_, gratingsDiffract_of_order_zero _ _ _ rfl, ?_⟩
  · intro o ho c e
    subst e
    rcases List.mem_cons.mp ho with h | h
    · cases h
    · cases List.mem_singleton.mp h
  · rw [norm_toE, norm_eq_one_iff]; norm_num [dot, downRay]
  · obtain ⟨s, h, hr, hl⟩ := down_run
    refine ⟨s, h, hr, hl, ?_⟩
    have d1 : dist (V3.toE ⟨0, 0, 5⟩) (V3.toE ⟨0, 0, 0⟩) = 5 := by
      rw [dist_toE_eq]
      exact distance_of_sq (p := ⟨0, 0, 5⟩) (q := ⟨0, 0, 0⟩) (by norm_num) (by norm_num [dot])
    have d2 : dist (V3.toE ⟨0, 0, 0⟩) (V3.toE ⟨0, 0, 20⟩) = 20 := by
      rw [dist_toE_eq]
      exact distance_of_sq (p := ⟨0, 0, 0⟩) (q := ⟨0, 0, 20⟩) (by norm_num) (by norm_num [dot])
    show pathLength [⟨0, 0, 5⟩, ⟨0, 0, 0⟩, ⟨0, 0, 20⟩] = 25
    simp only [pathLength, d1, d2]; norm_num

/-! ## C51 is false for a tangent behind the ray -/

/-- The ball mirror `Mirror(0, "circular_convex_spherical", D=10)`. -/
noncomputable def ballMirror : Mirror ℝ :=
  { position := ⟨0, 0, 0⟩, shape := "circular_convex_spherical", D := some 10, w := none, h := none, f := none,
    type := "normal", dmdNormal := ⟨0, 0, 1⟩, normal := none, surfaces := [.sphere ⟨⟨0, 0, 0⟩, 5, 10⟩] }

theorem ballMirror_wf : (Optic.mirror ballMirror).WellFormed := by
  refine .mirror (position := ⟨0, 0, 0⟩) (shape := "circular_convex_spherical") (n := none) (t := none) (D := some 10)
    (w := none) (h := none) (f := none) (type := "normal") (dmd := ⟨0, 0, 1⟩) (fun e => by cases e) (fun e => by cases e)
    (by simp) (by simp [NonZero]) (fun e => by cases e) ?_
  unfold Mirror.new ballMirror
  simp only [need, bind, Except.bind, pure, Except.pure, if_true, Sphere.new, checkRAndD,
    unitVector_of_unit (show dot (⟨0, 0, 1⟩ : V3 ℝ) ⟨0, 0, 1⟩ = 1 by norm_num [dot])]
  rw [if_neg (by decide), if_neg (by decide), if_neg (by decide)]
  norm_num [lit2]

/-- A ray that has left a tangent point 10 behind it. -/
noncomputable def grazingRay : Ray ℝ :=
  { position := ⟨5, 0, 10⟩, direction := ⟨0, 0, 1⟩, wavelength := 532, order := 0, pointHistory := [⟨5, 0, 10⟩],
    blocked := false, type := "normal" }

theorem ballMirror_grazed : (Optic.mirror ballMirror).lift.testIntersect grazingRay.lift
    = .ok ⟨true, some (V3.lift ⟨5, 0, 0⟩), some (V3.lift ⟨1, 0, 0⟩), .count 2⟩ := by
  have hs : (⟨⟨0, 0, 0⟩, 5, 10⟩ : Sphere ℝ).testIntersect grazingRay = Hit6.one ⟨5, 0, 0⟩ ⟨-1, 0, 0⟩ 2 := by
    have hD : sphDisc ⟨0, 0, 0⟩ grazingRay.position grazingRay.direction 5 = 0 := by
      norm_num [sphDisc, dot, grazingRay]
    have hp : lineAt grazingRay.position grazingRay.direction
        (dot grazingRay.direction (⟨0, 0, 0⟩ - grazingRay.position)) = ⟨5, 0, 0⟩ := by
      unfold lineAt
      ext <;> norm_num [dot, grazingRay]
    have hn : (⟨⟨0, 0, 0⟩, 5, 10⟩ : Sphere ℝ).normal ⟨5, 0, 0⟩ = ⟨-1, 0, 0⟩ := by
      unfold Sphere.normal
      rw [unitVector_of_sq (d := 5) (by norm_num) (by norm_num [dot])]
      ext <;> norm_num
    rw [sphere_eq]
    simp only [hD, lt_irrefl, if_false, if_true, hp, hn]
  have hl := lift_sphere_testIntersect ⟨⟨0, 0, 0⟩, 5, 10⟩ (by norm_num) grazingRay (by norm_num [dot, grazingRay])
  rw [hs] at hl
  have e : sphereStep grazingRay.lift (⟨false, none, none, some none⟩, none) (.sphere (Sphere.lift ⟨⟨0, 0, 0⟩, 5, 10⟩))
      = .ok (⟨true, some (V3.lift ⟨5, 0, 0⟩), some (distanceBetween grazingRay.lift.position (V3.lift ⟨5, 0, 0⟩)),
          some (some (-V3.lift ⟨-1, 0, 0⟩))⟩, some (Hit6.lift (Hit6.one ⟨5, 0, 0⟩ ⟨-1, 0, 0⟩ 2))) := by
    have : sphereUpdate grazingRay.lift (⟨false, none, none, some none⟩)
        (Hit6.lift (Hit6.one ⟨5, 0, 0⟩ ⟨-1, 0, 0⟩ 2)) = .ok (⟨true, some (V3.lift ⟨5, 0, 0⟩),
          some (distanceBetween grazingRay.lift.position (V3.lift ⟨5, 0, 0⟩)), some (some (-V3.lift ⟨-1, 0, 0⟩))⟩) := by
      unfold sphereUpdate
      have hlt : ltMin (distanceBetween grazingRay.lift.position (V3.lift ⟨5, 0, 0⟩)) none = true := ltInf_fin _ _
      simp only [Hit6.lift, Hit6.one, Option.map_some, Option.map_none, need, bind, Except.bind, pure, Except.pure, hlt,
        if_true]
    unfold sphereStep
    simp only [hl, bind, Except.bind, pure, Except.pure, bound]
    rw [if_pos (show (Hit6.lift (Hit6.one ⟨5, 0, 0⟩ ⟨-1, 0, 0⟩ 2)).hit = true from rfl), this]
  show ballMirror.lift.testIntersect grazingRay.lift = _
  unfold Mirror.testIntersect Mirror.lift ballMirror
  simp only [List.map_cons, List.map_nil, Shape.lift, List.foldlM_cons, List.foldlM_nil, e, bind, Except.bind, pure,
    Except.pure, bound]
  have : -V3.lift ⟨-1, 0, 0⟩ = V3.lift ⟨1, 0, 0⟩ := by rw [lift_neg]; congr 1; ext <;> norm_num
  rw [this]
  rfl

/-- C51 is false as stated: the line of this ray touches the ball mirror at `(5, 0, 0)`, 10 behind the ray.  The
mirror reports that point as a hit, `run` measures its distance 10 and flies the ray 10 forward, to `(5, 0, 20)`,
where the mirror acts on it. -/
theorem C51_counterexample : (Optic.mirror ballMirror).WellFormed ∧ ‖grazingRay.direction.toE‖ = 1 ∧
    ∃ s sfo n, runStep (.fin 100) [(Optic.mirror ballMirror).lift] (RunState.init grazingRay.lift (.fin 100)) = .next s ∧
      (Optic.mirror ballMirror).lift.testIntersect grazingRay.lift = .ok ⟨true, some (V3.lift ⟨5, 0, 0⟩), n, sfo⟩ ∧
      s.interactions = 1 ∧ s.ray.position = V3.lift ⟨5, 0, 20⟩ ∧ s.ray.position ≠ V3.lift ⟨5, 0, 0⟩ := by
  have hd : dot grazingRay.direction grazingRay.direction = 1 := by norm_num [dot, grazingRay]
  refine ⟨ballMirror_wf, by rw [norm_toE, norm_eq_one_iff]; exact hd, ?_⟩
  have hdist : distanceBetween grazingRay.lift.position (V3.lift ⟨5, 0, 0⟩) = .fin 10 := by
    show distanceBetween (V3.lift ⟨5, 0, 10⟩) _ = _
    rw [lift_distance, distance_of_sq (d := 10) (by norm_num) (by norm_num [dot])]
  have s1 := scanStep_new (rem := .fin 100) (v := ⟨false, none, none, none⟩) (show Optic.skipped _ = false from rfl)
    ballMirror_grazed rfl rfl (by rw [hdist]; exact xr_not_gt (by norm_num))
    (by rw [hdist]; exact xr_gt_floor (by norm_num)) (by rw [hdist]; rfl)
  have hsc := (scan_one (Optic.mirror ballMirror).lift (RunState.init grazingRay.lift (.fin 100))).trans s1
  have hat : grazingRay.at 10 = ⟨5, 0, 20⟩ := by rw [at_eq]; ext <;> norm_num [grazingRay]
  have hfl : (RunState.init grazingRay.lift (.fin 100)).flown (V3.lift ⟨5, 0, 0⟩)
      = (grazingRay.movedTo ⟨5, 0, 20⟩).lift := by
    unfold RunState.flown
    show grazingRay.lift.movedTo
      (grazingRay.lift.position + distanceBetween grazingRay.lift.position _ * grazingRay.lift.direction) = _
    rw [hdist, lift_fly, hat]
  have hact : (Optic.mirror ballMirror).lift.doIntersect
      ((RunState.init grazingRay.lift (.fin 100)).flown (V3.lift ⟨5, 0, 0⟩)) (V3.lift ⟨5, 0, 0⟩)
      (some (V3.lift ⟨1, 0, 0⟩)) (.count 2)
      = .ok ({ (grazingRay.movedTo ⟨5, 0, 20⟩).lift with
               direction := specular grazingRay.direction.lift (V3.lift ⟨1, 0, 0⟩) }, []) := by
    rw [hfl]; rfl
  refine ⟨_, _, _, runStep_act hsc rfl rfl rfl (by decide) hact, ballMirror_grazed, rfl, rfl, ?_⟩
  show V3.lift ⟨5, 0, 20⟩ ≠ V3.lift ⟨5, 0, 0⟩
  intro e
  have := congrArg V3.z e
  change XR.fin 20 = XR.fin 0 at this
  have := XR.fin.inj this
  norm_num at this

/-! ## C68 is false for gratings without the order asked for -/

/-- A grating of 2400 lines/mm. -/
noncomputable def fineGrating : Grating ℝ := squareGrating ⟨0, 0, 0⟩ ⟨0, 0, 1⟩ ⟨0, 1, 0⟩ 5 2400

/-- A ray of order 1 and wavelength 500 nm. -/
noncomputable def orderRay : Ray ℝ :=
  { position := ⟨0, 0, 10⟩, direction := ⟨0, 0, -1⟩, wavelength := 500, order := 1, pointHistory := [⟨0, 0, 10⟩],
    blocked := false, type := "normal" }

/-- C68 is false without a condition on gratings, and so are C40 and C50: a ray of order 1 at 500 nm falls
perpendicularly on a well-formed grating of 2400 lines/mm, which has no first order for it.  `run` finishes, with a
direction of `nan`s and, after the second pass, a position of `nan`s. -/
theorem C68_counterexample : (Optic.grating fineGrating).WellFormed ∧ ‖orderRay.direction.toE‖ = 1 ∧
    ∃ s, orderRay.lift.run (.fin 100) [(Optic.grating fineGrating).lift] none 3 = .finished s ∧
      s.ray.direction = V3.nan ∧ s.ray.position = V3.nan := by
  have hz : dot (⟨0, 0, 1⟩ : V3 ℝ) ⟨0, 0, 1⟩ = 1 := by norm_num [dot]
  have hy : dot (⟨0, 1, 0⟩ : V3 ℝ) ⟨0, 1, 0⟩ = 1 := by norm_num [dot]
  have hzy : dot (⟨0, 0, 1⟩ : V3 ℝ) ⟨0, 1, 0⟩ = 0 := by norm_num [dot]
  have hd : dot orderRay.direction orderRay.direction = 1 := by norm_num [dot, orderRay]
  have hdn : ‖orderRay.direction.toE‖ = 1 := by rw [norm_toE, norm_eq_one_iff]; exact hd
  refine ⟨squareGrating_wf _ hz hy hzy (by norm_num) _, hdn, ?_⟩
  have hat : orderRay.at 10 = ⟨0, 0, 0⟩ := by rw [at_eq]; ext <;> norm_num [orderRay]
  have h1 : (Optic.grating fineGrating).lift.testIntersect orderRay.lift
      = .ok ⟨true, some (V3.lift ⟨0, 0, 0⟩), some (V3.lift ⟨0, 0, 1⟩), .none⟩ :=
    squareGrating_hit (T := 10) hz hy hzy hd (by norm_num [dot, orderRay]) (by norm_num) hat
  have hdist : distanceBetween orderRay.lift.position (V3.lift ⟨0, 0, 0⟩) = .fin 10 := by
    show distanceBetween (V3.lift ⟨0, 0, 10⟩) _ = _
    rw [lift_distance, distance_of_sq (d := 10) (by norm_num) (by norm_num [dot])]
  have s1 := scanStep_new (rem := .fin 100) (v := ⟨false, none, none, none⟩) (show Optic.skipped _ = false from rfl)
    h1 rfl rfl (by rw [hdist]; exact xr_not_gt (by norm_num))
    (by rw [hdist]; exact xr_gt_floor (by norm_num)) (by rw [hdist]; rfl)
  have hsc := (scan_one (Optic.grating fineGrating).lift (RunState.init orderRay.lift (.fin 100))).trans s1
  have hfl : (RunState.init orderRay.lift (.fin 100)).flown (V3.lift ⟨0, 0, 0⟩)
      = (orderRay.movedTo ⟨0, 0, 0⟩).lift := by
    unfold RunState.flown
    show orderRay.lift.movedTo
      (orderRay.lift.position + distanceBetween orderRay.lift.position _ * orderRay.lift.direction) = _
    rw [hdist, lift_fly, hat]
  have hnan : gratingDirection (V3.lift ⟨0, 0, -1⟩) (V3.lift ⟨0, 0, 1⟩) (V3.lift ⟨0, 1, 0⟩) (.fin 2400) (.fin 1)
      (.fin 500) = V3.nan := by
    refine (C38_nan_iff ⟨0, 0, -1⟩ ⟨0, 0, 1⟩ ⟨0, 1, 0⟩ hdn ?_ ?_ ?_ ?_ 2400 1 500).2 ?_
    · rw [norm_toE, norm_eq_one_iff]; exact hz
    · rw [norm_toE, norm_eq_one_iff]; exact hy
    · rw [inner_toE]; exact hzy
    · intro c e
      have := congrArg V3.z e
      simp at this
    · have hs : inPlaneSine ⟨0, 0, 1⟩ ⟨0, 1, 0⟩ ⟨0, 0, -1⟩ = 0 := by
        unfold inPlaneSine
        rw [inner_toE, show dot (⟨0, 0, -1⟩ : V3 ℝ) (cross ⟨0, 1, 0⟩ ⟨0, 0, 1⟩) = 0 by norm_num [dot, cross],
          abs_zero, zero_div]
      rw [hs, abs_of_pos] <;> norm_num
  have hact : (Optic.grating fineGrating).lift.doIntersect
      ((RunState.init orderRay.lift (.fin 100)).flown (V3.lift ⟨0, 0, 0⟩)) (V3.lift ⟨0, 0, 0⟩)
      (some (V3.lift ⟨0, 0, 1⟩)) .none
      = .ok ({ (orderRay.movedTo ⟨0, 0, 0⟩).lift with direction := V3.nan }, []) := by
    rw [hfl, ← hnan]
    have : PyNum.eqb (XR.fin 1) 0.0 = false := by rw [xlit0, XR.fin_eqb]; norm_num
    show (do return (← fineGrating.lift.doIntersect _ _ _, [])) = _
    unfold Grating.doIntersect
    rw [show (orderRay.movedTo ⟨0, 0, 0⟩).lift.order = .fin 1 from rfl, this]
    rfl
  have st1 := runStep_act (md := .fin 100) hsc rfl rfl rfl (by decide) hact
  obtain ⟨s2, hs2, hr2, hm2⟩ : ∃ s2, runStep (.fin 100) [(Optic.grating fineGrating).lift] (RunState.init orderRay.lift (.fin 100))
      = .next s2 ∧ s2.ray = { (orderRay.movedTo ⟨0, 0, 0⟩).lift with direction := V3.nan } ∧ s2.remaining = .fin 90 := by
    refine ⟨_, st1, rfl, ?_⟩
    show XR.fin 100 - distanceBetween orderRay.lift.position _ = _
    rw [hdist, XR.fin_sub]; norm_num
  have ht2 : ∃ n, (Optic.grating fineGrating).lift.testIntersect s2.ray = .ok ⟨false, none, n, .none⟩ := by
    have e := squareRect_nan (squareRect ⟨0, 0, 0⟩ ⟨0, 0, 1⟩ ⟨0, 1, 0⟩ 5).lift s2.ray (by rw [hr2])
    obtain ⟨m, hm⟩ := flat_single false s2.ray (.rectangle (squareRect ⟨0, 0, 0⟩ ⟨0, 0, 1⟩ ⟨0, 1, 0⟩ 5).lift) Hit3.miss
      none (by show Except.ok (IntersectResult.three _) = _; rw [e]) (fun h => by cases h) (fun _ => rfl)
      (fun h => by cases h)
    refine ⟨none, ?_⟩
    show fineGrating.lift.testIntersect s2.ray = _
    unfold Grating.testIntersect Grating.lift fineGrating squareGrating
    simp only [or_true, if_true, List.map_cons, List.map_nil, Shape.lift]
    rw [hm]; rfl
  obtain ⟨n, ht2⟩ := ht2
  have hsc2 := (scan_one (Optic.grating fineGrating).lift s2).trans
    (scanStep_miss (show Optic.skipped _ = false from rfl) ht2 rfl)
  obtain ⟨s3, hs3, hr3, hm3⟩ : ∃ s3, runStep (.fin 100) [(Optic.grating fineGrating).lift] s2 = .next s3 ∧
      s3.ray = s2.ray.movedTo (s2.ray.position + s2.remaining * s2.ray.direction) ∧
      s3.remaining = s2.remaining - .fin 100 := ⟨_, runStep_free hsc2 rfl, rfl, rfl⟩
  refine ⟨s3, ?_, ?_, ?_⟩
  · unfold Ray.run
    rw [runLoop_next _ ?_ hs2, runLoop_next _ ?_ hs3, runLoop_stop _ ?_]
    · unfold RunState.continues
      rw [hm3, hm2, xlit0, XR.fin_sub,
        decide_eq_false (show ¬ (XR.fin (90 - 100) > XR.fin 0) from xr_not_gt (by norm_num))]
      rfl
    · unfold RunState.continues
      rw [hr2, hm2, xlit0, decide_eq_true (show (XR.fin 90 > XR.fin 0) from (by norm_num : (0:ℝ) < 90))]
      rfl
    · unfold RunState.continues
      rw [show (RunState.init orderRay.lift (.fin 100)).remaining = .fin 100 from rfl, xlit0,
        decide_eq_true (show (XR.fin 100 > XR.fin 0) from (by norm_num : (0:ℝ) < 100))]
      rfl
  · rw [hr3]
    show s2.ray.direction = _
    rw [hr2]
  · rw [hr3]
    show s2.ray.position + s2.remaining * s2.ray.direction = _
    rw [hr2, hm2]
    ext <;> simp [V3.nan]

end Optics
