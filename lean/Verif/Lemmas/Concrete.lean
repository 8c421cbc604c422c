import Verif.Props.Soundness

/-!
# Evaluating runs of small concrete scenes
-/

namespace Optics
open V3

section generic
variable {α : Type} [PyNum α]

theorem scanStep_skip {ray : Ray α} {rem : α} {v : ScanVars α} {o : Optic α} (h : o.skipped = true) :
    scanStep ray rem v o = .ok v := by
  unfold scanStep; simp only [h, if_true]; rfl

theorem scanStep_miss {ray : Ray α} {rem : α} {v : ScanVars α} {o : Optic α} {r : Hit4 α} (hk : o.skipped = false)
    (h : o.testIntersect ray = .ok r) (hh : r.hit = false) :
    scanStep ray rem v o = .ok { v with sfo := some r.sfo } := by
  unfold scanStep
  simp only [hk, Bool.false_eq_true, if_false, bind, Except.bind, h, hh]; rfl

theorem scanStep_new {ray : Ray α} {rem : α} {v : ScanVars α} {o : Optic α} {r : Hit4 α} {pt : V3 α}
    (hk : o.skipped = false) (h : o.testIntersect ray = .ok r) (hh : r.hit = true) (hp : r.pt = some pt)
    (h1 : ¬ distanceBetween ray.position pt > rem) (h2 : distanceBetween ray.position pt > clippingFloor)
    (h3 : ltMin (distanceBetween ray.position pt) v.minDistance = true) :
    scanStep ray rem v o = .ok ⟨true, some (distanceBetween ray.position pt), some ⟨o, pt, r.normal⟩, some r.sfo⟩ := by
  unfold scanStep
  simp only [hk, Bool.false_eq_true, if_false, bind, Except.bind, h, hh, hp, need, if_true, if_neg h1, if_pos h2, h3]
  rfl

theorem scanStep_far {ray : Ray α} {rem : α} {v : ScanVars α} {o : Optic α} {r : Hit4 α} {pt : V3 α}
    (hk : o.skipped = false) (h : o.testIntersect ray = .ok r) (hh : r.hit = true) (hp : r.pt = some pt)
    (h1 : distanceBetween ray.position pt > rem ∨ ¬ distanceBetween ray.position pt > clippingFloor) :
    scanStep ray rem v o = .ok { v with sfo := some r.sfo } := by
  unfold scanStep
  simp only [hk, Bool.false_eq_true, if_false, bind, Except.bind, h, hh, hp, need, if_true]
  split_ifs with h4 h5 <;> first | rfl | (exfalso; rcases h1 with h | h <;> contradiction)

theorem scanStep_behind {ray : Ray α} {rem : α} {v : ScanVars α} {o : Optic α} {r : Hit4 α} {pt : V3 α}
    (hk : o.skipped = false) (h : o.testIntersect ray = .ok r) (hh : r.hit = true) (hp : r.pt = some pt)
    (h1 : ¬ distanceBetween ray.position pt > rem) (h2 : distanceBetween ray.position pt > clippingFloor)
    (h3 : ltMin (distanceBetween ray.position pt) v.minDistance = false) :
    scanStep ray rem v o = .ok { v with sfo := some r.sfo, intersected := true } := by
  unfold scanStep
  simp only [hk, Bool.false_eq_true, if_false, bind, Except.bind, h, hh, hp, need, if_true, if_neg h1, if_pos h2, h3]
  rfl

theorem runStep_free {md : α} {optics : List (Optic α)} {s : RunState α} {v : ScanVars α}
    (hv : scan optics s = .ok v) (hi : v.intersected = false) :
    runStep md optics s = .next
      { s with selected := v.selected, sfo := v.sfo, remaining := s.remaining - md,
               ray := s.ray.movedTo (s.ray.position + s.remaining * s.ray.direction) } := by
  unfold runStep
  unfold scan at hv
  simp only [hv, hi, Bool.not_false, if_true, fly_some]

theorem runStep_act {md : α} {optics : List (Optic α)} {s : RunState α} {v : ScanVars α} {sel : Selected α} {sfo : Sfo}
    {ray' : Ray α} {hits : List (DetHit α)}
    (hv : scan optics s = .ok v) (hi : v.intersected = true) (hs : v.selected = some sel) (hf : v.sfo = some sfo)
    (ht : s.ray.type ≠ "faerie_fire")
    (ha : sel.optic.doIntersect (s.flown sel.pt) sel.pt sel.normal sfo = .ok (ray', hits)) :
    runStep md optics s = .next
      { s with selected := v.selected, sfo := v.sfo,
               remaining := s.remaining - distanceBetween s.ray.position sel.pt,
               interactions := s.interactions + 1, ray := ray', log := s.log ++ hits } := by
  unfold runStep
  unfold scan at hv
  have ht' : (s.ray.movedTo (s.ray.position + distanceBetween s.ray.position sel.pt * s.ray.direction)).type
      ≠ "faerie_fire" := ht
  unfold RunState.flown at ha
  simp only [hv, hi, Bool.not_true, Bool.false_eq_true, if_false, fly_some, hs, if_neg ht', hf, ha]

theorem runLoop_next {md : α} {optics : List (Optic α)} {mi : Option Int} {s s' : RunState α} (fuel : Nat)
    (hc : s.continues mi = true) (hs : runStep md optics s = .next s') :
    runLoop md optics mi (fuel + 1) s = runLoop md optics mi fuel s' := by
  rw [runLoop, if_pos hc, hs]

theorem runLoop_stop {md : α} {optics : List (Optic α)} {mi : Option Int} {s : RunState α} (fuel : Nat)
    (hc : s.continues mi = false) : runLoop md optics mi (fuel + 1) s = .finished s := by
  rw [runLoop, hc]; rfl

theorem scan_one (o : Optic α) (s : RunState α) :
    scan [o] s = scanStep s.ray s.remaining ⟨false, none, s.selected, s.sfo⟩ o := by
  unfold scan
  simp only [List.foldlM_cons, List.foldlM_nil, bind, Except.bind, pure, Except.pure]
  cases scanStep s.ray s.remaining ⟨false, none, s.selected, s.sfo⟩ o <;> rfl

theorem scan_two (o p : Optic α) (s : RunState α) {v w : ScanVars α}
    (h1 : scanStep s.ray s.remaining ⟨false, none, s.selected, s.sfo⟩ o = .ok v)
    (h2 : scanStep s.ray s.remaining v p = .ok w) : scan [o, p] s = .ok w := by
  unfold scan
  simp only [List.foldlM_cons, List.foldlM_nil, bind, Except.bind, pure, Except.pure, h1, h2]

end generic

theorem distance_of_sq {p q : V3 ℝ} {d : ℝ} (hd : 0 ≤ d) (h : dot (p - q) (p - q) = d * d) :
    distanceBetween p q = d := by
  unfold distanceBetween V3.norm
  rw [h, real_sqrt, Real.sqrt_mul_self hd]

theorem unitVector_of_sq {v : V3 ℝ} {d : ℝ} (hd : 0 < d) (h : dot v v = d * d) : unitVector v = v / d := by
  unfold unitVector V3.norm
  rw [h, real_sqrt, Real.sqrt_mul_self hd.le]

theorem ltMin_none (d : ℝ) : ltMin d none = true := rfl
theorem ltMin_none_fin (d : ℝ) : ltMin (XR.fin d) none = true := rfl

end Optics

namespace Optics
open V3

/-! ## Discs and rectangles -/

theorem plane_at {c n : V3 ℝ} (hn : dot n n = 1) {ray : Ray ℝ} (hd : dot ray.direction ray.direction = 1) {t : ℝ}
    (h1 : 1e-9 < |dot n ray.direction|) (h2 : 1e-9 < t) (h3 : dot (c - ray.position) n = t * dot n ray.direction) :
    (⟨c, n⟩ : Plane ℝ).testIntersect ray = ⟨true, some (ray.at t), some n⟩ := by
  have h0 : dot n ray.direction ≠ 0 := by
    intro e; rw [e, abs_zero] at h1; norm_num at h1
  unfold Plane.testIntersect
  simp only [unitVector_of_unit hn, unitVector_of_unit hd, real_abs, arbEpsilon_eq, gt_iff_lt, h3, if_pos h1,
    mul_div_cancel_right₀ _ h0, if_pos h2]
  rfl

theorem plane_behind {c n : V3 ℝ} (hn : dot n n = 1) {ray : Ray ℝ} (hd : dot ray.direction ray.direction = 1) {t : ℝ}
    (h1 : 1e-9 < |dot n ray.direction|) (h2 : t ≤ 1e-9) (h3 : dot (c - ray.position) n = t * dot n ray.direction) :
    (⟨c, n⟩ : Plane ℝ).testIntersect ray = Hit3.miss := by
  have h0 : dot n ray.direction ≠ 0 := by
    intro e; rw [e, abs_zero] at h1; norm_num at h1
  unfold Plane.testIntersect
  simp only [unitVector_of_unit hn, unitVector_of_unit hd, real_abs, arbEpsilon_eq, gt_iff_lt, h3, if_pos h1,
    mul_div_cancel_right₀ _ h0, if_neg (not_lt.mpr h2)]

/-- The flat mirror `Mirror(c, "circular_flat", n, D=2R, dmd_normal=n)`. -/
noncomputable def discMirror (c n : V3 ℝ) (R : ℝ) : Mirror ℝ :=
  { position := c, shape := "circular_flat", D := some (2 * R), w := none, h := none, f := none, type := "normal",
    dmdNormal := n, normal := some n, surfaces := [.circle ⟨c, R, 2 * R, some n, some ⟨c, n⟩⟩] }

theorem discMirror_new (c : V3 ℝ) {n : V3 ℝ} (hn : dot n n = 1) (R : ℝ) :
    Mirror.new c "circular_flat" (some n) (some (2 * R)) none none none none "normal" (some n)
      = .ok (discMirror c n R) := by
  unfold Mirror.new discMirror
  simp only [need, bind, Except.bind, pure, Except.pure, if_true, Circle.new, checkRAndD, Option.map_some, Plane.new,
    unitVector_of_unit hn, lit2]
  rw [mul_div_cancel_left₀ _ two_ne_zero]

theorem discMirror_wf (c : V3 ℝ) {n : V3 ℝ} (hn : dot n n = 1) {R : ℝ} (hR : R ≠ 0) :
    (Optic.mirror (discMirror c n R)).WellFormed :=
  have h0 := ne_zero_of_dot_one hn
  .mirror (n := some n) (t := none) (fun e => h0 (Option.some.inj e)) (fun e => by cases e) h0
    (fun e => hR (by have := Option.some.inj e; linarith)) (fun e => by cases e) (discMirror_new c hn R)

/-- A flat surface's answer becomes the optic's. -/
theorem flat_answer {ray : Ray ℝ} (b : Bool) (s : Shape XR) (h : Hit3 ℝ) (n0 : Option (Option (V3 XR)))
    (hs : s.testIntersect ray.lift = .ok (.three h.lift)) (hp : h.hit = true → h.pt ≠ none)
    (hm : h.hit = false → h.pt = none)
    (hb : b = true → h.hit = true → s.normalAttr = .ok (h.normal.map V3.lift)) :
    ∃ m, [s].foldlM (flatStep b ray.lift) ⟨false, none, none, n0⟩
      = .ok ⟨h.hit, h.pt.map V3.lift, m, some (h.normal.map V3.lift)⟩ := by
  refine flat_single b ray.lift s h.lift n0 hs (fun hh => ?_) (fun hh => ?_) hb
  · obtain ⟨x, hx⟩ := Option.ne_none_iff_exists'.mp (hp hh)
    exact ⟨x.lift, by simp [Hit3.lift, hx], ltInf_fin _ _⟩
  · simp [Hit3.lift, hm hh]

theorem discMirror_test {c n : V3 ℝ} (hn : dot n n = 1) (R : ℝ) {ray : Ray ℝ}
    (hd : dot ray.direction ray.direction = 1) (h : Hit3 ℝ)
    (hh : (⟨c, R, 2 * R, some n, some ⟨c, n⟩⟩ : Circle ℝ).testIntersect ray = .ok h)
    (hp : h = Hit3.miss ∨ ∃ x, h = ⟨true, some x, some n⟩) :
    (discMirror c n R).lift.testIntersect ray.lift = .ok ⟨h.hit, h.pt.map V3.lift, h.normal.map V3.lift, .none⟩ := by
  have e := lift_circle_testIntersect ⟨c, R, 2 * R, some n, some ⟨c, n⟩⟩ ⟨c, n⟩ rfl (ne_zero_of_dot_one hn) ray
    (ne_zero_of_dot_one hd)
  rw [hh] at e
  obtain ⟨m, hm⟩ := flat_answer (ray := ray) true (.circle (Circle.lift ⟨c, R, 2 * R, some n, some ⟨c, n⟩⟩)) h none
    (by show (do return IntersectResult.three (← _)) = _; rw [e]; rfl)
    (by rcases hp with rfl | ⟨x, rfl⟩ <;> simp [Hit3.miss])
    (by rcases hp with rfl | ⟨x, rfl⟩ <;> simp [Hit3.miss])
    (by
      rcases hp with rfl | ⟨x, rfl⟩
      · intro _ h; cases h
      · intro _ _; rfl)
  unfold Mirror.testIntersect Mirror.lift discMirror
  simp only [true_or, if_true, List.map_cons, List.map_nil, Shape.lift]
  rw [hm]; rfl

theorem discMirror_hit {c n : V3 ℝ} (hn : dot n n = 1) {R : ℝ} {ray : Ray ℝ}
    (hd : dot ray.direction ray.direction = 1) {t : ℝ} (h1 : 1e-9 < |dot n ray.direction|) (h2 : 1e-9 < t)
    (h3 : dot (c - ray.position) n = t * dot n ray.direction) (h4 : distanceBetween (ray.at t) c < R) :
    (Optic.mirror (discMirror c n R)).lift.testIntersect ray.lift
      = .ok ⟨true, some (ray.at t).lift, some n.lift, .none⟩ := by
  refine discMirror_test hn R hd ⟨true, some (ray.at t), some n⟩ ?_ (.inr ⟨_, rfl⟩)
  unfold Circle.testIntersect
  simp only [plane_at hn hd h1 h2 h3, if_pos h4]

theorem discMirror_miss {c n : V3 ℝ} (hn : dot n n = 1) {R : ℝ} {ray : Ray ℝ}
    (hd : dot ray.direction ray.direction = 1) {t : ℝ} (h1 : 1e-9 < |dot n ray.direction|) (h2 : t ≤ 1e-9)
    (h3 : dot (c - ray.position) n = t * dot n ray.direction) :
    (Optic.mirror (discMirror c n R)).lift.testIntersect ray.lift = .ok ⟨false, none, none, .none⟩ := by
  refine discMirror_test hn R hd Hit3.miss ?_ (.inl rfl)
  unfold Circle.testIntersect
  simp only [plane_behind hn hd h1 h2 h3]
  rfl

end Optics

namespace Optics
open V3

/-- The square `Rectangle(c, n, t, h=2a, w=2a)` for orthonormal `n`, `t`. -/
noncomputable def squareRect (c n t : V3 ℝ) (a : ℝ) : Rectangle ℝ :=
  { center := c, normal := n, tangent := t, tangent2 := cross n t, h := 2 * a, w := 2 * a,
    bounds0 := c + a * t - a * cross n t, bounds1 := c + a * t + a * cross n t,
    bounds2 := c - a * t + a * cross n t, bounds3 := c - a * t - a * cross n t, plane := ⟨c, n⟩ }

theorem squareRect_new (c : V3 ℝ) {n t : V3 ℝ} (hn : dot n n = 1) (ht : dot t t = 1) (h : dot n t = 0) {a : ℝ}
    (ha : 0 < a) : Rectangle.new c n t (some (2 * a)) (some (2 * a)) = .ok (squareRect c n t a) := by
  unfold Rectangle.new squareRect
  have hc : isclose (dot n t) 0.0 rtolDefault atolDefault = true := by
    rw [h]
    simp only [isclose, lit0, real_abs, sub_zero, abs_zero, mul_zero, add_zero, decide_eq_true_eq]
    show (0 : ℝ) ≤ 1e-8
    norm_num
  have hw : checkHAndW (some (2 * a)) (some (2 * a)) = .ok (2 * a, 2 * a) := by
    simp only [checkHAndW, lit0]
    rw [if_neg (by linarith), if_neg (by linarith)]
  simp only [unitVector_of_unit hn, unitVector_of_unit ht, hc, Bool.not_true, Bool.false_eq_true, if_false, hw,
    bind, Except.bind, pure, Except.pure, Plane.new, lit2, mul_div_cancel_left₀ a two_ne_zero]

theorem squareRect_hit {c n t : V3 ℝ} (hn : dot n n = 1) (ht : dot t t = 1) (h : dot n t = 0) {a : ℝ}
    {ray : Ray ℝ} (hd : dot ray.direction ray.direction = 1) {T : ℝ} (h1 : 1e-9 < |dot n ray.direction|)
    (h2 : 1e-9 < T) (h3 : ray.at T = c) :
    (squareRect c n t a).testIntersect ray = ⟨true, some c, some n⟩ := by
  have h4 : dot (c - ray.position) n = T * dot n ray.direction := by
    rw [← h3, at_eq]
    simp only [dot, sub_x, sub_y, sub_z, add_x, add_y, add_z, smul_x, smul_y, smul_z]; ring
  have e1 : dot (cross n t) (cross n t) = 1 := by rw [cross_dot_self, hn, ht, h]; ring
  have e2 : dot t (cross n t) = 0 := by simp only [dot, cross]; ring
  unfold Rectangle.testIntersect squareRect
  simp only [plane_at hn hd h1 h2 h4, h3, lit0]
  generalize cross n t = u at e1 e2
  have a1 : dot (c + a * t + a * u - (c + a * t - a * u)) (c - (c + a * t - a * u)) = 2 * (a * a) := by
    have : dot (c + a * t + a * u - (c + a * t - a * u)) (c - (c + a * t - a * u))
      = 2 * (a * a) * dot u u - 2 * (a * a) * dot t u := by
      simp only [dot, sub_x, sub_y, sub_z, add_x, add_y, add_z, smul_x, smul_y, smul_z]; ring
    rw [this, e1, e2]; ring
  have a2 : dot (c + a * t + a * u - (c + a * t - a * u)) (c + a * t + a * u - (c + a * t - a * u))
      = 4 * (a * a) := by
    have : dot (c + a * t + a * u - (c + a * t - a * u)) (c + a * t + a * u - (c + a * t - a * u))
      = 4 * (a * a) * dot u u := by
      simp only [dot, sub_x, sub_y, sub_z, add_x, add_y, add_z, smul_x, smul_y, smul_z]; ring
    rw [this, e1]; ring
  have b1 : dot (c - a * t + a * u - (c + a * t + a * u)) (c - (c + a * t + a * u)) = 2 * (a * a) := by
    have : dot (c - a * t + a * u - (c + a * t + a * u)) (c - (c + a * t + a * u))
      = 2 * (a * a) * dot t t + 2 * (a * a) * dot t u := by
      simp only [dot, sub_x, sub_y, sub_z, add_x, add_y, add_z, smul_x, smul_y, smul_z]; ring
    rw [this, ht, e2]; ring
  have b2 : dot (c - a * t + a * u - (c + a * t + a * u)) (c - a * t + a * u - (c + a * t + a * u))
      = 4 * (a * a) := by
    have : dot (c - a * t + a * u - (c + a * t + a * u)) (c - a * t + a * u - (c + a * t + a * u))
      = 4 * (a * a) * dot t t := by
      simp only [dot, sub_x, sub_y, sub_z, add_x, add_y, add_z, smul_x, smul_y, smul_z]; ring
    rw [this, ht]; ring
  have := mul_self_nonneg a
  rw [a1, a2, b1, b2, if_pos ⟨by linarith, by linarith⟩, if_pos ⟨by linarith, by linarith⟩]

/-- The detector `Detector(c, n, t, w=2a, h=2a)`. -/
noncomputable def squareDetector (id : Nat) (c n t : V3 ℝ) (a : ℝ) : Detector ℝ :=
  { id := id, position := c, normal := n, tangent := t, shape := "rectangular_flat", w := some (2 * a),
    h := some (2 * a), surfaces := [.rectangle (squareRect c n t a)] }

theorem squareDetector_new (id : Nat) (c : V3 ℝ) {n t : V3 ℝ} (hn : dot n n = 1) (ht : dot t t = 1) (h : dot n t = 0)
    {a : ℝ} (ha : 0 < a) :
    Detector.new id c n t "rectangular_flat" (some (2 * a)) (some (2 * a)) = .ok (squareDetector id c n t a) := by
  unfold Detector.new squareDetector
  simp only [if_true, squareRect_new c hn ht h ha, unitVector_of_unit hn, unitVector_of_unit ht, bind, Except.bind,
    pure, Except.pure]

theorem squareDetector_wf (id : Nat) (c : V3 ℝ) {n t : V3 ℝ} (hn : dot n n = 1) (ht : dot t t = 1) (h : dot n t = 0)
    {a : ℝ} (ha : 0 < a) : (Optic.detector (squareDetector id c n t a)).WellFormed :=
  .detector (ne_zero_of_dot_one hn) (ne_zero_of_dot_one ht) (squareDetector_new id c hn ht h ha)

/-- The grating `Grating(c, n, t, w=2a, h=2a, G=G)`. -/
noncomputable def squareGrating (c n t : V3 ℝ) (a G : ℝ) : Grating ℝ :=
  { position := c, normal := n, tangent := t, shape := "rectangular_flat", w := some (2 * a),
    h := some (2 * a), G := some G, surfaces := [.rectangle (squareRect c n t a)] }

theorem squareGrating_wf (c : V3 ℝ) {n t : V3 ℝ} (hn : dot n n = 1) (ht : dot t t = 1) (h : dot n t = 0)
    {a : ℝ} (ha : 0 < a) (G : ℝ) : (Optic.grating (squareGrating c n t a G)).WellFormed := by
  refine .grating (position := c) (n := n) (t := t) (shape := "rectangular_flat") (w := some (2 * a))
    (h := some (2 * a)) (G := G) (ne_zero_of_dot_one hn) (ne_zero_of_dot_one ht) ?_
  unfold Grating.new squareGrating
  simp only [if_true, squareRect_new c hn ht h ha, unitVector_of_unit hn, unitVector_of_unit ht, bind, Except.bind,
    pure, Except.pure]

theorem squareRect_answer {c n t : V3 ℝ} (hn : dot n n = 1) (ht : dot t t = 1) (h : dot n t = 0) {a : ℝ}
    {ray : Ray ℝ} (hd : dot ray.direction ray.direction = 1) {T : ℝ} (h1 : 1e-9 < |dot n ray.direction|)
    (h2 : 1e-9 < T) (h3 : ray.at T = c) :
    ∃ m, [Shape.rectangle (squareRect c n t a).lift].foldlM (flatStep false ray.lift) ⟨false, none, none, none⟩
      = .ok ⟨true, some c.lift, m, some (some n.lift)⟩ := by
  have e := lift_rectangle_testIntersect (squareRect c n t a) (ne_zero_of_dot_one hn) ray (ne_zero_of_dot_one hd)
  rw [squareRect_hit hn ht h hd h1 h2 h3] at e
  exact flat_answer (ray := ray) false _ ⟨true, some c, some n⟩ none
    (by show Except.ok (IntersectResult.three _) = _; rw [e]) (by simp) (by simp) (by simp)

theorem squareDetector_hit (id : Nat) {c n t : V3 ℝ} (hn : dot n n = 1) (ht : dot t t = 1) (h : dot n t = 0) {a : ℝ}
    {ray : Ray ℝ} (hd : dot ray.direction ray.direction = 1) {T : ℝ} (h1 : 1e-9 < |dot n ray.direction|)
    (h2 : 1e-9 < T) (h3 : ray.at T = c) :
    (Optic.detector (squareDetector id c n t a)).lift.testIntersect ray.lift
      = .ok ⟨true, some c.lift, some n.lift, .none⟩ := by
  obtain ⟨m, hm⟩ := squareRect_answer (a := a) hn ht h hd h1 h2 h3
  show (squareDetector id c n t a).lift.testIntersect ray.lift = _
  unfold Detector.testIntersect Detector.lift squareDetector
  simp only [or_true, if_true, List.map_cons, List.map_nil, Shape.lift]
  rw [hm]; rfl

theorem squareGrating_hit {c n t : V3 ℝ} (hn : dot n n = 1) (ht : dot t t = 1) (h : dot n t = 0) {a G : ℝ}
    {ray : Ray ℝ} (hd : dot ray.direction ray.direction = 1) {T : ℝ} (h1 : 1e-9 < |dot n ray.direction|)
    (h2 : 1e-9 < T) (h3 : ray.at T = c) :
    (Optic.grating (squareGrating c n t a G)).lift.testIntersect ray.lift
      = .ok ⟨true, some c.lift, some n.lift, .none⟩ := by
  obtain ⟨m, hm⟩ := squareRect_answer (a := a) hn ht h hd h1 h2 h3
  show (squareGrating c n t a G).lift.testIntersect ray.lift = _
  unfold Grating.testIntersect Grating.lift squareGrating
  simp only [or_true, if_true, List.map_cons, List.map_nil, Shape.lift]
  rw [hm]; rfl

theorem squareDetector_miss (id : Nat) {c n t : V3 ℝ} (hn : dot n n = 1) {a : ℝ}
    {ray : Ray ℝ} (hd : dot ray.direction ray.direction = 1) {T : ℝ} (h1 : 1e-9 < |dot n ray.direction|)
    (h2 : T ≤ 1e-9) (h3 : dot (c - ray.position) n = T * dot n ray.direction) :
    (Optic.detector (squareDetector id c n t a)).lift.testIntersect ray.lift
      = .ok ⟨false, none, none, .none⟩ := by
  have e := lift_rectangle_testIntersect (squareRect c n t a) (ne_zero_of_dot_one hn) ray (ne_zero_of_dot_one hd)
  have e' : (squareRect c n t a).testIntersect ray = Hit3.miss := by
    unfold Rectangle.testIntersect squareRect
    simp only [plane_behind hn hd h1 h2 h3]
    rfl
  rw [e'] at e
  obtain ⟨m, hm⟩ := flat_answer (ray := ray) false (.rectangle (squareRect c n t a).lift) Hit3.miss none
    (by show Except.ok (IntersectResult.three _) = _; rw [e]) (by simp [Hit3.miss]) (by simp [Hit3.miss]) (by simp)
  show (squareDetector id c n t a).lift.testIntersect ray.lift = _
  unfold Detector.testIntersect Detector.lift squareDetector
  simp only [or_true, if_true, List.map_cons, List.map_nil, Shape.lift]
  rw [hm]; rfl

/-- A rectangle is missed by a ray that goes nowhere. -/
theorem squareRect_nan (r : Rectangle XR) (ray : Ray XR) (hd : ray.direction = V3.nan) :
    r.testIntersect ray = Hit3.miss := by
  have : r.plane.testIntersect ray = Hit3.miss := by
    unfold Plane.testIntersect
    have e : dot (unitVector r.plane.normal) (unitVector ray.direction) = XR.nan := by
      rw [hd]; simp [V3.nan, dot, unitVector]
    simp only [e]
    rw [if_neg]
    exact fun h => h
  unfold Rectangle.testIntersect
  simp only [this]
  rfl

end Optics
