import Verif.Lemmas.GlassLeave

/-! # A glass ball near a ray: the passes of the loop -/

namespace Optics
open V3

variable {α : Type} [PyNum α]

theorem lens_fold (s : Sphere α) (ray : Ray α) (v : LoopVars α × Bool) :
    [Shape.sphere s].foldlM (lensSphereStep ray) v = lensSphereStep ray v (.sphere s) := by
  rw [List.foldlM_cons]
  cases lensSphereStep ray v (.sphere s) <;> rfl

/-- A ball lens reports the nearer of the two points its sphere reports, and that the ray comes from outside. -/
theorem lens_reports_two {l : Lens α} {s : Sphere α} (hs : l.shape = "spherical") (hf : l.surfaces = [.sphere s])
    {ray : Ray α} {p₀ p₁ n₀ n₁ : V3 α} (hit : s.testIntersect ray = Hit6.two p₁ p₀ n₁ n₀ 2)
    (h1 : PyNum.ltInf (distanceBetween ray.position p₁) = true)
    (h2 : distanceBetween ray.position p₀ < distanceBetween ray.position p₁) :
    l.testIntersect ray = .ok ⟨true, some p₀, some (-n₀), .bool true⟩ := by
  unfold Lens.testIntersect
  rw [hs, hf, if_neg (by decide), if_pos rfl, lens_fold]
  unfold lensSphereStep
  simp only [bind, Except.bind, pure, Except.pure, bound, hit, Hit6.two, if_true, sphereUpdate, need, ltMin, h1, h2,
    decide_true]

/-- A ball lens reports the only point its sphere reports, and that the ray comes from inside. -/
theorem lens_reports_one {l : Lens α} {s : Sphere α} (hs : l.shape = "spherical") (hf : l.surfaces = [.sphere s])
    {ray : Ray α} {p n : V3 α} (hit : s.testIntersect ray = Hit6.one p n 1)
    (h1 : PyNum.ltInf (distanceBetween ray.position p) = true) :
    l.testIntersect ray = .ok ⟨true, some p, some (-n), .bool false⟩ := by
  unfold Lens.testIntersect
  rw [hs, hf, if_neg (by decide), if_pos rfl, lens_fold]
  unfold lensSphereStep
  simp only [bind, Except.bind, pure, Except.pure, bound, hit, Hit6.one, if_true, sphereUpdate, need, ltMin, h1]
  rfl

theorem lens_misses {l : Lens α} {s : Sphere α} (hs : l.shape = "spherical") (hf : l.surfaces = [.sphere s])
    {ray : Ray α} (hit : s.testIntersect ray = Hit6.miss 0) :
    l.testIntersect ray = .ok ⟨false, none, none, .bool true⟩ := by
  unfold Lens.testIntersect
  rw [hs, hf, if_neg (by decide), if_pos rfl, lens_fold]
  unfold lensSphereStep
  simp only [bind, Except.bind, pure, Except.pure, bound, hit, Hit6.miss]
  rfl

/-- The run state after a hit of the lens. -/
def lensNext (l : Lens α) (s : RunState α) (p n w : V3 α) (b : Bool) : RunState α :=
  { s with
    ray := { s.ray with
      position := s.ray.position + distanceBetween s.ray.position p * s.ray.direction
      pointHistory := s.ray.pointHistory ++ [s.ray.position + distanceBetween s.ray.position p * s.ray.direction]
      direction := w }
    remaining := s.remaining - distanceBetween s.ray.position p
    interactions := s.interactions + 1
    selected := some ⟨.lens l, p, some n⟩
    sfo := some (.bool b)
    log := s.log ++ [] }

theorem lens_scan {l : Lens α} {s : RunState α} {p n : V3 α} {b : Bool}
    (hm : l.testIntersect s.ray = .ok ⟨true, some p, some n, .bool b⟩)
    (h1 : ¬ distanceBetween s.ray.position p > s.remaining) (h2 : distanceBetween s.ray.position p > clippingFloor)
    (h3 : PyNum.ltInf (distanceBetween s.ray.position p) = true) :
    [Optic.lens l].foldlM (scanStep s.ray s.remaining) ⟨false, none, s.selected, s.sfo⟩ =
      .ok ⟨true, some (distanceBetween s.ray.position p), some ⟨.lens l, p, some n⟩, some (.bool b)⟩ := by
  rw [List.foldlM_cons]
  unfold scanStep
  simp only [Optic.skipped, Bool.false_eq_true, if_false, Optic.testIntersect, hm, bind, Except.bind, pure, Except.pure, if_true,
    need, h1, h2, ltMin, h3]
  rfl

/-- A pass of the loop with one lens, hit from outside. -/
theorem lens_enter {l : Lens α} (ht : l.type ≠ "ideal" ∧ l.type ≠ "ideal_collimate" ∧ l.type ≠ "ideal_focus") {md : α} {s : RunState α}
    {p n w : V3 α} (hm : l.testIntersect s.ray = .ok ⟨true, some p, some n, .bool true⟩) (htype : s.ray.type ≠ "faerie_fire")
    (h1 : ¬ distanceBetween s.ray.position p > s.remaining) (h2 : distanceBetween s.ray.position p > clippingFloor)
    (h3 : PyNum.ltInf (distanceBetween s.ray.position p) = true)
    (hw : snellDirection s.ray.direction n 1.0 l.index = .ok w) : runStep md [.lens l] s = .next (lensNext l s p n w true) := by
  unfold runStep
  rw [lens_scan hm h1 h2 h3]
  simp only [Bool.not_true, Bool.false_eq_true, if_false, Ray.fly, htype, Optic.doIntersect, Lens.doIntersect, ht.1, ht.2.1, ht.2.2,
    Sfo.truthy, if_true, Ray.refract, need, bind, Except.bind, pure, Except.pure, hw,
    show ¬ "snells_law" = "thin_lens" by decide, show ¬ "snells_law" = "ideal_collimate" by decide,
    show ¬ "snells_law" = "ideal_focus" by decide, lensNext]

/-- A pass of the loop with one lens, hit from inside. -/
theorem lens_leave {l : Lens α} (ht : l.type ≠ "ideal" ∧ l.type ≠ "ideal_collimate" ∧ l.type ≠ "ideal_focus") {md : α} {s : RunState α}
    {p n w : V3 α} (hm : l.testIntersect s.ray = .ok ⟨true, some p, some n, .bool false⟩) (htype : s.ray.type ≠ "faerie_fire")
    (h1 : ¬ distanceBetween s.ray.position p > s.remaining) (h2 : distanceBetween s.ray.position p > clippingFloor)
    (h3 : PyNum.ltInf (distanceBetween s.ray.position p) = true)
    (hw : snellDirection s.ray.direction (-n) l.index 1.0 = .ok w) : runStep md [.lens l] s = .next (lensNext l s p n w false) := by
  unfold runStep
  rw [lens_scan hm h1 h2 h3]
  simp only [Bool.not_true, Bool.false_eq_true, if_false, Ray.fly, htype, Optic.doIntersect, Lens.doIntersect, ht.1, ht.2.1, ht.2.2,
    Sfo.truthy, if_true, Ray.refract, need, bind, Except.bind, pure, Except.pure, hw,
    show ¬ "snells_law" = "thin_lens" by decide, show ¬ "snells_law" = "ideal_collimate" by decide,
    show ¬ "snells_law" = "ideal_focus" by decide, lensNext]

/-- The run state after a miss. -/
def missNext (s : RunState α) (md : α) (b : Bool) : RunState α :=
  { s with
    ray := { s.ray with
      position := s.ray.position + s.remaining * s.ray.direction
      pointHistory := s.ray.pointHistory ++ [s.ray.position + s.remaining * s.ray.direction] }
    remaining := s.remaining - md
    sfo := some (.bool b) }

/-- A pass of the loop with one lens that is missed. -/
theorem lens_gone {l : Lens α} {md : α} {s : RunState α} {b : Bool}
    (hm : l.testIntersect s.ray = .ok ⟨false, none, none, .bool b⟩) : runStep md [.lens l] s = .next (missNext s md b) := by
  unfold runStep
  have e : [Optic.lens l].foldlM (scanStep s.ray s.remaining) ⟨false, none, s.selected, s.sfo⟩ =
      .ok ⟨false, none, s.selected, some (.bool b)⟩ := by
    rw [List.foldlM_cons]
    unfold scanStep
    simp only [Optic.skipped, Bool.false_eq_true, if_false, Optic.testIntersect, hm, bind, Except.bind, pure, Except.pure]
    rfl
  rw [e]
  simp only [Bool.not_false, if_true, Ray.fly, missNext]

theorem ballLens_new' {c : V3 α} {n : Option (V3 α)} {D : α} {w h f : Option α} {type : String} {index : α} {l : Lens α}
    (hl : Lens.new c n "spherical" (some D) w h f type index = .ok l) :
    l.shape = "spherical" ∧ l.type = type ∧ l.index = index ∧ l.surfaces = [.sphere ⟨c, D / 2.0, D⟩] := by
  simp only [Lens.new, bind, Except.bind, pure, Except.pure, Sphere.new, checkRAndD] at hl
  rw [if_neg (by decide), if_pos trivial] at hl
  obtain rfl := Except.ok.inj hl
  exact ⟨rfl, rfl, rfl, rfl⟩

/-- What is left of the budget. -/
theorem left_over {R : Rounding} {md a x : ℝ} (hmd : R.rnd md = .fin md) (hmd' : md ≤ 10 ^ 50) (ha : a ≤ md) (hx : 0 ≤ x) (hxa : x ≤ a) :
    ∃ y, (Fl.fin a : Fl R) - Fl.fin x = Fl.fin y ∧ y ≤ md ∧ a - x - 1 / 1000000 * (a + 1 / 1000) ≤ y := by
  have hus := (five_u (R := R)).2
  obtain ⟨y, hy, ey⟩ := rnd_big (R := R) (x := a - x) (e := a) (by rw [abs_le]; constructor <;> linarith)
    ((ha.trans hmd').trans (by norm_num))
  refine ⟨y, by rw [fl_sub, hy], ?_, ?_⟩
  · have := R.mono (a - x) md (by linarith)
    rw [show R.rnd (a - x) = .fin y from congrArg Fl.val hy, hmd] at this
    exact this
  · have h2 : R.u * (a + 1 / 1000) ≤ 1 / 1000000 * (a + 1 / 1000) := mul_le_mul_of_nonneg_right hus (by linarith)
    linarith [(abs_le.mp ey).1]

end Optics
