import Verif.Lemmas.ThinScene
import Verif.Lemmas.RoundedGratingRun

/-! # A run over an ideal lens and a detector: two passes -/

namespace Optics
open V3

section generic
variable {α : Type} [PyNum α]

/-- The detector, from what its rectangle reports. -/
theorem detector_reports {id : ℕ} {C n t : V3 α} {w h : Option α} {d : Detector α} (hd : Detector.new id C n t "rectangular_flat" w h = .ok d) :
    d.id = id ∧ ∃ r, Rectangle.new C n t h w = .ok r ∧
      (∀ ray : Ray α, ∀ q nn, r.testIntersect ray = ⟨true, some q, nn⟩ → PyNum.ltInf (distanceBetween ray.position q) = true →
        d.testIntersect ray = .ok ⟨true, some q, nn, .none⟩) ∧
      ∀ ray : Ray α, (r.testIntersect ray).hit = false → ∃ nn, d.testIntersect ray = .ok ⟨false, none, nn, .none⟩ := by
  unfold Detector.new at hd
  simp only [if_true, bind, Except.bind, pure, Except.pure] at hd
  cases hr : Rectangle.new C n t h w with
  | error e => rw [hr] at hd; cases hd
  | ok r =>
    rw [hr] at hd
    cases hd
    refine ⟨rfl, r, rfl, fun ray q nn hq hf => ?_, fun ray hm => ⟨(r.testIntersect ray).normal, ?_⟩⟩
    · unfold Detector.testIntersect
      simp only [or_true, if_true, List.foldlM_cons, List.foldlM_nil, flatStep, Shape.testIntersect, bind, Except.bind, pure, Except.pure, asHit3,
        hq, need, ltMin, hf, bound, Bool.false_eq_true, if_false]
    · unfold Detector.testIntersect
      simp only [or_true, if_true, List.foldlM_cons, List.foldlM_nil, flatStep, Shape.testIntersect, bind, Except.bind, pure, Except.pure, asHit3,
        hm, bound, Bool.false_eq_true, if_false]

/-- A pass that takes the ray to an ideal lens, past which there is a detector. -/
theorem ideal_enter_before {l : Lens α} (ht : l.type = "ideal") {ln : V3 α} (hln : l.normal = some ln) {d : Detector α} {md : α} {s : RunState α}
    {p n w : V3 α} (hm : l.testIntersect s.ray = .ok ⟨true, some p, some n, .bool true⟩) (htype : s.ray.type ≠ "faerie_fire")
    (hd : (∃ nn, d.testIntersect s.ray = .ok ⟨false, none, nn, .none⟩) ∨
      ∃ q nn, d.testIntersect s.ray = .ok ⟨true, some q, nn, .none⟩ ∧ ¬ distanceBetween s.ray.position q < distanceBetween s.ray.position p)
    (h1 : ¬ distanceBetween s.ray.position p > s.remaining) (h2 : distanceBetween s.ray.position p > clippingFloor)
    (h3 : PyNum.ltInf (distanceBetween s.ray.position p) = true)
    (hw : thinLensDirection (s.ray.position + distanceBetween s.ray.position p * s.ray.direction) s.ray.direction l.position ln l.f p =
      .ok w) : runStep md [.lens l, .detector d] s = .next { lensNext l s p n w true with sfo := some .none } := by
  have hscan : [Optic.lens l, .detector d].foldlM (scanStep s.ray s.remaining) ⟨false, none, s.selected, s.sfo⟩ =
      .ok ⟨true, some (distanceBetween s.ray.position p), some ⟨.lens l, p, some n⟩, some .none⟩ := by
    have e1 : scanStep s.ray s.remaining ⟨false, none, s.selected, s.sfo⟩ (.lens l) =
        .ok ⟨true, some (distanceBetween s.ray.position p), some ⟨.lens l, p, some n⟩, some (.bool true)⟩ := by
      unfold scanStep
      simp only [Optic.skipped, Bool.false_eq_true, if_false, Optic.testIntersect, hm, bind, Except.bind, pure, Except.pure, if_true,
        need, h1, h2, ltMin, h3]
    rw [List.foldlM_cons, e1]
    show [Optic.detector d].foldlM (scanStep s.ray s.remaining) _ = _
    rw [List.foldlM_cons]
    unfold scanStep
    rcases hd with ⟨nn, hd⟩ | ⟨q, nn, hd, hq⟩
    · simp only [Optic.skipped, Bool.false_eq_true, if_false, Optic.testIntersect, hd, bind, Except.bind, pure, Except.pure]
      rfl
    · simp only [Optic.skipped, Bool.false_eq_true, if_false, Optic.testIntersect, hd, bind, Except.bind, pure, Except.pure, if_true, need, ltMin, hq,
        decide_false]
      split_ifs <;> rfl
  unfold runStep
  rw [hscan]
  simp only [Bool.not_true, Bool.false_eq_true, if_false, Ray.fly, htype, Optic.doIntersect, Lens.doIntersect, ht,
    if_true, Ray.refract, need, bind, Except.bind, pure, Except.pure, hln, hw, lensNext]

/-- A pass that takes the ray past a lens to a detector. -/
theorem detector_enter {l : Lens α} {d : Detector α} {md : α} {s : RunState α} {q : V3 α} {nn : Option (V3 α)} {b : Sfo}
    (hm : l.testIntersect s.ray = .ok ⟨false, none, none, b⟩) (htype : s.ray.type ≠ "faerie_fire")
    (hd : d.testIntersect s.ray = .ok ⟨true, some q, nn, .none⟩)
    (h1 : ¬ distanceBetween s.ray.position q > s.remaining) (h2 : distanceBetween s.ray.position q > clippingFloor)
    (h3 : PyNum.ltInf (distanceBetween s.ray.position q) = true) :
    ∃ s', runStep md [.lens l, .detector d] s = .next s' ∧ s'.interactions = s.interactions + 1 ∧ s'.ray.blocked = true ∧
      s'.ray.position = s.ray.position + distanceBetween s.ray.position q * s.ray.direction ∧
      s'.ray.pointHistory = s.ray.pointHistory ++ [s.ray.position + distanceBetween s.ray.position q * s.ray.direction] ∧
      s'.log = s.log ++ [⟨d.id, q, s.ray.wavelength⟩] := by
  have hscan : [Optic.lens l, .detector d].foldlM (scanStep s.ray s.remaining) ⟨false, none, s.selected, s.sfo⟩ =
      .ok ⟨true, some (distanceBetween s.ray.position q), some ⟨.detector d, q, nn⟩, some .none⟩ := by
    have e1 : scanStep s.ray s.remaining ⟨false, none, s.selected, s.sfo⟩ (.lens l) = .ok ⟨false, none, s.selected, some b⟩ := by
      unfold scanStep
      simp only [Optic.skipped, Bool.false_eq_true, if_false, Optic.testIntersect, hm, bind, Except.bind, pure, Except.pure]
    rw [List.foldlM_cons, e1]
    show [Optic.detector d].foldlM (scanStep s.ray s.remaining) _ = _
    rw [List.foldlM_cons]
    unfold scanStep
    simp only [Optic.skipped, Bool.false_eq_true, if_false, Optic.testIntersect, hd, bind, Except.bind, pure, Except.pure, if_true, need, h1, h2, ltMin, h3]
    rfl
  refine ⟨_, by
    unfold runStep
    rw [hscan]
    simp only [Bool.not_true, Bool.false_eq_true, if_false, Ray.fly, htype, Optic.doIntersect]
    rfl, rfl, rfl, rfl, rfl, rfl⟩

end generic

variable {R : Rounding}

/-- The two passes of a run with an ideal lens and a detector, from what the tests and the refraction give. -/
theorem imaging_passes {P N w pt n P' d' q : V3 ℝ} {Dia : Fl R} {ww hh f : Option (Fl R)} {index : Fl R} {l : Lens (Fl R)}
    (hl : Lens.new P.fl (some N.fl) "spherical_biconvex" (some Dia) ww hh f "ideal" index = .ok l) {d : Detector (Fl R)} {x x₂ md y : ℝ}
    {ray : Ray (Fl R)} (htype : ray.type ≠ "faerie_fire") (hrd : ray.direction = w.fl)
    (hrb : ray.blocked = false) (hit₁ : (Plane.new P.fl N.fl).testIntersect ray = ⟨true, some pt.fl, some n.fl⟩)
    (hin : distanceBetween (pt.fl : V3 (Fl R)) P.fl < Dia / 2.0) (hx : distanceBetween ray.position pt.fl = Fl.fin x)
    (hxs : 1 / 2500 ≤ x) (hxm : x ≤ md) (fly₁ : ray.position + distanceBetween ray.position pt.fl * ray.direction = P'.fl)
    (turn : thinLensDirection P'.fl w.fl P.fl (unitVector N.fl) f pt.fl = .ok d'.fl)
    (rem₁ : (Fl.fin md : Fl R) - Fl.fin x = Fl.fin y) (hy : 0 < y)
    (hdet₁ : (∃ nn, d.testIntersect ray = .ok ⟨false, none, nn, .none⟩) ∨
      ∃ q nn, d.testIntersect ray = .ok ⟨true, some q, nn, .none⟩ ∧ ¬ distanceBetween ray.position q < distanceBetween ray.position pt.fl)
    (hit₂ : ∀ ray : Ray (Fl R), ray.position = P'.fl → ray.direction = d'.fl → ((Plane.new P.fl N.fl).testIntersect ray).hit = false)
    (hdet₂ : ∀ ray : Ray (Fl R), ray.position = P'.fl → ray.direction = d'.fl → ∃ nn, d.testIntersect ray = .ok ⟨true, some q.fl, nn, .none⟩)
    (hx₂ : distanceBetween (P'.fl : V3 (Fl R)) q.fl = Fl.fin x₂) (hx₂s : 1 / 2500 ≤ x₂) (hx₂m : x₂ ≤ y)
    {mi : Option Int} (hmi : ∀ k, mi = some k → 1 < k) (fuel : Nat) :
    ∃ s last, ray.run (Fl.fin md) [.lens l, .detector d] mi (fuel + 3) = .finished s ∧
      s.interactions = 2 ∧ s.ray.blocked = true ∧ s.ray.pointHistory = ray.pointHistory ++ [P'.fl] ++ [last] ∧ s.ray.position = last ∧
      s.log = [⟨d.id, q.fl, ray.wavelength⟩] ∧ last = P'.fl + (Fl.fin x₂ : Fl R) * (d'.fl : V3 (Fl R)) := by
  obtain ⟨g, g1, g2, hg, -⟩ := fl_floor (R := R)
  have hgo : ∀ (s : RunState (Fl R)) (x : ℝ), s.remaining = Fl.fin x → 0 < x → s.interactions ≤ 1 → s.ray.blocked = false →
      s.continues mi = true := by
    intro s x h1 h2 h3 h4
    have h5 : (Fl.fin x : Fl R) > 0.0 := by rw [fl_lit0]; exact (fl_lt _ _).mpr h2
    unfold RunState.continues
    rw [h1, h4, decide_eq_true h5]
    cases mi with
    | none => rfl
    | some k =>
      have := hmi k rfl
      simp only [Bool.true_and, Bool.not_false, Bool.and_true, decide_eq_true_eq]; omega
  obtain ⟨b1, b2, -, b3, b4, -⟩ := biconvex_built hl
  have rep₁ := biconvex_reports hl hit₁ hin (by rw [hx]; rfl)
  have step₁ := ideal_enter_before (md := Fl.fin md) (s := RunState.init ray (Fl.fin md)) (d := d) (w := d'.fl) b4 b2 rep₁ htype hdet₁
    (by
      show ¬ distanceBetween ray.position pt.fl > Fl.fin md
      rw [hx]; exact not_lt.mpr hxm)
    (by
      show distanceBetween ray.position pt.fl > clippingFloor
      rw [hx, hg]; exact (fl_lt _ _).mpr (by linarith))
    (by
      show PyNum.ltInf (distanceBetween ray.position pt.fl) = true
      rw [hx]; rfl)
    (by
      show thinLensDirection (ray.position + distanceBetween ray.position pt.fl * ray.direction) ray.direction _ _ _ _ = _
      rw [fly₁, hrd, b1, b3]; exact turn)
  obtain ⟨s₁, hs₁⟩ : ∃ s₁ : RunState (Fl R), s₁ = { lensNext l (RunState.init ray (Fl.fin md)) pt.fl n.fl d'.fl true with sfo := some .none } := ⟨_, rfl⟩
  have p₁ : s₁.ray.position = P'.fl := by
    rw [hs₁]
    exact fly₁
  have r₁ : s₁.remaining = Fl.fin y := by
    rw [hs₁]
    show Fl.fin md - distanceBetween ray.position pt.fl = _
    rw [hx]; exact rem₁
  have d₁ : s₁.ray.direction = d'.fl := by rw [hs₁]; rfl
  have i₁ : s₁.interactions = 1 := by rw [hs₁]; rfl
  have t₁ : s₁.ray.type = ray.type := by rw [hs₁]; rfl
  have w₁ : s₁.ray.wavelength = ray.wavelength := by rw [hs₁]; rfl
  have l₁ : s₁.log = [] := by rw [hs₁]; rfl
  have bl₁ : s₁.ray.blocked = false := by rw [hs₁]; exact hrb
  have q₁ : s₁.ray.pointHistory = ray.pointHistory ++ [P'.fl] := by
    rw [← p₁, hs₁]; rfl
  rw [← hs₁] at step₁
  clear hs₁
  obtain ⟨nn, hd₂⟩ := hdet₂ s₁.ray p₁ d₁
  obtain ⟨s₂, step₂, i₂, bl₂, p₂, q₂, l₂⟩ := detector_enter (md := Fl.fin md) (s := s₁) (biconvex_misses hl (hit₂ s₁.ray p₁ d₁)) (by rw [t₁]; exact htype) hd₂
    (by rw [p₁, hx₂, r₁]; exact not_lt.mpr hx₂m) (by rw [p₁, hx₂, hg]; exact (fl_lt _ _).mpr (by linarith)) (by rw [p₁, hx₂]; rfl)
  rw [p₁, hx₂, d₁] at p₂ q₂
  refine ⟨s₂, _, ?_, by rw [i₂, i₁], bl₂, by rw [q₂, q₁], p₂, by rw [l₂, l₁, w₁]; rfl, rfl⟩
  unfold Ray.run
  rw [show fuel + 3 = (fuel + 2) + 1 from rfl]
  unfold runLoop
  rw [if_pos (hgo _ md rfl (by linarith) (Nat.zero_le _) hrb), step₁]
  dsimp only
  unfold runLoop
  rw [if_pos (hgo _ y r₁ hy (by rw [i₁]) bl₁), step₂]
  dsimp only
  unfold runLoop
  rw [if_neg (by
    unfold RunState.continues
    rw [bl₂]; simp)]

end Optics
