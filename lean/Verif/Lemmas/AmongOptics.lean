import Verif.Lemmas.ImagingLegs

/-! # A pass of the loop among several optics, of which one is the nearest -/

namespace Optics
open V3
variable {R : Rounding}

/-- The optic is missed, or hit further away than `x`. -/
def Beyond (ray : Ray (Fl R)) (x : ℝ) (o : Optic (Fl R)) : Prop :=
  o.skipped = false ∧ ∃ h : Hit4 (Fl R), o.testIntersect ray = .ok h ∧
    (h.hit = true → ∃ q z, h.pt = some q ∧ distanceBetween ray.position q = Fl.fin z ∧ x < z)

/-- Scanning optics that are beyond `x`. -/
theorem scan_beyond {ray : Ray (Fl R)} {rem : Fl R} {x : ℝ} : ∀ {A : List (Optic (Fl R))}, (∀ o ∈ A, Beyond ray x o) → ∀ v : ScanVars (Fl R),
    (∀ d, v.minDistance = some d → (Fl.fin x : Fl R) < d) →
    ∃ v', A.foldlM (scanStep ray rem) v = .ok v' ∧ ∀ d, v'.minDistance = some d → (Fl.fin x : Fl R) < d
  | [], _, v, hv => ⟨v, rfl, hv⟩
  | o :: A, hA, v, hv => by
    obtain ⟨ho, h, hm, hq⟩ := hA o (List.mem_cons_self ..)
    obtain ⟨v₁, e₁, h₁⟩ : ∃ v₁, scanStep ray rem v o = .ok v₁ ∧ ∀ d, v₁.minDistance = some d → (Fl.fin x : Fl R) < d := by
      unfold scanStep
      simp only [ho, hm, Bool.false_eq_true, if_false, bind, Except.bind, pure, Except.pure]
      cases hh : h.hit with
      | false => exact ⟨_, rfl, hv⟩
      | true =>
        obtain ⟨q, z, hp, hz, hxz⟩ := hq hh
        simp only [hp, need, if_true, hz]
        split_ifs
        · exact ⟨_, rfl, hv⟩
        · refine ⟨_, rfl, fun d hd => ?_⟩
          cases hd
          exact (fl_lt _ _).mpr hxz
        · exact ⟨_, rfl, hv⟩
        · exact ⟨_, rfl, hv⟩
    obtain ⟨v', e', h'⟩ := scan_beyond (fun o' h' => hA o' (List.mem_cons_of_mem _ h')) v₁ h₁
    exact ⟨v', by rw [List.foldlM_cons, e₁]; exact e', h'⟩

/-- Scanning optics that are beyond the one already selected. -/
theorem scan_keeps {ray : Ray (Fl R)} {rem : Fl R} {x : ℝ} {sel : Selected (Fl R)} : ∀ {A : List (Optic (Fl R))}, (∀ o ∈ A, Beyond ray x o) →
    ∀ b : Sfo, ∃ b' : Sfo, A.foldlM (scanStep ray rem) ⟨true, some (Fl.fin x), some sel, some b⟩ = .ok ⟨true, some (Fl.fin x), some sel, some b'⟩
  | [], _, b => ⟨b, rfl⟩
  | o :: A, hA, b => by
    obtain ⟨ho, h, hm, hq⟩ := hA o (List.mem_cons_self ..)
    have e₁ : scanStep ray rem ⟨true, some (Fl.fin x), some sel, some b⟩ o = .ok ⟨true, some (Fl.fin x), some sel, some h.sfo⟩ := by
      unfold scanStep
      simp only [ho, hm, Bool.false_eq_true, if_false, bind, Except.bind, pure, Except.pure]
      cases hh : h.hit with
      | false => rfl
      | true =>
        obtain ⟨q, z, hp, hz, hxz⟩ := hq hh
        have hlt : ¬ (Fl.fin z : Fl R) < Fl.fin x := by rw [fl_lt]; exact not_lt.mpr hxz.le
        simp only [hp, need, if_true, hz, ltMin, hlt, decide_false, Bool.false_eq_true, if_false]
        split_ifs <;> rfl
    obtain ⟨b', e'⟩ := scan_keeps (rem := rem) (sel := sel) (fun o' h' => hA o' (List.mem_cons_of_mem _ h')) h.sfo
    exact ⟨b', by rw [List.foldlM_cons, e₁]; exact e'⟩

/-- The optic that is hit, all others being beyond, is selected. -/
theorem scan_nearest {ray : Ray (Fl R)} {rem : Fl R} {x : ℝ} {A B : List (Optic (Fl R))} {o : Optic (Fl R)} (hA : ∀ o ∈ A, Beyond ray x o)
    (hB : ∀ o ∈ B, Beyond ray x o) (ho : o.skipped = false) {p : V3 (Fl R)} {nn : Option (V3 (Fl R))} {b : Sfo}
    (hm : o.testIntersect ray = .ok ⟨true, some p, nn, b⟩) (hx : distanceBetween ray.position p = Fl.fin x) (h1 : ¬ (Fl.fin x : Fl R) > rem)
    (h2 : (Fl.fin x : Fl R) > clippingFloor) (sel : Option (Selected (Fl R))) (sfo : Option Sfo) :
    ∃ b' : Sfo, (A ++ o :: B).foldlM (scanStep ray rem) ⟨false, none, sel, sfo⟩ = .ok ⟨true, some (Fl.fin x), some ⟨o, p, nn⟩, some b'⟩ := by
  obtain ⟨v, e, hv⟩ := scan_beyond (rem := rem) hA ⟨false, none, sel, sfo⟩ (fun d hd => by cases hd)
  have hmin : ltMin (Fl.fin x : Fl R) v.minDistance = true := by
    cases hd : v.minDistance with
    | none => rfl
    | some d =>
      simp only [ltMin, decide_eq_true_eq]
      exact hv d hd
  have e₁ : scanStep ray rem v o = .ok ⟨true, some (Fl.fin x), some ⟨o, p, nn⟩, some b⟩ := by
    unfold scanStep
    simp only [ho, hm, Bool.false_eq_true, if_false, bind, Except.bind, pure, Except.pure, if_true, need, hx, h1, h2, hmin]
  obtain ⟨b', e'⟩ := scan_keeps (rem := rem) (sel := ⟨o, p, nn⟩) hB b
  refine ⟨b', ?_⟩
  rw [List.foldlM_append, e]
  show List.foldlM (scanStep ray rem) v (o :: B) = _
  rw [List.foldlM_cons, e₁]
  exact e'

/-- A pass that takes the ray to the nearest of several optics, an ideal lens. -/
theorem ideal_enter_among {A B : List (Optic (Fl R))} {l : Lens (Fl R)} (ht : l.type = "ideal") {ln : V3 (Fl R)} (hln : l.normal = some ln)
    {md : Fl R} {s : RunState (Fl R)} {p n w : V3 (Fl R)} {x : ℝ} {b : Sfo} (hm : l.testIntersect s.ray = .ok ⟨true, some p, some n, b⟩)
    (hA : ∀ o ∈ A, Beyond s.ray x o) (hB : ∀ o ∈ B, Beyond s.ray x o) (htype : s.ray.type ≠ "faerie_fire")
    (hx : distanceBetween s.ray.position p = Fl.fin x) (h1 : ¬ (Fl.fin x : Fl R) > s.remaining) (h2 : (Fl.fin x : Fl R) > clippingFloor)
    (hw : thinLensDirection (s.ray.position + distanceBetween s.ray.position p * s.ray.direction) s.ray.direction l.position ln l.f p =
      .ok w) :
    ∃ s', runStep md (A ++ .lens l :: B) s = .next s' ∧ s'.interactions = s.interactions + 1 ∧ s'.ray.blocked = s.ray.blocked ∧
      s'.ray.type = s.ray.type ∧ s'.ray.wavelength = s.ray.wavelength ∧ s'.log = s.log ∧ s'.remaining = s.remaining - Fl.fin x ∧
      s'.ray.position = s.ray.position + distanceBetween s.ray.position p * s.ray.direction ∧ s'.ray.direction = w ∧
      s'.ray.pointHistory = s.ray.pointHistory ++ [s.ray.position + distanceBetween s.ray.position p * s.ray.direction] ∧
      s'.selected = some ⟨.lens l, p, some n⟩ := by
  obtain ⟨b', hscan⟩ := scan_nearest hA hB (o := .lens l) rfl hm hx h1 h2 s.selected s.sfo
  refine ⟨_, by
    unfold runStep
    rw [hscan]
    simp only [Bool.not_true, Bool.false_eq_true, if_false, Ray.fly, htype, Optic.doIntersect, Lens.doIntersect, ht,
      if_true, Ray.refract, need, bind, Except.bind, pure, Except.pure, hln, hw]
    rfl, ?_⟩
  refine ⟨rfl, rfl, rfl, rfl, List.append_nil _, ?_, rfl, rfl, rfl, rfl⟩
  show s.remaining - distanceBetween s.ray.position p = _
  rw [hx]

/-- A pass that takes the ray to the nearest of several optics, a detector. -/
theorem detector_enter_among {A B : List (Optic (Fl R))} {d : Detector (Fl R)} {md : Fl R} {s : RunState (Fl R)} {q : V3 (Fl R)}
    {nn : Option (V3 (Fl R))} {x : ℝ} {b : Sfo} (hm : d.testIntersect s.ray = .ok ⟨true, some q, nn, b⟩)
    (hA : ∀ o ∈ A, Beyond s.ray x o) (hB : ∀ o ∈ B, Beyond s.ray x o) (htype : s.ray.type ≠ "faerie_fire")
    (hx : distanceBetween s.ray.position q = Fl.fin x) (h1 : ¬ (Fl.fin x : Fl R) > s.remaining) (h2 : (Fl.fin x : Fl R) > clippingFloor) :
    ∃ s', runStep md (A ++ .detector d :: B) s = .next s' ∧ s'.interactions = s.interactions + 1 ∧ s'.ray.blocked = true ∧
      s'.log = s.log ++ [⟨d.id, q, s.ray.wavelength⟩] := by
  obtain ⟨b', hscan⟩ := scan_nearest hA hB (o := .detector d) rfl hm hx h1 h2 s.selected s.sfo
  exact ⟨_, by
    unfold runStep
    rw [hscan]
    simp only [Bool.not_true, Bool.false_eq_true, if_false, Ray.fly, htype, Optic.doIntersect]
    rfl, rfl, rfl, rfl⟩

end Optics
