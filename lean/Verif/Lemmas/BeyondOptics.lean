import Verif.Lemmas.AmongOptics

/-! # Lenses and detectors that are further away, or behind the ray -/

namespace Optics
open V3
variable {R : Rounding}

section generic
variable {α : Type} [PyNum α]

/-- A plane that is hit gives a point and a normal. -/
theorem plane_some {pl : Plane α} {ray : Ray α} (h : (pl.testIntersect ray).hit = true) :
    ∃ pt n, pl.testIntersect ray = ⟨true, some pt, some n⟩ := by
  unfold Plane.testIntersect at h ⊢
  simp only at h ⊢
  split_ifs at h ⊢ <;> first | exact ⟨_, _, rfl⟩ | simp [Hit3.miss] at h

/-- A round lens whose plane is hit outside its rim. -/
theorem biconvex_outside {P N : V3 α} {D : α} {w h f : Option α} {type : String} {index : α} {l : Lens α}
    (hl : Lens.new P (some N) "spherical_biconvex" (some D) w h f type index = .ok l) {ray : Ray α} {pt : V3 α} {n : V3 α}
    (hp : (Plane.new P N).testIntersect ray = ⟨true, some pt, some n⟩) (hout : ¬ distanceBetween pt P < D / 2.0) :
    l.testIntersect ray = .ok ⟨false, none, none, .bool true⟩ := by
  obtain ⟨-, -, hshape, -, -, c, hsurf, hcc, hplane, hR⟩ := biconvex_built hl
  have hR' : c.R = D / 2.0 := by
    have := Except.ok.inj hR
    exact (congrArg Prod.fst this).symm
  unfold Lens.testIntersect
  rw [if_pos hshape, hsurf]
  simp only [List.foldlM_cons, List.foldlM_nil, flatStep, Shape.testIntersect, Circle.testIntersect, hplane, bind, Except.bind,
    pure, Except.pure, hp, hcc, hR', if_neg hout, asHit3, Hit3.miss, bound, Bool.false_eq_true, if_false]

end generic

variable {P N : V3 ℝ} {Dia index : Fl R} {ww hh f : Option (Fl R)} {type : String} {l : Lens (Fl R)}

/-- A lens whose plane is not hit. -/
theorem lens_missed (hl : Lens.new P.fl (some N.fl) "spherical_biconvex" (some Dia) ww hh f type index = .ok l) {ray : Ray (Fl R)}
    (h : ((Plane.new P.fl N.fl).testIntersect ray).hit = false) (x : ℝ) : Beyond ray x (.lens l) :=
  ⟨rfl, _, biconvex_misses hl h, fun hh => by cases hh⟩

/-- A lens whose plane is further away. -/
theorem lens_beyond (hl : Lens.new P.fl (some N.fl) "spherical_biconvex" (some Dia) ww hh f type index = .ok l) {O w : V3 ℝ} {B c τ x : ℝ}
    (X : Crossing R P N O w B c τ) (hτ : 1 / 1000 ≤ τ) (hx : x < τ - 69 * (R.u * B / c)) {ray : Ray (Fl R)} (hpos : ray.position = O.fl)
    (hdir : ray.direction = w.fl) : Beyond ray x (.lens l) := by
  cases hz : ((Plane.new (P.fl : V3 (Fl R)) N.fl).testIntersect ray).hit with
  | false => exact lens_missed hl hz x
  | true =>
    obtain ⟨pt, n, hp⟩ := plane_some hz
    obtain ⟨hO, hC, hτB, -, -⟩ := X.sizes
    obtain ⟨-, q, rfl, eq⟩ := plane_point X.sane X.unit X.slope X.slope_le hτB X.meets hO hC X.one_le X.le_big hpos hdir hp
    obtain ⟨z, hz1, hz2, -⟩ := X.distance hτ eq
    by_cases hin : distanceBetween (q.fl : V3 (Fl R)) P.fl < Dia / 2.0
    · refine ⟨rfl, _, biconvex_reports hl hp hin (by rw [hpos, hz1]; rfl), fun _ => ⟨_, z, rfl, by rw [hpos]; exact hz1, ?_⟩⟩
      linarith [(abs_le.mp hz2).1]
    · exact ⟨rfl, _, biconvex_outside hl hp hin, fun hh => by cases hh⟩

/-- A lens behind the ray. -/
theorem lens_behind (hl : Lens.new P.fl (some N.fl) "spherical_biconvex" (some Dia) ww hh f type index = .ok l) {O w : V3 ℝ} {B c τ : ℝ}
    (hN : SaneLength N) (hw : NearUnit R w) (hc0 : 1 / 1000 ≤ c) (hc : c ≤ |inner ℝ N.dirE w.toE|)
    (hm : τ * inner ℝ N.dirE w.toE = inner ℝ N.dirE (P.toE - O.toE)) (hO : ‖O.toE‖ ≤ B) (hP : ‖P.toE‖ ≤ B) (hB : 1 ≤ B) (hB' : B ≤ 10 ^ 50)
    (hτ : τ ≤ -(54 * (R.u * B / c))) (hτ0 : τ ≤ B) {ray : Ray (Fl R)} (hpos : ray.position = O.fl) (hdir : ray.direction = w.fl) (x : ℝ) :
    Beyond ray x (.lens l) := by
  cases hz : ((Plane.new (P.fl : V3 (Fl R)) N.fl).testIntersect ray).hit with
  | false => exact lens_missed hl hz x
  | true =>
    obtain ⟨pt, n, hp⟩ := plane_some hz
    obtain ⟨h1, -⟩ := plane_point hN hw hc0 hc hτ0 hm hO hP hB hB' hpos hdir hp
    linarith

/-- A detector whose plane is further away. -/
theorem detector_beyond {C t₀ : V3 ℝ} {id : ℕ} {w h : Fl R} {d : Detector (Fl R)}
    (hd : Detector.new id C.fl N.fl t₀.fl "rectangular_flat" (some w) (some h) = .ok d) {O v : V3 ℝ} {B c τ x : ℝ}
    (X : Crossing R C N O v B c τ) (hτ : 1 / 1000 ≤ τ) (hx : x < τ - 69 * (R.u * B / c)) {ray : Ray (Fl R)} (hpos : ray.position = O.fl)
    (hdir : ray.direction = v.fl) : Beyond ray x (.detector d) := by
  obtain ⟨-, r, hr, rep, noRep⟩ := detector_reports hd
  cases hz : (r.testIntersect ray).hit with
  | false =>
    obtain ⟨nn, e⟩ := noRep ray hz
    exact ⟨rfl, _, e, fun hh => by cases hh⟩
  | true =>
    obtain ⟨q, nn, z, e1, e2, e3⟩ : ∃ (q : V3 (Fl R)) (nn : Option (V3 (Fl R))) (z : ℝ), r.testIntersect ray = ⟨true, some q, nn⟩ ∧
        distanceBetween (O.fl : V3 (Fl R)) q = Fl.fin z ∧ x < z := by
      unfold Rectangle.testIntersect at hz ⊢
      rw [(rectangle_built hr).1] at hz ⊢
      cases hk : (Plane.new (C.fl : V3 (Fl R)) N.fl).testIntersect ray with
      | mk zh zp zn =>
      rw [hk] at hz
      cases zh with
      | false => cases hz
      | true =>
      cases zp with
      | none => cases hz
      | some pt =>
        obtain ⟨hO, hC, hτB, -, -⟩ := X.sizes
        obtain ⟨-, q, hq, eq⟩ := plane_point X.sane X.unit X.slope X.slope_le hτB X.meets hO hC X.one_le X.le_big hpos hdir hk
        obtain ⟨z, hz1, hz2, -⟩ := X.distance hτ eq
        subst hq
        dsimp only at hz ⊢
        split_ifs at hz ⊢
        · exact ⟨_, _, z, rfl, hz1, by linarith [(abs_le.mp hz2).1]⟩
        all_goals cases hz
    exact ⟨rfl, _, rep ray q nn e1 (by rw [hpos, e2]; rfl), fun _ => ⟨q, z, rfl, by rw [hpos]; exact e2, e3⟩⟩

end Optics
