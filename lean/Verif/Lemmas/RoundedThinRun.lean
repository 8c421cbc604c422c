import Verif.Lemmas.RoundedThin
import Verif.Spec.RoundedLens

/-! # A pass of the loop that ends at an ideal lens, with rounded arithmetic -/

namespace Optics
open V3

section generic
variable {α : Type} [PyNum α]

/-- What the constructor of a round lens stores. -/
theorem biconvex_built {P N : V3 α} {D w h f : Option α} {type : String} {index : α} {l : Lens α}
    (hl : Lens.new P (some N) "spherical_biconvex" D w h f type index = .ok l) :
    l.position = P ∧ l.normal = some (unitVector N) ∧ l.shape = "spherical_biconvex" ∧ l.f = f ∧ l.type = type ∧
      ∃ c : Circle α, l.surfaces = [.circle c] ∧ c.center = P ∧ c.plane = some (Plane.new P N) ∧
        checkRAndD none D = .ok (c.R, c.D) := by
  unfold Lens.new Circle.new at hl
  simp only [if_true, bind, Except.bind, pure, Except.pure] at hl
  cases hc : checkRAndD none D with
  | error e => rw [hc] at hl; cases hl
  | ok p =>
    rw [hc] at hl
    cases hl
    exact ⟨rfl, rfl, rfl, rfl, rfl, _, rfl, rfl, rfl, rfl⟩

/-- A hit of a round lens is a hit of its plane. -/
theorem biconvex_hit {P N : V3 α} {D w h f : Option α} {type : String} {index : α} {l : Lens α}
    (hl : Lens.new P (some N) "spherical_biconvex" D w h f type index = .ok l) {ray : Ray α} {r : Hit4 α}
    (hr : l.testIntersect ray = .ok r) (hh : r.hit = true) {pt : V3 α} (hp : r.pt = some pt) :
    ∃ nn, (Plane.new P N).testIntersect ray = ⟨true, some pt, nn⟩ := by
  obtain ⟨-, -, hshape, -, -, c, hsurf, -, hplane, -⟩ := biconvex_built hl
  unfold Lens.testIntersect at hr
  rw [if_pos hshape, hsurf] at hr
  simp only [List.foldlM_cons, List.foldlM_nil, flatStep, Shape.testIntersect, Circle.testIntersect, hplane, bind, Except.bind,
    pure, Except.pure] at hr
  generalize (Plane.new P N).testIntersect ray = z at *
  obtain ⟨zh, zp, zn⟩ := z
  cases zh <;> cases zp <;> simp only [asHit3, Hit3.miss, Bool.false_eq_true, if_false, bound] at hr
  · cases hr; cases hh
  · cases hr; cases hh
  · cases hr; cases hh
  · rename_i x
    by_cases h1 : distanceBetween x c.center < c.R
    · simp only [h1, if_true, need] at hr
      by_cases h2 : ltMin (distanceBetween ray.position x) none = true
      · simp only [h2, if_true] at hr
        cases hr
        cases hp
        exact ⟨zn, rfl⟩
      · simp only [h2] at hr
        cases hr
        cases hp
    · simp only [h1, if_false, Bool.false_eq_true] at hr
      cases hr; cases hh

end generic

variable {R : Rounding}

/-- Flying to an ideal lens and being turned there. -/
theorem lens_turn {O w P N : V3 ℝ} {f B c x : ℝ} (hs : ThinSizes R f B c) (huB : R.u * B ≤ 1 / 10 ^ 10) (hw : NearUnit R w)
    (hN : SaneLength N) (hx0 : 0 < x) (hroom : ‖O.toE‖ + x + ‖P.toE‖ ≤ 9 / 10 * B) (hc : |inner ℝ (axisOf N) w.toE| = c)
    {ray : Ray (Fl R)} (hpos : ray.position = O.fl) (hdir : ray.direction = w.fl) {pt : V3 (Fl R)} {nn : Option (V3 (Fl R))}
    (hnn : (Plane.new P.fl N.fl).testIntersect ray = ⟨true, some pt, nn⟩) (hx : distanceBetween ray.position pt = Fl.fin x) :
    ∃ P' d' q : V3 ℝ, pt = q.fl ∧ ray.position + distanceBetween ray.position pt * ray.direction = P'.fl ∧
      thinLensDirection P'.fl w.fl P.fl (unitVector N.fl) (some (Fl.fin f : Fl R)) q.fl = .ok d'.fl ∧ NearUnit R d' ∧
      ‖P'.toE - (O.toE + x • w.toE)‖ ≤ 32 / 10 * (R.u * B) ∧ |inner ℝ (axisOf N) (P'.toE - P.toE)| ≤ 70 * (R.u * B) ∧
      ‖P'.toE - q.toE‖ ≤ 22 * (R.u * B) ∧
      (‖‖(f / c) • w.toE - (q.toE - P.toE)‖ • d'.toE - ((f / c) • w.toE - (q.toE - P.toE))‖ ≤ 50 * (R.u * (B / c ^ 2)) ∨
      ((‖w.toE - axisOf N‖ ≤ 2 / 10 ^ 8 + 5 * R.u ∨ ‖w.toE + axisOf N‖ ≤ 2 / 10 ^ 8 + 5 * R.u) ∧
        ‖‖(f / c) • w.toE - (P'.toE - P.toE)‖ • d'.toE - ((f / c) • w.toE - (P'.toE - P.toE))‖ ≤
          62 * (R.u * (B / c ^ 2)) + 8 / 10 ^ 8 * f)) := by
  have hu := R.u_pos
  obtain ⟨hX, hBX, hGX, hXb, huX, huBX, huX1⟩ := hs.facts
  have hB := hs.one_le
  have hB' := hs.le_big
  have hO0 := _root_.norm_nonneg O.toE
  have hP0 := _root_.norm_nonneg P.toE
  have hO : ‖O.toE‖ ≤ B := by linarith
  have hP : ‖P.toE‖ ≤ B := by linarith
  have huB0 : 0 < R.u * B := by positivity
  obtain ⟨hw1, -⟩ := hw.bounds
  have hbig : B ≤ 10 ^ 100 := hB'.trans (pow_le_pow_right₀ (by norm_num) (by norm_num))
  obtain ⟨P', hP', eP⟩ := fly_near (R := R) hO hB hB' hw hx0.le (by linarith)
  obtain ⟨k1, q, hq, k2⟩ := hit_near_both hN hP hO hB hB' huB hw hpos hdir hnn hx (by linarith) eP
  have eP' : ‖P'.toE - (O.toE + x • w.toE)‖ ≤ 32 / 10 * (R.u * B) := by
    refine eP.trans ?_
    have := mul_le_mul_of_nonneg_left (show 21 / 10 * x + 11 / 10 * B ≤ 32 / 10 * B by linarith) hu.le
    linarith
  -- sizes
  have nP' : ‖P'.toE - P.toE‖ ≤ B - 25 * (R.u * B) := by
    have e : P'.toE - P.toE = (P'.toE - (O.toE + x • w.toE)) + (O.toE + x • w.toE - P.toE) := by abel
    have h1 := norm_add_le (P'.toE - (O.toE + x • w.toE)) (O.toE + x • w.toE - P.toE)
    have h2 := norm_sub_le (O.toE + x • w.toE) P.toE
    have h3 := norm_add_le O.toE (x • w.toE)
    rw [_root_.norm_smul, Real.norm_of_nonneg hx0.le] at h3
    have h4 := mul_le_mul_of_nonneg_left hw1 hx0.le
    rw [← e] at h1
    norm_num at huB
    linarith
  have nq : ‖q.toE - P.toE‖ ≤ B := by
    have := norm_sub_le_norm_sub_add_norm_sub q.toE P'.toE P.toE
    rw [norm_sub_rev q.toE P'.toE] at this
    linarith
  have hfine := hs.fine
  have hM : ‖axisOf N‖ = 1 := dirE_norm hN.pos
  have hqp : |inner ℝ (axisOf N) (q.toE - P.toE)| ≤ f / 2 := by
    have e : inner ℝ (axisOf N) (q.toE - P.toE) = inner ℝ (axisOf N) (P'.toE - P.toE) - inner ℝ (axisOf N) (P'.toE - q.toE) := by
      rw [← inner_sub_right]; congr 1; abel
    have i1 := abs_real_inner_le_norm (axisOf N) (P'.toE - q.toE)
    rw [hM, one_mul] at i1
    have i2 := abs_sub (inner ℝ (axisOf N) (P'.toE - P.toE)) (inner ℝ (axisOf N) (P'.toE - q.toE))
    have i3 : |inner ℝ (axisOf N) (P'.toE - P.toE)| ≤ 70 * (R.u * B) := k1
    rw [e]
    linarith
  have hpp : |inner ℝ (axisOf N) (P'.toE - P.toE)| ≤ f / 2 := by
    have i3 : |inner ℝ (axisOf N) (P'.toE - P.toE)| ≤ 70 * (R.u * B) := k1
    linarith
  obtain ⟨n, hn, en⟩ := unitVector_near (R := R) hN
  obtain ⟨d', t1, t2, t3⟩ := thin_near hs (pos := P') (pt := q) hM en hw hc hP nq (by linarith) hqp hpp
  exact ⟨P', d', q, hq, by rw [hx, hpos, hdir, hP'], by rw [hn]; exact t1, t2, eP', k1, k2, t3⟩

/-- What a pass that ends at an ideal lens does to the ray. -/
theorem lens_pass {md : Fl R} {optics : List (Optic (Fl R))} {s s' : RunState (Fl R)} {O w P N : V3 ℝ} {f B c r : ℝ}
    (hs : ThinSizes R f B c) (huB : R.u * B ≤ 1 / 10 ^ 10) (hpos : s.ray.position = O.fl) (hdir : s.ray.direction = w.fl)
    (hw : NearUnit R w) (hrem : s.remaining = Fl.fin r) (hr0 : 0 ≤ r) (hroom : ‖O.toE‖ + r + ‖P.toE‖ ≤ 9 / 10 * B)
    (hc : |inner ℝ (axisOf N) w.toE| = c) (htype : s.ray.type ≠ "faerie_fire") (hst : runStep md optics s = .next s')
    (hint : s'.interactions = s.interactions + 1) {sel : Selected (Fl R)} (hsel : s'.selected = some sel)
    (hlens : IdealLensOptic sel.optic P N f) :
    ∃ (P' d' q : V3 ℝ) (x : ℝ), s'.ray.position = P'.fl ∧ s'.ray.direction = d'.fl ∧ NearUnit R d' ∧ 0 < x ∧ x ≤ r ∧
      ‖P'.toE - (O.toE + x • w.toE)‖ ≤ 32 / 10 * (R.u * B) ∧ |inner ℝ (axisOf N) (P'.toE - P.toE)| ≤ 70 * (R.u * B) ∧
      ‖P'.toE - q.toE‖ ≤ 22 * (R.u * B) ∧
      (‖‖(f / c) • w.toE - (q.toE - P.toE)‖ • d'.toE - ((f / c) • w.toE - (q.toE - P.toE))‖ ≤ 50 * (R.u * (B / c ^ 2)) ∨
      ((‖w.toE - axisOf N‖ ≤ 2 / 10 ^ 8 + 5 * R.u ∨ ‖w.toE + axisOf N‖ ≤ 2 / 10 ^ 8 + 5 * R.u) ∧
        ‖‖(f / c) • w.toE - (P'.toE - P.toE)‖ • d'.toE - ((f / c) • w.toE - (P'.toE - P.toE))‖ ≤
          62 * (R.u * (B / c ^ 2)) + 8 / 10 ^ 8 * f)) := by
  obtain ⟨v, hv, hs'⟩ := runStep_next hst
  rcases hs' with ⟨_, e⟩ | ⟨sel', hi, hse, ht, e⟩ | ⟨sel', sfo, ray', hits, hi, hse, _, ht, ha, e⟩
  · rw [e] at hint; exact absurd hint (Nat.succ_ne_self _).symm
  · exact absurd ht htype
  have e2 : sel' = sel := by
    rw [e] at hsel; exact Option.some.inj (hse.symm.trans hsel)
  subst e2
  obtain ⟨sel₁, h4, e1, -, -, htest, hhit, hpt, -, hle, hgt⟩ := scan_tested (fun d h1 h2 =>
      (budget_hit (R := R) (r := r) (by rw [hrem] at h1; exact h1) h2).1) hv hi
  rw [hse] at e1; cases e1
  rw [hrem] at hle
  obtain ⟨-, x, hx, hx0, hxr⟩ := budget_hit (R := R) hle hgt
  obtain ⟨o, ho⟩ : ∃ o, o = sel'.optic := ⟨_, rfl⟩
  rw [← ho] at hlens htest ha
  cases hlens with
  | @mk l D w' h' index _ _ _ hN hl =>
  obtain ⟨nn, hnn⟩ := biconvex_hit hl htest hhit hpt
  obtain ⟨b1, b2, -, b3, b4, -⟩ := biconvex_built hl
  obtain ⟨P', d', q, hq, hfly, t1, t2, eP', k1, k2, t3⟩ := lens_turn (x := x) hs huB hw hN hx0 (by linarith) hc hpos hdir hnn hx
  have hflown : (s.flown sel'.pt).position = P'.fl := by
    exact hfly
  have hfp : (s.flown (q.fl : V3 (Fl R))).position = P'.fl := by rw [← hq]; exact hflown
  have hfd : (s.flown (q.fl : V3 (Fl R))).direction = w.fl := hdir
  have hdo : ray' = { s.flown sel'.pt with direction := d'.fl } := by
    simp only [Optic.doIntersect, Lens.doIntersect, b4, if_true, Ray.refract, need, b1, b2, b3, bind, Except.bind, pure,
      Except.pure, hq, hfp, hfd, t1] at ha
    cases ha
    rw [hq, ← hfp]
  refine ⟨P', d', q, x, ?_, ?_, t2, hx0, hxr, eP', k1, k2, t3⟩
  · rw [e]; show ray'.position = _; rw [hdo]; exact hflown
  · rw [e]; show ray'.direction = _; rw [hdo]

end Optics
