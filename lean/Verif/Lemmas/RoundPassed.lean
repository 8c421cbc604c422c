import Verif.Lemmas.RoundedCollimator
import Verif.Spec.RoundedCollimator

/-! A pass of the loop that ends at a round lens of any type. -/

namespace Optics
open V3

variable {R : Rounding}

theorem round_passed {type : String} {f : Option (Fl R)} {md : Fl R} {optics : List (Optic (Fl R))} {s s' : RunState (Fl R)}
    {O w P N : V3 ℝ} {B r : ℝ} (H : RoundPass type f md optics s s' O w P N B r) :
    ∃ (P' : V3 ℝ) (x : ℝ) (l : Lens (Fl R)) (ray ray' : Ray (Fl R)) (pt : V3 (Fl R)) (nn : Option (V3 (Fl R))) (sfo : Sfo), SaneLength N ∧
      l.position = P.fl ∧ l.normal = some (unitVector N.fl) ∧ l.f = f ∧ l.type = type ∧ l.doIntersect ray pt nn sfo = .ok ray' ∧
      ray.position = P'.fl ∧ ray.direction = w.fl ∧ s'.ray = ray' ∧ 0 < x ∧ x ≤ r ∧
      ‖P'.toE - (O.toE + x • w.toE)‖ ≤ 32 / 10 * (R.u * B) ∧ |inner ℝ (axisOf N) (P'.toE - P.toE)| ≤ 70 * (R.u * B) ∧
      ‖P'.toE - P.toE‖ ≤ B := by
  have hu := R.u_pos
  have hB := H.one_le
  have hB' := H.le_big
  have huB := H.grid
  have hw : NearUnit R w := H.unit
  have hpos := H.pos
  have hdir := H.dir
  have hrem := H.rem
  have hroom := H.room
  obtain ⟨sel, hsel, hlens⟩ := H.lens
  obtain ⟨v, hv, hs'⟩ := runStep_next H.step
  rcases hs' with ⟨_, e⟩ | ⟨sel', hi, hse, ht, e⟩ | ⟨sel', sfo, ray', hits, hi, hse, _, ht, ha, e⟩
  · have := H.hit; rw [e] at this; exact absurd this (Nat.succ_ne_self _).symm
  · exact absurd ht H.kind
  have e2 : sel' = sel := by
    rw [e] at hsel; exact Option.some.inj (hse.symm.trans hsel)
  subst e2
  obtain ⟨sel₁, h4, e1, -, -, htest, hhit, hpt, -, hle, hgt⟩ := scan_tested (fun d h1 h2 =>
      (budget_hit (R := R) (r := r) (by rw [hrem] at h1; exact h1) h2).1) hv hi
  rw [hse] at e1; cases e1
  rw [hrem] at hle
  obtain ⟨-, x, hx, hx0, hxr⟩ := budget_hit (R := R) hle hgt
  obtain ⟨o, ho⟩ : ∃ o, o = sel'.optic := ⟨_, rfl⟩
  rw [← ho] at hlens htest ha
  cases hlens with
  | @mk l D w' h' index _ _ hN hl =>
  obtain ⟨nn, hnn⟩ := biconvex_hit hl htest hhit hpt
  obtain ⟨b1, b2, -, b3, b4, -⟩ := biconvex_built hl
  have hO0 := _root_.norm_nonneg O.toE
  have hP0 := _root_.norm_nonneg P.toE
  have hO : ‖O.toE‖ ≤ B := by linarith
  have hP : ‖P.toE‖ ≤ B := by linarith
  have huB0 : 0 < R.u * B := by positivity
  obtain ⟨hw1, -⟩ := hw.bounds
  have hbig : B ≤ 10 ^ 100 := hB'.trans (pow_le_pow_right₀ (by norm_num) (by norm_num))
  obtain ⟨P', hP', eP⟩ := fly_near (R := R) hO hB hB' hw hx0.le (by linarith)
  obtain ⟨k1, q, hq, k2⟩ := hit_near_both hN hP hO hB hB' huB hw hpos hdir hnn hx (by linarith) eP
  have eP' : ‖P'.toE - (O.toE + x • w.toE)‖ ≤ 32 / 10 * (R.u * B) := by
    refine eP.trans ?_
    have := mul_le_mul_of_nonneg_left (show 21 / 10 * x + 11 / 10 * B ≤ 32 / 10 * B by linarith) hu.le
    linarith
  have nP' : ‖P'.toE - P.toE‖ ≤ B := by
    have e : P'.toE - P.toE = (P'.toE - (O.toE + x • w.toE)) + (O.toE + x • w.toE - P.toE) := by abel
    have h1 := norm_add_le (P'.toE - (O.toE + x • w.toE)) (O.toE + x • w.toE - P.toE)
    have h2 := norm_sub_le (O.toE + x • w.toE) P.toE
    have h3 := norm_add_le O.toE (x • w.toE)
    rw [_root_.norm_smul, Real.norm_of_nonneg hx0.le] at h3
    have h4 := mul_le_mul_of_nonneg_left hw1 hx0.le
    rw [← e] at h1
    norm_num at huB
    linarith
  have hflown : (s.flown sel'.pt).position = P'.fl := by
    show s.ray.position + distanceBetween s.ray.position sel'.pt * s.ray.direction = P'.fl
    rw [hx, hpos, hdir, hP']
  cases hdo : l.doIntersect (s.flown sel'.pt) sel'.pt sel'.normal sfo with
  | error er => simp only [Optic.doIntersect, hdo, bind, Except.bind] at ha; cases ha
  | ok ray₁ =>
    simp only [Optic.doIntersect, hdo, bind, Except.bind, pure, Except.pure] at ha
    cases ha
    exact ⟨P', x, l, _, _, _, _, _, hN, b1, b2, b3, b4, hdo, hflown, hdir, by rw [e], hx0, hxr, eP', k1, nP'⟩

end Optics
