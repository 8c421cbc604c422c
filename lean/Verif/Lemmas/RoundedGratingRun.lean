import Verif.Lemmas.NearBallRun
import Verif.Props.RoundedApertures
import Verif.Props.RoundedGratings

/-! # A run that meets a rectangular grating and leaves it, with rounded arithmetic -/

namespace Optics
open V3

section generic

variable {α : Type} [PyNum α]

theorem grating_new {P n t : V3 α} {w h G : Option α} {g : Grating α} (hg : Grating.new P n t "rectangular_flat" w h G = .ok g) :
    ∃ r, Rectangle.new P n t h w = .ok r ∧ g.shape = "rectangular_flat" ∧ g.surfaces = [.rectangle r] := by
  unfold Grating.new at hg
  simp only [if_true, bind, Except.bind, pure, Except.pure] at hg
  cases hr : Rectangle.new P n t h w with
  | error e => rw [hr] at hg; cases hg
  | ok r => rw [hr] at hg; cases hg; exact ⟨r, rfl, rfl, rfl⟩

/-- A hit of a rectangle is a hit of its plane. -/
theorem rectangle_point {r : Rectangle α} {ray : Ray α} {p : V3 α} {nn : Option (V3 α)} (h : r.testIntersect ray = ⟨true, some p, nn⟩) :
    r.plane.testIntersect ray = ⟨true, some p, nn⟩ := by
  unfold Rectangle.testIntersect at h
  cases hz : r.plane.testIntersect ray with
  | mk zh zp zn =>
  rw [hz] at h
  cases zh with
  | false => cases h
  | true =>
  cases zp with
  | none => cases h
  | some q =>
    simp only at h
    split_ifs at h
    · exact h
    all_goals cases h

/-- A rectangle whose plane is missed is missed. -/
theorem rectangle_missed {r : Rectangle α} {ray : Ray α} (h : ∀ p nn, r.plane.testIntersect ray ≠ ⟨true, some p, nn⟩) :
    r.testIntersect ray = Hit3.miss := by
  unfold Rectangle.testIntersect
  cases hz : r.plane.testIntersect ray with
  | mk zh zp zn =>
  cases zh with
  | false => rfl
  | true =>
  cases zp with
  | none => rfl
  | some q => exact absurd hz (h q zn)

theorem grating_reports {g : Grating α} {r : Rectangle α} (hs : g.shape = "rectangular_flat") (hf : g.surfaces = [.rectangle r])
    {ray : Ray α} {p n : V3 α} (hit : r.testIntersect ray = ⟨true, some p, some n⟩)
    (h1 : PyNum.ltInf (distanceBetween ray.position p) = true) : g.testIntersect ray = .ok ⟨true, some p, some n, .none⟩ := by
  unfold Grating.testIntersect
  rw [if_pos (.inr hs), hf, List.foldlM_cons]
  unfold flatStep
  simp only [Shape.testIntersect, hit, asHit3, bind, Except.bind, pure, Except.pure, need, if_true, ltMin, h1, bound, List.foldlM_nil,
    Bool.false_eq_true, if_false]

theorem grating_misses {g : Grating α} {r : Rectangle α} (hs : g.shape = "rectangular_flat") (hf : g.surfaces = [.rectangle r])
    {ray : Ray α} (miss : r.testIntersect ray = Hit3.miss) : g.testIntersect ray = .ok ⟨false, none, none, .none⟩ := by
  unfold Grating.testIntersect
  rw [if_pos (.inr hs), hf, List.foldlM_cons]
  unfold flatStep
  simp only [Shape.testIntersect, miss, asHit3, Hit3.miss, bind, Except.bind, pure, Except.pure, bound, List.foldlM_nil,
    Bool.false_eq_true, if_false]

/-- A pass of the loop in which the only optic is hit. -/
theorem only_hit {o : Optic α} (ho : o.skipped = false) {md : α} {s : RunState α} {p : V3 α} {n : Option (V3 α)} {sfo : Sfo}
    (hm : o.testIntersect s.ray = .ok ⟨true, some p, n, sfo⟩) (htype : s.ray.type ≠ "faerie_fire")
    (h1 : ¬ distanceBetween s.ray.position p > s.remaining) (h2 : distanceBetween s.ray.position p > clippingFloor)
    (h3 : PyNum.ltInf (distanceBetween s.ray.position p) = true) {ray' : Ray α} {hits : List (DetHit α)}
    (ha : o.doIntersect (s.flown p) p n sfo = .ok (ray', hits)) :
    runStep md [o] s = .next { s with
        ray := ray'
        remaining := s.remaining - distanceBetween s.ray.position p
        interactions := s.interactions + 1
        selected := some ⟨o, p, n⟩
        sfo := some sfo
        log := s.log ++ hits } := by
  unfold runStep
  have e : [o].foldlM (scanStep s.ray s.remaining) ⟨false, none, s.selected, s.sfo⟩ =
      .ok ⟨true, some (distanceBetween s.ray.position p), some ⟨o, p, n⟩, some sfo⟩ := by
    rw [List.foldlM_cons]
    unfold scanStep
    simp only [ho, Bool.false_eq_true, if_false, hm, bind, Except.bind, pure, Except.pure, if_true,
      need, h1, h2, ltMin, h3]
    rfl
  rw [e]
  have e2 : s.ray.fly (some (distanceBetween s.ray.position p)) = .ok (s.flown p) := rfl
  simp only [Bool.not_true, Bool.false_eq_true, if_false, e2]
  rw [if_neg (show ¬ (s.flown p).type = "faerie_fire" from htype), ha]

/-- A pass of the loop in which the only optic is missed. -/
theorem only_miss {o : Optic α} (ho : o.skipped = false) {md : α} {s : RunState α} {p n : Option (V3 α)} {sfo : Sfo}
    (hm : o.testIntersect s.ray = .ok ⟨false, p, n, sfo⟩) :
    runStep md [o] s = .next
      { s with
        ray := s.ray.movedTo (s.ray.position + s.remaining * s.ray.direction)
        remaining := s.remaining - md
        sfo := some sfo } := by
  unfold runStep
  have e : [o].foldlM (scanStep s.ray s.remaining) ⟨false, none, s.selected, s.sfo⟩ = .ok ⟨false, none, s.selected, some sfo⟩ := by
    rw [List.foldlM_cons]
    unfold scanStep
    simp only [ho, Bool.false_eq_true, if_false, hm, bind, Except.bind, pure, Except.pure]
    rfl
  rw [e]
  rfl

end generic

variable {R : Rounding}

/-- The computed distance to the point of a plane that a ray meets. -/
theorem Crossing.distance {C n₀ P w q : V3 ℝ} {B c τ : ℝ} (X : Crossing R C n₀ P w B c τ) (hτ : 1 / 1000 ≤ τ)
    (hq : ‖q.toE - (P.toE + τ • w.toE)‖ ≤ 58 * (R.u * B / c)) :
    ∃ x, distanceBetween (P.fl : V3 (Fl R)) q.fl = Fl.fin x ∧ |x - τ| ≤ 69 * (R.u * B / c) ∧ 1 / 2000 ≤ x ∧ x ≤ B ∧
      R.u * B ≤ (1 + 1 / 100000) * (R.u * B / c) ∧ R.u * B / c ≤ 1 / 10 ^ 7 := by
  have hu := R.u_pos
  have hus := (five_u (R := R)).2
  obtain ⟨hP, hC, hτB, hc, -⟩ := X.sizes
  have hB := X.one_le
  have hB' := X.le_big
  have hroom := X.room
  have hP0 := _root_.norm_nonneg P.toE
  have hC0 := _root_.norm_nonneg C.toE
  have hc1 := slope_le_one (C := C) (P := P) X.sane X.unit X.slope_le
  have hub : 0 < R.u * B := by positivity
  have huu : R.u ≤ R.u * B := le_mul_of_one_le_right hu.le hB
  obtain ⟨k, hk⟩ : ∃ k, k = R.u * B / c := ⟨_, rfl⟩
  have hk1 : R.u * B ≤ (1 + 1 / 100000) * k := by
    rw [hk, mul_div_assoc', le_div_iff₀ hc]
    nlinarith
  have hk3 : k ≤ 1 / 10 ^ 7 := by
    rw [hk, div_le_iff₀ hc]
    have := X.fine
    have := X.slope
    norm_num at *
    linarith
  rw [← hk] at hq ⊢
  have hk3' := hk3
  norm_num at hk3'
  have hτu : R.u * τ ≤ R.u * B := mul_le_mul_of_nonneg_left hτB hu.le
  have n1 : |‖τ • w.toE‖ - τ| ≤ 5 * (R.u * B) := by
    rw [_root_.norm_smul, Real.norm_of_nonneg X.ahead, show τ * ‖w.toE‖ - τ = τ * (‖w.toE‖ - 1) by ring, abs_mul, abs_of_nonneg X.ahead]
    have := mul_le_mul_of_nonneg_left X.unit X.ahead
    linarith
  have n2 : |‖P.toE - q.toE‖ - ‖τ • w.toE‖| ≤ 58 * k := by
    rw [norm_sub_rev]
    refine (abs_norm_sub_norm_le _ _).trans ?_
    rw [sub_sub]
    exact hq
  have n3 := abs_add_le (‖P.toE - q.toE‖ - ‖τ • w.toE‖) (‖τ • w.toE‖ - τ)
  rw [sub_add_sub_cancel] at n3
  obtain ⟨Y, hY⟩ : ∃ Y, Y = ‖P.toE - q.toE‖ := ⟨_, rfl⟩
  rw [← hY] at n3 n2
  have n4 : |Y - τ| ≤ 64 * k := by linarith
  rw [abs_le] at n4
  have hYB : Y ≤ 91 / 100 * B := by linarith
  have big : (10 : ℝ) ^ 50 ≤ 10 ^ 200 := by norm_num
  obtain ⟨v, hv, ev⟩ := vsub_near (R := R) (a := P) (b := q) (X := Y) (by rw [hY]) (by linarith)
  have hww : |‖v.toE‖ - Y| ≤ R.u * (Y + 1 / 1000) := by rw [hY] at ev ⊢; exact (abs_norm_sub_norm_le _ _).trans ev
  have h1 : R.u * (Y + 1 / 1000) ≤ 92 / 100 * (R.u * B) := by
    have := mul_le_mul_of_nonneg_left (show Y + 1 / 1000 ≤ 911 / 1000 * B by linarith) hu.le
    linarith
  have hww' := abs_le.mp hww
  have hvB : ‖v.toE‖ ≤ 92 / 100 * B := by linarith
  have hsane : SaneLength v := by
    constructor
    · refine le_trans (show (1 : ℝ) / 10 ^ 100 ≤ 1 / 10000 by norm_num) ?_
      linarith
    · exact le_trans hvB (le_trans (show 92 / 100 * B ≤ 10 ^ 50 by linarith) (by norm_num))
  obtain ⟨x, hx, ex⟩ := norm_near (R := R) hsane
  have h2 : 3 * R.u * ‖v.toE‖ ≤ 276 / 100 * (R.u * B) := by
    have := mul_le_mul_of_nonneg_left hvB hu.le
    linarith
  have ex' := abs_le.mp ex
  refine ⟨x, by unfold distanceBetween; rw [hv, hx], ?_, by linarith, by linarith, hk1, hk3⟩
  rw [abs_le]
  constructor <;> linarith

/-- **The two legs of a run that meets a rectangular grating**: to the grating, and away from it in the direction `v` that the
grating gives the ray. -/
theorem grating_legs {C n₀ t₀ N P w v : V3 ℝ} {h wd B ν c τ L : ℝ} {m wl : Fl R} {g : Grating (Fl R)} {r : Rectangle (Fl R)}
    (hshape : g.shape = "rectangular_flat") (hsurf : g.surfaces = [.rectangle r])
    (H : BuiltRectangle R C n₀ t₀ N h wd B ν r) (X : Crossing R C n₀ P w B c τ) (hfar : 1 / 1000 ≤ τ)
    (hw : wd * |inner ℝ (cross N (unitVector t₀)).toE (P.toE + τ • w.toE - C.toE)| ≤ wd ^ 2 / 2 - 65 * (ν * B ^ 2 / c))
    (hh : h * |inner ℝ (unitVector t₀).toE (P.toE + τ • w.toE - C.toE)| ≤ h ^ 2 / 2 - 65 * (ν * B ^ 2 / c))
    (hL : τ + 1 / 1000 ≤ L) (hLB : L ≤ B) (hv : NearUnit R v) (hang : 11 * 10 ^ 10 * (R.u * B) ≤ |inner ℝ n₀.dirE v.toE|)
    (hact : ∀ n : V3 ℝ, unitVector (n₀.fl : V3 (Fl R)) = n.fl → ∀ (ray : Ray (Fl R)) (pt : V3 (Fl R)), ray.direction = w.fl →
      ray.order = m → ray.wavelength = wl → g.doIntersect ray pt (some n.fl) = .ok { ray with direction := v.fl })
    {ray : Ray (Fl R)} (hp : ray.position = P.fl) (hd : ray.direction = w.fl) (hm : ray.order = m) (hwl : ray.wavelength = wl)
    (htype : ray.type ≠ "faerie_fire") (hblocked : ray.blocked = false) {fuel : Nat} (hfuel : 3 ≤ fuel) :
    ∃ (s : RunState (Fl R)) (p e : V3 ℝ), ray.run (Fl.fin L) [.grating g] none fuel = .finished s ∧
      s.ray = { ray with position := e.fl, direction := v.fl, pointHistory := ray.pointHistory ++ [p.fl] ++ [e.fl] } ∧
      ‖p.toE - (P.toE + τ • w.toE)‖ ≤ 81 * (R.u * B / c) ∧
      ‖e.toE - (P.toE + τ • w.toE + (L - τ) • v.toE)‖ ≤ 165 * (R.u * B / c) := by
  have hu := R.u_pos
  obtain ⟨hP, hC, hτB, hc, -⟩ := X.sizes
  have hB := X.one_le
  have hB' := X.le_big
  have hroom := X.room
  have hP0 := _root_.norm_nonneg P.toE
  have hC0 := _root_.norm_nonneg C.toE
  have hfar' : 1 / 10 ^ 6 ≤ τ * c := by
    have := mul_le_mul hfar X.slope (by norm_num) X.ahead
    norm_num at this ⊢
    linarith
  obtain ⟨q, n, hn, hit, eq⟩ := C111_rectangle_hit H X hfar' hw hh hp hd
  obtain ⟨x, hx, ex, hx0, hxB, hk1, hk3⟩ := X.distance hfar eq
  obtain ⟨k, hk⟩ : ∃ k, k = R.u * B / c := ⟨_, rfl⟩
  rw [← hk] at eq ex hk1 hk3 ⊢
  have hub : 0 < R.u * B := by positivity
  have huB := X.fine
  norm_num at hk3 huB
  have ex' := abs_le.mp ex
  obtain ⟨p, hfly, ep⟩ := fly_near (R := R) hP hB hB' X.unit (show 0 ≤ x by linarith) (hxB.trans (hB'.trans (pow_le_pow_right₀ (by norm_num) (by norm_num))))
  have hplane := rectangle_point hit
  rw [(rectangle_built H.built).1] at hplane
  obtain ⟨pnear, q', hq', eq'⟩ := hit_near_both X.sane hC hP hB hB' X.fine X.unit hp hd hplane (by rw [hp]; exact hx) hxB ep
  have ep2 : ‖p.toE - (P.toE + x • w.toE)‖ ≤ 32 / 10 * (R.u * B) := by
    have := mul_le_mul_of_nonneg_left (show 21 / 10 * x + 11 / 10 * B ≤ 32 / 10 * B by linarith) hu.le
    linarith
  have ep3 : ‖p.toE - (P.toE + τ • w.toE)‖ ≤ 81 * k := by
    have e1 : p.toE - (P.toE + τ • w.toE) = (p.toE - (P.toE + x • w.toE)) + (x - τ) • w.toE := by rw [sub_smul]; abel
    rw [e1]
    have a1 := norm_add_le (p.toE - (P.toE + x • w.toE)) ((x - τ) • w.toE)
    rw [_root_.norm_smul, Real.norm_eq_abs] at a1
    have a2 := mul_le_mul ex X.unit.bounds.1 (_root_.norm_nonneg _) (by linarith)
    linarith
  have hpB : ‖p.toE‖ ≤ B := by
    have a1 := norm_le_norm_add_norm_sub' p.toE (P.toE + τ • w.toE)
    have a2 := norm_add_le P.toE (τ • w.toE)
    rw [_root_.norm_smul, Real.norm_of_nonneg X.ahead] at a2
    have a3 := mul_le_mul_of_nonneg_left X.unit.bounds.1 X.ahead
    linarith
  -- the budget that is left
  have big : (10 : ℝ) ^ 50 ≤ 10 ^ 250 := pow_le_pow_right₀ (by norm_num) (by norm_num)
  obtain ⟨y, hy, ey⟩ := rnd_near (R := R) (x := L - x) (e := B) (by rw [abs_of_nonneg (by linarith)]; linarith) (by linarith)
  have ey' : |y - (L - x)| ≤ 2 * (R.u * B) := by
    have ht : (1 : ℝ) / 10 ^ 250 ≤ 1 := by norm_num
    generalize (1 : ℝ) / 10 ^ 250 = t at *
    have h2 := mul_le_mul_of_nonneg_left (show B + t ≤ 2 * B by linarith) hu.le
    linarith
  rw [abs_le] at ey'
  have hyL : y ≤ L := by linarith
  have hy0 : 0 < y := by linarith
  obtain ⟨z, hz, ez⟩ := rnd_near (R := R) (x := y - L) (e := B) (by rw [abs_of_nonpos (by linarith)]; linarith) (by linarith)
  have hz0 : z ≤ 0 := rnd_nonpos (R := R) (x := y - L) (by linarith) (congrArg Fl.val hz)
  obtain ⟨e, hfly2, ee⟩ := fly_near (R := R) hpB hB hB' hv hy0.le ((hyL.trans hLB).trans (hB'.trans (pow_le_pow_right₀ (by norm_num) (by norm_num))))
  -- the first pass
  obtain ⟨cf, hcf, ecf⟩ := rnd_near (R := R) (x := 1e-12) (e := 1) (by norm_num [abs_of_pos]) (by norm_num)
  have hcf' : (clippingFloor : Fl R) = Fl.fin cf := by unfold clippingFloor; rw [fl_lit, hcf]
  have hcfx : cf < x := by
    have h6 := (five_u (R := R)).2
    have := (abs_le.mp ecf).2
    have h7 : R.u * (1 + 1 / 10 ^ 250) ≤ 1 / 1000000 * 2 := mul_le_mul h6 (by norm_num) (by positivity) (by norm_num)
    norm_num at this h7 ⊢
    linarith
  obtain ⟨s₀, hs₀⟩ : ∃ s₀, s₀ = RunState.init ray (Fl.fin L : Fl R) := ⟨_, rfl⟩
  have hray : s₀.ray = ray := by rw [hs₀]; rfl
  have hrem : s₀.remaining = Fl.fin L := by rw [hs₀]; rfl
  have hdist : distanceBetween s₀.ray.position q.fl = Fl.fin x := by rw [hray, hp]; exact hx
  have hflown : s₀.flown q.fl = { ray with position := p.fl, pointHistory := ray.pointHistory ++ [p.fl] } := by
    unfold RunState.flown Ray.movedTo
    rw [hdist, hray, hp, hd, hfly]
  have step1 := only_hit (o := .grating g) rfl (md := (Fl.fin L : Fl R)) (s := s₀) (p := q.fl) (n := some n.fl) (sfo := .none)
    (grating_reports hshape hsurf (by rw [hray]; exact hit) (by rw [hdist]; rfl)) (by rw [hray]; exact htype)
    (by rw [hdist, hrem]; exact not_lt.mpr (by linarith : x ≤ L)) (by rw [hdist, hcf']; exact hcfx) (by rw [hdist]; rfl)
    (ray' := { ray with position := p.fl, pointHistory := ray.pointHistory ++ [p.fl], direction := v.fl }) (hits := []) (by
      rw [hflown]
      simp only [Optic.doIntersect]
      rw [hact n hn { ray with position := p.fl, pointHistory := ray.pointHistory ++ [p.fl] } _ hd hm hwl]
      rfl)
  rw [hdist, hrem, fl_sub, hy] at step1
  have c0 : s₀.continues none = true := by
    unfold RunState.continues
    rw [hrem, hray, hblocked, fl_lit0]
    simp only [Bool.not_false, Bool.and_true, decide_eq_true_eq]
    exact (show (0 : ℝ) < L by linarith)
  obtain ⟨s₁, hs₁⟩ : ∃ s₁, s₁ = { s₀ with
        ray := { ray with position := p.fl, pointHistory := ray.pointHistory ++ [p.fl], direction := v.fl }
        remaining := Fl.fin y
        interactions := s₀.interactions + 1
        selected := some ⟨.grating g, q.fl, some n.fl⟩
        sfo := some .none
        log := s₀.log ++ [] } := ⟨_, rfl⟩
  rw [← hs₁] at step1
  have r1 : s₁.ray = { ray with position := p.fl, pointHistory := ray.pointHistory ++ [p.fl], direction := v.fl } := by rw [hs₁]
  have r2 : s₁.remaining = Fl.fin y := by rw [hs₁]
  -- the second pass
  have miss : r.testIntersect s₁.ray = Hit3.miss := rectangle_missed fun pt nn => by
    rw [(rectangle_built H.built).1]
    exact leaving_misses X.sane hC hpB hB hB' hv (by rw [r1]) (by rw [r1]) pnear hang
  have step2 := only_miss (o := .grating g) rfl (md := (Fl.fin L : Fl R)) (s := s₁) (grating_misses hshape hsurf miss)
  have c1 : s₁.continues none = true := by
    unfold RunState.continues
    rw [r2, r1, hblocked, fl_lit0]
    simp only [Bool.not_false, Bool.and_true, decide_eq_true_eq]
    exact hy0
  rw [r2, fl_sub, hz, r1] at step2
  simp only [Ray.movedTo, hfly2] at step2
  obtain ⟨j, rfl⟩ := Nat.exists_eq_add_of_le hfuel
  obtain ⟨s₂, hs₂⟩ : ∃ s₂, s₂ = { s₁ with
        ray := { ray with position := e.fl, pointHistory := ray.pointHistory ++ [p.fl] ++ [e.fl], direction := v.fl }
        remaining := Fl.fin z
        sfo := some .none } := ⟨_, rfl⟩
  rw [← hs₂] at step2
  refine ⟨s₂, p, e, ?_, by rw [hs₂], ep3, ?_⟩
  rotate_left
  · have b1 : e.toE - (P.toE + τ • w.toE + (L - τ) • v.toE) =
        (e.toE - (p.toE + y • v.toE)) + (p.toE - (P.toE + τ • w.toE)) + (y - (L - τ)) • v.toE := by module
    have b2 : ‖e.toE - (p.toE + y • v.toE)‖ ≤ 32 / 10 * (R.u * B) := by
      have := mul_le_mul_of_nonneg_left (show 21 / 10 * y + 11 / 10 * B ≤ 32 / 10 * B by linarith) hu.le
      linarith
    have b3 : |y - (L - τ)| ≤ 72 * k := by rw [abs_le]; constructor <;> linarith
    rw [b1]
    refine (norm_add_le _ _).trans ?_
    have b4 := norm_add_le (e.toE - (p.toE + y • v.toE)) (p.toE - (P.toE + τ • w.toE))
    rw [_root_.norm_smul, Real.norm_eq_abs]
    have b5 := mul_le_mul b3 hv.bounds.1 (_root_.norm_nonneg _) (by linarith)
    linarith
  · unfold Ray.run
    rw [← hs₀, show 3 + j = (j + 2) + 1 by ring, runLoop_next _ c0 step1, runLoop_next _ c1 step2]
    refine runLoop_stop _ ?_
    unfold RunState.continues
    have : decide ((Fl.fin z : Fl R) > (0.0 : Fl R)) = false := by
      rw [fl_lit0, decide_eq_false_iff_not]
      exact not_lt.mpr hz0
    rw [hs₂]
    simp only [this, Bool.false_and]

end Optics
