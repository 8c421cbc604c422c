import Verif.Lemmas.NearBallLeave

/-! # A ball near a ray, with rounding: the reflection and the two passes of the loop -/

namespace Optics
open V3

section generic

variable {α : Type} [PyNum α]

/-- A ball mirror reports the nearer of the two points its sphere reports, with the normal outwards. -/
theorem ball_reports {m : Mirror α} {s : Sphere α} (hs : m.shape = "circular_convex_spherical") (hf : m.surfaces = [.sphere s])
    {ray : Ray α} {p₀ p₁ n₀ n₁ : V3 α} (hit : s.testIntersect ray = Hit6.two p₁ p₀ n₁ n₀ 2)
    (h1 : PyNum.ltInf (distanceBetween ray.position p₁) = true)
    (h2 : distanceBetween ray.position p₀ < distanceBetween ray.position p₁) :
    m.testIntersect ray = .ok ⟨true, some p₀, some (-n₀), .count 2⟩ := by
  have e : ∀ v, [Shape.sphere s].foldlM (sphereStep ray) v = sphereStep ray v (.sphere s) := by
    intro v
    rw [List.foldlM_cons]
    cases sphereStep ray v (.sphere s) <;> rfl
  unfold Mirror.testIntersect
  rw [hs, hf, if_neg (by decide), if_neg (by decide), if_pos rfl, e]
  unfold sphereStep
  simp only [bind, Except.bind, pure, Except.pure, bound, hit, Hit6.two, if_true, sphereUpdate, need, ltMin, h1, h2,
    decide_true]

theorem ball_misses {m : Mirror α} {s : Sphere α} (hs : m.shape = "circular_convex_spherical") (hf : m.surfaces = [.sphere s])
    {ray : Ray α} (hit : s.testIntersect ray = Hit6.miss 0) :
    m.testIntersect ray = .ok ⟨false, none, none, .count 0⟩ := by
  have e : ∀ v, [Shape.sphere s].foldlM (sphereStep ray) v = sphereStep ray v (.sphere s) := by
    intro v
    rw [List.foldlM_cons]
    cases sphereStep ray v (.sphere s) <;> rfl
  unfold Mirror.testIntersect
  rw [hs, hf, if_neg (by decide), if_neg (by decide), if_pos rfl, e]
  unfold sphereStep
  simp only [bind, Except.bind, pure, Except.pure, bound, hit, Hit6.miss]
  rfl

/-- A pass of the loop with one optic that is hit. -/
theorem single_hit {m : Mirror α} (ht : m.type = "normal") {md : α} {s : RunState α} {p n : V3 α} {c : Nat}
    (hm : m.testIntersect s.ray = .ok ⟨true, some p, some n, .count c⟩) (htype : s.ray.type ≠ "faerie_fire")
    (h1 : ¬ distanceBetween s.ray.position p > s.remaining) (h2 : distanceBetween s.ray.position p > clippingFloor)
    (h3 : PyNum.ltInf (distanceBetween s.ray.position p) = true) :
    runStep md [.mirror m] s = .next
      { s with
        ray := { s.ray with
          position := s.ray.position + distanceBetween s.ray.position p * s.ray.direction
          pointHistory := s.ray.pointHistory ++ [s.ray.position + distanceBetween s.ray.position p * s.ray.direction]
          direction := specular s.ray.direction n }
        remaining := s.remaining - distanceBetween s.ray.position p
        interactions := s.interactions + 1
        selected := some ⟨.mirror m, p, some n⟩
        sfo := some (.count c)
        log := s.log ++ [] } := by
  unfold runStep
  have e : [Optic.mirror m].foldlM (scanStep s.ray s.remaining) ⟨false, none, s.selected, s.sfo⟩ =
      .ok ⟨true, some (distanceBetween s.ray.position p), some ⟨.mirror m, p, some n⟩, some (.count c)⟩ := by
    rw [List.foldlM_cons]
    unfold scanStep
    simp only [Optic.skipped, Bool.false_eq_true, if_false, Optic.testIntersect, hm, bind, Except.bind, pure, Except.pure, if_true,
      need, h1, h2, ltMin, h3]
    rfl
  rw [e]
  simp only [Bool.not_true, Bool.false_eq_true, if_false, Ray.fly, htype, Optic.doIntersect, Mirror.doIntersect, ht, if_true,
    Ray.reflect, need, bind, Except.bind, pure, Except.pure]

/-- A pass of the loop with one optic that is missed. -/
theorem single_miss {m : Mirror α} {md : α} {s : RunState α} {c : Nat}
    (hm : m.testIntersect s.ray = .ok ⟨false, none, none, .count c⟩) :
    runStep md [.mirror m] s = .next
      { s with
        ray := { s.ray with
          position := s.ray.position + s.remaining * s.ray.direction
          pointHistory := s.ray.pointHistory ++ [s.ray.position + s.remaining * s.ray.direction] }
        remaining := s.remaining - md
        sfo := some (.count c) } := by
  unfold runStep
  have e : [Optic.mirror m].foldlM (scanStep s.ray s.remaining) ⟨false, none, s.selected, s.sfo⟩ =
      .ok ⟨false, none, s.selected, some (.count c)⟩ := by
    rw [List.foldlM_cons]
    unfold scanStep
    simp only [Optic.skipped, Bool.false_eq_true, if_false, Optic.testIntersect, hm, bind, Except.bind, pure, Except.pure]
    rfl
  rw [e]
  simp only [Bool.not_false, if_true, Ray.fly]

theorem ball_new {C : V3 α} {n : Option (V3 α)} {D : α} {w h f : Option α} {t : Option (V3 α)} {type : String} {dmd : Option (V3 α)}
    {m : Mirror α} (hm : Mirror.new C "circular_convex_spherical" n (some D) w h f t type dmd = .ok m) :
    m.shape = "circular_convex_spherical" ∧ m.type = type ∧ m.surfaces = [.sphere ⟨C, D / 2.0, D⟩] := by
  cases dmd with
  | none => cases hm
  | some dmd =>
    simp only [Mirror.new, need, bind, Except.bind, pure, Except.pure, Sphere.new, checkRAndD] at hm
    rw [if_neg (by decide), if_neg (by decide), if_neg (by decide), if_pos trivial] at hm
    obtain rfl := Except.ok.inj hm
    exact ⟨rfl, rfl, rfl⟩

end generic

variable {R : Rounding} {C P : V3 ℝ} {e : E3} {ρ t h L : ℝ}

theorem fl_vneg (v : V3 ℝ) : -(v.fl : V3 (Fl R)) = (-v).fl := rfl

theorem dirE_neg (v : V3 ℝ) : (-v).dirE = -v.dirE := by
  unfold V3.dirE
  rw [toE_neg, _root_.norm_neg, smul_neg]

/-- A sphere test whose roots are both below the clipping floor finds nothing. -/
theorem sphere_left {C P' w q : V3 ℝ} {ρ v D r : ℝ} (hr : ρ ≤ 10 ^ 40) (hq : (C.fl : V3 (Fl R)) - P'.fl = q.fl)
    (hv : dot (w.fl : V3 (Fl R)) q.fl = Fl.fin v)
    (hD : (Fl.fin v : Fl R) * Fl.fin v - (dot (q.fl : V3 (Fl R)) q.fl - (Fl.fin ρ : Fl R) * Fl.fin ρ) = Fl.fin D) (hD0 : 0 < D)
    (hr' : PyNum.sqrt (Fl.fin D : Fl R) = Fl.fin r) (hle : v - r ≤ v + r) (hfl : v + r ≤ 1 / 10 ^ 12) (hvb : |v| ≤ 2 * ρ)
    (hrb : |r| ≤ 2 * ρ) {s : Sphere (Fl R)} (hsC : s.center = C.fl) (hsR : s.R = Fl.fin ρ) {ray : Ray (Fl R)}
    (hp : ray.position = P'.fl) (hrd : ray.direction = w.fl) : s.testIntersect ray = Hit6.miss 0 := by
  have b200 : 4 * ρ ≤ 10 ^ 200 := by
    have : 4 * (10 : ℝ) ^ 40 ≤ 10 ^ 200 := by norm_num
    linarith
  have hvb' := abs_le.mp hvb
  have hrb' := abs_le.mp hrb
  obtain ⟨t₀, ht₀, -⟩ := rnd_big (R := R) (x := v - r) (e := 4 * ρ) (by rw [abs_le]; constructor <;> linarith) b200
  obtain ⟨t₁, ht₁, -⟩ := rnd_big (R := R) (x := v + r) (e := 4 * ρ) (by rw [abs_le]; constructor <;> linarith) b200
  obtain ⟨f, f1, f2, hf, hf'⟩ := fl_floor (R := R)
  have m0 : t₀ ≤ f := by
    have := R.mono _ _ (hle.trans hfl)
    rw [show R.rnd (v - r) = .fin t₀ from congrArg Fl.val ht₀, hf'] at this
    exact this
  have m1 : t₁ ≤ f := by
    have := R.mono _ _ hfl
    rw [show R.rnd (v + r) = .fin t₁ from congrArg Fl.val ht₁, hf'] at this
    exact this
  have e0 : (Fl.fin v : Fl R) - Fl.fin r = Fl.fin t₀ := by rw [fl_sub, ht₀]
  have e1 : (Fl.fin v : Fl R) + Fl.fin r = Fl.fin t₁ := by rw [fl_add, ht₁]
  have g0 : ¬ (Fl.fin t₀ : Fl R) > clippingFloor := by
    rw [hf]; exact not_lt.mpr m0
  have g1 : ¬ (Fl.fin t₁ : Fl R) > clippingFloor := by
    rw [hf]; exact not_lt.mpr m1
  unfold Sphere.testIntersect
  simp only [hsC, hsR, hp, hrd, hq, hv, hD, hr', e0, e1]
  rw [if_pos (show (Fl.fin D : Fl R) > 0.0 by rw [fl_lit0]; exact (fl_lt _ _).mpr hD0), if_neg (fun x => g0 x.1), if_neg g1,
    if_neg g0]

/-- The reflection at the computed point. -/
theorem BallAhead.bounce (H : BallAhead R C P e ρ t h L) {d P₀ : V3 ℝ} (hd : ‖d.toE - e‖ ≤ 5 * R.u) {ε : ℝ}
    (hε : ε = R.u * L ^ 2 / h) (hP₀ : ‖P₀.toE - (P.toE + t • e)‖ ≤ 37 * ε) :
    ∃ c w : V3 ℝ, ‖c.toE - (C.toE - (P.toE + t • e))‖ ≤ 39 * ε ∧
      specular (d.fl : V3 (Fl R)) (-unitVector ((C.fl : V3 (Fl R)) - P₀.fl)) = w.fl ∧ NearUnit R w ∧
      ‖w.toE - mirrorImage (-c) d.toE‖ ≤ 300 * R.u := by
  obtain ⟨z1, z2, z3, z4⟩ := H.sizes
  obtain ⟨u1, u2, u3, u4, u5, u6, u7, u8⟩ := H.units hε
  have hu := R.u_pos
  have hρ := H.radius
  have hr := H.range
  have hn : ‖C.toE - (P.toE + t • e)‖ = ρ := by rw [norm_sub_rev]; exact H.on
  have huρ : R.u ≤ R.u * ρ := le_mul_of_one_le_right hu.le hρ
  have e1 : C.toE - P₀.toE = (C.toE - (P.toE + t • e)) - (P₀.toE - (P.toE + t • e)) := by abel
  have hCP : ‖C.toE - P₀.toE‖ ≤ (1 + 1 / 1000) * ρ := by
    rw [e1]
    have := norm_sub_le (C.toE - (P.toE + t • e)) (P₀.toE - (P.toE + t • e))
    linarith
  have b200 : (1 + 1 / 1000) * ρ ≤ 10 ^ 200 := by
    have : 2 * (10 : ℝ) ^ 40 ≤ 10 ^ 200 := by norm_num
    linarith
  obtain ⟨c, hc, ec⟩ := vsub_near (R := R) hCP b200
  have hcX : ‖c.toE - (C.toE - (P.toE + t • e))‖ ≤ 39 * ε := by
    have : c.toE - (C.toE - (P.toE + t • e)) = (c.toE - (C.toE - P₀.toE)) - (P₀.toE - (P.toE + t • e)) := by abel
    rw [this]
    have := norm_sub_le (c.toE - (C.toE - P₀.toE)) (P₀.toE - (P.toE + t • e))
    linarith
  have hcn := abs_le.mp (abs_norm_sub_norm_le c.toE (C.toE - (P.toE + t • e)))
  rw [hn] at hcn
  have hsane : SaneLength c := by
    constructor
    · exact le_trans (show (1 : ℝ) / 10 ^ 100 ≤ 1 / 2 by norm_num) (by linarith [hcn.1])
    · refine le_trans (show ‖c.toE‖ ≤ 2 * 10 ^ 40 by linarith [hcn.2]) (by norm_num)
  obtain ⟨n, hn', en⟩ := unitVector_near (R := R) hsane
  have hsane' : SaneLength (-c) := by
    unfold SaneLength at hsane ⊢
    rw [toE_neg, _root_.norm_neg]; exact hsane
  obtain ⟨w, hw, hwu, ew⟩ := specular_near (R := R) (d := d) (n := -n) (N := -c) (nearUnit_of H.unit hd) hsane'
    (by rw [dirE_neg, toE_neg, ← neg_sub', _root_.norm_neg]; exact en)
  exact ⟨c, w, hcX, by rw [hc, hn', fl_vneg]; exact hw, hwu, ew⟩

/-- The reflected direction, compared with the exact law of reflection at the exact point. -/
theorem BallAhead.accurate (H : BallAhead R C P e ρ t h L) {d c w : V3 ℝ} (hd : ‖d.toE - e‖ ≤ 5 * R.u) {ε : ℝ}
    (hε : ε = R.u * L ^ 2 / h) (hc : ‖c.toE - (C.toE - (P.toE + t • e))‖ ≤ 39 * ε)
    (hw : ‖w.toE - mirrorImage (-c) d.toE‖ ≤ 300 * R.u) :
    ∃ r, Reflected (P.toE + t • e - C.toE) e r ∧ ‖w.toE - r‖ ≤ 305 * R.u + 390 * ε / ρ := by
  obtain ⟨u1, u2, u3, u4, u5, u6, u7, u8⟩ := H.units hε
  have hρ := H.radius
  have hρ0 : 0 < ρ := by linarith
  have hn : ‖C.toE - (P.toE + t • e)‖ = ρ := by rw [norm_sub_rev]; exact H.on
  set x := P.toE + t • e - C.toE with hx
  have hxc : C.toE - (P.toE + t • e) = -x := by rw [hx]; abel
  rw [hxc] at hc hn
  have hxn : ‖x‖ = ρ := by rw [← hn, _root_.norm_neg]
  clear_value x
  have hcn := abs_norm_sub_norm_le c.toE (-x)
  rw [hn] at hcn
  have hcn' := abs_le.mp (hcn.trans hc)
  have hc0 : 0 < ‖(-c).toE‖ := by rw [toE_neg, _root_.norm_neg]; linarith [hcn'.1]
  set ν : E3 := (1 / ρ) • x with hν
  have hν1 : ‖ν‖ = 1 := by
    rw [hν, _root_.norm_smul, hxn, Real.norm_of_nonneg (by positivity)]; field_simp
  have hxν : x = ρ • ν := by rw [hν, smul_smul]; field_simp; rw [one_smul]
  have hνν : inner ℝ ν ν = (1 : ℝ) := by rw [real_inner_self_eq_norm_sq, hν1]; norm_num
  clear_value ν
  -- the computed normal
  have hnν : ‖(-c).dirE - ν‖ ≤ 78 * ε / ρ := by
    have e1 : (-c).dirE - ν = (1 / ‖(-c).toE‖ - 1 / ρ) • (-c).toE + (1 / ρ) • ((-c).toE - x) := by
      unfold V3.dirE
      rw [hν, smul_sub, sub_smul]; abel
    have e2 : ‖(1 / ‖(-c).toE‖ - 1 / ρ) • (-c).toE‖ ≤ 39 * ε / ρ := by
      rw [_root_.norm_smul, Real.norm_eq_abs, ← abs_of_pos hc0, ← abs_mul, abs_of_pos hc0,
        show (1 / ‖(-c).toE‖ - 1 / ρ) * ‖(-c).toE‖ = (ρ - ‖(-c).toE‖) / ρ by field_simp, abs_div, abs_of_pos hρ0]
      apply div_le_div_of_nonneg_right _ hρ0.le
      rw [toE_neg, _root_.norm_neg, abs_sub_comm]
      exact hcn.trans hc
    have e3 : ‖(1 / ρ) • ((-c).toE - x)‖ ≤ 39 * ε / ρ := by
      rw [_root_.norm_smul, Real.norm_of_nonneg (by positivity), toE_neg, show -c.toE - x = -(c.toE - -x) by abel,
        _root_.norm_neg, one_div, inv_mul_eq_div]
      exact div_le_div_of_nonneg_right hc hρ0.le
    rw [e1]
    refine (norm_add_le _ _).trans ?_
    rw [show 78 * ε / ρ = 39 * ε / ρ + 39 * ε / ρ by ring]
    linarith
  have hsmall : 78 * ε / ρ ≤ 1 / 100 := by
    rw [div_le_iff₀ hρ0]; linarith
  have key := image_near (i := e) (I := e) (n := (-c).dirE) (M := ν) H.unit hν1 (δ := 0) (by simp) hnν hsmall
  rw [← mirrorImage_apply hc0] at key
  refine ⟨e - (2 * inner ℝ e ν) • ν, ?_, ?_⟩
  · have hr : ∀ y : E3, inner ℝ (e - (2 * inner ℝ e ν) • ν) y = inner ℝ e y - 2 * inner ℝ e ν * inner ℝ ν y := by
      intro y
      rw [inner_sub_left, inner_smul_left]; rfl
    refine ⟨?_, ?_, ?_⟩
    · have : ‖e - (2 * inner ℝ e ν) • ν‖ ^ 2 = 1 := by
        rw [norm_sub_sq_real, _root_.norm_smul, hν1, H.unit, inner_smul_right, Real.norm_eq_abs, mul_one, sq_abs]
        ring
      exact (pow_eq_one_iff_of_nonneg (_root_.norm_nonneg _) two_ne_zero).mp this
    · rw [H.unit, one_mul, hr, hxν, inner_smul_right, inner_smul_right, hνν]; ring
    · intro y hy
      rw [hxν, inner_smul_right] at hy
      have hy' : inner ℝ ν y = (0 : ℝ) := by
        rw [real_inner_comm]; exact (mul_eq_zero.mp hy).resolve_left hρ0.ne'
      rw [H.unit, one_mul, hr, hy']; ring
  · have e1 : w.toE - (e - (2 * inner ℝ e ν) • ν) = (w.toE - mirrorImage (-c) d.toE) + mirrorImage (-c) (d.toE - e) +
        (mirrorImage (-c) e - (e - (2 * inner ℝ e ν) • ν)) := by
      rw [← mirrorImage_sub]; abel
    rw [e1]
    have a1 := norm_add₃_le (a := w.toE - mirrorImage (-c) d.toE) (b := mirrorImage (-c) (d.toE - e))
      (c := mirrorImage (-c) e - (e - (2 * inner ℝ e ν) • ν))
    rw [mirrorImage_norm] at a1
    rw [show 390 * ε / ρ = 5 * (78 * ε / ρ) by ring]
    linarith

end Optics
