import Verif.Lemmas.RoundedAperture
import Verif.Lemmas.ThinScene
import Verif.Props.RoundedGratings
/-!
C111: flat rectangles and discs, with rounded arithmetic, catch the rays that pass through them, apart from a narrow rim.
-/

namespace Optics
open V3

variable {R : Rounding}

/-- A ray from `P` along `w` meets the plane through `C` perpendicular to `n₀` at `P + τ w`, at an angle whose sine is at
least `c`; `B` bounds all sizes. -/
structure Crossing (R : Rounding) (C n₀ P w : V3 ℝ) (B c τ : ℝ) : Prop where
  sane : SaneLength n₀
  unit : NearUnit R w
  slope : 1 / 1000 ≤ c
  slope_le : c ≤ |inner ℝ n₀.dirE w.toE|
  ahead : 0 ≤ τ
  meets : τ * inner ℝ n₀.dirE w.toE = inner ℝ n₀.dirE (C.toE - P.toE)
  room : ‖P.toE‖ + τ + ‖C.toE‖ ≤ 9 / 10 * B
  one_le : 1 ≤ B
  le_big : B ≤ 10 ^ 50
  fine : R.u * B ≤ 1 / 10 ^ 10

theorem slope_le_one {C n₀ P w : V3 ℝ} (hn : SaneLength n₀) (hw : NearUnit R w) {c : ℝ} (h : c ≤ |inner ℝ n₀.dirE w.toE|) :
    c ≤ 1 + 1 / 100000 := by
  have := abs_real_inner_le_norm n₀.dirE w.toE
  rw [dirE_norm hn.pos, one_mul] at this
  linarith [hw.bounds.1]

/-- The point that the test of a plane computes. -/
theorem plane_point {C n₀ P w : V3 ℝ} {B c τ : ℝ} (hn : SaneLength n₀) (hw : NearUnit R w) (hc0 : 1 / 1000 ≤ c)
    (hc : c ≤ |inner ℝ n₀.dirE w.toE|) (hτB : τ ≤ B) (hm : τ * inner ℝ n₀.dirE w.toE = inner ℝ n₀.dirE (C.toE - P.toE))
    (hP : ‖P.toE‖ ≤ B) (hC : ‖C.toE‖ ≤ B) (hB : 1 ≤ B) (hB' : B ≤ 10 ^ 50)
    {ray : Ray (Fl R)} (hp : ray.position = P.fl) (hd : ray.direction = w.fl)
    {pt : V3 (Fl R)} {nn : Option (V3 (Fl R))} (h : (Plane.new C.fl n₀.fl).testIntersect ray = ⟨true, some pt, nn⟩) :
    -(54 * (R.u * B / c)) < τ ∧ ∃ q : V3 ℝ, pt = q.fl ∧ ‖q.toE - (P.toE + τ • w.toE)‖ ≤ 58 * (R.u * B / c) := by
  have hu := R.u_pos
  obtain ⟨h5, h6⟩ := five_u (R := R)
  have hcp : 0 < c := by linarith
  have hc1 := slope_le_one (C := C) (P := P) hn hw hc
  obtain ⟨t, ht, htb, hpt, et⟩ := plane_near hn hC hP hB hB' hw hp hd h
  obtain ⟨e, he0, -, heps⟩ := fl_eps (R := R)
  have ht0 : 0 < t := by
    rw [heps] at ht
    have : e < t := ht
    linarith [show (0:ℝ) < 9 / 10 ^ 10 by positivity]
  rw [← hm, ← sub_mul, abs_mul] at et
  have e1 : |t - τ| * c ≤ R.u * (29 * t + 23 * B) := (mul_le_mul_of_nonneg_left hc (abs_nonneg _)).trans et
  have e2 : |t - τ| * (1 / 1000) ≤ R.u * (29 * t + 23 * B) := (mul_le_mul_of_nonneg_left hc0 (abs_nonneg _)).trans e1
  have e3 : R.u * (29 * t + 23 * B) ≤ 1 / 1000000 * (29 * t + 23 * B) := mul_le_mul_of_nonneg_right h6 (by linarith)
  have e4 := le_abs_self (t - τ)
  have htB : t ≤ 106 / 100 * B := by linarith
  have e5 : |t - τ| ≤ 538 / 10 * (R.u * B / c) := by
    rw [mul_div_assoc', le_div_iff₀ hcp]
    refine e1.trans ?_
    have := mul_le_mul_of_nonneg_left (show 29 * t + 23 * B ≤ 538 / 10 * B by linarith) hu.le
    linarith
  have hub : 0 < R.u * B := by positivity
  have hubc : R.u * B ≤ (1 + 1 / 100000) * (R.u * B / c) := by
    rw [mul_div_assoc', le_div_iff₀ hcp]
    nlinarith
  have hubc0 : 0 < R.u * B / c := by positivity
  refine ⟨by linarith, ?_⟩
  obtain ⟨q, hq, eq⟩ := fly_near (R := R) hP hB hB' hw ht0.le (htb.trans (pow_le_pow_right₀ (by norm_num) (by norm_num)))
  refine ⟨q, by rw [hpt, hq], ?_⟩
  have d : ‖(P.toE + t • w.toE) - (P.toE + τ • w.toE)‖ ≤ 538 / 10 * (R.u * B / c) * (1 + 1 / 100000) := by
    rw [add_sub_add_left_eq_sub, ← sub_smul, _root_.norm_smul, Real.norm_eq_abs]
    exact mul_le_mul e5 hw.bounds.1 (_root_.norm_nonneg _) (by positivity)
  have d2 : R.u * (21 / 10 * t + 11 / 10 * B) ≤ 34 / 10 * (R.u * B) := by
    have := mul_le_mul_of_nonneg_left (show 21 / 10 * t + 11 / 10 * B ≤ 34 / 10 * B by linarith) hu.le
    linarith
  have := norm_sub_le_norm_sub_add_norm_sub q.toE (P.toE + t • w.toE) (P.toE + τ • w.toE)
  linarith

theorem Crossing.sizes {C n₀ P w : V3 ℝ} {B c τ : ℝ} (h : Crossing R C n₀ P w B c τ) : ‖P.toE‖ ≤ B ∧ ‖C.toE‖ ≤ B ∧ τ ≤ B ∧
    0 < c ∧ ‖(P.toE + τ • w.toE) - C.toE‖ ≤ 91 / 100 * B := by
  have h1 := _root_.norm_nonneg P.toE
  have h2 := _root_.norm_nonneg C.toE
  have h3 := h.ahead
  have h4 := h.room
  have h5 := h.one_le
  refine ⟨by linarith, by linarith, by linarith, by linarith [h.slope], ?_⟩
  have a1 := norm_sub_le (P.toE + τ • w.toE) C.toE
  have a2 := norm_add_le P.toE (τ • w.toE)
  rw [_root_.norm_smul, Real.norm_of_nonneg h3] at a2
  have a3 := mul_le_mul_of_nonneg_left h.unit.bounds.1 h3
  linarith

/-- A ray that starts in front of a plane, and not within a millionth of it, hits the plane. -/
theorem Crossing.hits {C n₀ P w : V3 ℝ} {B c τ : ℝ} (h : Crossing R C n₀ P w B c τ) (hfar : 1 / 10 ^ 6 ≤ τ * c) {ray : Ray (Fl R)}
    (hp : ray.position = P.fl) (hd : ray.direction = w.fl) :
    ∃ (q n : V3 ℝ), unitVector (n₀.fl : V3 (Fl R)) = n.fl ∧ (Plane.new C.fl n₀.fl).testIntersect ray = ⟨true, some q.fl, some n.fl⟩ ∧
      ‖q.toE - (P.toE + τ • w.toE)‖ ≤ 58 * (R.u * B / c) := by
  obtain ⟨hP, hC, hτ, hc, -⟩ := h.sizes
  have hg : 1 / 10 ^ 6 ≤ τ * |inner ℝ n₀.dirE w.toE| := hfar.trans (mul_le_mul_of_nonneg_left h.slope_le h.ahead)
  obtain ⟨t, n, hit⟩ := plane_hits (a := |inner ℝ n₀.dirE w.toE|) (g := τ * |inner ℝ n₀.dirE w.toE|) h.sane hC hP h.one_le h.le_big
    h.fine h.unit hp hd (h.slope.trans h.slope_le) hg (by
      rw [← h.meets]
      rcases abs_cases (inner ℝ n₀.dirE w.toE : ℝ) with ⟨e, -⟩ | ⟨e, -⟩ <;> rw [e]
      · exact .inl ⟨rfl, rfl⟩
      · exact .inr ⟨by ring, by ring⟩)
  obtain ⟨-, q, hq, eq⟩ := plane_point h.sane h.unit h.slope h.slope_le hτ h.meets hP hC h.one_le h.le_big hp hd hit
  obtain ⟨n', hn', -⟩ := unitVector_near (R := R) h.sane
  refine ⟨q, n', hn', ?_, eq⟩
  rw [hit, hq]
  have : some (n.fl : V3 (Fl R)) = some n'.fl := by
    have e := hit
    unfold Plane.testIntersect Plane.new at e
    simp only at e
    split_ifs at e
    · injection e with _ _ e3
      rw [← e3, hn']
    all_goals cases e
  rw [this]

/-- C111: nothing is hit behind the ray, or by less than the rounding errors in front of it. -/
theorem C111_behind {C n₀ P w : V3 ℝ} {B c τ : ℝ} (hn : SaneLength n₀) (hw : NearUnit R w) (hc0 : 1 / 1000 ≤ c)
    (hc : c ≤ |inner ℝ n₀.dirE w.toE|) (hτ : τ ≤ -(54 * (R.u * B / c))) (hm : τ * inner ℝ n₀.dirE w.toE = inner ℝ n₀.dirE (C.toE - P.toE))
    (hP : ‖P.toE‖ ≤ B) (hC : ‖C.toE‖ ≤ B) (hB : 1 ≤ B) (hB' : B ≤ 10 ^ 50)
    {ray : Ray (Fl R)} (hp : ray.position = P.fl) (hd : ray.direction = w.fl) :
    (Plane.new (C.fl : V3 (Fl R)) n₀.fl).testIntersect ray = Hit3.miss := by
  have hu := R.u_pos
  have h0 : 0 ≤ 54 * (R.u * B / c) := mul_nonneg (by norm_num) (div_nonneg (by positivity) (by linarith))
  have key := fun pt nn => plane_point (pt := pt) (nn := nn) hn hw hc0 hc (show τ ≤ B by linarith) hm hP hC hB hB' hp hd
  unfold Plane.testIntersect at key ⊢
  simp only at key ⊢
  split_ifs at key ⊢
  · linarith [(key _ _ rfl).1]
  · rfl
  · rfl

/-! ### Rectangles -/

/-- The rectangle that `Rectangle.__init__` builds with rounded arithmetic. -/
structure BuiltRectangle (R : Rounding) (C n₀ t₀ N : V3 ℝ) (h w B ν : ℝ) (r : Rectangle (Fl R)) : Prop where
  built : Rectangle.new C.fl n₀.fl t₀.fl (some (Fl.fin h)) (some (Fl.fin w)) = .ok r
  tangent : SaneLength t₀
  normal : ‖N.toE‖ = 1
  perp : dot N t₀ = 0
  close : ‖n₀.dirE - N.toE‖ ≤ ν - 5 * R.u
  fine : ν ≤ 1 / 10000
  height : 0 ≤ h
  height_le : h ≤ B
  width : 0 ≤ w
  width_le : w ≤ B

theorem BuiltRectangle.frame {C n₀ t₀ N : V3 ℝ} {h w B ν : ℝ} {r : Rectangle (Fl R)} (H : BuiltRectangle R C n₀ t₀ N h w B ν r)
    (hn : SaneLength n₀) : ∃ n t : V3 ℝ, unitVector (n₀.fl : V3 (Fl R)) = n.fl ∧ unitVector (t₀.fl : V3 (Fl R)) = t.fl ∧
      StoredFrame R n t N (unitVector t₀) ν := by
  obtain ⟨n, en, dn⟩ := unitVector_near (R := R) hn
  obtain ⟨t, et, dt⟩ := unitVector_near (R := R) H.tangent
  refine ⟨n, t, en, et, H.normal, sane_unit H.tangent, ?_, ?_, by rw [unitVector_dirE]; exact dt, ?_⟩
  · rw [← inner_toE, unitVector_dirE, V3.dirE, inner_smul_right, inner_toE, H.perp, mul_zero]
  · have := norm_sub_le_norm_sub_add_norm_sub n.toE n₀.dirE N.toE
    linarith [H.close]
  · have := _root_.norm_nonneg (n₀.dirE - N.toE)
    linarith [H.close]

/-- The tests of the rectangle, for the computed point of a crossing. -/
theorem rectangle_crossing {C n₀ t₀ N P w : V3 ℝ} {h wd B ν c τ : ℝ} {r : Rectangle (Fl R)}
    (H : BuiltRectangle R C n₀ t₀ N h wd B ν r) (X : Crossing R C n₀ P w B c τ) {q : V3 ℝ}
    (hq : ‖q.toE - (P.toE + τ • w.toE)‖ ≤ 58 * (R.u * B / c)) :
    ∃ s1 l1 s2 l2 : ℝ, dot (r.bounds1 - r.bounds0) (q.fl - r.bounds0) = Fl.fin s1 ∧
      dot (r.bounds1 - r.bounds0) (r.bounds1 - r.bounds0) = Fl.fin l1 ∧
      dot (r.bounds2 - r.bounds1) (q.fl - r.bounds1) = Fl.fin s2 ∧
      dot (r.bounds2 - r.bounds1) (r.bounds2 - r.bounds1) = Fl.fin l2 ∧
      |s1 - wd * (inner ℝ (cross N (unitVector t₀)).toE (P.toE + τ • w.toE - C.toE) + wd / 2)| ≤ 46 * (ν * B ^ 2 / c) ∧
      |l1 - wd ^ 2| ≤ 19 * (ν * B ^ 2 / c) ∧
      |s2 - h * (h / 2 - inner ℝ (unitVector t₀).toE (P.toE + τ • w.toE - C.toE))| ≤ 46 * (ν * B ^ 2 / c) ∧
      |l2 - h ^ 2| ≤ 19 * (ν * B ^ 2 / c) := by
  have hu := R.u_pos
  obtain ⟨hP, hC, hτ, hc, hX⟩ := X.sizes
  have hB := X.one_le
  obtain ⟨n, t, hn, ht, S⟩ := H.frame X.sane
  have hν := S.coarse
  have hc1 := slope_le_one (C := C) (P := P) X.sane X.unit X.slope_le
  have hub : R.u * B / c ≤ 1 / 5 * (ν * B / c) := by
    rw [mul_div_assoc', div_le_div_iff_of_pos_right hc]
    have := mul_le_mul_of_nonneg_right hν (by linarith : 0 ≤ B); linarith
  have hub3 : R.u * B / c ≤ 1 / 10 ^ 7 := by
    rw [div_le_iff₀ hc]
    have := X.fine
    have := X.slope
    norm_num at *
    linarith
  have hqC : ‖q.toE - C.toE‖ ≤ 2 * B := by
    have := norm_sub_le_norm_sub_add_norm_sub q.toE (P.toE + τ • w.toE) C.toE
    norm_num at hub3
    linarith
  obtain ⟨s1, l1, s2, l2, h1, h2, h3, h4, h5, h6, h7, h8⟩ :=
    rectangle_tests ⟨hC, H.height, H.height_le, H.width, H.width_le, hB, X.le_big, H.fine⟩ H.built hn ht S hqC
  have hνB : 0 < ν * B ^ 2 := by
    have : 0 < ν := by linarith
    positivity
  have hw1 : ν * B * B ≤ (1 + 1 / 100000) * (ν * B ^ 2 / c) := by
    rw [mul_div_assoc', le_div_iff₀ hc]
    nlinarith
  have k0 : 0 < ν * B ^ 2 / c := by positivity
  have hd : ∀ (V : E3) (x : ℝ), ‖V‖ = 1 → 0 ≤ x → x ≤ B →
      |x * inner ℝ V (q.toE - C.toE) - x * inner ℝ V (P.toE + τ • w.toE - C.toE)| ≤ 58 / 5 * (ν * B ^ 2 / c) := by
    intro V x hV hx0 hx
    rw [← mul_sub, ← inner_sub_right, sub_sub_sub_cancel_right, abs_mul, abs_of_nonneg hx0]
    have a1 := abs_real_inner_le_norm V (q.toE - (P.toE + τ • w.toE))
    rw [hV, one_mul] at a1
    have a2 : |inner ℝ V (q.toE - (P.toE + τ • w.toE))| ≤ 58 / 5 * (ν * B / c) := by linarith
    refine (mul_le_mul hx a2 (abs_nonneg _) (by linarith)).trans_eq ?_
    ring
  refine ⟨s1, l1, s2, l2, h1, h2, h3, h4, ?_, by linarith, ?_, by linarith⟩
  · have k := hd _ _ (cross_unit S).1 H.width H.width_le
    rw [abs_le] at *
    constructor <;> linarith [k.1, k.2, h5.1, h5.2]
  · have k := hd _ _ S.tangent_unit H.height H.height_le
    rw [abs_le] at *
    constructor <;> linarith [k.1, k.2, h7.1, h7.2]

/-- **C111: a rectangle catches every ray that crosses it** at least `65 ν B² / c` (over its size) inside its outline,
and reports a point within `58 u B / c` of the crossing. -/
theorem C111_rectangle_hit {C n₀ t₀ N P w : V3 ℝ} {h wd B ν c τ : ℝ} {r : Rectangle (Fl R)}
    (H : BuiltRectangle R C n₀ t₀ N h wd B ν r) (X : Crossing R C n₀ P w B c τ) (hfar : 1 / 10 ^ 6 ≤ τ * c)
    (hw : wd * |inner ℝ (cross N (unitVector t₀)).toE (P.toE + τ • w.toE - C.toE)| ≤ wd ^ 2 / 2 - 65 * (ν * B ^ 2 / c))
    (hh : h * |inner ℝ (unitVector t₀).toE (P.toE + τ • w.toE - C.toE)| ≤ h ^ 2 / 2 - 65 * (ν * B ^ 2 / c))
    {ray : Ray (Fl R)} (hp : ray.position = P.fl) (hd : ray.direction = w.fl) :
    ∃ q n : V3 ℝ, unitVector (n₀.fl : V3 (Fl R)) = n.fl ∧ r.testIntersect ray = ⟨true, some q.fl, some n.fl⟩ ∧
      ‖q.toE - (P.toE + τ • w.toE)‖ ≤ 58 * (R.u * B / c) := by
  have hu := R.u_pos
  obtain ⟨q, n, hn, hit, eq⟩ := X.hits hfar hp hd
  obtain ⟨s1, l1, s2, l2, h1, h2, h3, h4, h5, h6, h7, h8⟩ := rectangle_crossing H X eq
  refine ⟨q, n, hn, ?_, eq⟩
  obtain ⟨y, hy⟩ : ∃ y, y = inner ℝ (cross N (unitVector t₀)).toE (P.toE + τ • w.toE - C.toE) := ⟨_, rfl⟩
  obtain ⟨x, hx⟩ : ∃ x, x = inner ℝ (unitVector t₀).toE (P.toE + τ • w.toE - C.toE) := ⟨_, rfl⟩
  rw [← hy] at hw h5
  rw [← hx] at hh h7
  have y1 := abs_le.mp (le_of_eq (abs_mul wd y))
  have x1 := abs_le.mp (le_of_eq (abs_mul h x))
  rw [abs_of_nonneg H.width] at y1
  rw [abs_of_nonneg H.height] at x1
  rw [abs_le] at h5 h6 h7 h8
  unfold Rectangle.testIntersect
  rw [(rectangle_built H.built).1, hit]
  simp only [h1, h2, h3, h4, fl_lit0, fl_le]
  rw [if_pos ⟨by linarith [h5.1, y1.1], by linarith [h5.2, h6.1, y1.2]⟩, if_pos ⟨by linarith [h7.1, x1.2], by linarith [h7.2, h8.1, x1.1]⟩]

/-- **C111: a rectangle lets every ray pass that crosses its plane** at least `65 ν B² / c` (over its size) outside its outline. -/
theorem C111_rectangle_miss {C n₀ t₀ N P w : V3 ℝ} {h wd B ν c τ : ℝ} {r : Rectangle (Fl R)}
    (H : BuiltRectangle R C n₀ t₀ N h wd B ν r) (X : Crossing R C n₀ P w B c τ)
    (hout : wd ^ 2 / 2 + 65 * (ν * B ^ 2 / c) < wd * |inner ℝ (cross N (unitVector t₀)).toE (P.toE + τ • w.toE - C.toE)| ∨
      h ^ 2 / 2 + 65 * (ν * B ^ 2 / c) < h * |inner ℝ (unitVector t₀).toE (P.toE + τ • w.toE - C.toE)|)
    {ray : Ray (Fl R)} (hp : ray.position = P.fl) (hd : ray.direction = w.fl) : r.testIntersect ray = Hit3.miss := by
  have hu := R.u_pos
  obtain ⟨hP, hC, hτ, hc, hX⟩ := X.sizes
  unfold Rectangle.testIntersect
  rw [(rectangle_built H.built).1]
  cases hz : (Plane.new (C.fl : V3 (Fl R)) n₀.fl).testIntersect ray with
  | mk zh zp zn =>
  cases zh with
  | false => rfl
  | true =>
  cases zp with
  | none => rfl
  | some pt =>
  obtain ⟨-, q, rfl, eq⟩ := plane_point X.sane X.unit X.slope X.slope_le hτ X.meets hP hC X.one_le X.le_big hp hd hz
  obtain ⟨s1, l1, s2, l2, h1, h2, h3, h4, h5, h6, h7, h8⟩ := rectangle_crossing H X eq
  obtain ⟨y, hy⟩ : ∃ y, y = inner ℝ (cross N (unitVector t₀)).toE (P.toE + τ • w.toE - C.toE) := ⟨_, rfl⟩
  obtain ⟨x, hx⟩ : ∃ x, x = inner ℝ (unitVector t₀).toE (P.toE + τ • w.toE - C.toE) := ⟨_, rfl⟩
  rw [← hy] at hout h5
  rw [← hx] at hout h7
  rw [abs_le] at h5 h6 h7 h8
  simp only [h1, h2, h3, h4, fl_lit0, fl_le]
  split_ifs with g1 g2
  · exfalso
    rcases hout with hout | hout
    · have : wd * |y| ≤ wd ^ 2 / 2 + 65 * (ν * B ^ 2 / c) := by
        rw [← abs_of_nonneg H.width, ← abs_mul, abs_of_nonneg H.width, abs_le]
        constructor <;> linarith [h5.1, h5.2, h6.1, h6.2, g1.1, g1.2]
      linarith
    · have : h * |x| ≤ h ^ 2 / 2 + 65 * (ν * B ^ 2 / c) := by
        rw [← abs_of_nonneg H.height, ← abs_mul, abs_of_nonneg H.height, abs_le]
        constructor <;> linarith [h7.1, h7.2, h8.1, h8.2, g2.1, g2.2]
      linarith
  · rfl
  · rfl

/-! ### Discs -/

/-- The computed distance of the computed point from the centre. -/
theorem disc_distance {C n₀ P w : V3 ℝ} {B c τ : ℝ} (X : Crossing R C n₀ P w B c τ) {q : V3 ℝ}
    (hq : ‖q.toE - (P.toE + τ • w.toE)‖ ≤ 58 * (R.u * B / c)) :
    ∃ r, distanceBetween (q.fl : V3 (Fl R)) C.fl = Fl.fin r ∧
      r ≤ max (1 / 10 ^ 60) (‖P.toE + τ • w.toE - C.toE‖ + 63 * (R.u * B / c)) ∧
      (1 / 10 ^ 60 ≤ ‖P.toE + τ • w.toE - C.toE‖ - 63 * (R.u * B / c) → ‖P.toE + τ • w.toE - C.toE‖ - 63 * (R.u * B / c) ≤ r) := by
  have hu := R.u_pos
  obtain ⟨hP, hC, hτ, hc, hX⟩ := X.sizes
  have hB := X.one_le
  have hB' := X.le_big
  have hc1 := slope_le_one (C := C) (P := P) X.sane X.unit X.slope_le
  obtain ⟨Y, hY⟩ : ∃ Y, Y = ‖P.toE + τ • w.toE - C.toE‖ := ⟨_, rfl⟩
  obtain ⟨k, hk⟩ : ∃ k, k = R.u * B / c := ⟨_, rfl⟩
  have hY0 : 0 ≤ Y := by rw [hY]; exact _root_.norm_nonneg _
  have hub : 0 < R.u * B := by positivity
  have huu : R.u ≤ R.u * B := le_mul_of_one_le_right hu.le hB
  have hk1 : R.u * B ≤ (1 + 1 / 100000) * k := by
    rw [hk, mul_div_assoc', le_div_iff₀ hc]
    nlinarith
  have hk3 : k ≤ 1 / 10 ^ 7 := by
    rw [hk, div_le_iff₀ hc]
    have := X.fine
    have := X.slope
    norm_num at *
    linarith
  have hk0 : 0 < k := by linarith
  norm_num at hk3
  rw [← hk] at hq ⊢
  rw [← hY] at hX ⊢
  have z1 := abs_norm_sub_norm_le (q.toE - C.toE) (P.toE + τ • w.toE - C.toE)
  rw [sub_sub_sub_cancel_right, ← hY] at z1
  have z2 := abs_le.mp (z1.trans hq)
  obtain ⟨v, hv, ev⟩ := vsub_near (R := R) (a := q) (b := C) (X := 92 / 100 * B) (by linarith) (by
    have : (10 : ℝ) ^ 50 ≤ 10 ^ 200 := pow_le_pow_right₀ (by norm_num) (by norm_num)
    linarith)
  have ev' : R.u * (92 / 100 * B + 1 / 1000) ≤ 93 / 100 * (R.u * B) := by linarith
  have z3 := abs_le.mp ((abs_norm_sub_norm_le v.toE (q.toE - C.toE)).trans (ev.trans ev'))
  have zup : ‖v.toE‖ ≤ Y + 59 * k := by linarith
  have zlo : Y - 59 * k ≤ ‖v.toE‖ := by linarith
  have hbig : B ≤ 10 ^ 100 := hB'.trans (pow_le_pow_right₀ (by norm_num) (by norm_num))
  obtain ⟨r, hr, er⟩ := norm_below (R := R) (v := v) (Y := max (1 / 10 ^ 61) (Y + 59 * k)) (zup.trans (le_max_right _ _))
    (le_trans (by norm_num) (le_max_left _ _)) (max_le (by norm_num) (by linarith))
  refine ⟨r, by unfold distanceBetween; rw [hv, hr], ?_, ?_⟩
  · rcases le_total (1 / 10 ^ 61) (Y + 59 * k) with h | h
    · rw [max_eq_right h] at er
      refine le_trans ?_ (le_max_right _ _)
      have : R.u * (Y + 59 * k) ≤ R.u * (92 / 100 * B) := mul_le_mul_of_nonneg_left (by linarith) hu.le
      linarith
    · rw [max_eq_left h] at er
      refine le_trans ?_ (le_max_left _ _)
      refine er.trans ?_
      have : R.u * (1 / 10 ^ 61) ≤ 1 / 1000000 * (1 / 10 ^ 61) := mul_le_mul_of_nonneg_right (five_u (R := R)).2 (by positivity)
      norm_num at this ⊢
      linarith
  · intro hlo
    obtain ⟨r', hr', er'⟩ := norm_near (R := R) (v := v) ⟨by
      refine le_trans (le_trans (show (1 : ℝ) / 10 ^ 100 ≤ 1 / 10 ^ 60 by norm_num) hlo) (by linarith), by linarith⟩
    have e : r' = r := XR.fin.inj (congrArg Fl.val (hr'.symm.trans hr))
    rw [e] at er'
    have : R.u * ‖v.toE‖ ≤ R.u * (92 / 100 * B) := mul_le_mul_of_nonneg_left (by linarith) hu.le
    have := (abs_le.mp er').1
    linarith

/-- **C111: a disc catches every ray that crosses it** at least `63 u B / c` inside its rim. -/
theorem C111_disc_hit {C n₀ P w : V3 ℝ} {B c τ ρ : ℝ} {Rr D : Option (Fl R)} {d : Circle (Fl R)}
    (hd : Circle.new C.fl (some n₀.fl) Rr D = .ok d) (hρ : d.R = Fl.fin ρ) (hρ0 : 1 / 10 ^ 50 ≤ ρ) (X : Crossing R C n₀ P w B c τ)
    (hfar : 1 / 10 ^ 6 ≤ τ * c) (hin : ‖P.toE + τ • w.toE - C.toE‖ + 63 * (R.u * B / c) < ρ)
    {ray : Ray (Fl R)} (hp : ray.position = P.fl) (hdir : ray.direction = w.fl) :
    ∃ q n : V3 ℝ, unitVector (n₀.fl : V3 (Fl R)) = n.fl ∧ d.testIntersect ray = .ok ⟨true, some q.fl, some n.fl⟩ ∧
      ‖q.toE - (P.toE + τ • w.toE)‖ ≤ 58 * (R.u * B / c) := by
  obtain ⟨q, n, hn, hit, eq⟩ := X.hits hfar hp hdir
  obtain ⟨r, hr, h1, -⟩ := disc_distance X eq
  have hb : d.plane = some (Plane.new C.fl n₀.fl) ∧ d.center = C.fl := by
    unfold Circle.new at hd
    cases hc : checkRAndD Rr D with
    | error e => rw [hc] at hd; cases hd
    | ok p => rw [hc] at hd; cases hd; exact ⟨rfl, rfl⟩
  refine ⟨q, n, hn, ?_, eq⟩
  unfold Circle.testIntersect
  rw [hb.1]
  simp only [hit]
  rw [hb.2, hr, hρ, if_pos]
  show r < ρ
  rcases le_max_iff.mp h1 with h | h
  · exact lt_of_lt_of_le (lt_of_le_of_lt h (by norm_num)) hρ0
  · linarith

/-- **C111: a disc lets every ray pass that crosses its plane** at least `63 u B / c` outside its rim. -/
theorem C111_disc_miss {C n₀ P w : V3 ℝ} {B c τ ρ : ℝ} {Rr D : Option (Fl R)} {d : Circle (Fl R)}
    (hd : Circle.new C.fl (some n₀.fl) Rr D = .ok d) (hρ : d.R = Fl.fin ρ) (hρ0 : 1 / 10 ^ 50 ≤ ρ) (X : Crossing R C n₀ P w B c τ)
    (hout : ρ + 63 * (R.u * B / c) ≤ ‖P.toE + τ • w.toE - C.toE‖)
    {ray : Ray (Fl R)} (hp : ray.position = P.fl) (hdir : ray.direction = w.fl) : d.testIntersect ray = .ok Hit3.miss := by
  obtain ⟨hP, hC, hτ, hc, hX⟩ := X.sizes
  have hb : d.plane = some (Plane.new C.fl n₀.fl) ∧ d.center = C.fl := by
    unfold Circle.new at hd
    cases hc : checkRAndD Rr D with
    | error e => rw [hc] at hd; cases hd
    | ok p => rw [hc] at hd; cases hd; exact ⟨rfl, rfl⟩
  unfold Circle.testIntersect
  rw [hb.1]
  simp only
  cases hz : (Plane.new (C.fl : V3 (Fl R)) n₀.fl).testIntersect ray with
  | mk zh zp zn =>
  cases zh with
  | false => rfl
  | true =>
  cases zp with
  | none => rfl
  | some pt =>
  obtain ⟨-, q, rfl, eq⟩ := plane_point X.sane X.unit X.slope X.slope_le hτ X.meets hP hC X.one_le X.le_big hp hdir hz
  obtain ⟨r, hr, -, h2⟩ := disc_distance X eq
  have h3 := h2 (le_trans (by norm_num) (show (1 : ℝ) / 10 ^ 50 ≤ _ by linarith))
  simp only
  rw [hb.2, hr, hρ, if_neg]
  show ¬ r < ρ
  linarith

/-! ### The constructor of a rectangle -/

/-- The comparison `np.isclose(np.dot(normal, tangent), 0)` with rounded numbers. -/
theorem perp_test {s : ℝ} (hs : |s| ≤ 3) :
    (|s| ≤ 99 / 10 ^ 10 → isclose (Fl.fin s : Fl R) 0.0 rtolDefault atolDefault = true) ∧
    (101 / 10 ^ 10 ≤ |s| → isclose (Fl.fin s : Fl R) 0.0 rtolDefault atolDefault = false) := by
  have hu := R.u_pos
  obtain ⟨h5, h6⟩ := five_u (R := R)
  obtain ⟨d, hd, ed⟩ := rnd_near (R := R) (x := s) le_rfl (hs.trans (by norm_num))
  obtain ⟨a, ha, ea⟩ := rnd_near (R := R) (x := 1e-8) (e := 1 / 10 ^ 8) (by norm_num [abs_of_pos]) (by norm_num)
  obtain ⟨r, hr, er⟩ := rnd_near (R := R) (x := 1e-5) (e := 1 / 10 ^ 5) (by norm_num [abs_of_pos]) (by norm_num)
  have eb : R.u * (1 / 10 ^ 8 + 1 / 10 ^ 250) ≤ 1 / 1000000 * (2 / 10 ^ 8) := mul_le_mul h6 (by norm_num) (by positivity) (by norm_num)
  have ea' := abs_le.mp (ea.trans eb)
  have hab : |a| ≤ 2 / 10 ^ 8 := by rw [abs_le]; constructor <;> norm_num at * <;> linarith [ea'.1, ea'.2]
  obtain ⟨f, hf, ef⟩ := rnd_near (R := R) hab (by norm_num)
  have eb2 : R.u * (2 / 10 ^ 8 + 1 / 10 ^ 250) ≤ 1 / 1000000 * (3 / 10 ^ 8) := mul_le_mul h6 (by norm_num) (by positivity) (by norm_num)
  have ef' := abs_le.mp (ef.trans eb2)
  have key : isclose (Fl.fin s : Fl R) 0.0 rtolDefault atolDefault = decide (|d| ≤ f) := by
    unfold isclose rtolDefault atolDefault
    rw [fl_lit0, fl_sub, sub_zero, hd, fl_abs, fl_abs, abs_zero, fl_lit, fl_lit, ha, hr, fl_mul, mul_zero, R.zero]
    have e : (Fl.fin a : Fl R) + ⟨.fin 0⟩ = ⟨R.rnd (a + 0)⟩ := fl_add a 0
    rw [e, add_zero, hf]
    rfl
  rw [key, decide_eq_true_eq, decide_eq_false_iff_not]
  have hds := abs_le.mp ((abs_abs_sub_abs_le d s).trans ed)
  have es : R.u * (|s| + 1 / 10 ^ 250) ≤ 1 / 1000000 * (|s| + 1 / 10 ^ 20) :=
    mul_le_mul h6 (by have : (1 : ℝ) / 10 ^ 250 ≤ 1 / 10 ^ 20 := by norm_num
                      linarith) (by positivity) (by norm_num)
  norm_num at ea' ef' es
  constructor
  · intro h
    norm_num at h
    linarith [hds.2, ef'.1, ea'.1]
  · intro h
    norm_num at h
    rw [not_le]
    linarith [hds.1, ef'.2, ea'.2]

/-- **C111: a rectangle is built** from sizes that are not negative, and a normal that is within `1e-9` of being perpendicular
to the tangent. -/
theorem C111_builds {C : V3 (Fl R)} {n₀ t₀ N : V3 ℝ} {h w δ : ℝ} (hn : SaneLength n₀) (ht : SaneLength t₀) (hN : ‖N.toE‖ = 1)
    (hp : dot N t₀ = 0) (hδ : ‖n₀.dirE - N.toE‖ ≤ δ) (hδ' : δ ≤ 1 / 10 ^ 9) (hu' : R.u ≤ 1 / 10 ^ 10) (hh : 0 ≤ h) (hw : 0 ≤ w) :
    ∃ r, Rectangle.new C n₀.fl t₀.fl (some (Fl.fin h)) (some (Fl.fin w)) = .ok r := by
  have hu := R.u_pos
  obtain ⟨n, en, dn⟩ := unitVector_near (R := R) hn
  obtain ⟨t, et, dt⟩ := unitVector_near (R := R) ht
  have hT := dirE_norm ht.pos
  have nn : ‖n.toE‖ ≤ 1 + 1 / 1000 := by
    have := norm_le_norm_add_norm_sub' n.toE n₀.dirE
    rw [dirE_norm hn.pos] at this; linarith [(five_u (R := R)).1]
  have nt : ‖t.toE‖ ≤ 1 + 1 / 1000 := by
    have := norm_le_norm_add_norm_sub' t.toE t₀.dirE
    rw [hT] at this; linarith [(five_u (R := R)).1]
  obtain ⟨s, hs, es⟩ := dot_near' (R := R) (a := n) (b := t) (A := 11 / 10)
    ((mul_le_mul nn nt (_root_.norm_nonneg _) (by norm_num)).trans (by norm_num)) (by norm_num) (by norm_num)
  have hperp : inner ℝ N.toE t₀.dirE = (0 : ℝ) := by rw [V3.dirE, inner_smul_right, inner_toE, hp, mul_zero]
  have e : inner ℝ n.toE t.toE = inner ℝ (n.toE - N.toE) t.toE + inner ℝ N.toE (t.toE - t₀.dirE) + (0 : ℝ) := by
    rw [← hperp, inner_sub_left, inner_sub_right]; ring
  have dN : ‖n.toE - N.toE‖ ≤ 5 * R.u + δ := by
    have := norm_sub_le_norm_sub_add_norm_sub n.toE n₀.dirE N.toE; linarith
  have i1 := abs_real_inner_le_norm (n.toE - N.toE) t.toE
  have i2 := abs_real_inner_le_norm N.toE (t.toE - t₀.dirE)
  rw [hN, one_mul] at i2
  have i3 : ‖n.toE - N.toE‖ * ‖t.toE‖ ≤ (5 * R.u + δ) * (1 + 1 / 1000) :=
    mul_le_mul dN nt (_root_.norm_nonneg _) (by linarith [_root_.norm_nonneg (n.toE - N.toE)])
  have i4 := abs_add_le (inner ℝ (n.toE - N.toE) t.toE) (inner ℝ N.toE (t.toE - t₀.dirE))
  rw [add_zero] at e
  rw [← e] at i4
  have i5 := abs_add_le (s - inner ℝ n.toE t.toE) (inner ℝ n.toE t.toE)
  rw [sub_add_cancel] at i5
  norm_num at hu' hδ'
  have hsm : |s| ≤ 99 / 10 ^ 10 := by norm_num; linarith
  unfold Rectangle.new checkHAndW
  rw [en, et]
  dsimp only
  rw [hs, (perp_test (R := R) (hsm.trans (by norm_num))).1 hsm]
  simp only [fl_lit0, Bool.not_true, Bool.false_eq_true, if_false]
  rw [if_neg (show ¬ (Fl.fin h : Fl R) < Fl.fin 0 from not_lt.mpr hh), if_neg (show ¬ (Fl.fin w : Fl R) < Fl.fin 0 from not_lt.mpr hw)]
  exact ⟨_, rfl⟩

/-- **C111: a rectangle is refused** if the cosine of the angle between normal and tangent is more than `1.02e-8`. -/
theorem C111_refuses {C : V3 (Fl R)} {n₀ t₀ : V3 ℝ} {h w : Option (Fl R)} (hn : SaneLength n₀) (ht : SaneLength t₀)
    (hu' : R.u ≤ 1 / 10 ^ 12) (hp : 102 / 10 ^ 10 ≤ |inner ℝ n₀.dirE t₀.dirE|) : Rectangle.new C n₀.fl t₀.fl h w = .error .valueError := by
  have hu := R.u_pos
  obtain ⟨n, en, dn⟩ := unitVector_near (R := R) hn
  obtain ⟨t, et, dt⟩ := unitVector_near (R := R) ht
  have hT := dirE_norm ht.pos
  have hN := dirE_norm hn.pos
  have nn : ‖n.toE‖ ≤ 1 + 1 / 1000 := by
    have := norm_le_norm_add_norm_sub' n.toE n₀.dirE
    rw [hN] at this; linarith [(five_u (R := R)).1]
  have nt : ‖t.toE‖ ≤ 1 + 1 / 1000 := by
    have := norm_le_norm_add_norm_sub' t.toE t₀.dirE
    rw [hT] at this; linarith [(five_u (R := R)).1]
  obtain ⟨s, hs, es⟩ := dot_near' (R := R) (a := n) (b := t) (A := 11 / 10)
    ((mul_le_mul nn nt (_root_.norm_nonneg _) (by norm_num)).trans (by norm_num)) (by norm_num) (by norm_num)
  have e : inner ℝ n.toE t.toE - inner ℝ n₀.dirE t₀.dirE = inner ℝ (n.toE - n₀.dirE) t.toE + inner ℝ n₀.dirE (t.toE - t₀.dirE) := by
    rw [inner_sub_left, inner_sub_right]; ring
  have i1 := abs_real_inner_le_norm (n.toE - n₀.dirE) t.toE
  have i2 := abs_real_inner_le_norm n₀.dirE (t.toE - t₀.dirE)
  rw [hN, one_mul] at i2
  have i3 : ‖n.toE - n₀.dirE‖ * ‖t.toE‖ ≤ 5 * R.u * (1 + 1 / 1000) := mul_le_mul dn nt (_root_.norm_nonneg _) (by linarith)
  have i4 := abs_add_le (inner ℝ (n.toE - n₀.dirE) t.toE) (inner ℝ n₀.dirE (t.toE - t₀.dirE))
  rw [← e] at i4
  have i5 := abs_add_le (s - inner ℝ n.toE t.toE) (inner ℝ n.toE t.toE - inner ℝ n₀.dirE t₀.dirE)
  rw [sub_add_sub_cancel] at i5
  have i6 := abs_le.mp ((abs_abs_sub_abs_le s (inner ℝ n₀.dirE t₀.dirE)).trans i5)
  have i7 := abs_real_inner_le_norm n₀.dirE t₀.dirE
  rw [hN, hT, one_mul] at i7
  norm_num at hu' hp
  have h3 : |s| ≤ 3 := by linarith [i6.2]
  have hsm : 101 / 10 ^ 10 ≤ |s| := by norm_num; linarith [i6.1]
  unfold Rectangle.new
  rw [en, et]
  dsimp only
  rw [hs, (perp_test (R := R) h3).2 hsm]
  rfl

/-! ### With doubles -/

/-- A square of side 50, 100 in front of the origin. -/
theorem square64 : ∃ r, BuiltRectangle binary64 ⟨0, 100, 0⟩ ⟨0, -1, 0⟩ ⟨0, 0, 1⟩ ⟨0, -1, 0⟩ 50 50 1000 (5 * binary64.u) r := by
  have hu : binary64.u = 1 / 2 ^ 53 := rfl
  have e1 : ‖(⟨0, -1, 0⟩ : V3 ℝ).toE‖ = 1 := by rw [norm_toE]; simp [V3.norm, dot]
  have e2 : ‖(⟨0, 0, 1⟩ : V3 ℝ).toE‖ = 1 := by rw [norm_toE]; simp [V3.norm, dot]
  have s1 : SaneLength ⟨0, -1, 0⟩ := sane_of_near (by rw [e1]; norm_num)
  have s2 : SaneLength ⟨0, 0, 1⟩ := sane_of_near (by rw [e2]; norm_num)
  have e3 : ‖(⟨0, -1, 0⟩ : V3 ℝ).dirE - (⟨0, -1, 0⟩ : V3 ℝ).toE‖ ≤ 0 := by
    rw [dirE_dist (by rw [e1]; norm_num), e1]; norm_num
  obtain ⟨r, hr⟩ := C111_builds (R := binary64) (C := V3.fl ⟨0, 100, 0⟩) (h := 50) (w := 50) s1 s2 e1 (by simp [dot]) e3 (by norm_num)
    (by rw [hu]; norm_num) (by norm_num) (by norm_num)
  exact ⟨r, hr, s2, e1, by simp [dot], by rw [sub_self]; exact e3, by rw [hu]; norm_num, by norm_num, by norm_num, by norm_num, by norm_num⟩

/-- A ray that crosses its plane at `(a, 100, b)`. -/
theorem crossing64 {a b : ℝ} (ha : |a| ≤ 100) (hb : |b| ≤ 100) : Crossing binary64 ⟨0, 100, 0⟩ ⟨0, -1, 0⟩ ⟨a, 0, b⟩ ⟨0, 1, 0⟩ 1000 1 100 := by
  have hu : binary64.u = 1 / 2 ^ 53 := rfl
  have e1 : ‖(⟨0, -1, 0⟩ : V3 ℝ).toE‖ = 1 := by rw [norm_toE]; simp [V3.norm, dot]
  have e2 : ‖(⟨0, 1, 0⟩ : V3 ℝ).toE‖ = 1 := by rw [norm_toE]; simp [V3.norm, dot]
  have e3 : (⟨0, -1, 0⟩ : V3 ℝ).dirE = (⟨0, -1, 0⟩ : V3 ℝ).toE := by rw [V3.dirE, e1]; simp
  have e4 : ‖(⟨0, 100, 0⟩ : V3 ℝ).toE‖ = 100 := by rw [norm_toE]; simp [V3.norm, dot]
  have e5 : ‖(⟨a, 0, b⟩ : V3 ℝ).toE‖ ≤ 200 := by
    have := normE_sq (⟨a, 0, b⟩ : V3 ℝ)
    apply le_of_sq_le_sq _ (by norm_num)
    rw [this]
    have := sq_le_sq' (abs_le.mp ha).1 (abs_le.mp ha).2
    have := sq_le_sq' (abs_le.mp hb).1 (abs_le.mp hb).2
    norm_num
    linarith
  refine ⟨sane_of_near (by rw [e1]; norm_num), ?_, by norm_num, ?_, by norm_num, ?_, ?_, by norm_num, by norm_num, by rw [hu]; norm_num⟩
  · show |_ - 1| ≤ _
    rw [e2, hu]; norm_num
  · rw [e3, inner_toE]; norm_num [dot]
  · rw [e3, ← toE_sub, inner_toE, inner_toE]; norm_num [dot]
  · rw [e4]; linarith

/-- Where it crosses the plane. -/
theorem crossing64_point (a b : ℝ) : (⟨a, 0, b⟩ : V3 ℝ).toE + (100 : ℝ) • (⟨0, 1, 0⟩ : V3 ℝ).toE - (⟨0, 100, 0⟩ : V3 ℝ).toE = (⟨a, 0, b⟩ : V3 ℝ).toE := by
  rw [← toE_smul, ← toE_add, ← toE_sub]
  congr 1
  ext <;> norm_num

theorem frame64 : unitVector (⟨0, 0, 1⟩ : V3 ℝ) = ⟨0, 0, 1⟩ ∧ cross (⟨0, -1, 0⟩ : V3 ℝ) ⟨0, 0, 1⟩ = ⟨-1, 0, 0⟩ := by
  constructor
  · ext <;> simp [unitVector, V3.norm, dot]
  · ext <;> simp [cross]

/-- With doubles, the square catches every ray along `y` up to 24.9999 off its centre, and none beyond 25.0001. -/
example : ∃ r : Rectangle D64, ∀ (a b : ℝ) (ray : Ray D64), |a| ≤ 100 → |b| ≤ 100 → ray.position = V3.fl ⟨a, 0, b⟩ →
    ray.direction = V3.fl ⟨0, 1, 0⟩ →
    (|a| ≤ 24.9999 → |b| ≤ 24.9999 → ∃ q : V3 ℝ, (r.testIntersect ray).hit = true ∧ (r.testIntersect ray).pt = some q.fl ∧
      ‖q.toE - (⟨a, 100, b⟩ : V3 ℝ).toE‖ ≤ 1 / 10 ^ 11) ∧
    (25.0001 ≤ |a| ∨ 25.0001 ≤ |b| → r.testIntersect ray = Hit3.miss) := by
  obtain ⟨r, H⟩ := square64
  have hu : binary64.u = 1 / 2 ^ 53 := rfl
  refine ⟨r, fun a b ray ha hb hp hd => ?_⟩
  have X := crossing64 ha hb
  have e1 : inner ℝ (cross (⟨0, -1, 0⟩ : V3 ℝ) (unitVector ⟨0, 0, 1⟩)).toE (⟨a, 0, b⟩ : V3 ℝ).toE = -a := by
    rw [frame64.1, frame64.2, inner_toE]; simp [dot]
  have e2 : inner ℝ (unitVector (⟨0, 0, 1⟩ : V3 ℝ)).toE (⟨a, 0, b⟩ : V3 ℝ).toE = b := by
    rw [frame64.1, inner_toE]; simp [dot]
  constructor
  · intro h1 h2
    obtain ⟨q, n, -, hit, eq⟩ := C111_rectangle_hit H X (by norm_num) (by rw [crossing64_point, e1, abs_neg, hu]; norm_num at *; linarith)
      (by rw [crossing64_point, e2, hu]; norm_num at *; linarith) hp hd
    refine ⟨q, by rw [hit], by rw [hit], ?_⟩
    have : (⟨a, 0, b⟩ : V3 ℝ).toE + (100 : ℝ) • (⟨0, 1, 0⟩ : V3 ℝ).toE = (⟨a, 100, b⟩ : V3 ℝ).toE := by
      rw [← toE_smul, ← toE_add]; congr 1; ext <;> norm_num
    rw [this, hu] at eq
    refine eq.trans (by norm_num)
  · intro h1
    refine C111_rectangle_miss H X ?_ hp hd
    rw [crossing64_point, e1, e2, abs_neg, hu]
    norm_num at *
    rcases h1 with h1 | h1
    · left; linarith
    · right; linarith

/-- With doubles, a disc of radius 25 in the same place catches the rays less than 24.9999 from its axis, and none beyond 25.0001. -/
example : ∃ d : Circle D64, Circle.new (V3.fl ⟨0, 100, 0⟩) (some (V3.fl ⟨0, -1, 0⟩)) (some (Fl.fin 25)) none = .ok d ∧
    ∀ (a b : ℝ) (ray : Ray D64), |a| ≤ 100 → |b| ≤ 100 → ray.position = V3.fl ⟨a, 0, b⟩ → ray.direction = V3.fl ⟨0, 1, 0⟩ →
    (‖(⟨a, 0, b⟩ : V3 ℝ).toE‖ ≤ 24.9999 → ∃ q n : V3 ℝ, d.testIntersect ray = .ok ⟨true, some q.fl, some n.fl⟩) ∧
    (25.0001 ≤ ‖(⟨a, 0, b⟩ : V3 ℝ).toE‖ → d.testIntersect ray = .ok Hit3.miss) := by
  have hu : binary64.u = 1 / 2 ^ 53 := rfl
  refine ⟨_, rfl, fun a b ray ha hb hp hd => ?_⟩
  have X := crossing64 ha hb
  constructor
  · intro h
    obtain ⟨q, n, -, hit, -⟩ := C111_disc_hit (R := binary64) (Rr := some (Fl.fin 25)) (D := none) (ρ := 25) rfl rfl (by norm_num) X (by norm_num)
      (by rw [crossing64_point, hu]; norm_num at *; linarith) hp hd
    exact ⟨q, n, hit⟩
  · intro h
    exact C111_disc_miss (R := binary64) (Rr := some (Fl.fin 25)) (D := none) (ρ := 25) rfl rfl (by norm_num) X
      (by rw [crossing64_point, hu]; norm_num at *; linarith) hp hd

end Optics
