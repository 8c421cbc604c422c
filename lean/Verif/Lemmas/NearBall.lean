import Verif.Lemmas.RoundedSphere
import Verif.Spec.NearBall

/-!
# A ball near a ray, with rounding: the first hit

The errors are counted in units of `R.u * L` and of `ε = R.u * L ^ 2 / h`.
-/

namespace Optics
open V3

variable {R : Rounding} {C P : V3 ℝ} {e : E3} {ρ t h L : ℝ}

theorem BallAhead.split (H : BallAhead R C P e ρ t h L) :
    inner ℝ e (C.toE - P.toE) = t + h ∧ ‖C.toE - P.toE‖ ^ 2 = ρ ^ 2 + 2 * t * h + t ^ 2 := by
  have e1 : C.toE - P.toE = (C.toE - (P.toE + t • e)) + t • e := by abel
  have hee : inner ℝ e e = (1 : ℝ) := by rw [real_inner_self_eq_norm_sq, H.unit]; norm_num
  have hn : ‖C.toE - (P.toE + t • e)‖ = ρ := by rw [norm_sub_rev]; exact H.on
  constructor
  · rw [e1, inner_add_right, inner_smul_right, hee, H.cosine]; ring
  · rw [e1, norm_add_sq_real, inner_smul_right, real_inner_comm, H.cosine, hn, _root_.norm_smul, H.unit, mul_one,
      Real.norm_eq_abs, sq_abs]; ring

theorem BallAhead.sizes (H : BallAhead R C P e ρ t h L) : h ≤ ρ ∧ ρ ≤ L ∧ t + h ≤ L ∧ 1 ≤ L := by
  obtain ⟨h1, h2⟩ := H.split
  have ht := H.ahead
  have hh := H.steep
  have hρ := H.radius
  have a : h ≤ ρ := by
    have := real_inner_le_norm e (C.toE - (P.toE + t • e))
    rw [H.cosine, H.unit, one_mul, norm_sub_rev, H.on] at this
    exact this
  have b : t + h ≤ L := by
    have := real_inner_le_norm e (C.toE - P.toE)
    rw [h1, H.unit, one_mul] at this
    exact this.trans H.dist
  have c : ρ ≤ L := by
    refine le_trans ?_ H.dist
    refine abs_le_of_sq_le_sq' ?_ (_root_.norm_nonneg _) |>.2
    rw [h2]; nlinarith
  exact ⟨a, c, b, by linarith⟩

/-- The units of error. -/
theorem BallAhead.units (H : BallAhead R C P e ρ t h L) {ε : ℝ} (hε : ε = R.u * L ^ 2 / h) :
    0 < ε ∧ ε * h = R.u * L ^ 2 ∧ 0 < R.u * L ∧ R.u * L ≤ ε ∧ R.u * ρ ≤ R.u * L ∧ R.u ≤ R.u * L ∧ ε ≤ 1 / 10 ^ 13 ∧
      R.u * L ^ 2 = R.u * L * L := by
  obtain ⟨a, b, c, d⟩ := H.sizes
  have hu := R.u_pos
  have hh : 0 < h := by linarith [H.steep]
  have hL : 0 < L := by linarith
  have hρ : 0 < ρ := by linarith [H.radius]
  have e0 : ε * h = R.u * L ^ 2 := by rw [hε]; field_simp
  refine ⟨by rw [hε]; positivity, e0, by positivity, ?_, mul_le_mul_of_nonneg_left b hu.le,
    le_mul_of_one_le_right hu.le d, ?_, by ring⟩
  · rw [hε, le_div_iff₀ hh, sq, ← mul_assoc]
    exact mul_le_mul_of_nonneg_left (a.trans b) (by positivity)
  · rw [hε, div_le_iff₀ hh]
    have h1 := H.near
    have h2 : 0 ≤ R.u * (35 * L * ρ + 15 * ρ ^ 2) := by positivity
    nlinarith

/-- Computed distance to a point at a computed position along a ray whose direction has length 1 up to `g` roundoffs. -/
theorem walk_near_of {P d : V3 ℝ} {s B g : ℝ} (hP : ‖P.toE‖ ≤ B) (hB : 1 ≤ B) (hB' : B ≤ 10 ^ 50)
    (hd1 : ‖d.toE‖ ≤ 1 + 1 / 100000) (hd : |‖d.toE‖ - 1| ≤ g * R.u) (hg : g ≤ 30)
    (hs : 1 / 2000 ≤ s) (hsB : s ≤ 3 * B) (huB : R.u * B ≤ 1 / 10 ^ 10) :
    ∃ P' : V3 ℝ, (P.fl : V3 (Fl R)) + (Fl.fin s : Fl R) * (d.fl : V3 (Fl R)) = P'.fl ∧
      ‖P'.toE - (P.toE + s • d.toE)‖ ≤ R.u * (21 / 10 * s + 11 / 10 * B) ∧
      ∃ x, distanceBetween (P.fl : V3 (Fl R)) P'.fl = Fl.fin x ∧ |x - s| ≤ R.u * ((62 / 10 + g) * s + 12 / 10 * B) := by
  have hu := R.u_pos
  have hus := (five_u (R := R)).2
  have big : (3 : ℝ) * 10 ^ 50 ≤ 10 ^ 100 := by norm_num
  obtain ⟨P', h1, h2⟩ := fly_near_of (R := R) hP hB hB' hd1 (by linarith) (show s ≤ 10 ^ 100 by linarith)
  refine ⟨P', h1, h2, ?_⟩
  have hus' : R.u * s ≤ 3 * (R.u * B) := by nlinarith
  have hus0 : 0 < R.u * s := by positivity
  have huB0 : 0 < R.u * B := by positivity
  obtain ⟨G, hG⟩ : ∃ G, G = g * (R.u * s) := ⟨_, rfl⟩
  have hG1 : G ≤ 30 * (R.u * s) := by rw [hG]; exact mul_le_mul_of_nonneg_right hg hus0.le
  have hsd : |‖s • d.toE‖ - s| ≤ G := by
    rw [_root_.norm_smul, Real.norm_of_nonneg (by linarith), show s * ‖d.toE‖ - s = s * (‖d.toE‖ - 1) by ring, abs_mul,
      abs_of_nonneg (by linarith : (0 : ℝ) ≤ s)]
    have := mul_le_mul_of_nonneg_left hd (by linarith : (0 : ℝ) ≤ s)
    rw [hG]
    linarith
  have hY : |‖P.toE - P'.toE‖ - s| ≤ G + R.u * (21 / 10 * s + 11 / 10 * B) := by
    have a1 : |‖P'.toE - P.toE‖ - ‖s • d.toE‖| ≤ ‖P'.toE - P.toE - s • d.toE‖ := abs_norm_sub_norm_le _ _
    rw [show P'.toE - P.toE - s • d.toE = P'.toE - (P.toE + s • d.toE) by abel] at a1
    rw [norm_sub_rev]
    have a2 := abs_add_le (‖P'.toE - P.toE‖ - ‖s • d.toE‖) (‖s • d.toE‖ - s)
    rw [sub_add_sub_cancel] at a2
    linarith
  have hY' := abs_le.mp hY
  have hYb : ‖P.toE - P'.toE‖ ≤ s + 1 / 10 ^ 6 := by linarith [hY'.2]
  have hYl : s - 1 / 10 ^ 6 ≤ ‖P.toE - P'.toE‖ := by linarith [hY'.1]
  obtain ⟨w, hw, ew⟩ := vsub_near (R := R) hYb (by linarith)
  have hww : |‖w.toE‖ - ‖P.toE - P'.toE‖| ≤ R.u * (s + 1 / 10 ^ 6 + 1 / 1000) :=
    (abs_norm_sub_norm_le _ _).trans ew
  have hww' := abs_le.mp hww
  have hwl : ‖w.toE‖ ≤ s + 1 / 10 ^ 5 := by linarith
  have hsane : SaneLength w := by
    constructor
    · refine le_trans (show (1 : ℝ) / 10 ^ 100 ≤ 1 / 10000 by norm_num) ?_
      linarith
    · refine le_trans hwl (le_trans (show s + 1 / 10 ^ 5 ≤ 4 * 10 ^ 50 by linarith) (by norm_num))
  obtain ⟨x, hx, ex⟩ := norm_near (R := R) hsane
  refine ⟨x, by unfold distanceBetween; rw [hw, hx], ?_⟩
  have e3 : 3 * R.u * ‖w.toE‖ ≤ 3 * (R.u * s) + R.u / 1000 := by nlinarith
  have huu : R.u ≤ R.u * B := le_mul_of_one_le_right hu.le hB
  rw [show R.u * ((62 / 10 + g) * s + 12 / 10 * B) = G + R.u * (62 / 10 * s + 12 / 10 * B) by rw [hG]; ring]
  rw [abs_le] at ex ⊢
  constructor <;> linarith [ex.1, ex.2]

theorem walk_near {P d : V3 ℝ} {s B : ℝ} (hP : ‖P.toE‖ ≤ B) (hB : 1 ≤ B) (hB' : B ≤ 10 ^ 50) (hd : NearUnit R d)
    (hs : 1 / 2000 ≤ s) (hsB : s ≤ 3 * B) (huB : R.u * B ≤ 1 / 10 ^ 10) :
    ∃ P' : V3 ℝ, (P.fl : V3 (Fl R)) + (Fl.fin s : Fl R) * (d.fl : V3 (Fl R)) = P'.fl ∧
      ‖P'.toE - (P.toE + s • d.toE)‖ ≤ R.u * (21 / 10 * s + 11 / 10 * B) ∧
      ∃ x, distanceBetween (P.fl : V3 (Fl R)) P'.fl = Fl.fin x ∧ |x - s| ≤ R.u * (112 / 10 * s + 12 / 10 * B) := by
  obtain ⟨P', h1, h2, x, h3, h4⟩ := walk_near_of (R := R) (g := 5) hP hB hB' hd.bounds.1 hd (by norm_num) hs hsB huB
  exact ⟨P', h1, h2, x, h3, h4.trans_eq (by ring)⟩

/-- What the computed vector to the centre and the computed direction give, before the sphere test rounds further. -/
theorem BallAhead.approx (H : BallAhead R C P e ρ t h L) {d q : V3 ℝ} (hd : ‖d.toE - e‖ ≤ 5 * R.u)
    (hq : ‖q.toE - (C.toE - P.toE)‖ ≤ 1001 / 1000 * (R.u * L)) :
    ‖q.toE‖ ≤ (1 + 1 / 10000) * L ∧ |inner ℝ d.toE q.toE - (t + h)| ≤ 601 / 100 * (R.u * L) ∧
      |discr d q ρ - h ^ 2| ≤ 142 / 10 * (R.u * L ^ 2) := by
  obtain ⟨s1, s2⟩ := H.split
  obtain ⟨z1, z2, z3, z4⟩ := H.sizes
  have hu := R.u_pos
  have hus := (five_u (R := R)).2
  have ht := H.ahead
  have hh := H.steep
  have huL : 0 < R.u * L := by positivity
  have huL' : R.u * L ≤ 1 / 1000000 * L := mul_le_mul_of_nonneg_right hus (by linarith)
  have hqd := H.dist
  have hqn : |‖q.toE‖ - ‖C.toE - P.toE‖| ≤ 1001 / 1000 * (R.u * L) := (abs_norm_sub_norm_le _ _).trans hq
  have hqn' := abs_le.mp hqn
  have hqb : ‖q.toE‖ ≤ (1 + 1 / 10000) * L := by linarith
  have hi : |inner ℝ d.toE q.toE - (t + h)| ≤ 601 / 100 * (R.u * L) := by
    have e1 : inner ℝ d.toE q.toE - (t + h) = inner ℝ (d.toE - e) q.toE + inner ℝ e (q.toE - (C.toE - P.toE)) := by
      rw [inner_sub_left, inner_sub_right, s1]; ring
    have a1 := abs_real_inner_le_norm (d.toE - e) q.toE
    have a2 := abs_real_inner_le_norm e (q.toE - (C.toE - P.toE))
    rw [H.unit, one_mul] at a2
    have a3 : ‖d.toE - e‖ * ‖q.toE‖ ≤ 5 * R.u * ((1 + 1 / 10000) * L) :=
      mul_le_mul hd hqb (_root_.norm_nonneg _) (by linarith)
    have a4 := abs_add_le (inner ℝ (d.toE - e) q.toE) (inner ℝ e (q.toE - (C.toE - P.toE)))
    rw [e1]; linarith
  refine ⟨hqb, hi, ?_⟩
  have hi' := abs_le.mp hi
  have b1 : |inner ℝ d.toE q.toE ^ 2 - (t + h) ^ 2| ≤ 601 / 100 * (R.u * L) * ((2 + 1 / 1000) * L) := by
    rw [show inner ℝ d.toE q.toE ^ 2 - (t + h) ^ 2 = (inner ℝ d.toE q.toE - (t + h)) * (inner ℝ d.toE q.toE + (t + h)) by ring]
    refine abs_mul_le' hi ?_
    rw [abs_le]; constructor <;> linarith
  have b2 : |‖q.toE‖ ^ 2 - ‖C.toE - P.toE‖ ^ 2| ≤ 1001 / 1000 * (R.u * L) * ((2 + 1 / 1000) * L) := by
    rw [show ‖q.toE‖ ^ 2 - ‖C.toE - P.toE‖ ^ 2 = (‖q.toE‖ - ‖C.toE - P.toE‖) * (‖q.toE‖ + ‖C.toE - P.toE‖) by ring]
    refine abs_mul_le' hqn ?_
    rw [abs_le]; constructor <;> linarith [_root_.norm_nonneg q.toE, _root_.norm_nonneg (C.toE - P.toE)]
  rw [s2] at b2
  have b3 : 0 < R.u * L ^ 2 := by positivity
  unfold discr
  rw [abs_le] at b1 b2 ⊢
  constructor <;> nlinarith [b1.1, b1.2, b2.1, b2.2]

theorem fl_floor : ∃ f : ℝ, 9 / 10 ^ 13 ≤ f ∧ f ≤ 11 / 10 ^ 13 ∧ (clippingFloor : Fl R) = Fl.fin f ∧ R.rnd (1 / 10 ^ 12) = .fin f := by
  have hus := (five_u (R := R)).2
  have hu := R.u_pos
  obtain ⟨y, hy, ey⟩ := rnd_near (R := R) (x := (1 / 10 ^ 12 : ℝ)) (e := 1 / 10 ^ 12) (by rw [abs_of_pos (by positivity)])
    (by norm_num)
  have ht : (1 : ℝ) / 10 ^ 250 ≤ 1 / 10 ^ 12 := by norm_num
  have hb : R.u * (1 / 10 ^ 12 + 1 / 10 ^ 250) ≤ 1 / 1000000 * (2 / 10 ^ 12) :=
    mul_le_mul hus (by linarith) (by positivity) (by norm_num)
  have := abs_le.mp (ey.trans hb)
  refine ⟨y, by linarith [this.1], by linarith [this.2], ?_, congrArg Fl.val hy⟩
  unfold clippingFloor
  rw [fl_lit, show (OfScientific.ofScientific 1 true 12 : ℝ) = 1 / 10 ^ 12 by norm_num, hy]

/-- The two distances the sphere test computes. -/
theorem BallAhead.roots (H : BallAhead R C P e ρ t h L) {d : V3 ℝ} (hd : ‖d.toE - e‖ ≤ 5 * R.u) {ε : ℝ}
    (hε : ε = R.u * L ^ 2 / h) :
    ∃ (q : V3 ℝ) (v D r t₀ t₁ : ℝ), (C.fl : V3 (Fl R)) - P.fl = q.fl ∧ dot (d.fl : V3 (Fl R)) q.fl = Fl.fin v ∧
      (Fl.fin v : Fl R) * Fl.fin v - (dot (q.fl : V3 (Fl R)) q.fl - (Fl.fin ρ : Fl R) * Fl.fin ρ) = Fl.fin D ∧ 0 < D ∧
      PyNum.sqrt (Fl.fin D : Fl R) = Fl.fin r ∧ (Fl.fin v : Fl R) - Fl.fin r = Fl.fin t₀ ∧
      (Fl.fin v : Fl R) + Fl.fin r = Fl.fin t₁ ∧ |t₀ - t| ≤ 153 / 10 * ε + 12 * (R.u * L) ∧
      |t₁ - (t + 2 * h)| ≤ 153 / 10 * ε + 13 * (R.u * L) := by
  obtain ⟨z1, z2, z3, z4⟩ := H.sizes
  obtain ⟨u1, u2, u3, u4, u5, u6, u7, u8⟩ := H.units hε
  have hu := R.u_pos
  have hus := (five_u (R := R)).2
  have ht := H.ahead
  have hh := H.steep
  have hρ := H.radius
  have hr := H.range
  have hdu : NearUnit R d := nearUnit_of H.unit hd
  have b50 : (1 + 1 / 10000) * L ≤ 10 ^ 50 := by
    have : (1 + 1 / 10000) * (10 : ℝ) ^ 40 ≤ 10 ^ 50 := by norm_num
    linarith
  have b60 : ρ ≤ 10 ^ 60 := by
    have : (10 : ℝ) ^ 40 ≤ 10 ^ 60 := by norm_num
    linarith
  have b200 : 3 * L ≤ 10 ^ 200 := by
    have : 3 * (10 : ℝ) ^ 40 ≤ 10 ^ 200 := by norm_num
    linarith
  obtain ⟨q, hq, eq⟩ := vsub_near (R := R) H.dist (by linarith)
  have eq' : ‖q.toE - (C.toE - P.toE)‖ ≤ 1001 / 1000 * (R.u * L) := eq.trans (by linarith)
  obtain ⟨a1, a2, a3⟩ := H.approx hd eq'
  obtain ⟨v, D, hv, ev, -, hD, eD⟩ := discr_near (R := R) (ρ := ρ) hdu.bounds.1 a1 (by linarith) (by linarith) (by linarith) b50
  have ev' : |v - (t + h)| ≤ 962 / 100 * (R.u * L) := by
    have := abs_add_le (v - inner ℝ d.toE q.toE) (inner ℝ d.toE q.toE - (t + h))
    rw [sub_add_sub_cancel] at this
    linarith
  have eD' : |D - h ^ 2| ≤ 30 * (ε * h) := by
    have := abs_add_le (D - discr d q ρ) (discr d q ρ - h ^ 2)
    rw [sub_add_sub_cancel] at this
    have e2 : R.u * ((1 + 1 / 10000) * L) ^ 2 = (1 + 1 / 10000) ^ 2 * (ε * h) := by rw [u2]; ring
    rw [e2] at eD
    rw [← u2] at a3
    have := mul_pos u1 (show 0 < h by linarith)
    linarith
  have hsmall : 30 * (ε * h) ≤ h ^ 2 / 100 := by nlinarith
  obtain ⟨hD0, r, hr', er⟩ := root_near (R := R) (by linarith : 0 < h) z1 hρ b60 eD' hsmall
  rw [show 30 * (ε * h) / h = 30 * ε by field_simp] at er
  have ev2 := abs_le.mp ev'
  have er2 := abs_le.mp er
  have hL1 : R.u * L ≤ L / 1000000 := by linarith [mul_le_mul_of_nonneg_right hus (show 0 ≤ L by linarith)]
  obtain ⟨t₀, ht₀, et₀⟩ := rnd_big (R := R) (x := v - r) (e := 101 / 100 * L) (by rw [abs_le]; constructor <;> linarith)
    (by linarith)
  obtain ⟨t₁, ht₁, et₁⟩ := rnd_big (R := R) (x := v + r) (e := 202 / 100 * L) (by rw [abs_le]; constructor <;> linarith)
    (by linarith)
  have et₀' := abs_le.mp et₀
  have et₁' := abs_le.mp et₁
  refine ⟨q, v, D, r, t₀, t₁, hq, hv, hD, hD0, hr', by rw [fl_sub, ht₀], by rw [fl_add, ht₁], ?_, ?_⟩
  · rw [abs_le]; constructor <;> linarith
  · rw [abs_le]; constructor <;> linarith

/-- The first sphere test: both points of the sphere ahead are reported, the far one first. -/
theorem BallAhead.first (H : BallAhead R C P e ρ t h L) {d : V3 ℝ} (hd : ‖d.toE - e‖ ≤ 5 * R.u) {ε : ℝ}
    (hε : ε = R.u * L ^ 2 / h) {s : Sphere (Fl R)} (hsC : s.center = C.fl) (hsR : s.R = Fl.fin ρ) {ray : Ray (Fl R)}
    (hp : ray.position = P.fl) (hrd : ray.direction = d.fl) :
    ∃ (P₀ P₁ : V3 ℝ) (x₀ x₁ : ℝ), s.testIntersect ray = Hit6.two P₁.fl P₀.fl (s.normal P₁.fl) (s.normal P₀.fl) 2 ∧
      distanceBetween (P.fl : V3 (Fl R)) P₀.fl = Fl.fin x₀ ∧ distanceBetween (P.fl : V3 (Fl R)) P₁.fl = Fl.fin x₁ ∧
      x₀ < x₁ ∧ |x₀ - t| ≤ 153 / 10 * ε + 25 * (R.u * L) ∧ ‖P₀.toE - (P.toE + t • e)‖ ≤ 153 / 10 * ε + 21 * (R.u * L) := by
  obtain ⟨z1, z2, z3, z4⟩ := H.sizes
  obtain ⟨u1, u2, u3, u4, u5, u6, u7, u8⟩ := H.units hε
  have hu := R.u_pos
  have hus := (five_u (R := R)).2
  have ht := H.ahead
  have hh := H.steep
  have hρ := H.radius
  have hdu : NearUnit R d := nearUnit_of H.unit hd
  have hr : L ≤ 10 ^ 50 := H.range.trans (by norm_num)
  obtain ⟨q, v, D, r, t₀, t₁, hq, hv, hD, hD0, hr', ht₀, ht₁, et₀, et₁⟩ := H.roots hd hε
  have et₀' := abs_le.mp et₀
  have et₁' := abs_le.mp et₁
  have huL : R.u * L ≤ 1 / 10 ^ 10 := by linarith
  obtain ⟨P₀, hP₀, eP₀, x₀, hx₀, ex₀⟩ := walk_near (R := R) (P := P) (s := t₀) H.size z4 hr hdu (by linarith)
    (by linarith) huL
  obtain ⟨P₁, hP₁, -, x₁, hx₁, ex₁⟩ := walk_near (R := R) (P := P) (s := t₁) H.size z4 hr hdu (by linarith)
    (by linarith) huL
  have ut₀ : R.u * t₀ ≤ 101 / 100 * (R.u * L) := by
    have : t₀ ≤ 101 / 100 * L := by linarith
    nlinarith
  have ut₁ : R.u * t₁ ≤ 202 / 100 * (R.u * L) := by
    have : t₁ ≤ 202 / 100 * L := by linarith
    nlinarith
  have ex₀' := abs_le.mp ex₀
  have ex₁' := abs_le.mp ex₁
  obtain ⟨f, f1, f2, hf, -⟩ := fl_floor (R := R)
  refine ⟨P₀, P₁, x₀, x₁, ?_, hx₀, hx₁, by linarith, ?_, ?_⟩
  · unfold Sphere.testIntersect
    simp only [hsC, hsR, hp, hrd, hq, hv, hD, hr', ht₀, ht₁, hP₀, hP₁]
    rw [if_pos (show (Fl.fin D : Fl R) > 0.0 by rw [fl_lit0]; exact (fl_lt _ _).mpr hD0),
      if_pos (show (Fl.fin t₀ : Fl R) > clippingFloor ∧ (Fl.fin t₁ : Fl R) > clippingFloor by
        rw [hf]; exact ⟨(fl_lt _ _).mpr (by linarith), (fl_lt _ _).mpr (by linarith)⟩),
      if_pos (show (Fl.fin t₀ : Fl R) < Fl.fin t₁ from (fl_lt _ _).mpr (by linarith))]
  · rw [abs_le]; constructor <;> linarith
  · have e1 : P₀.toE - (P.toE + t • e) = (P₀.toE - (P.toE + t₀ • d.toE)) + (t₀ • (d.toE - e) + (t₀ - t) • e) := by
      rw [smul_sub, sub_smul]; abel
    have e2 := norm_add_le (P₀.toE - (P.toE + t₀ • d.toE)) (t₀ • (d.toE - e) + (t₀ - t) • e)
    have e3 := norm_add_le (t₀ • (d.toE - e)) ((t₀ - t) • e)
    rw [_root_.norm_smul, _root_.norm_smul, H.unit, Real.norm_of_nonneg (by linarith : 0 ≤ t₀), Real.norm_eq_abs] at e3
    have e4 := mul_le_mul_of_nonneg_left hd (by linarith : 0 ≤ t₀)
    rw [e1]
    linarith

/-- Where the ray lands: slightly off the sphere. -/
theorem BallAhead.landing (H : BallAhead R C P e ρ t h L) {d P' : V3 ℝ} (hd : ‖d.toE - e‖ ≤ 5 * R.u) {ε x : ℝ}
    (hε : ε = R.u * L ^ 2 / h) (hx : |x - t| ≤ 153 / 10 * ε + 25 * (R.u * L))
    (hP' : ‖P'.toE - (P.toE + x • d.toE)‖ ≤ R.u * (21 / 10 * x + 11 / 10 * L)) :
    ‖P'.toE - (P.toE + t • e)‖ ≤ 153 / 10 * ε + 34 * (R.u * L) ∧
      |‖C.toE - P'.toE‖ ^ 2 - ρ ^ 2| ≤ 31 * (R.u * L ^ 2) + 67 * (R.u * L * ρ) := by
  obtain ⟨z1, z2, z3, z4⟩ := H.sizes
  obtain ⟨u1, u2, u3, u4, u5, u6, u7, u8⟩ := H.units hε
  have hu := R.u_pos
  have ht := H.ahead
  have hh := H.steep
  have hρ := H.radius
  have hx' := abs_le.mp hx
  have ux : R.u * x ≤ 101 / 100 * (R.u * L) := by
    have : x ≤ 101 / 100 * L := by linarith
    nlinarith
  have hη : ‖(P'.toE - (P.toE + x • d.toE)) + x • (d.toE - e)‖ ≤ 83 / 10 * (R.u * L) := by
    have e2 := norm_add_le (P'.toE - (P.toE + x • d.toE)) (x • (d.toE - e))
    rw [_root_.norm_smul, Real.norm_of_nonneg (by linarith : 0 ≤ x)] at e2
    have e4 := mul_le_mul_of_nonneg_left hd (by linarith : 0 ≤ x)
    linarith
  have e1 : P'.toE - (P.toE + t • e) = ((P'.toE - (P.toE + x • d.toE)) + x • (d.toE - e)) + (x - t) • e := by
    rw [smul_sub, sub_smul]; abel
  set η := (P'.toE - (P.toE + x • d.toE)) + x • (d.toE - e) with hηd
  have hdist : ‖P'.toE - (P.toE + t • e)‖ ≤ 153 / 10 * ε + 34 * (R.u * L) := by
    rw [e1]
    have := norm_add_le η ((x - t) • e)
    rw [_root_.norm_smul, H.unit, mul_one, Real.norm_eq_abs] at this
    linarith
  refine ⟨hdist, ?_⟩
  have e5 : C.toE - P'.toE = (C.toE - (P.toE + t • e)) - (P'.toE - (P.toE + t • e)) := by abel
  have hn : ‖C.toE - (P.toE + t • e)‖ = ρ := by rw [norm_sub_rev]; exact H.on
  have e6 : inner ℝ (C.toE - (P.toE + t • e)) (P'.toE - (P.toE + t • e)) =
      inner ℝ (C.toE - (P.toE + t • e)) η + (x - t) * h := by
    rw [e1, inner_add_right, inner_smul_right, real_inner_comm e _, H.cosine]
  rw [e5, norm_sub_sq_real, hn, e6]
  have i1 : |inner ℝ (C.toE - (P.toE + t • e)) η| ≤ ρ * (83 / 10 * (R.u * L)) := by
    refine (abs_real_inner_le_norm _ _).trans ?_
    rw [hn]; exact mul_le_mul_of_nonneg_left hη (by linarith)
  have i2 : |(x - t) * h| ≤ 153 / 10 * (R.u * L ^ 2) + 25 * (R.u * L * ρ) := by
    rw [abs_mul, abs_of_pos (show 0 < h by linarith)]
    refine (mul_le_mul_of_nonneg_right hx (by linarith)).trans ?_
    rw [← u2]
    have : R.u * L * h ≤ R.u * L * ρ := mul_le_mul_of_nonneg_left z1 u3.le
    linarith
  have i3 : ‖P'.toE - (P.toE + t • e)‖ ^ 2 ≤ 1 / 100 * (R.u * L ^ 2) := by
    have a : ‖P'.toE - (P.toE + t • e)‖ ≤ 50 * ε := by linarith
    have b : ‖P'.toE - (P.toE + t • e)‖ ^ 2 ≤ (50 * ε) ^ 2 := pow_le_pow_left₀ (_root_.norm_nonneg _) a 2
    rw [← u2]
    have c : (50 * ε) ^ 2 ≤ 2500 * (1 / 10 ^ 13) * ε := by nlinarith
    have dd : ε * (1 / 1000) ≤ ε * h := mul_le_mul_of_nonneg_left hh u1.le
    linarith
  have i1' := abs_le.mp i1
  have i2' := abs_le.mp i2
  have i4 : 0 < R.u * L * ρ := by positivity
  have i5 : 0 < R.u * L ^ 2 := by positivity
  rw [abs_le]
  constructor
  · linarith [sq_nonneg ‖P'.toE - (P.toE + t • e)‖]
  · linarith

end Optics
