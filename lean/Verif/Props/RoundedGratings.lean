import Verif.Lemmas.RoundedGrating
import Verif.Props.RoundedRotations
import Verif.Props.RoundedSpecial
/-!
C110: gratings with rounded arithmetic.
-/

namespace Optics
open V3

variable {R : Rounding}

/-! ### The number `G / 1e6 * order * wavelength` -/

theorem rel_mul {x x' m A τ : ℝ} (hx : |x' - x| ≤ R.u * (A * |x| + τ)) (hA : 0 ≤ A) (hA' : A ≤ 10) (hτ : 0 ≤ τ) (hτ' : τ ≤ 1)
    (hX : |x| ≤ 10 ^ 100) (hm : |m| ≤ 10 ^ 100) :
    ∃ y, (Fl.fin x' : Fl R) * Fl.fin m = Fl.fin y ∧
      |y - x * m| ≤ R.u * ((A + 101 / 100) * |x * m| + (2 * τ * |m| + 1 / 10 ^ 250)) := by
  have hu := R.u_pos
  obtain ⟨h5, h6⟩ := five_u (R := R)
  have hxa := abs_nonneg x
  have hma := abs_nonneg m
  have d : |x' * m - x * m| ≤ R.u * (A * |x| + τ) * |m| := by
    rw [← sub_mul, abs_mul]; exact mul_le_mul_of_nonneg_right hx hma
  have s1 : R.u * (A * |x| + τ) * |m| = A * R.u * |x * m| + R.u * τ * |m| := by rw [abs_mul]; ring
  rw [s1] at d
  have b : |x' * m| ≤ |x * m| + (A * R.u * |x * m| + R.u * τ * |m|) := by
    have := abs_add_le (x' * m - x * m) (x * m)
    rw [sub_add_cancel] at this; linarith
  have hxm : |x * m| ≤ 10 ^ 200 := by
    rw [abs_mul]
    refine (mul_le_mul hX hm hma (by positivity)).trans_eq (by norm_num)
  have hxm0 := abs_nonneg (x * m)
  have q1 : A * R.u * |x * m| ≤ 1 / 100 * |x * m| := mul_le_mul_of_nonneg_right (by nlinarith) hxm0
  have q2 : R.u * τ * |m| ≤ 1 * |m| := mul_le_mul_of_nonneg_right (by nlinarith) hma
  have q3 : R.u * τ * |m| ≤ τ * |m| := mul_le_mul_of_nonneg_right (by nlinarith) hma
  obtain ⟨y, hy, ey⟩ := rnd_near (R := R) (x := x' * m) (e := |x * m| + (A * R.u * |x * m| + R.u * τ * |m|)) b (by
    have e1 : (101 / 100 : ℝ) * 10 ^ 200 + 10 ^ 100 ≤ 10 ^ 250 := by norm_num
    linarith)
  refine ⟨y, by rw [fl_mul, hy], ?_⟩
  have t := abs_add_le (y - x' * m) (x' * m - x * m)
  rw [sub_add_sub_cancel] at t
  have r1 : R.u * (|x * m| + (A * R.u * |x * m| + R.u * τ * |m|) + 1 / 10 ^ 250) ≤
      R.u * (|x * m| + (1 / 100 * |x * m| + τ * |m|) + 1 / 10 ^ 250) := mul_le_mul_of_nonneg_left (by linarith) hu.le
  have r2 : R.u * ((A + 101 / 100) * |x * m| + (2 * τ * |m| + 1 / 10 ^ 250)) =
      R.u * (|x * m| + (1 / 100 * |x * m| + τ * |m|) + 1 / 10 ^ 250) + (A * R.u * |x * m| + R.u * τ * |m|) := by ring
  rw [r2]
  linarith

/-- The computed `G / 1e6 * order * wavelength`. -/
theorem grating_number {G m wl : ℝ} (hG : |G| ≤ 10 ^ 20) (hm : |m| ≤ 10 ^ 20) (hw : |wl| ≤ 10 ^ 20) :
    ∃ K', (Fl.fin G : Fl R) / 1e6 * Fl.fin m * Fl.fin wl = Fl.fin K' ∧
      |K' - G / 1e6 * m * wl| ≤ R.u * (406 / 100 * |G / 1e6 * m * wl| + 1) := by
  have hu := R.u_pos
  obtain ⟨h5, h6⟩ := five_u (R := R)
  have l6 : (1e6 : ℝ) = 10 ^ 6 := by norm_num
  rw [l6]
  obtain ⟨l, hl, el⟩ := rnd_near (R := R) (x := 10 ^ 6) (e := 10 ^ 6) (by norm_num) (by norm_num)
  have hlit : (1e6 : Fl R) = Fl.fin l := by
    rw [fl_lit, show (OfScientific.ofScientific 1 false 6 : ℝ) = 10 ^ 6 by norm_num, hl]
  have el' : |l - 10 ^ 6| ≤ 10 ^ 6 * (1001 / 1000 * R.u) := by
    refine el.trans ?_
    have : R.u * ((10 : ℝ) ^ 6 + 1 / 10 ^ 250) ≤ R.u * (10 ^ 6 * (1001 / 1000)) := mul_le_mul_of_nonneg_left (by norm_num) hu.le
    linarith
  have hl1 : (10 : ℝ) ^ 6 * (999 / 1000) ≤ l := by
    have : (10 : ℝ) ^ 6 * (1001 / 1000 * R.u) ≤ 10 ^ 6 * (1 / 1000) := mul_le_mul_of_nonneg_left (by linarith) (by norm_num)
    linarith [(abs_le.mp el').1]
  have hlp : 0 < l := lt_of_lt_of_le (by norm_num) hl1
  obtain ⟨g, hg⟩ : ∃ g, g = G / 10 ^ 6 := ⟨_, rfl⟩
  have hg0 := abs_nonneg g
  have hg1 : |g| ≤ 10 ^ 20 := by
    rw [hg, abs_div, abs_of_pos (by positivity : (0 : ℝ) < 10 ^ 6), div_le_iff₀ (by positivity)]
    have : (10 : ℝ) ^ 20 * 1 ≤ 10 ^ 20 * 10 ^ 6 := by norm_num
    linarith
  have dl : |G / l - g| ≤ |g| * (101 / 100 * R.u) := by
    have e : G / l - g = g * (10 ^ 6 - l) / l := by rw [hg]; field_simp
    rw [e, abs_div, abs_mul, abs_of_pos hlp, div_le_iff₀ hlp, abs_sub_comm, mul_assoc]
    refine mul_le_mul_of_nonneg_left ?_ hg0
    have : 101 / 100 * R.u * ((10 : ℝ) ^ 6 * (999 / 1000)) ≤ 101 / 100 * R.u * l := mul_le_mul_of_nonneg_left hl1 (by positivity)
    linarith
  have bl : |G / l| ≤ 101 / 100 * |g| := by
    have := abs_add_le (G / l - g) g
    rw [sub_add_cancel] at this
    have : |g| * (101 / 100 * R.u) ≤ |g| * (1 / 100) := mul_le_mul_of_nonneg_left (by linarith) hg0
    linarith
  obtain ⟨g', hg', eg'⟩ := rnd_near (R := R) bl (by
    have : (101 / 100 : ℝ) * 10 ^ 20 ≤ 10 ^ 250 := by norm_num
    linarith)
  have eg : |g' - g| ≤ R.u * (203 / 100 * |g| + 1 / 10 ^ 250) := by
    have := abs_add_le (g' - G / l) (G / l - g)
    rw [sub_add_sub_cancel] at this
    have e : R.u * (203 / 100 * |g| + 1 / 10 ^ 250) = R.u * (101 / 100 * |g| + 1 / 10 ^ 250) + |g| * (102 / 100 * R.u) := by ring
    have e2 : |g| * (101 / 100 * R.u) ≤ |g| * (102 / 100 * R.u) := mul_le_mul_of_nonneg_left (by linarith) hg0
    linarith
  have big : (10 : ℝ) ^ 20 ≤ 10 ^ 100 := by norm_num
  obtain ⟨p, hp, ep⟩ := rel_mul (R := R) (m := m) eg (by norm_num) (by norm_num) (by positivity) (by norm_num) (hg1.trans big) (hm.trans big)
  have t1 : 2 * (1 / 10 ^ 250) * |m| + 1 / 10 ^ 250 ≤ 1 / (10 : ℝ) ^ 225 := by
    have : 2 * (1 / 10 ^ 250) * |m| ≤ 2 * (1 / (10 : ℝ) ^ 250) * 10 ^ 20 := mul_le_mul_of_nonneg_left hm (by positivity)
    have : 2 * (1 / (10 : ℝ) ^ 250) * 10 ^ 20 + 1 / 10 ^ 250 ≤ 1 / 10 ^ 225 := by norm_num
    linarith
  have ep' : |p - g * m| ≤ R.u * ((203 / 100 + 101 / 100) * |g * m| + 1 / 10 ^ 225) :=
    ep.trans (mul_le_mul_of_nonneg_left (by linarith) hu.le)
  have hgm : |g * m| ≤ 10 ^ 100 := by
    rw [abs_mul]
    refine (mul_le_mul hg1 hm (abs_nonneg _) (by positivity)).trans (by norm_num)
  obtain ⟨q, hq, eq⟩ := rel_mul (R := R) (m := wl) ep' (by norm_num) (by norm_num) (by positivity) (by norm_num) hgm (hw.trans big)
  refine ⟨q, ?_, ?_⟩
  · rw [hlit, fl_div _ _ hlp.ne', hg', hp, hq]
  · rw [← hg]
    refine eq.trans ?_
    have t2 : 2 * (1 / 10 ^ 225) * |wl| + 1 / 10 ^ 250 ≤ 1 / (10 : ℝ) ^ 100 := by
      have : 2 * (1 / 10 ^ 225) * |wl| ≤ 2 * (1 / (10 : ℝ) ^ 225) * 10 ^ 20 := mul_le_mul_of_nonneg_left hw (by positivity)
      have : 2 * (1 / (10 : ℝ) ^ 225) * 10 ^ 20 + 1 / 10 ^ 250 ≤ 1 / 10 ^ 100 := by norm_num
      linarith
    have t3 : (1 : ℝ) / 10 ^ 100 ≤ 1 := by norm_num
    exact mul_le_mul_of_nonneg_left (by linarith [abs_nonneg (g * m * wl)]) hu.le

/-! ### The direction -/

/-- Both angles of the code, computed with rounding. -/
theorem angles_near (hone : R.rnd 1 = .fin 1) {a A K K' B c ε : ℝ} (ha4 : |a| ≤ 4) (ha : |(|a|) - A| ≤ 384 * ε) (hε : 5 * R.u ≤ ε)
    (hK' : |K' - K| ≤ 10 * R.u) (hKa : |K| ≤ 2) (hBs : B = K - Real.sin A) (hB : |B| ≤ 1) (hcc : c = Real.cos (Real.arcsin B))
    (c0 : 0 < c) (εc : 1000 * ε ≤ c ^ 2) :
    ∃ b' β : ℝ, -(if (Fl.fin a : Fl R) < 0.0 then (-1.0 : Fl R) else 1.0) * Fl.fin a = Fl.fin b' ∧
      PyNum.arcsin ((Fl.fin K' : Fl R) - PyNum.sin ((if (Fl.fin a : Fl R) < 0.0 then (-1.0 : Fl R) else 1.0) * Fl.fin a)) = Fl.fin β ∧
      |β| ≤ 2 ∧ |b' + A| ≤ 385 * ε ∧ |β - Real.arcsin B| ≤ 1223 * (ε / c) + 2 * R.u := by
  have hu := R.u_pos
  obtain ⟨b, b', eb, eb', hb, hb'⟩ := sign_near (R := R) hone ha4 ha
  obtain ⟨y, ey, hy⟩ := sine_near (R := R) (ε := ε) (hb.trans (by linarith)) hK' (by linarith [(five_u (R := R)).2]) (by linarith)
  rw [← hBs] at hy
  have hy' : |y - B| ≤ 389 * ε := by
    have : (|K| + 21 / 10) * R.u ≤ 41 / 10 * R.u := mul_le_mul_of_nonneg_right (by linarith) hu.le
    linarith
  obtain ⟨β, eβ, hβ2, hββ⟩ := arcsin_near (R := R) hB hy' (by rw [← hcc]; linarith) (by rw [← hcc]; exact c0)
  rw [← hcc] at hββ
  refine ⟨b', β, eb', by rw [eb, ey, eβ], hβ2, by linarith, ?_⟩
  have ε0 : 0 ≤ ε := by linarith
  have k1 : Real.pi * (389 * ε) ≤ 1223 * ε := by nlinarith [Real.pi_lt_d4]
  have k2 : Real.pi * (389 * ε) / c ≤ 1223 * ε / c := div_le_div_of_nonneg_right k1 c0.le
  rw [mul_div_assoc 1223 ε c] at k2
  linarith

theorem total_error {ν ρ c ε u e1 e2 : ℝ} (hρ : 0 < ρ) (hρ1 : ρ ≤ 1) (c0 : 0 < c) (c1 : c ≤ 1) (hε : ε = ν / ρ) (hν : 0 ≤ ν)
    (hu : 5 * u ≤ ν) (h1 : e1 ≤ 385 * ε) (h2 : e2 ≤ 1223 * (ε / c) + 2 * u) : 857 * ν + e1 + e2 ≤ 2500 * ν / (ρ * c) := by
  have νε : ν ≤ ε := by rw [hε, le_div_iff₀ hρ]; nlinarith
  have k2 : ε ≤ ε / c := by rw [le_div_iff₀ c0]; nlinarith
  have k3 : 2500 * ν / (ρ * c) = 2500 * (ε / c) := by rw [hε]; field_simp
  rw [k3]
  linarith

/-- Which of the reals stay out of the code's way: the numbers of grating and ray are moderate, and the in-plane part of
the direction has a length that can be divided by. -/
structure GratingNumbers (G m wl ρ : ℝ) : Prop where
  lines : |G| ≤ 10 ^ 20
  order : |m| ≤ 10 ^ 20
  wavelength : |wl| ≤ 10 ^ 20
  length : 1 / 10 ^ 90 ≤ ρ

/-- The sine of the angle the grating equation asks for, as the code has it. -/
noncomputable def askedSine (N T D : V3 ℝ) (G m wl : ℝ) : ℝ := G / 1e6 * m * wl - inPlaneSine N T D

/-- **C110: the direction of the diffracted ray**, computed with rounding, is close to the exact one: within
`2500 ν / (ρ cos β)`, where `ν` is the error of the stored normal, `ρ` the length of the in-plane part of the ray's
direction and `β` the angle of diffraction. -/
theorem C110_direction (hone : R.rnd 1 = .fin 1) {n t N T d : V3 ℝ} {ν : ℝ} (S : StoredFrame R n t N T ν) (hν : ν ≤ 1 / 100000)
    (hd : SaneLength d) (G m wl : ℝ) (hnum : GratingNumbers G m wl (planeLength (unitVector d) T))
    (hs1 : |askedSine N T (unitVector d) G m wl| ≤ 1)
    (hs : 1000 * ν ≤ planeLength (unitVector d) T * (1 - askedSine N T (unitVector d) G m wl ^ 2)) :
    ∃ v : V3 ℝ, gratingDirection (d.fl : V3 (Fl R)) n.fl t.fl (Fl.fin G) (Fl.fin m) (Fl.fin wl) = v.fl ∧ NearUnit R v ∧
      ‖v.toE - (gratingDirection (unitVector d) N T G m wl).toE‖ ≤
        2500 * ν / (planeLength (unitVector d) T * Real.sqrt (1 - askedSine N T (unitVector d) G m wl ^ 2)) := by
  have hu := R.u_pos
  obtain ⟨h5, h6⟩ := five_u (R := R)
  have hN := S.normal_unit
  have hT := S.tangent_unit
  have hp := S.perp
  have hν5 := S.coarse
  obtain ⟨D, hDd⟩ : ∃ D, D = unitVector d := ⟨_, rfl⟩
  have hD : ‖D.toE‖ = 1 := by rw [hDd]; exact sane_unit hd
  rw [← hDd] at hnum hs1 hs ⊢
  obtain ⟨hG, hm, hwl, hρ'⟩ := hnum
  have hpos : 0 < planeLength D T := lt_of_lt_of_le (by positivity) hρ'
  have hρ1 := planeLength_le hD hT
  obtain ⟨K, hK⟩ : ∃ K, K = G / 1e6 * m * wl := ⟨_, rfl⟩
  obtain ⟨B, hB⟩ : ∃ B, B = askedSine N T D G m wl := ⟨_, rfl⟩
  have hBs : B = K - Real.sin |gratingAlpha D N T| := by
    rw [hB, hK]; unfold askedSine
    rw [inPlaneSine_eq (unit_dot_self hN) (unit_dot_self hT) hp (project_ne_zero hpos)]
  rw [← hB] at hs1 hs ⊢
  have hβ : gratingBeta D N T K = Real.arcsin B := by rw [hBs]; rfl
  have hc : Real.cos (Real.arcsin B) = Real.sqrt (1 - B ^ 2) := Real.cos_arcsin B
  have hB1 : 0 ≤ 1 - B ^ 2 := by rw [← sq_abs]; linarith only [pow_le_one₀ (n := 2) (abs_nonneg B) hs1]
  have hc2 : Real.cos (Real.arcsin B) ^ 2 = 1 - B ^ 2 := by rw [hc, Real.sq_sqrt hB1]
  obtain ⟨ρ, hρ⟩ : ∃ ρ, ρ = planeLength D T := ⟨_, rfl⟩
  obtain ⟨c, hcc⟩ : ∃ c, c = Real.cos (Real.arcsin B) := ⟨_, rfl⟩
  have hν0 : 0 < ν := by linarith
  have c0 : 0 < c := by
    rw [hcc, hc]; apply Real.sqrt_pos.mpr
    by_contra hle
    have : planeLength D T * (1 - B ^ 2) ≤ 0 := mul_nonpos_of_nonneg_of_nonpos hpos.le (not_lt.mp hle)
    linarith
  have c1 : c ≤ 1 := by rw [hcc]; exact Real.cos_le_one _
  rw [← hc2, ← hcc, ← hρ] at hs
  rw [← hc, ← hcc]
  have hKa : |K| ≤ 2 := by
    have e : K = B + Real.sin |gratingAlpha D N T| := by rw [hBs]; ring
    rw [e]
    exact (abs_add_le _ _).trans (by linarith [Real.abs_sin_le_one |gratingAlpha D N T|])
  obtain ⟨K', eK', hK'⟩ := grating_number (R := R) hG hm hwl
  rw [← hK] at hK'
  replace hK' : |K' - K| ≤ 10 * R.u := hK'.trans ((mul_le_mul_of_nonneg_left (by linarith only [hKa]) hu.le).trans_eq (mul_comm _ _))
  have hρν : 1000 * ν ≤ planeLength D T := by
    rw [← hρ]
    have : ρ * c ^ 2 ≤ ρ * 1 := mul_le_mul_of_nonneg_left (pow_le_one₀ c0.le c1) (by rw [hρ]; exact hpos.le)
    linarith
  obtain ⟨i1, n1, r, ei1, en1, di1, dn1, ni, nn, er, dr⟩ := mirrored_near S hν hd hDd hD
  obtain ⟨a, ea, ha4, ha⟩ := alpha_near (d := d) S hD di1 dn1 hρν hρ' ni nn
  rw [← hρ] at ha hpos hρ1
  obtain ⟨ε, hε⟩ : ∃ ε, ε = ν / ρ := ⟨_, rfl⟩
  rw [← hε] at ha
  have νε : ν ≤ ε := by rw [hε, le_div_iff₀ hpos]; exact mul_le_of_le_one_right hν0.le hρ1
  have εc : 1000 * ε ≤ c ^ 2 := by rw [hε, ← mul_div_assoc, div_le_iff₀ hpos]; linarith
  have ε1 : 1000 * ε ≤ 1 := εc.trans (pow_le_one₀ c0.le c1)
  obtain ⟨b', β, eb', eβ, hβ2, hb', hββ⟩ := angles_near (R := R) hone ha4 ha (by linarith) hK' hKa hBs hs1 hcc c0 εc
  obtain ⟨w, ew, dw, -⟩ := reunit_near (R := R) hT (sane_of_near (by
    have h1 := abs_norm_sub_norm_le t.toE T.toE
    rw [hT] at h1
    have := S.tangent
    linarith)) S.tangent
  have hal := abs_alpha_le (D := D) hN hT hp (by rw [← hρ]; exact hpos)
  have hb5 : |b'| ≤ 5 := by
    have h1 := abs_add_le (b' + |gratingAlpha D N T|) (-|gratingAlpha D N T|)
    rw [add_neg_cancel_right, abs_neg, abs_abs] at h1
    linarith [Real.pi_lt_d4]
  obtain ⟨v, ev, nv, dv⟩ := turns_near (R := R) (α' := -(|gratingAlpha D N T|)) (β' := Real.arcsin B) hT ew dw hν5 hν (mirrored_unit hD hN) dr hb5
    (hβ2.trans (by norm_num))
  refine ⟨v, ?_, nv, ?_⟩
  · unfold gratingDirection
    simp only [ei1, en1, ea, eb', er, eK', eβ]
    exact ev
  · rw [grating_rotations hD hN hT hp (by rw [← hρ]; exact hpos), ← hK, hβ]
    refine dv.trans ?_
    rw [sub_neg_eq_add, ← hρ]
    exact total_error hpos hρ1 c0 c1 hε hν0.le hν5 hb' hββ

/-- **C110: the component along the grooves is kept** to the same accuracy. -/
theorem C110_groove (hone : R.rnd 1 = .fin 1) {n t N T d : V3 ℝ} {ν : ℝ} (S : StoredFrame R n t N T ν) (hν : ν ≤ 1 / 100000)
    (hd : SaneLength d) (G m wl : ℝ) (hnum : GratingNumbers G m wl (planeLength (unitVector d) T))
    (hs1 : |askedSine N T (unitVector d) G m wl| ≤ 1)
    (hs : 1000 * ν ≤ planeLength (unitVector d) T * (1 - askedSine N T (unitVector d) G m wl ^ 2)) :
    ∃ v : V3 ℝ, gratingDirection (d.fl : V3 (Fl R)) n.fl t.fl (Fl.fin G) (Fl.fin m) (Fl.fin wl) = v.fl ∧
      |inner ℝ v.toE T.toE - inner ℝ d.dirE T.toE| ≤
        2500 * ν / (planeLength (unitVector d) T * Real.sqrt (1 - askedSine N T (unitVector d) G m wl ^ 2)) := by
  obtain ⟨v, hv, -, dv⟩ := C110_direction hone S hν hd G m wl hnum hs1 hs
  refine ⟨v, hv, ?_⟩
  have hpos : 0 < planeLength (unitVector d) T := lt_of_lt_of_le (by positivity) hnum.length
  have e : dot (gratingDirection (unitVector d) N T G m wl) T = dot (unitVector d) T := by
    rw [(grating_eq (unit_dot_self (sane_unit hd)) (unit_dot_self S.normal_unit) (unit_dot_self S.tangent_unit) S.perp
      (project_ne_zero hpos) G m wl).1, polar_dot_t (unit_dot_self S.tangent_unit) S.perp]
  rw [← unitVector_dirE]
  have h1 := abs_real_inner_le_norm (v.toE - (gratingDirection (unitVector d) N T G m wl).toE) T.toE
  rw [inner_sub_left, S.tangent_unit, mul_one, inner_toE (gratingDirection _ _ _ _ _ _), e, ← inner_toE] at h1
  exact h1.trans dv

/-- **C110: the grating equation holds** to the same accuracy for a ray that meets the front of the grating from the side
where it holds exactly (see `C37_grating_equation_partial`): the component across the grooves, in the plane of the grating,
changes by `G/1e6 · order · wavelength` times the length of the in-plane part. Missing is the other side, where it fails
even without rounding. -/
theorem C110_equation_partial (hone : R.rnd 1 = .fin 1) {n t N T d : V3 ℝ} {ν : ℝ} (S : StoredFrame R n t N T ν) (hν : ν ≤ 1 / 100000)
    (hd : SaneLength d) (G m wl : ℝ) (hnum : GratingNumbers G m wl (planeLength (unitVector d) T))
    (hs1 : |askedSine N T (unitVector d) G m wl| ≤ 1)
    (hs : 1000 * ν ≤ planeLength (unitVector d) T * (1 - askedSine N T (unitVector d) G m wl ^ 2))
    (hfront : inner ℝ d.dirE N.toE < 0) (hside : 0 ≤ inner ℝ d.dirE (cross T N).toE) :
    ∃ v : V3 ℝ, gratingDirection (d.fl : V3 (Fl R)) n.fl t.fl (Fl.fin G) (Fl.fin m) (Fl.fin wl) = v.fl ∧
      |(inner ℝ d.dirE (cross T N).toE - inner ℝ v.toE (cross T N).toE) - planeLength (unitVector d) T * (G / 1e6 * m * wl)| ≤
        2500 * ν / (planeLength (unitVector d) T * Real.sqrt (1 - askedSine N T (unitVector d) G m wl ^ 2)) ∧
      |inner ℝ v.toE N.toE - planeLength (unitVector d) T * Real.sqrt (1 - askedSine N T (unitVector d) G m wl ^ 2)| ≤
        2500 * ν / (planeLength (unitVector d) T * Real.sqrt (1 - askedSine N T (unitVector d) G m wl ^ 2)) := by
  obtain ⟨v, hv, -, dv⟩ := C110_direction hone S hν hd G m wl hnum hs1 hs
  refine ⟨v, hv, ?_⟩
  have hpos : 0 < planeLength (unitVector d) T := lt_of_lt_of_le (by positivity) hnum.length
  have hD := unit_dot_self (sane_unit hd)
  have hN := unit_dot_self S.normal_unit
  have hT := unit_dot_self S.tangent_unit
  have hp := S.perp
  have p0 := project_ne_zero hpos
  rw [← unitVector_dirE] at hfront hside ⊢
  have M : MeetsGrating (unitVector d) N T := ⟨sane_unit hd, S.normal_unit, S.tangent_unit, by rw [inner_toE]; exact hp, hfront⟩
  obtain ⟨he, -⟩ := grating_eq hD hN hT hp p0 G m wl
  obtain ⟨-, hlo, hhi, hb⟩ := M.angle
  have hsine : askedSine N T (unitVector d) G m wl = G / 1e6 * m * wl - Real.sin |gratingAlpha (unitVector d) N T| := by
    unfold askedSine; rw [inPlaneSine_eq hN hT hp p0]
  rw [inner_toE, hb] at hside
  have hsin : Real.sin (gratingAlpha (unitVector d) N T) ≤ 0 := by nlinarith
  have hα : gratingAlpha (unitVector d) N T ≤ 0 := by
    by_contra hcon
    have := Real.sin_pos_of_pos_of_lt_pi (not_le.mp hcon) (by linarith [Real.pi_pos])
    linarith
  have hβ : Real.sin (gratingBeta (unitVector d) N T (G / 1e6 * m * wl)) = askedSine N T (unitVector d) G m wl := by
    unfold gratingBeta
    rw [← hsine]
    exact Real.sin_arcsin (abs_le.mp hs1).1 (abs_le.mp hs1).2
  have hβc : Real.cos (gratingBeta (unitVector d) N T (G / 1e6 * m * wl)) = Real.sqrt (1 - askedSine N T (unitVector d) G m wl ^ 2) := by
    unfold gratingBeta
    rw [← hsine, Real.cos_arcsin]
  rw [show -gratingAlpha (unitVector d) N T - |gratingAlpha (unitVector d) N T| - gratingBeta (unitVector d) N T (G / 1e6 * m * wl) =
    -gratingBeta (unitVector d) N T (G / 1e6 * m * wl) by rw [abs_of_nonpos hα]; ring] at he
  have e1 : dot (gratingDirection (unitVector d) N T G m wl) (cross T N) =
      dot (unitVector d) (cross T N) - planeLength (unitVector d) T * (G / 1e6 * m * wl) := by
    rw [he, polar_dot_b hN hT hp, Real.sin_neg, hβ, hb, hsine, abs_of_nonpos hα, Real.sin_neg]
    ring
  have e2 : dot (gratingDirection (unitVector d) N T G m wl) N =
      planeLength (unitVector d) T * Real.sqrt (1 - askedSine N T (unitVector d) G m wl ^ 2) := by
    rw [he, polar_dot_n hN hp, Real.cos_neg, hβc]
  have nb : ‖(cross T N).toE‖ = 1 := by
    rw [norm_toE, norm_eq, (cross_perp hN hT hp).1, Real.sqrt_one]
  constructor
  · have h1 := abs_real_inner_le_norm (v.toE - (gratingDirection (unitVector d) N T G m wl).toE) (cross T N).toE
    rw [inner_sub_left, nb, mul_one, inner_toE (gratingDirection _ _ _ _ _ _), e1, ← inner_toE] at h1
    refine le_trans (le_of_eq ?_) (h1.trans dv)
    rw [← abs_neg]; congr 1; ring
  · have h1 := abs_real_inner_le_norm (v.toE - (gratingDirection (unitVector d) N T G m wl).toE) N.toE
    rw [inner_sub_left, S.normal_unit, mul_one, inner_toE (gratingDirection _ _ _ _ _ _), e2] at h1
    exact h1.trans dv

/-! ### Orders that do not exist -/

/-- The vector of three `nan`s. -/
def V3.flNan : V3 (Fl R) := ⟨⟨.nan⟩, ⟨.nan⟩, ⟨.nan⟩⟩

theorem flnan_add (x : Fl R) : (⟨.nan⟩ : Fl R) + x = ⟨.nan⟩ := by
  show (⟨R.apply (XR.nan + x.val)⟩ : Fl R) = _; rw [XR.nan_add]; rfl
theorem flnan_sub (x : Fl R) : (⟨.nan⟩ : Fl R) - x = ⟨.nan⟩ := by
  show (⟨R.apply (XR.nan - x.val)⟩ : Fl R) = _; rw [XR.nan_sub]; rfl
theorem flnan_mul (x : Fl R) : (⟨.nan⟩ : Fl R) * x = ⟨.nan⟩ := by
  show (⟨R.apply (XR.nan * x.val)⟩ : Fl R) = _; rw [XR.nan_mul]; rfl
theorem fl_mul_nan' (x : Fl R) : x * (⟨.nan⟩ : Fl R) = ⟨.nan⟩ := by
  show (⟨R.apply (x.val * XR.nan)⟩ : Fl R) = _; rw [XR.mul_nan]; rfl
theorem flnan_div (x : Fl R) : (⟨.nan⟩ : Fl R) / x = ⟨.nan⟩ := by
  show (⟨R.apply (XR.nan / x.val)⟩ : Fl R) = _; rw [XR.nan_div]; rfl

theorem flnan_axisAngle (k v : V3 (Fl R)) : M3.mulVec (rotationMatrixAxisAngle k ⟨.nan⟩) v = V3.flNan := by
  have hc : PyNum.cos (⟨.nan⟩ : Fl R) = ⟨.nan⟩ := rfl
  have hs : PyNum.sin (⟨.nan⟩ : Fl R) = ⟨.nan⟩ := rfl
  unfold rotationMatrixAxisAngle
  simp only [flnan_div, hc, hs, fl_mul_nan', flnan_mul, flnan_add, flnan_sub, M3.mulVec, dot, V3.flNan]

theorem flnan_unit : unitVector (V3.flNan : V3 (Fl R)) = V3.flNan := by
  unfold unitVector
  show (⟨_ / _, _ / _, _ / _⟩ : V3 (Fl R)) = _
  simp only [V3.flNan, flnan_div]

/-- **C110: an order that does not exist gives a direction of three `nan`s**, not an error and not a blocked ray, if the
sine the grating equation asks for is out of range by more than the rounding. -/
theorem C110_evanescent (hone : R.rnd 1 = .fin 1) {n t N T d : V3 ℝ} {ν : ℝ} (S : StoredFrame R n t N T ν) (hν : ν ≤ 1 / 100000)
    (hd : SaneLength d) (G m wl : ℝ) (hnum : GratingNumbers G m wl (planeLength (unitVector d) T)) (hK : |G / 1e6 * m * wl| ≤ 100)
    (hρ : 1000 * ν ≤ planeLength (unitVector d) T)
    (hs : 1 + 500 * (ν / planeLength (unitVector d) T) < |askedSine N T (unitVector d) G m wl|) :
    gratingDirection (d.fl : V3 (Fl R)) n.fl t.fl (Fl.fin G) (Fl.fin m) (Fl.fin wl) = V3.flNan := by
  have hu := R.u_pos
  obtain ⟨h5, h6⟩ := five_u (R := R)
  have hN := S.normal_unit
  have hT := S.tangent_unit
  have hp := S.perp
  have hν5 := S.coarse
  obtain ⟨D, hDd⟩ : ∃ D, D = unitVector d := ⟨_, rfl⟩
  have hD : ‖D.toE‖ = 1 := by rw [hDd]; exact sane_unit hd
  rw [← hDd] at hnum hs hρ
  obtain ⟨hG, hm, hwl, hρ'⟩ := hnum
  have hpos : 0 < planeLength D T := lt_of_lt_of_le (by positivity) hρ'
  have hρ1 := planeLength_le hD hT
  obtain ⟨K', eK', hK'⟩ := grating_number (R := R) hG hm hwl
  have hBs : askedSine N T D G m wl = G / 1e6 * m * wl - Real.sin |gratingAlpha D N T| := by
    unfold askedSine
    rw [inPlaneSine_eq (unit_dot_self hN) (unit_dot_self hT) hp (project_ne_zero hpos)]
  obtain ⟨K, hKK⟩ : ∃ K, K = G / 1e6 * m * wl := ⟨_, rfl⟩
  rw [← hKK] at hBs hK' hK
  have hK'' : |K' - K| ≤ 407 * R.u := hK'.trans ((mul_le_mul_of_nonneg_left (by linarith only [hK]) hu.le).trans_eq (mul_comm _ _))
  obtain ⟨i1, n1, r, ei1, en1, di1, dn1, ni, nn, er, dr⟩ := mirrored_near S hν hd hDd hD
  obtain ⟨a, ea, ha4, ha⟩ := alpha_near (d := d) S hD di1 dn1 hρ hρ' ni nn
  obtain ⟨ε, hε⟩ : ∃ ε, ε = ν / planeLength D T := ⟨_, rfl⟩
  rw [← hε] at ha hs
  have νε : ν ≤ ε := by rw [hε, le_div_iff₀ hpos]; nlinarith
  obtain ⟨b, b', eb, eb', hb, hb'⟩ := sign_near (R := R) hone ha4 ha
  obtain ⟨y, ey, hy⟩ := sine_near (R := R) (ε := ε) (hb.trans (by linarith)) hK'' (by linarith) (by linarith)
  rw [← hBs] at hy
  have hy1 : 1 < |y| := by
    have h1 := abs_sub_abs_le_abs_sub (askedSine N T D G m wl) y
    rw [abs_sub_comm] at h1
    have h2 : (|K| + 21 / 10) * R.u ≤ 103 * R.u := mul_le_mul_of_nonneg_right (by linarith) hu.le
    linarith
  unfold gratingDirection
  simp only [ei1, en1, ea, eb, eK', ey, fl_arcsin_out hy1]
  rw [show (-(⟨.nan⟩ : Fl R)) = ⟨.nan⟩ from rfl, flnan_axisAngle, flnan_unit]

/-! ### The grating object -/

/-- What `Grating.__init__` stores of a normal and a tangent, when the normal that was handed over is within `δ` of being
perpendicular to the tangent. -/
theorem C110_built {position : V3 (Fl R)} {n₀ t₀ N : V3 ℝ} {w h G : Option (Fl R)} {g : Grating (Fl R)} {δ : ℝ}
    (hg : Grating.new position n₀.fl t₀.fl "rectangular_flat" w h G = .ok g) (hn : SaneLength n₀) (ht : SaneLength t₀)
    (hN : ‖N.toE‖ = 1) (hp : dot N t₀ = 0) (hδ : ‖n₀.dirE - N.toE‖ ≤ δ) :
    g.position = position ∧ g.G = G ∧ ∃ n t : V3 ℝ, g.normal = n.fl ∧ g.tangent = t.fl ∧
      StoredFrame R n t N (unitVector t₀) (δ + 5 * R.u) := by
  obtain ⟨n, en, dn⟩ := unitVector_near (R := R) hn
  obtain ⟨t, et, dt⟩ := unitVector_near (R := R) ht
  unfold Grating.new at hg
  simp only [if_true, bind, Except.bind, pure, Except.pure] at hg
  cases hr : Rectangle.new position (n₀.fl : V3 (Fl R)) t₀.fl h w with
  | error e => rw [hr] at hg; cases hg
  | ok r =>
    rw [hr] at hg
    cases hg
    refine ⟨rfl, rfl, n, t, en, et, hN, sane_unit ht, ?_, ?_, by rw [unitVector_dirE]; exact dt, ?_⟩
    · rw [← inner_toE, unitVector_dirE, V3.dirE, inner_smul_right, inner_toE, hp, mul_zero]
    · have := norm_sub_le_norm_sub_add_norm_sub n.toE n₀.dirE N.toE
      linarith
    · have := _root_.norm_nonneg (n₀.dirE - N.toE)
      linarith

/-- **C110: what `Grating.do_intersect` does** to a ray of an order other than zero: only the direction changes, and the new
one is the exact one up to rounding. -/
theorem C110_do_intersect (hone : R.rnd 1 = .fin 1) {n t N T d : V3 ℝ} {ν : ℝ} (S : StoredFrame R n t N T ν) (hν : ν ≤ 1 / 100000)
    (hd : SaneLength d) (G m wl : ℝ) (hm : m ≠ 0) (hnum : GratingNumbers G m wl (planeLength (unitVector d) T))
    (hs1 : |askedSine N T (unitVector d) G m wl| ≤ 1)
    (hs : 1000 * ν ≤ planeLength (unitVector d) T * (1 - askedSine N T (unitVector d) G m wl ^ 2))
    {g : Grating (Fl R)} (hgt : g.tangent = t.fl) (hgG : g.G = some (Fl.fin G)) {ray : Ray (Fl R)} (hrd : ray.direction = d.fl)
    (hrm : ray.order = Fl.fin m) (hrw : ray.wavelength = Fl.fin wl) (pt : V3 (Fl R)) :
    ∃ v : V3 ℝ, g.doIntersect ray pt (some n.fl) = .ok { ray with direction := v.fl } ∧ NearUnit R v ∧
      ‖v.toE - (gratingDirection (unitVector d) N T G m wl).toE‖ ≤
        2500 * ν / (planeLength (unitVector d) T * Real.sqrt (1 - askedSine N T (unitVector d) G m wl ^ 2)) := by
  obtain ⟨v, hv, h1, h2⟩ := C110_direction hone S hν hd G m wl hnum hs1 hs
  refine ⟨v, ?_, h1, h2⟩
  rw [← hv]
  unfold Grating.doIntersect Ray.reflect
  rw [hrm, fl_lit0, fl_eqb, decide_eq_false hm]
  simp [hgt, hgG, hrd, hrm, hrw, need, bind, Except.bind, pure, Except.pure]

/-- A grating stored without error, and a ray that falls on it perpendicularly. -/
theorem plain_grating (R : Rounding) : StoredFrame R ⟨0, -1, 0⟩ ⟨0, 0, 1⟩ ⟨0, -1, 0⟩ ⟨0, 0, 1⟩ (5 * R.u) := by
  have hu := R.u_pos
  refine ⟨?_, ?_, by simp [dot], by rw [sub_self, norm_zero]; linarith, by rw [sub_self, norm_zero]; linarith, le_rfl⟩
  · rw [norm_toE]; simp [V3.norm, dot]
  · rw [norm_toE]; simp [V3.norm, dot]

theorem plain_ray : SaneLength ⟨0, 1, 0⟩ ∧ unitVector (⟨0, 1, 0⟩ : V3 ℝ) = ⟨0, 1, 0⟩ ∧ planeLength ⟨0, 1, 0⟩ ⟨0, 0, 1⟩ = 1 ∧
    ∀ G m wl, askedSine ⟨0, -1, 0⟩ ⟨0, 0, 1⟩ ⟨0, 1, 0⟩ G m wl = G / 1e6 * m * wl := by
  have e : ‖(⟨0, 1, 0⟩ : V3 ℝ).toE‖ = 1 := by rw [norm_toE]; simp [V3.norm, dot]
  refine ⟨sane_of_near (by rw [e]; norm_num), ?_, ?_, ?_⟩
  · ext <;> simp [unitVector, V3.norm, dot]
  · rw [planeLength_eq _ (by rw [norm_toE]; simp [V3.norm, dot]), inner_toE]
    simp [dot, e]
  · intro G m wl
    unfold askedSine inPlaneSine
    rw [inner_toE]
    simp [dot, cross]

/-- With doubles: 600 lines per millimetre, first order, 500 nm, perpendicular incidence: the sine of the angle of
diffraction is 0.3, to within 1e-11. -/
example : ∃ v : V3 ℝ, gratingDirection (V3.fl ⟨0, 1, 0⟩ : V3 D64) (V3.fl ⟨0, -1, 0⟩) (V3.fl ⟨0, 0, 1⟩) (Fl.fin 600) (Fl.fin 1) (Fl.fin 500) = v.fl ∧
    |v.x + 3 / 10| ≤ 1 / 10 ^ 11 ∧ 0 < -v.y := by
  obtain ⟨h1, h2, h3, h4⟩ := plain_ray
  have hu : binary64.u = 1 / 2 ^ 53 := rfl
  have hq : (1 : ℝ) / 2 ≤ Real.sqrt (1 - (600 / 1e6 * 1 * 500) ^ 2) := by
    apply Real.le_sqrt_of_sq_le; norm_num
  have hbound : 2500 * (5 * binary64.u) / (1 * Real.sqrt (1 - (600 / 1e6 * 1 * 500) ^ 2)) ≤ 1 / 10 ^ 11 := by
    rw [hu, div_le_iff₀ (by linarith)]
    norm_num at hq ⊢
    linarith
  obtain ⟨v, hv, a, b⟩ := C110_equation_partial (R := binary64) binary64_one (plain_grating _) (by rw [hu]; norm_num) h1 600 1 500
    ⟨by norm_num, by norm_num, by norm_num, by rw [h2, h3]; norm_num⟩ (by rw [h2, h4]; norm_num [abs_le])
    (by rw [h2, h3, h4, hu]; norm_num) (by rw [← unitVector_dirE, h2, inner_toE]; norm_num [dot])
    (by rw [← unitVector_dirE, h2, inner_toE]; norm_num [dot, cross])
  rw [h2, h3, h4, ← unitVector_dirE, h2] at a
  rw [h2, h3, h4] at b
  refine ⟨v, hv, ?_, ?_⟩
  · have := a.trans hbound
    rw [inner_toE, inner_toE] at this
    norm_num [dot, cross] at this ⊢
    rw [show v.x + 3 / 10 = -(-v.x - 3 / 10) by ring, abs_neg]
    exact this
  · have := abs_le.mp (b.trans hbound)
    rw [inner_toE] at this
    norm_num [dot] at this
    norm_num at hq
    linarith [this.1]

/-- With doubles: 2000 lines per millimetre ask for a sine of 1.2: the direction is made of nans. -/
example : gratingDirection (V3.fl ⟨0, 1, 0⟩ : V3 D64) (V3.fl ⟨0, -1, 0⟩) (V3.fl ⟨0, 0, 1⟩) (Fl.fin 2000) (Fl.fin 1) (Fl.fin 600) = V3.flNan := by
  obtain ⟨h1, h2, h3, h4⟩ := plain_ray
  have hu : binary64.u = 1 / 2 ^ 53 := rfl
  exact C110_evanescent (R := binary64) binary64_one (plain_grating _) (by rw [hu]; norm_num) h1 2000 1 600
    ⟨by norm_num, by norm_num, by norm_num, by rw [h2, h3]; norm_num⟩ (by norm_num [abs_le])
    (by rw [h2, h3, hu]; norm_num) (by rw [h2, h3, h4, hu]; norm_num [abs_of_pos])

end Optics
