import Verif.Lemmas.RoundedRotation
import Verif.Props.RoundedRotations
import Verif.Lemmas.RoundedAngle
/-!
Bounds for `rotation_matrix2` computed with rounded arithmetic. Used by `Props/RoundedAlignment.lean`.
-/

namespace Optics
open V3

variable {R : Rounding}

/-- The rows and columns of the skew matrix of a vector. -/
def skewRow0 (v : V3 ℝ) : V3 ℝ := ⟨0, -v.z, v.y⟩
def skewRow1 (v : V3 ℝ) : V3 ℝ := ⟨v.z, 0, -v.x⟩
def skewRow2 (v : V3 ℝ) : V3 ℝ := ⟨-v.y, v.x, 0⟩

/-- One plus the skew matrix plus its square divided by `q`. -/
noncomputable def alignMat (v : V3 ℝ) (q : ℝ) : M3 ℝ :=
  ⟨⟨1 + 0 + dot (skewRow0 v) (-skewRow0 v) / q, 0 + -v.z + dot (skewRow0 v) (-skewRow1 v) / q, 0 + v.y + dot (skewRow0 v) (-skewRow2 v) / q⟩,
   ⟨0 + v.z + dot (skewRow1 v) (-skewRow0 v) / q, 1 + 0 + dot (skewRow1 v) (-skewRow1 v) / q, 0 + -v.x + dot (skewRow1 v) (-skewRow2 v) / q⟩,
   ⟨0 + -v.y + dot (skewRow2 v) (-skewRow0 v) / q, 0 + v.x + dot (skewRow2 v) (-skewRow1 v) / q, 1 + 0 + dot (skewRow2 v) (-skewRow2 v) / q⟩⟩

theorem skew_dist (v w : V3 ℝ) : ‖(skewRow0 v).toE - (skewRow0 w).toE‖ ≤ ‖v.toE - w.toE‖ ∧
    ‖(skewRow1 v).toE - (skewRow1 w).toE‖ ≤ ‖v.toE - w.toE‖ ∧ ‖(skewRow2 v).toE - (skewRow2 w).toE‖ ≤ ‖v.toE - w.toE‖ := by
  have h0 := _root_.norm_nonneg (v.toE - w.toE)
  have hs := normE_sq (v - w)
  rw [toE_sub] at hs
  simp only [sub_x, sub_y, sub_z] at hs
  refine ⟨?_, ?_, ?_⟩ <;> refine le_of_sq_le_sq ?_ h0 <;> rw [hs, ← toE_sub, normE_sq] <;>
    simp only [skewRow0, skewRow1, skewRow2, sub_x, sub_y, sub_z] <;>
    nlinarith [sq_nonneg (v.x - w.x), sq_nonneg (v.y - w.y), sq_nonneg (v.z - w.z)]

theorem skew_norm (v : V3 ℝ) : ‖(skewRow0 v).toE‖ ≤ ‖v.toE‖ ∧ ‖(skewRow1 v).toE‖ ≤ ‖v.toE‖ ∧ ‖(skewRow2 v).toE‖ ≤ ‖v.toE‖ := by
  have h0 := _root_.norm_nonneg v.toE
  have hs := normE_sq v
  refine ⟨?_, ?_, ?_⟩ <;> refine le_of_sq_le_sq ?_ h0 <;> rw [hs, normE_sq] <;>
    simp only [skewRow0, skewRow1, skewRow2] <;>
    nlinarith [sq_nonneg v.x, sq_nonneg v.y, sq_nonneg v.z]

/-- One entry of the matrix. -/
theorem align_entry {r c r' c' : V3 ℝ} {i i' k k' q q' : ℝ} (hr : ‖r.toE - r'.toE‖ ≤ 16 * R.u) (hc : ‖c.toE - c'.toE‖ ≤ 16 * R.u)
    (hr1 : ‖r'.toE‖ ≤ 1) (hc1 : ‖c'.toE‖ ≤ 1) (hs : |dot r' c'| ≤ 2 * q') (hi : |i - i'| ≤ 11 / 10 * R.u) (hi1 : |i' + k'| ≤ 1)
    (hk : |k - k'| ≤ 16 * R.u) (hq : |q - q'| ≤ 18 * R.u) (hq' : 40000 * R.u ≤ q') (hq2 : q' ≤ 2) :
    ∃ y, Fl.fin i + Fl.fin k + dot (r.fl : V3 (Fl R)) c.fl / Fl.fin q = Fl.fin y ∧ |y - (i' + k' + dot r' c' / q')| ≤ 130 * R.u / q' := by
  have hu := R.u_pos
  obtain ⟨h5, h6⟩ := five_u (R := R)
  have hq0 : 0 < q' := by linarith
  have huq : R.u ≤ 2 * (R.u / q') := by
    rw [mul_div_assoc', le_div_iff₀ hq0]; nlinarith
  have nr : ‖r.toE‖ ≤ 1 + 16 * R.u := by
    have := norm_add_le (r.toE - r'.toE) r'.toE
    rw [sub_add_cancel] at this; linarith
  have nc : ‖c.toE‖ ≤ 1 + 16 * R.u := by
    have := norm_add_le (c.toE - c'.toE) c'.toE
    rw [sub_add_cancel] at this; linarith
  have h16 : 16 * R.u ≤ 1 / 1000 := by linarith
  have nrc : ‖r.toE‖ * ‖c.toE‖ ≤ 101 / 100 := by
    have := mul_le_mul (nr.trans (by linarith : 1 + 16 * R.u ≤ 1001 / 1000)) (nc.trans (by linarith : 1 + 16 * R.u ≤ 1001 / 1000))
      (_root_.norm_nonneg _) (by norm_num)
    linarith
  obtain ⟨s, es, hs2⟩ := dot_near' (R := R) nrc (by norm_num) (by norm_num)
  have ds : |s - dot r' c'| ≤ 36 * R.u := by
    have e1 : inner ℝ r.toE c.toE - dot r' c' = inner ℝ (r.toE - r'.toE) c.toE + inner ℝ r'.toE (c.toE - c'.toE) := by
      rw [← inner_toE, inner_sub_left, inner_sub_right]; ring
    have a1 := abs_real_inner_le_norm (r.toE - r'.toE) c.toE
    have a2 := abs_real_inner_le_norm r'.toE (c.toE - c'.toE)
    have a3 := mul_le_mul hr (nc.trans (by linarith : 1 + 16 * R.u ≤ 1001 / 1000)) (_root_.norm_nonneg _) (by positivity)
    have a4 := mul_le_mul hr1 hc (_root_.norm_nonneg _) (by norm_num)
    have a5 := abs_add_le (s - inner ℝ r.toE c.toE) (inner ℝ r.toE c.toE - dot r' c')
    rw [sub_add_sub_cancel] at a5
    have a6 := abs_add_le (inner ℝ (r.toE - r'.toE) c.toE) (inner ℝ r'.toE (c.toE - c'.toE))
    rw [← e1] at a6
    linarith
  have hqlo : 99 / 100 * q' ≤ q := by linarith [(abs_le.mp hq).1]
  have hqp : 0 < q := by linarith
  have dq : |s / q - dot r' c' / q'| ≤ 74 * (R.u / q') := by
    have e1 : s / q - dot r' c' / q' = (s - dot r' c') / q + dot r' c' / q' * ((q' - q) / q) := by field_simp; ring
    rw [e1]
    have b1 : |(s - dot r' c') / q| ≤ 36 * R.u / (99 / 100 * q') := by
      rw [abs_div, abs_of_pos hqp]
      exact div_le_div₀ (by positivity) ds (by positivity) hqlo
    have b2 : |dot r' c' / q'| ≤ 2 := by
      rw [abs_div, abs_of_pos hq0, div_le_iff₀ hq0]; exact hs
    have b3 : |(q' - q) / q| ≤ 18 * R.u / (99 / 100 * q') := by
      rw [abs_div, abs_of_pos hqp, abs_sub_comm]
      exact div_le_div₀ (by positivity) hq (by positivity) hqlo
    have b4 := mul_le_mul b2 b3 (abs_nonneg _) (by norm_num)
    rw [← abs_mul] at b4
    have b5 := abs_add_le ((s - dot r' c') / q) (dot r' c' / q' * ((q' - q) / q))
    have e2 : 36 * R.u / (99 / 100 * q') = 3600 / 99 * (R.u / q') := by field_simp; norm_num
    have e3 : 18 * R.u / (99 / 100 * q') = 1800 / 99 * (R.u / q') := by field_simp; norm_num
    rw [e2] at b1
    rw [e3] at b4
    have : 0 ≤ R.u / q' := by positivity
    linarith
  have huq' : R.u / q' ≤ 1 / 40000 := by rw [div_le_iff₀ hq0]; linarith
  have hsq : |dot r' c' / q'| ≤ 2 := by
    rw [abs_div, abs_of_pos hq0, div_le_iff₀ hq0]; exact hs
  obtain ⟨t, et, ht⟩ := rnd_mid (R := R) (x := s / q) (e := 201 / 100) (by
    have := abs_add_le (s / q - dot r' c' / q') (dot r' c' / q')
    rw [sub_add_cancel] at this; linarith) (by norm_num)
  have dt : |t - dot r' c' / q'| ≤ 74 * (R.u / q') + 202 / 100 * R.u := by
    have := abs_add_le (t - s / q) (s / q - dot r' c' / q')
    rw [sub_add_sub_cancel] at this; linarith
  obtain ⟨p, ep, hp⟩ := sum_near (R := R) hi hk hi1 (by norm_num) (by linarith) (by linarith)
  obtain ⟨y, ey, hy⟩ := sum_near (R := R) hp dt (X := 3) (by
    have := abs_add_le (i' + k') (dot r' c' / q'); linarith) (by norm_num) (by linarith) (by linarith)
  refine ⟨y, by rw [es, fl_div _ _ hqp.ne', ep, et]; exact ey, hy.trans ?_⟩
  rw [mul_div_assoc]
  linarith

theorem neg_fl (v : V3 ℝ) : (-(v.fl : V3 (Fl R))) = (-v).fl := rfl

/-- **The matrix of `rotation_matrix2`** away from the branch for parallel vectors. -/
theorem align_near {v v' : V3 ℝ} {c q' : ℝ} (hv : ‖v.toE - v'.toE‖ ≤ 16 * R.u) (hv1 : ‖v'.toE‖ ≤ 1) (hs : ‖v'.toE‖ ^ 2 ≤ 2 * q')
    (hc : |c - (q' - 1)| ≤ 139 / 10 * R.u) (hq' : 40000 * R.u ≤ q') (hq2 : q' ≤ 2) :
    ∃ M : M3 ℝ, (let skew : M3 (Fl R) := ⟨⟨0.0, -Fl.fin v.z, Fl.fin v.y⟩, ⟨Fl.fin v.z, 0.0, -Fl.fin v.x⟩, ⟨-Fl.fin v.y, Fl.fin v.x, 0.0⟩⟩
      M3.eye + skew + M3.mul skew skew / (1.0 + Fl.fin c : Fl R)) = M.fl ∧ M.Close (alignMat v' q') (130 * R.u / q') := by
  have hu := R.u_pos
  obtain ⟨h5, h6⟩ := five_u (R := R)
  obtain ⟨o, eo, ho⟩ := rnd_mid (R := R) (x := 1) (e := 1) (by norm_num) (by norm_num)
  have l1 : (1.0 : Fl R) = Fl.fin o := by
    rw [fl_lit, show (OfScientific.ofScientific 10 true 1 : ℝ) = 1 by norm_num, eo]; rfl
  have ho' : |o - 1| ≤ 11 / 10 * R.u := by linarith
  obtain ⟨q, eq, hq⟩ := sum_near (R := R) ho' hc (X := 2) (by
    rw [show 1 + (q' - 1) = q' by ring, abs_of_pos (by linarith)]; exact hq2) (by norm_num) (by linarith) (by linarith)
  have hq1 : |q - q'| ≤ 17 * R.u + R.u / 50 := by
    rw [show 1 + (q' - 1) = q' by ring] at hq; linarith
  have hq2' : |q - q'| ≤ 18 * R.u := by linarith
  obtain ⟨d0, d1, d2⟩ := skew_dist v v'
  obtain ⟨n0, n1, n2⟩ := skew_norm v'
  have neg_dist : ∀ a b : V3 ℝ, ‖a.toE - b.toE‖ ≤ ‖v.toE - v'.toE‖ → ‖(-a).toE - (-b).toE‖ ≤ 16 * R.u := by
    intro a b h
    rw [toE_neg, toE_neg, ← neg_sub', _root_.norm_neg]; linarith
  have neg_norm : ∀ a : V3 ℝ, ‖a.toE‖ ≤ ‖v'.toE‖ → ‖(-a).toE‖ ≤ ‖v'.toE‖ := by
    intro a h; rwa [toE_neg, _root_.norm_neg]
  have prods : ∀ a b : V3 ℝ, ‖a.toE‖ ≤ ‖v'.toE‖ → ‖b.toE‖ ≤ ‖v'.toE‖ → |dot a b| ≤ 2 * q' := by
    intro a b ha hb
    rw [← inner_toE]
    have h1 := abs_real_inner_le_norm a.toE b.toE
    have h2 := mul_le_mul ha hb (_root_.norm_nonneg _) (_root_.norm_nonneg _)
    nlinarith
  obtain ⟨cx, cy, cz⟩ := comp_le_norm v'
  rw [← toE_sub] at hv
  obtain ⟨ex, ey, ez⟩ := comp_le_norm (v - v')
  simp only [sub_x, sub_y, sub_z] at ex ey ez
  rw [toE_sub] at hv ex ey ez
  have z1 : |(0 : ℝ) - 0| ≤ 11 / 10 * R.u := by rw [sub_zero, abs_zero]; positivity
  have z2 : |(0 : ℝ) - 0| ≤ 16 * R.u := by rw [sub_zero, abs_zero]; positivity
  have ngd : ∀ {a b : ℝ}, |a - b| ≤ ‖v.toE - v'.toE‖ → |-a - -b| ≤ 16 * R.u := by
    intro a b h; rw [← neg_sub', abs_neg]; linarith
  have psd : ∀ {a b : ℝ}, |a - b| ≤ ‖v.toE - v'.toE‖ → |a - b| ≤ 16 * R.u := by
    intro a b h; linarith
  have ng1 : ∀ {a : ℝ}, |a| ≤ ‖v'.toE‖ → |0 + -a| ≤ 1 := by intro a h; rw [zero_add, abs_neg]; linarith
  have ps1 : ∀ {a : ℝ}, |a| ≤ ‖v'.toE‖ → |0 + a| ≤ 1 := by intro a h; rw [zero_add]; linarith
  have on1 : |(1 : ℝ) + 0| ≤ 1 := by norm_num
  have ent : ∀ {r c r' c' : V3 ℝ} {i i' k k' : ℝ}, ‖r.toE - r'.toE‖ ≤ ‖v.toE - v'.toE‖ → ‖c.toE - c'.toE‖ ≤ ‖v.toE - v'.toE‖ →
      ‖r'.toE‖ ≤ ‖v'.toE‖ → ‖c'.toE‖ ≤ ‖v'.toE‖ → |i - i'| ≤ 11 / 10 * R.u → |i' + k'| ≤ 1 → |k - k'| ≤ 16 * R.u →
      ∃ y, Fl.fin i + Fl.fin k + dot (r.fl : V3 (Fl R)) (-c).fl / Fl.fin q = Fl.fin y ∧
        |y - (i' + k' + dot r' (-c') / q')| ≤ 130 * R.u / q' := by
    intro r c r' c' i i' k k' a1 a2 a3 a4 a5 a6 a7
    exact align_entry (R := R) (a1.trans hv) (neg_dist _ _ a2) (a3.trans hv1) ((neg_norm _ a4).trans hv1)
      (prods _ _ a3 (neg_norm _ a4)) a5 a6 a7 hq2' hq' hq2
  obtain ⟨m00, e00, h00⟩ := ent d0 d0 n0 n0 ho' on1 z2
  obtain ⟨m01, e01, h01⟩ := ent d0 d1 n0 n1 z1 (ng1 cz) (ngd ez)
  obtain ⟨m02, e02, h02⟩ := ent d0 d2 n0 n2 z1 (ps1 cy) (psd ey)
  obtain ⟨m10, e10, h10⟩ := ent d1 d0 n1 n0 z1 (ps1 cz) (psd ez)
  obtain ⟨m11, e11, h11⟩ := ent d1 d1 n1 n1 ho' on1 z2
  obtain ⟨m12, e12, h12⟩ := ent d1 d2 n1 n2 z1 (ng1 cx) (ngd ex)
  obtain ⟨m20, e20, h20⟩ := ent d2 d0 n2 n0 z1 (ng1 cy) (ngd ey)
  obtain ⟨m21, e21, h21⟩ := ent d2 d1 n2 n1 z1 (ps1 cx) (psd ex)
  obtain ⟨m22, e22, h22⟩ := ent d2 d2 n2 n2 ho' on1 z2
  refine ⟨⟨⟨m00, m01, m02⟩, ⟨m10, m11, m12⟩, ⟨m20, m21, m22⟩⟩, ?_, ⟨h00, h01, h02⟩, ⟨h10, h11, h12⟩, ⟨h20, h21, h22⟩⟩
  have c0 : (⟨Fl.fin 0, Fl.fin v.z, -Fl.fin v.y⟩ : V3 (Fl R)) = (-skewRow0 v).fl := by
    simp [skewRow0, V3.fl, fl_neg]
  have c1 : (⟨-Fl.fin v.z, Fl.fin 0, Fl.fin v.x⟩ : V3 (Fl R)) = (-skewRow1 v).fl := by
    simp [skewRow1, V3.fl, fl_neg]
  have c2 : (⟨Fl.fin v.y, -Fl.fin v.x, Fl.fin 0⟩ : V3 (Fl R)) = (-skewRow2 v).fl := by
    simp [skewRow2, V3.fl, fl_neg]
  have r0 : (⟨Fl.fin 0, -Fl.fin v.z, Fl.fin v.y⟩ : V3 (Fl R)) = (skewRow0 v).fl := rfl
  have r1 : (⟨Fl.fin v.z, Fl.fin 0, -Fl.fin v.x⟩ : V3 (Fl R)) = (skewRow1 v).fl := rfl
  have r2 : (⟨-Fl.fin v.y, Fl.fin v.x, Fl.fin 0⟩ : V3 (Fl R)) = (skewRow2 v).fl := rfl
  dsimp only
  rw [l1, eq]
  unfold M3.mul M3.eye M3.col0 M3.col1 M3.col2
  rw [fl_lit0, l1]
  dsimp only
  rw [c0, c1, c2, r0, r1, r2]
  apply M3.ext <;> apply V3.ext
  · exact e00
  · exact e01
  · exact e02
  · exact e10
  · exact e11
  · exact e12
  · exact e20
  · exact e21
  · exact e22

/-- The length of a vector that may be tiny. -/
theorem norm_finite {v : V3 ℝ} (hv : ‖v.toE‖ ≤ 2) : ∃ r, V3.norm (v.fl : V3 (Fl R)) = Fl.fin r := by
  have hu := R.u_pos
  obtain ⟨h5, h6⟩ := five_u (R := R)
  obtain ⟨cx, cy, cz⟩ := comp_le_norm v
  have sq : ∀ a : ℝ, |a| ≤ 2 → |a * a| ≤ 4 := by
    intro a ha; rw [abs_mul]; nlinarith [abs_nonneg a]
  have nn : ∀ {a e : ℝ}, 0 ≤ a → |a| ≤ e → e ≤ 1000 → ∃ y, R.rnd a = .fin y ∧ 0 ≤ y ∧ |y| ≤ e + 1 := by
    intro a e ha he he'
    obtain ⟨y, hy, ey⟩ := rnd_mid (R := R) he he'
    refine ⟨y, hy, rnd_nonneg ha hy, ?_⟩
    have := abs_add_le (y - a) a
    rw [sub_add_cancel] at this
    have : R.u * (e + 1 / 1000) ≤ 1 / 10000 * (1000 + 1 / 1000) := mul_le_mul (by linarith) (by linarith) (by linarith [abs_nonneg a]) (by norm_num)
    linarith
  obtain ⟨x, hx, x0, x1⟩ := nn (mul_self_nonneg v.x) (sq _ (cx.trans hv)) (by norm_num)
  obtain ⟨y, hy, y0, y1⟩ := nn (mul_self_nonneg v.y) (sq _ (cy.trans hv)) (by norm_num)
  obtain ⟨z, hz, z0, z1⟩ := nn (mul_self_nonneg v.z) (sq _ (cz.trans hv)) (by norm_num)
  rw [abs_of_nonneg x0] at x1
  rw [abs_of_nonneg y0] at y1
  rw [abs_of_nonneg z0] at z1
  obtain ⟨p, hp, p0, p1⟩ := nn (a := x + y) (e := 10) (by linarith) (by rw [abs_of_nonneg (by linarith)]; linarith) (by norm_num)
  rw [abs_of_nonneg p0] at p1
  obtain ⟨t, ht, t0, t1⟩ := nn (a := p + z) (e := 16) (by linarith) (by rw [abs_of_nonneg (by linarith)]; linarith) (by norm_num)
  rw [abs_of_nonneg t0] at t1
  obtain ⟨r, hr, -, -⟩ := nn (a := √t) (e := 17) (Real.sqrt_nonneg _) (by
    rw [abs_of_nonneg (Real.sqrt_nonneg _)]
    exact Real.sqrt_le_iff.mpr ⟨by norm_num, by linarith⟩) (by norm_num)
  refine ⟨r, ?_⟩
  have e1 : dot (v.fl : V3 (Fl R)) v.fl = Fl.fin t := by
    unfold dot V3.fl
    simp only [fl_mul, hx, hy, hz, fl_mk, fl_add, hp, ht]
  unfold V3.norm
  rw [e1, fl_sqrt _ t0, hr]; rfl

/-- The unit matrix, for vectors that are parallel up to rounding. -/
theorem eye_near {v' : V3 ℝ} {q' : ℝ} (hv1 : ‖v'.toE‖ ≤ 17 * R.u) (hq' : 40000 * R.u ≤ q') (hq2 : q' ≤ 2) :
    ∃ M : M3 ℝ, (M3.eye : M3 (Fl R)) = M.fl ∧ M.Close (alignMat v' q') (130 * R.u / q') := by
  have hu := R.u_pos
  obtain ⟨h5, h6⟩ := five_u (R := R)
  have hq0 : 0 < q' := by linarith
  obtain ⟨o, eo, ho⟩ := rnd_mid (R := R) (x := 1) (e := 1) (by norm_num) (by norm_num)
  have l1 : (1.0 : Fl R) = Fl.fin o := by
    rw [fl_lit, show (OfScientific.ofScientific 10 true 1 : ℝ) = 1 by norm_num, eo]; rfl
  obtain ⟨n0, n1, n2⟩ := skew_norm v'
  obtain ⟨cx, cy, cz⟩ := comp_le_norm v'
  have huq : R.u ≤ 2 * (R.u / q') := by
    rw [mul_div_assoc', le_div_iff₀ hq0]; nlinarith
  have prods : ∀ a b : V3 ℝ, ‖a.toE‖ ≤ ‖v'.toE‖ → ‖b.toE‖ ≤ ‖v'.toE‖ → |dot a (-b) / q'| ≤ R.u := by
    intro a b ha hb
    rw [abs_div, abs_of_pos hq0, div_le_iff₀ hq0, ← inner_toE, toE_neg, inner_neg_right, abs_neg]
    have h1 := abs_real_inner_le_norm a.toE b.toE
    have h2 := mul_le_mul (ha.trans hv1) (hb.trans hv1) (_root_.norm_nonneg _) (by positivity)
    have h3 : R.u * (40000 * R.u) ≤ R.u * q' := mul_le_mul_of_nonneg_left hq' hu.le
    nlinarith
  have diag : ∀ a b : V3 ℝ, ‖a.toE‖ ≤ ‖v'.toE‖ → ‖b.toE‖ ≤ ‖v'.toE‖ → |o - (1 + 0 + dot a (-b) / q')| ≤ 130 * R.u / q' := by
    intro a b ha hb
    have h1 := prods a b ha hb
    have h2 := abs_sub (o - 1) (dot a (-b) / q')
    rw [show o - 1 - dot a (-b) / q' = o - (1 + 0 + dot a (-b) / q') by ring] at h2
    rw [mul_div_assoc]
    linarith
  have off : ∀ (a b : V3 ℝ) (k : ℝ), ‖a.toE‖ ≤ ‖v'.toE‖ → ‖b.toE‖ ≤ ‖v'.toE‖ → |k| ≤ ‖v'.toE‖ → |0 - (0 + k + dot a (-b) / q')| ≤ 130 * R.u / q' := by
    intro a b k ha hb hk
    have h1 := prods a b ha hb
    have h2 := abs_add_le k (dot a (-b) / q')
    rw [show 0 - (0 + k + dot a (-b) / q') = -(k + dot a (-b) / q') by ring, abs_neg, mul_div_assoc]
    linarith
  refine ⟨⟨⟨o, 0, 0⟩, ⟨0, o, 0⟩, ⟨0, 0, o⟩⟩, ?_, ⟨diag _ _ n0 n0, off _ _ _ n0 n1 (by rwa [abs_neg]), off _ _ _ n0 n2 cy⟩,
    ⟨off _ _ _ n1 n0 cz, diag _ _ n1 n1, off _ _ _ n1 n2 (by rwa [abs_neg])⟩,
    off _ _ _ n2 n0 (by rwa [abs_neg]), off _ _ _ n2 n1 cx, diag _ _ n2 n2⟩
  unfold M3.eye
  rw [fl_lit0, l1]; rfl

/-- The exact matrix, away from opposite vectors. -/
theorem align_exact {a b : V3 ℝ} (ha : dot a a = 1) (hb : dot b b = 1) (hq : 0 < 1 + dot a b) :
    (rotationMatrix2 a b).1 = alignMat (cross a b) (1 + dot a b) := by
  by_cases h : V3.norm (cross a b) = 0
  · rw [rotationMatrix2_parallel ha hb h]
    rcases unit_parallel ha hb h with ⟨h1, h2⟩ | ⟨h1, -⟩
    · rw [h1, if_pos (by norm_num), h2]
      apply M3.ext <;> apply V3.ext <;> simp [alignMat, M3.eye, skewRow0, skewRow1, skewRow2, dot, cross] <;> ring_nf <;> norm_num
    · rw [h1] at hq; norm_num at hq
  · have hna := norm_eq_one_iff.mpr ha
    have hnb := norm_eq_one_iff.mpr hb
    simp only [rotationMatrix2, hna, hnb, div_one', real_eqb, lit0, lit1, h, decide_false, Bool.false_eq_true, if_false]
    generalize cross a b = v
    apply M3.ext <;> apply V3.ext <;>
      simp [alignMat, M3.eye, M3.mul, M3.col0, M3.col1, M3.col2, skewRow0, skewRow1, skewRow2, dot] <;> ring_nf <;> norm_num

end Optics
