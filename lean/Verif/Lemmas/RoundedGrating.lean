import Verif.Lemmas.RoundedRotation
import Verif.Lemmas.GlassSnell
import Verif.Props.Gratings
/-!
Bounds for the grating branch of `Ray.reflect` computed with rounded arithmetic. Used by `Props/RoundedGratings.lean`.
-/

namespace Optics
open V3

variable {R : Rounding}

theorem fl_arcsin {x : ℝ} (h : |x| ≤ 1) : PyNum.arcsin (Fl.fin x : Fl R) = ⟨R.rnd (Real.arcsin x)⟩ := by
  show (⟨R.apply (PyNum.arcsin (XR.fin x))⟩ : Fl R) = _
  rw [XR.fin_arcsin x (abs_le.mp h)]; rfl

theorem fl_arcsin_out {x : ℝ} (h : 1 < |x|) : PyNum.arcsin (Fl.fin x : Fl R) = ⟨.nan⟩ := by
  show (⟨R.apply (PyNum.arcsin (XR.fin x))⟩ : Fl R) = _
  rw [XR.arcsin_out x (by rw [← abs_le]; exact not_le.mpr h)]; rfl

/-- **`project_onto_plane`** computed with rounding, for a plane whose normal is within `5u` of the unit vector `T`. -/
theorem project_near {x t T : V3 ℝ} (hT : ‖T.toE‖ = 1) (ht : ‖t.toE - T.toE‖ ≤ 5 * R.u) (hx : ‖x.toE‖ ≤ 1 + 1 / 1000) :
    ∃ p : V3 ℝ, projectOntoPlane (x.fl : V3 (Fl R)) t.fl = p.fl ∧
      ‖p.toE - (x.toE - inner ℝ x.toE T.toE • T.toE)‖ ≤ 37 * R.u := by
  have hu := R.u_pos
  obtain ⟨h5, h6⟩ := five_u (R := R)
  have hn := abs_norm_sub_norm_le t.toE T.toE
  rw [hT] at hn
  have hn' := abs_le.mp (hn.trans ht)
  have sane : SaneLength t := sane_of_near (by linarith)
  obtain ⟨U, hU, dU, nU⟩ := reunit_near (R := R) hT sane ht
  obtain ⟨q, hq, eq⟩ := norm_near (R := R) sane
  have h0 := _root_.norm_nonneg x.toE
  have hxt : ‖x.toE‖ * ‖t.toE‖ ≤ 1002 / 1000 := by
    have := mul_le_mul hx (show ‖t.toE‖ ≤ 1 + 1 / 100000 by linarith) (_root_.norm_nonneg _) (by norm_num)
    linarith
  obtain ⟨s, hs, es⟩ := dot_near' (R := R) hxt (by norm_num) (by norm_num)
  have eq1 : |q - 1| ≤ 81 / 10 * R.u := by
    have h1 := abs_add_le (q - ‖t.toE‖) (‖t.toE‖ - 1)
    rw [sub_add_sub_cancel] at h1
    have h2 : 3 * R.u * ‖t.toE‖ ≤ 3 * R.u * (101 / 100) := mul_le_mul_of_nonneg_left (by linarith) (by positivity)
    linarith
  have hq1 : 99 / 100 ≤ q := by linarith [(abs_le.mp eq1).1]
  have hq0 : q ≠ 0 := by intro h; rw [h] at hq1; norm_num at hq1
  obtain ⟨D, hD⟩ : ∃ D, D = inner ℝ x.toE T.toE := ⟨_, rfl⟩
  have hDa : |D| ≤ 1 + 1 / 1000 := by
    rw [hD]; refine (abs_real_inner_le_norm _ _).trans ?_; rw [hT, mul_one]; exact hx
  have esD : |s - D| ≤ 86 / 10 * R.u := by
    have e : inner ℝ x.toE t.toE - D = inner ℝ x.toE (t.toE - T.toE) := by rw [hD, inner_sub_right]
    have h1 := abs_real_inner_le_norm x.toE (t.toE - T.toE)
    rw [← e] at h1
    have h2 : ‖x.toE‖ * ‖t.toE - T.toE‖ ≤ (1 + 1 / 1000) * (5 * R.u) := mul_le_mul hx ht (_root_.norm_nonneg _) (by norm_num)
    have h3 := abs_add_le (s - inner ℝ x.toE t.toE) (inner ℝ x.toE t.toE - D)
    rw [sub_add_sub_cancel] at h3
    linarith
  have hsa : |s| ≤ 1 + 2 / 1000 := by
    have := abs_add_le (s - D) D
    rw [sub_add_cancel] at this; linarith
  have hsq : |s / q - s| ≤ 83 / 10 * R.u := by
    have e : s / q - s = s * (1 - q) / q := by field_simp
    rw [e, abs_div, abs_mul, abs_sub_comm 1 q, abs_of_pos (by linarith : 0 < q), div_le_iff₀ (by linarith)]
    have h1 := mul_le_mul hsa eq1 (abs_nonneg _) (by norm_num)
    have h2 : 83 / 10 * R.u * (99 / 100) ≤ 83 / 10 * R.u * q := mul_le_mul_of_nonneg_left hq1 (by positivity)
    linarith
  have hsq1 : |s / q| ≤ 1 + 3 / 1000 := by
    have := abs_add_le (s / q - s) s
    rw [sub_add_cancel] at this; linarith
  obtain ⟨d, hd, ed⟩ := rnd_mid (R := R) hsq1 (by norm_num)
  have edD : |d - D| ≤ 18 * R.u := by
    have h1 := abs_add_le (d - s / q) (s / q - s)
    have h2 := abs_add_le (d - s) (s - D)
    rw [sub_add_sub_cancel] at h1 h2
    linarith
  have hd1 : |d| ≤ 1 + 2 / 1000 := by
    have := abs_add_le (d - D) D
    rw [sub_add_cancel] at this; linarith
  have dUT : ‖d • U.toE - D • T.toE‖ ≤ 332 / 10 * R.u := by
    have e : d • U.toE - D • T.toE = d • (U.toE - T.toE) + (d - D) • T.toE := by
      rw [smul_sub, sub_smul]; abel
    rw [e]
    refine (norm_add_le _ _).trans ?_
    rw [_root_.norm_smul, _root_.norm_smul, hT, mul_one, Real.norm_eq_abs, Real.norm_eq_abs]
    have := mul_le_mul hd1 dU (_root_.norm_nonneg _) (by norm_num)
    linarith
  have hdU : ‖d • U.toE‖ ≤ 1 + 3 / 1000 := by
    have h1 := norm_add_le (d • U.toE - D • T.toE) (D • T.toE)
    rw [sub_add_cancel, _root_.norm_smul D, hT, mul_one, Real.norm_eq_abs] at h1
    linarith
  obtain ⟨m, hm, em⟩ := vsmul_near (R := R) hdU (by norm_num)
  have hxm : ‖x.toE - m.toE‖ ≤ 201 / 100 := by
    have h1 := norm_sub_le x.toE m.toE
    have h2 := norm_add_le (m.toE - d • U.toE) (d • U.toE)
    rw [sub_add_cancel] at h2
    linarith
  obtain ⟨p, hp, ep⟩ := vsub_near (R := R) hxm (by norm_num)
  refine ⟨p, ?_, ?_⟩
  · have hsq' : dot (x.fl : V3 (Fl R)) t.fl / V3.norm (t.fl : V3 (Fl R)) = Fl.fin d := by
      rw [hs, hq, fl_div _ _ hq0, hd]; rfl
    unfold projectOntoPlane
    simp only [hsq', hU]
    rw [← hp, ← hm]; rfl
  · rw [← hD]
    have e : p.toE - (x.toE - D • T.toE) = (p.toE - (x.toE - m.toE)) + (-(m.toE - d • U.toE) - (d • U.toE - D • T.toE)) := by abel
    rw [e]
    have h1 := norm_add_le (p.toE - (x.toE - m.toE)) (-(m.toE - d • U.toE) - (d • U.toE - D • T.toE))
    have h2 := norm_sub_le (-(m.toE - d • U.toE)) (d • U.toE - D • T.toE)
    rw [_root_.norm_neg] at h2
    linarith

/-- Removing the part along a unit vector does not lengthen. -/
theorem project_le {T : E3} (hT : ‖T‖ = 1) (v : E3) : ‖v - inner ℝ v T • T‖ ≤ ‖v‖ := by
  refine abs_le_of_sq_le_sq (a := ‖_‖) ?_ (_root_.norm_nonneg _) |> fun h => (le_abs_self _).trans h
  rw [norm_sub_sq_real, inner_smul_right, _root_.norm_smul, hT, mul_one, Real.norm_eq_abs, sq_abs]
  nlinarith [sq_nonneg (inner ℝ v T)]

theorem project_near' {x X t T : V3 ℝ} {δ : ℝ} (hT : ‖T.toE‖ = 1) (ht : ‖t.toE - T.toE‖ ≤ 5 * R.u)
    (hX : ‖X.toE‖ = 1) (hx : ‖x.toE - X.toE‖ ≤ δ) (hx1 : ‖x.toE‖ ≤ 1 + 1 / 1000) :
    ∃ p : V3 ℝ, projectOntoPlane (x.fl : V3 (Fl R)) t.fl = p.fl ∧
      ‖p.toE - (X.toE - inner ℝ X.toE T.toE • T.toE)‖ ≤ 37 * R.u + δ := by
  obtain ⟨p, hp, dp⟩ := project_near (R := R) hT ht hx1
  refine ⟨p, hp, ?_⟩
  have e : p.toE - (X.toE - inner ℝ X.toE T.toE • T.toE) = (p.toE - (x.toE - inner ℝ x.toE T.toE • T.toE)) +
      ((x.toE - X.toE) - inner ℝ (x.toE - X.toE) T.toE • T.toE) := by
    rw [inner_sub_left, sub_smul]; abel
  rw [e]
  have h1 := norm_add_le (p.toE - (x.toE - inner ℝ x.toE T.toE • T.toE)) ((x.toE - X.toE) - inner ℝ (x.toE - X.toE) T.toE • T.toE)
  have h2 := project_le hT (x.toE - X.toE)
  linarith

/-- Angles without sign from points of the circle. -/
theorem abs_angle_near {a b δ : ℝ} (ha : |a| ≤ Real.pi) (hb : |b| ≤ Real.pi) (hδ : 0 ≤ δ)
    (h : (Real.cos a - Real.cos b) ^ 2 + (Real.sin a - Real.sin b) ^ 2 ≤ δ ^ 2) :
    |(|a|) - (|b|)| ≤ Real.pi / 2 * δ := by
  obtain ⟨x, hx⟩ : ∃ x, x = |a| := ⟨_, rfl⟩
  obtain ⟨y, hy⟩ : ∃ y, y = |b| := ⟨_, rfl⟩
  have x0 : 0 ≤ x := hx ▸ abs_nonneg a
  have y0 : 0 ≤ y := hy ▸ abs_nonneg b
  rw [← hx] at ha
  rw [← hy] at hb
  have sa : Real.sin x = |Real.sin a| := by
    have h0 := Real.sin_nonneg_of_nonneg_of_le_pi x0 ha
    rcases abs_choice a with h1 | h1
    · rw [hx, h1] at h0 ⊢; rw [abs_of_nonneg h0]
    · rw [hx, h1, Real.sin_neg] at h0 ⊢; rw [abs_of_nonpos (by linarith)]
  have sb : Real.sin y = |Real.sin b| := by
    have h0 := Real.sin_nonneg_of_nonneg_of_le_pi y0 hb
    rcases abs_choice b with h1 | h1
    · rw [hy, h1] at h0 ⊢; rw [abs_of_nonneg h0]
    · rw [hy, h1, Real.sin_neg] at h0 ⊢; rw [abs_of_nonpos (by linarith)]
  have ca : Real.cos x = Real.cos a := by rw [hx, Real.cos_abs]
  have cb : Real.cos y = Real.cos b := by rw [hy, Real.cos_abs]
  have h1 : (Real.cos x - Real.cos y) ^ 2 + (Real.sin x - Real.sin y) ^ 2 ≤ δ ^ 2 := by
    rw [ca, cb, sa, sb]
    have := abs_abs_sub_abs_le (Real.sin a) (Real.sin b)
    have := sq_le_sq.mpr this
    linarith
  -- the chord is twice the sine of half the difference
  have h2 : (Real.cos x - Real.cos y) ^ 2 + (Real.sin x - Real.sin y) ^ 2 = (2 * Real.sin (|x - y| / 2)) ^ 2 := by
    have e1 : (Real.cos x - Real.cos y) ^ 2 + (Real.sin x - Real.sin y) ^ 2 = 2 - 2 * Real.cos (x - y) := by
      rw [Real.cos_sub]
      linear_combination Real.sin_sq_add_cos_sq x + Real.sin_sq_add_cos_sq y
    have e2 := Real.cos_sq' (|x - y| / 2)
    have e3 := Real.cos_sq (|x - y| / 2)
    rw [mul_div_cancel₀ _ (two_ne_zero), Real.cos_abs] at e3
    rw [e1, mul_pow]
    linarith
  have h3 : |x - y| ≤ Real.pi := by rw [abs_le]; constructor <;> linarith
  have h4 := Real.mul_le_sin (x := |x - y| / 2) (by positivity) (by linarith)
  have h5 : 2 * Real.sin (|x - y| / 2) ≤ δ := by
    refine abs_le_of_sq_le_sq (a := 2 * Real.sin (|x - y| / 2)) ?_ hδ |> fun h => (le_abs_self _).trans h
    rw [← h2]; exact h1
  have h6 : 2 / Real.pi * (|x - y| / 2) = |x - y| / Real.pi := by ring
  rw [h6] at h4
  have hp := Real.pi_pos
  have h7 : |x - y| / Real.pi ≤ δ / 2 := by linarith
  rw [div_le_iff₀ hp] at h7
  rw [← hx, ← hy]
  linarith

/-- **Signed `angle_between`** of two vectors that are only close to the unit vectors meant. -/
theorem signed_near {v1 v2 k V1 V2 K : V3 ℝ} {δ1 δ2 θ X : ℝ} (h1 : ‖V1.toE‖ = 1) (h2 : ‖V2.toE‖ = 1) (hK : ‖K.toE‖ = 1)
    (s1 : SaneLength v1) (s2 : SaneLength v2) (d1 : ‖v1.toE - V1.toE‖ ≤ δ1) (d2 : ‖v2.toE - V2.toE‖ ≤ δ2)
    (hk : ‖k.toE - K.toE‖ ≤ 5 * R.u) (hθ : |θ| ≤ Real.pi) (hc : Real.cos θ = dot V1 V2)
    (hs : Real.sin θ = dot (cross V2 V1) K) (hX : 101 / 100 * ((5 * R.u + 2 * δ1) + (5 * R.u + 2 * δ2)) + 15 * R.u ≤ X)
    (hX' : X ≤ 1 / 4) :
    ∃ a : ℝ, angleBetween (v1.fl : V3 (Fl R)) v2.fl (some k.fl) = Fl.fin a ∧ |a| ≤ 4 ∧
      |(|a|) - (|θ|)| ≤ 9 / 2 * X + 4 * R.u := by
  have hu := R.u_pos
  obtain ⟨h5, h6⟩ := five_u (R := R)
  obtain ⟨w1, e1, f1, n1⟩ := reunit_near (R := R) h1 s1 d1
  obtain ⟨w2, e2, f2, n2⟩ := reunit_near (R := R) h2 s2 d2
  have δ10 : 0 ≤ δ1 := (_root_.norm_nonneg _).trans d1
  have δ20 : 0 ≤ δ2 := (_root_.norm_nonneg _).trans d2
  obtain ⟨E1, hE1⟩ : ∃ E1, E1 = 5 * R.u + 2 * δ1 := ⟨_, rfl⟩
  obtain ⟨E2, hE2⟩ : ∃ E2, E2 = 5 * R.u + 2 * δ2 := ⟨_, rfl⟩
  rw [← hE1] at f1 hX
  rw [← hE2] at f2 hX
  have E10 : 0 ≤ E1 := (_root_.norm_nonneg _).trans f1
  have E20 : 0 ≤ E2 := (_root_.norm_nonneg _).trans f2
  have l1 : ‖w1.toE‖ ≤ 1 + 1 / 100000 := by unfold NearUnit at n1; linarith [(abs_le.mp n1).2]
  have l2 : ‖w2.toE‖ ≤ 1 + 1 / 100000 := by unfold NearUnit at n2; linarith [(abs_le.mp n2).2]
  have lk : ‖k.toE‖ ≤ 1 + 1 / 100000 := by
    have := norm_add_le (k.toE - K.toE) K.toE
    rw [sub_add_cancel] at this; linarith
  have z1 := _root_.norm_nonneg w1.toE
  have z2 := _root_.norm_nonneg w2.toE
  have zk := _root_.norm_nonneg k.toE
  obtain ⟨x, hx, ex⟩ := dot_near' (R := R) (a := w1) (b := w2) (A := 1001 / 1000) (by
    have := mul_le_mul l1 l2 z2 (by norm_num); linarith) (by norm_num) (by norm_num)
  have exc : |x - Real.cos θ| ≤ X := by
    rw [hc, ← inner_toE]
    have e : inner ℝ w1.toE w2.toE - inner ℝ V1.toE V2.toE = inner ℝ (w1.toE - V1.toE) w2.toE + inner ℝ V1.toE (w2.toE - V2.toE) := by
      rw [inner_sub_left, inner_sub_right]; ring
    have k1 := abs_real_inner_le_norm (w1.toE - V1.toE) w2.toE
    have k2 := abs_real_inner_le_norm V1.toE (w2.toE - V2.toE)
    rw [h1, one_mul] at k2
    have k3 := mul_le_mul f1 l2 z2 E10
    have k4 := abs_add_le (inner ℝ (w1.toE - V1.toE) w2.toE) (inner ℝ V1.toE (w2.toE - V2.toE))
    rw [← e] at k4
    have k5 := abs_add_le (x - inner ℝ w1.toE w2.toE) (inner ℝ w1.toE w2.toE - inner ℝ V1.toE V2.toE)
    rw [sub_add_sub_cancel] at k5
    linarith
  obtain ⟨c, hcr, ec⟩ := cross_near (R := R) (a := w2) (b := w1) (by linarith) (by linarith)
  have ecV : ‖c.toE - (cross V2 V1).toE‖ ≤ 5 * R.u + (E2 * (1 + 1 / 100000) + E1) := by
    have e : cross w2 w1 - cross V2 V1 = cross (w2 - V2) w1 + cross V2 (w1 - V1) := by
      ext <;> simp only [cross, sub_x, sub_y, sub_z, add_x, add_y, add_z] <;> ring
    have k1 := norm_cross_le (w2 - V2) w1
    have k2 := norm_cross_le V2 (w1 - V1)
    rw [h2, one_mul, toE_sub] at k2
    rw [toE_sub] at k1
    have k3 := mul_le_mul f2 l1 z1 E20
    have k4 := norm_add_le (cross (w2 - V2) w1).toE (cross V2 (w1 - V1)).toE
    rw [← toE_add, ← e, toE_sub] at k4
    have k5 := norm_add_le (c.toE - (cross w2 w1).toE) ((cross w2 w1).toE - (cross V2 V1).toE)
    rw [sub_add_sub_cancel] at k5
    linarith
  have cV : ‖(cross V2 V1).toE‖ ≤ 1 := by
    have := norm_cross_le V2 V1
    rwa [h1, h2, one_mul] at this
  have lc : ‖c.toE‖ ≤ 5 / 4 := by
    have := norm_add_le (c.toE - (cross V2 V1).toE) (cross V2 V1).toE
    rw [sub_add_cancel] at this; linarith
  obtain ⟨y, hy, ey⟩ := dot_near' (R := R) (a := c) (b := k) (A := 13 / 10) (by
    have := mul_le_mul lc lk zk (by norm_num); linarith) (by norm_num) (by norm_num)
  have eys : |y - Real.sin θ| ≤ X := by
    rw [hs, ← inner_toE]
    have e : inner ℝ c.toE k.toE - inner ℝ (cross V2 V1).toE K.toE = inner ℝ (c.toE - (cross V2 V1).toE) k.toE +
        inner ℝ (cross V2 V1).toE (k.toE - K.toE) := by
      rw [inner_sub_left, inner_sub_right]; ring
    have k1 := abs_real_inner_le_norm (c.toE - (cross V2 V1).toE) k.toE
    have k2 := abs_real_inner_le_norm (cross V2 V1).toE (k.toE - K.toE)
    have k3 := mul_le_mul ecV lk zk (by positivity)
    have k4 := mul_le_mul cV hk (_root_.norm_nonneg _) (by norm_num)
    have k6 := abs_add_le (inner ℝ (c.toE - (cross V2 V1).toE) k.toE) (inner ℝ (cross V2 V1).toE (k.toE - K.toE))
    rw [← e] at k6
    have k5 := abs_add_le (y - inner ℝ c.toE k.toE) (inner ℝ c.toE k.toE - inner ℝ (cross V2 V1).toE K.toE)
    rw [sub_add_sub_cancel] at k5
    linarith
  have hX0 : 0 ≤ X := (abs_nonneg _).trans exc
  have hax : |Complex.arg ⟨x, y⟩| ≤ 3142 / 1000 := (Complex.abs_arg_le_pi _).trans (by linarith [Real.pi_lt_d4])
  obtain ⟨a, ha, ea⟩ := rnd_mid (R := R) hax (by norm_num)
  refine ⟨a, ?_, ?_, ?_⟩
  · show PyNum.arctan2 (dot (cross (unitVector v2.fl) (unitVector v1.fl)) k.fl) (dot (unitVector v1.fl) (unitVector v2.fl)) = _
    rw [e1, e2, hx, hcr, hy, fl_arctan2, ha]; rfl
  · have := abs_add_le (a - Complex.arg ⟨x, y⟩) (Complex.arg ⟨x, y⟩)
    rw [sub_add_cancel] at this
    linarith
  · have near := arg_near (x := x) (y := y) (c := Real.cos θ) (s := Real.sin θ) (δ := 1415 / 1000 * X) (Real.cos_sq_add_sin_sq θ) (by
      have t1 : (x - Real.cos θ) ^ 2 ≤ X ^ 2 := by rw [← sq_abs]; exact pow_le_pow_left₀ (abs_nonneg _) exc 2
      have t2 : (y - Real.sin θ) ^ 2 ≤ X ^ 2 := by rw [← sq_abs]; exact pow_le_pow_left₀ (abs_nonneg _) eys 2
      linarith only [t1, t2, sq_nonneg X]) (by positivity) (by linarith)
    have A := abs_angle_near (Complex.abs_arg_le_pi _) hθ (by positivity) near
    have B := abs_abs_sub_abs_le a (Complex.arg ⟨x, y⟩)
    have C := abs_add_le (|a| - |Complex.arg ⟨x, y⟩|) (|Complex.arg ⟨x, y⟩| - |θ|)
    rw [sub_add_sub_cancel] at C
    have D : Real.pi / 2 * (2 * (1415 / 1000 * X)) ≤ 31416 / 10000 / 2 * (2 * (1415 / 1000 * X)) :=
      mul_le_mul_of_nonneg_right (by linarith [Real.pi_lt_d4]) (by positivity)
    linarith

/-- A grating as it is stored, next to the exact one: the normal is within `ν` of the unit vector `N`, the tangent within
`5u` of the unit vector `T` perpendicular to it. -/
structure StoredFrame (R : Rounding) (n t N T : V3 ℝ) (ν : ℝ) : Prop where
  normal_unit : ‖N.toE‖ = 1
  tangent_unit : ‖T.toE‖ = 1
  perp : dot N T = 0
  normal : ‖n.toE - N.toE‖ ≤ ν
  tangent : ‖t.toE - T.toE‖ ≤ 5 * R.u
  coarse : 5 * R.u ≤ ν

theorem planeLength_eq (D : V3 ℝ) {T : V3 ℝ} (hT : ‖T.toE‖ = 1) :
    planeLength D T = ‖D.toE - inner ℝ D.toE T.toE • T.toE‖ := by
  unfold planeLength
  rw [project_unit D (unit_dot_self hT), ← norm_toE, toE_sub, toE_smul, inner_toE]

theorem planeLength_le {D T : V3 ℝ} (hD : ‖D.toE‖ = 1) (hT : ‖T.toE‖ = 1) : planeLength D T ≤ 1 := by
  rw [planeLength_eq D hT]
  exact (project_le hT D.toE).trans hD.le

theorem project_ne_zero {D T : V3 ℝ} (h : 0 < planeLength D T) : projectOntoPlane D T ≠ ⟨0, 0, 0⟩ := by
  intro e
  unfold planeLength at h
  rw [e] at h
  simp [V3.norm, dot] at h

theorem cos_alpha {D N T : V3 ℝ} (hN : ‖N.toE‖ = 1) (hT : ‖T.toE‖ = 1) (h : dot N T = 0) (hp : 0 < planeLength D T) :
    Real.cos (gratingAlpha D N T) = dot (-((planeLength D T)⁻¹ * (D - dot D T * T))) N ∧
    Real.sin (gratingAlpha D N T) = dot (cross N (-((planeLength D T)⁻¹ * (D - dot D T * T)))) T := by
  obtain ⟨e, -, -⟩ := direction_polar (unit_dot_self hN) (unit_dot_self hT) h (project_ne_zero hp)
  have hn := polar_dot_n (unit_dot_self hN) h (-dot D T) (planeLength D T) (gratingAlpha D N T)
  have hb := polar_dot_b (unit_dot_self hN) (unit_dot_self hT) h (-dot D T) (planeLength D T) (gratingAlpha D N T)
  rw [← e] at hn hb
  obtain ⟨ρ, hρ⟩ : ∃ ρ, ρ = planeLength D T := ⟨_, rfl⟩
  rw [← hρ] at hn hb hp ⊢
  constructor
  · have e1 : dot (-(ρ⁻¹ * (D - dot D T * T))) N = ρ⁻¹ * (dot (-D) N) + ρ⁻¹ * dot D T * dot N T := by
      simp only [dot, neg_x, neg_y, neg_z, smul_x, smul_y, smul_z, sub_x, sub_y, sub_z]; ring
    rw [e1, hn, h, mul_zero, add_zero, ← mul_assoc, inv_mul_cancel₀ hp.ne', one_mul]
  · have e1 : dot (cross N (-(ρ⁻¹ * (D - dot D T * T)))) T = ρ⁻¹ * (dot (-D) (cross T N)) := by
      simp only [dot, cross, neg_x, neg_y, neg_z, smul_x, smul_y, smul_z, sub_x, sub_y, sub_z]; ring
    rw [e1, hb, ← mul_assoc, inv_mul_cancel₀ hp.ne', one_mul]

theorem abs_alpha_le {D N T : V3 ℝ} (hN : ‖N.toE‖ = 1) (hT : ‖T.toE‖ = 1) (h : dot N T = 0) (hp : 0 < planeLength D T) :
    |gratingAlpha D N T| ≤ Real.pi := by
  obtain ⟨-, h1, h2⟩ := direction_polar (unit_dot_self hN) (unit_dot_self hT) h (project_ne_zero hp)
  rw [abs_le]; exact ⟨h1.le, h2⟩

/-- **The code's angle of incidence**, without its sign, computed with rounding. -/
theorem alpha_near {n t N T d i1 n1 : V3 ℝ} {ν : ℝ} (S : StoredFrame R n t N T ν) {D : V3 ℝ} (hD : ‖D.toE‖ = 1)
    (di : ‖i1.toE - D.toE‖ ≤ 5 * R.u) (dn : ‖n1.toE - N.toE‖ ≤ 3 * ν) (hρ : 1000 * ν ≤ planeLength D T)
    (hρ' : 1 / 10 ^ 90 ≤ planeLength D T) (ni : NearUnit R i1) (nn : NearUnit R n1) :
    ∃ a : ℝ, angleBetween (-unitVector (projectOntoPlane (i1.fl : V3 (Fl R)) t.fl))
        (unitVector (projectOntoPlane (n1.fl : V3 (Fl R)) t.fl)) (some t.fl) = Fl.fin a ∧ |a| ≤ 4 ∧
      |(|a|) - (|gratingAlpha D N T|)| ≤ 384 * (ν / planeLength D T) := by
  have hu := R.u_pos
  obtain ⟨h5, h6⟩ := five_u (R := R)
  obtain ⟨hN, hT, hp, -, hTt, hν⟩ := S
  have hρ1 := planeLength_le hD hT
  have hpos : 0 < planeLength D T := lt_of_lt_of_le (by positivity) hρ'
  obtain ⟨hc, hs⟩ := cos_alpha hN hT hp hpos
  have hal := abs_alpha_le hN hT hp hpos
  have hP := planeLength_eq D hT
  obtain ⟨ρ, hr⟩ : ∃ ρ, ρ = planeLength D T := ⟨_, rfl⟩
  rw [← hr] at hρ hρ' hρ1 hpos hc hs hP ⊢
  obtain ⟨ε, hε⟩ : ∃ ε, ε = ν / ρ := ⟨_, rfl⟩
  rw [← hε]
  have ν0 : 0 < ν := by linarith
  have νε : ν ≤ ε := by rw [hε, le_div_iff₀ hpos]; nlinarith
  have ε1 : ε ≤ 1 / 1000 := by rw [hε, div_le_iff₀ hpos]; linarith
  have lni : ‖i1.toE‖ ≤ 1 + 1 / 1000 := by unfold NearUnit at ni; linarith [(abs_le.mp ni).2]
  have lnn : ‖n1.toE‖ ≤ 1 + 1 / 1000 := by unfold NearUnit at nn; linarith [(abs_le.mp nn).2]
  obtain ⟨pi, hpi, dpi⟩ := project_near' (R := R) hT hTt hD di lni
  obtain ⟨pn, hpn, dpn⟩ := project_near' (R := R) hT hTt hN dn lnn
  -- the normal
  have eN : N.toE - inner ℝ N.toE T.toE • T.toE = N.toE := by rw [inner_toE, hp, zero_smul, sub_zero]
  rw [eN] at dpn
  have spn : SaneLength pn := sane_of_near (by
    have := abs_norm_sub_norm_le pn.toE N.toE
    rw [hN] at this
    refine (this.trans dpn).trans ?_
    have : ν ≤ 1 / 1000 := by linarith
    linarith)
  obtain ⟨n2, hn2, dn2, nn2⟩ := reunit_near (R := R) hN spn dpn
  -- the incident ray
  obtain ⟨P, hPd⟩ : ∃ P, P = D.toE - inner ℝ D.toE T.toE • T.toE := ⟨_, rfl⟩
  rw [← hPd] at dpi hP
  have lpi := abs_norm_sub_norm_le pi.toE P
  rw [← hP] at lpi
  have lpi' := abs_le.mp (lpi.trans dpi)
  have q : 1 / 2 * ρ ≤ ‖pi.toE‖ := by linarith
  have spi : SaneLength pi := by
    constructor
    · refine le_trans ?_ q
      have : (1 : ℝ) / 10 ^ 100 ≤ 1 / 2 * (1 / 10 ^ 90) := by norm_num
      linarith
    · have : (1 : ℝ) + 1 ≤ 10 ^ 100 := by norm_num
      linarith
  have ppos : 0 < ‖pi.toE‖ := by linarith
  obtain ⟨i2, hi2, di2⟩ := unitVector_near (R := R) spi
  have di3 := dirE_close hpos hP.symm dpi ppos
  have di4 : 2 * (37 * R.u + 5 * R.u) / ρ ≤ 168 / 10 * ε := by
    rw [hε, ← mul_div_assoc]
    exact div_le_div_of_nonneg_right (by linarith) hpos.le
  have di5 : ‖i2.toE - ρ⁻¹ • P‖ ≤ 178 / 10 * ε := by
    have := norm_add_le (i2.toE - pi.dirE) (pi.dirE - ρ⁻¹ • P)
    rw [sub_add_sub_cancel] at this
    linarith
  obtain ⟨V1, hV1⟩ : ∃ V1 : V3 ℝ, V1 = -(ρ⁻¹ * (D - dot D T * T)) := ⟨_, rfl⟩
  rw [← hV1] at hc hs
  have eV1 : V1.toE = -(ρ⁻¹ • P) := by
    rw [hV1, toE_neg, toE_smul, toE_sub, toE_smul, hPd, inner_toE]
  have nV1 : ‖V1.toE‖ = 1 := by
    rw [eV1, _root_.norm_neg, _root_.norm_smul, ← hP, Real.norm_of_nonneg (by positivity), inv_mul_cancel₀ hpos.ne']
  have dV1 : ‖(-i2).toE - V1.toE‖ ≤ 178 / 10 * ε := by
    rw [eV1, toE_neg, ← neg_add', _root_.norm_neg]
    simpa [sub_eq_add_neg] using di5
  have si2 : SaneLength (-i2) := sane_of_near (by
    rw [toE_neg, _root_.norm_neg]
    have h1 := abs_norm_sub_norm_le i2.toE pi.dirE
    rw [dirE_norm ppos] at h1
    linarith)
  have sn2 : SaneLength n2 := sane_of_near (by unfold NearUnit at nn2; linarith)
  obtain ⟨a, ha, ha4, haa⟩ := signed_near (R := R) (k := t) nV1 hN hT si2 sn2 dV1 dn2 hTt hal hc hs
    (X := 851 / 10 * ε) (by linarith) (by linarith)
  refine ⟨a, ?_, ha4, by linarith⟩
  rw [hpi, hpn, hi2, hn2, ← ha]
  rfl

/-- The code's sign times its angle, computed with rounding. -/
theorem sign_near (hone : R.rnd 1 = .fin 1) {a A e : ℝ} (h4 : |a| ≤ 4) (h : |(|a|) - A| ≤ e) :
    ∃ b b' : ℝ, (if (Fl.fin a : Fl R) < 0.0 then (-1.0 : Fl R) else 1.0) * Fl.fin a = Fl.fin b ∧
      -(if (Fl.fin a : Fl R) < 0.0 then (-1.0 : Fl R) else 1.0) * Fl.fin a = Fl.fin b' ∧
      |b - A| ≤ e + 401 / 100 * R.u ∧ |b' + A| ≤ e + 401 / 100 * R.u := by
  have hu := R.u_pos
  have mk : ∀ s : ℝ, |s| = 1 → s * a = |a| → ∃ b b' : ℝ, (Fl.fin s : Fl R) * Fl.fin a = Fl.fin b ∧ -(Fl.fin s : Fl R) * Fl.fin a = Fl.fin b' ∧
      |b - A| ≤ e + 401 / 100 * R.u ∧ |b' + A| ≤ e + 401 / 100 * R.u := by
    intro s hs hsa
    obtain ⟨b, hb, eb⟩ := rnd_mid (R := R) (x := s * a) (e := 4) (by rw [hsa, abs_abs]; exact h4) (by norm_num)
    obtain ⟨b', hb', eb'⟩ := rnd_mid (R := R) (x := -s * a) (e := 4) (by rw [neg_mul, abs_neg, hsa, abs_abs]; exact h4) (by norm_num)
    refine ⟨b, b', by rw [fl_mul, hb]; rfl, by rw [fl_neg, fl_mul, hb']; rfl, ?_, ?_⟩
    · have h1 := abs_add_le (b - s * a) (s * a - A)
      rw [sub_add_sub_cancel, hsa] at h1
      rw [hsa] at eb
      linarith
    · have h1 := abs_add_le (b' - -s * a) (-s * a + A)
      rw [show b' - -s * a + (-s * a + A) = b' + A by ring, neg_mul, hsa, ← abs_neg (-(|a|) + A)] at h1
      rw [show -(-(|a|) + A) = |a| - A by ring] at h1
      rw [neg_mul, hsa] at eb'
      linarith
  by_cases ha : a < 0
  · have hi : (Fl.fin a : Fl R) < 0.0 := by rw [fl_lit0, fl_lt]; exact ha
    rw [if_pos hi, fl_lit1 hone, fl_neg]
    exact mk (-1) (by norm_num) (by rw [abs_of_neg ha]; ring)
  · have hi : ¬ (Fl.fin a : Fl R) < 0.0 := by rw [fl_lit0, fl_lt]; exact ha
    rw [if_neg hi, fl_lit1 hone]
    exact mk 1 (by norm_num) (by rw [abs_of_nonneg (not_lt.mp ha), one_mul])

/-- **The argument of the code's arcsine**, computed with rounding. -/
theorem sine_near {b A K K' ε κ : ℝ} (hb : |b - A| ≤ 385 * ε) (hK : |K' - K| ≤ κ) (hκ : κ ≤ 1 / 1000) (hK2 : |K| ≤ 900) :
    ∃ y, (Fl.fin K' : Fl R) - PyNum.sin (Fl.fin b) = Fl.fin y ∧ |y - (K - Real.sin A)| ≤ 385 * ε + κ + (|K| + 21 / 10) * R.u := by
  have hu := R.u_pos
  obtain ⟨h5, h6⟩ := five_u (R := R)
  obtain ⟨s, hs, es⟩ := sin_near (R := R) hb
  have hKa : |K'| ≤ |K| + 1 / 1000 := by
    have := abs_add_le (K' - K) K
    rw [sub_add_cancel] at this; linarith
  have hs1 : |s| ≤ 1 + 1 / 1000 := by
    obtain ⟨s', hs', es'⟩ := rnd_mid (R := R) (Real.abs_sin_le_one b) (by norm_num)
    have : s = s' := by
      have h : (Fl.fin s : Fl R) = Fl.fin s' := by rw [← hs, fl_sin, hs']; rfl
      exact XR.fin.inj (congrArg Fl.val h)
    rw [this]
    have := abs_add_le (s' - Real.sin b) (Real.sin b)
    rw [sub_add_cancel] at this
    linarith [Real.abs_sin_le_one b]
  have hd : |K' - s| ≤ |K| + 101 / 100 := by
    have := abs_sub K' s
    linarith
  obtain ⟨y, hy, ey⟩ := rnd_mid (R := R) hd (by linarith)
  refine ⟨y, by rw [hs, fl_sub, hy]; rfl, ?_⟩
  have e : y - (K - Real.sin A) = (y - (K' - s)) + ((K' - K) - (s - Real.sin A)) := by ring
  rw [e]
  have h1 := abs_add_le (y - (K' - s)) ((K' - K) - (s - Real.sin A))
  have h2 := abs_sub (K' - K) (s - Real.sin A)
  have h3 : R.u * (|K| + 101 / 100 + 1 / 1000) = |K| * R.u + (101 / 100 + 1 / 1000) * R.u := by ring
  rw [h3] at ey
  have h4 : (|K| + 21 / 10) * R.u = |K| * R.u + 21 / 10 * R.u := by ring
  rw [h4]
  linarith

/-- **The arcsine**, computed with rounding. -/
theorem arcsin_near {y B η : ℝ} (hB : |B| ≤ 1) (hy : |y - B| ≤ η) (hη : 2 * η ≤ Real.cos (Real.arcsin B) ^ 2) (hc : 0 < Real.cos (Real.arcsin B)) :
    ∃ β, PyNum.arcsin (Fl.fin y : Fl R) = Fl.fin β ∧ |β| ≤ 2 ∧
      |β - Real.arcsin B| ≤ Real.pi * η / Real.cos (Real.arcsin B) + 2 * R.u := by
  have hu := R.u_pos
  obtain ⟨h5, h6⟩ := five_u (R := R)
  obtain ⟨hB1, hB2⟩ := abs_le.mp hB
  have hsB := Real.sin_arcsin hB1 hB2
  have hsq := Real.sin_sq_add_cos_sq (Real.arcsin B)
  rw [hsB] at hsq
  have hBc : |B| ≤ 1 - Real.cos (Real.arcsin B) ^ 2 / 2 := by
    rw [← sq_abs B] at hsq
    nlinarith [sq_nonneg (|B| - 1)]
  have hy1 : |y| ≤ 1 := by
    have := abs_add_le (y - B) B
    rw [sub_add_cancel] at this; linarith
  obtain ⟨hya, hyb⟩ := abs_le.mp hy1
  have hp := Real.pi_lt_d4
  have as1 : |Real.arcsin y| ≤ 1571 / 1000 := by
    rw [abs_le]; constructor <;> linarith [Real.neg_pi_div_two_le_arcsin y, Real.arcsin_le_pi_div_two y]
  obtain ⟨β, hβ, eβ⟩ := rnd_mid (R := R) as1 (by norm_num)
  refine ⟨β, by rw [fl_arcsin hy1, hβ]; rfl, ?_, ?_⟩
  · have := abs_add_le (β - Real.arcsin y) (Real.arcsin y)
    rw [sub_add_cancel] at this; linarith
  · have k := (angle_of_cos (a := Real.pi / 2 - Real.arcsin y) (b := Real.pi / 2 - Real.arcsin B) (δ := η)
      (by linarith [Real.arcsin_le_pi_div_two y]) (by linarith [Real.neg_pi_div_two_le_arcsin y])
      (by linarith [Real.arcsin_le_pi_div_two B]) (by linarith [Real.neg_pi_div_two_le_arcsin B])
      (by rw [Real.cos_pi_div_two_sub, Real.cos_pi_div_two_sub, Real.sin_arcsin hya hyb, hsB]; exact hy)).1
    rw [Real.sin_pi_div_two_sub, show Real.pi / 2 - Real.arcsin y - (Real.pi / 2 - Real.arcsin B) = -(Real.arcsin y - Real.arcsin B) by ring,
      abs_neg, ← le_div_iff₀ hc] at k
    have := abs_add_le (β - Real.arcsin y) (Real.arcsin y - Real.arcsin B)
    rw [sub_add_sub_cancel] at this
    linarith

/-- **The two turns**, computed with rounding. -/
theorem turns_near {t w T r Dr : V3 ℝ} {ν b β α' β' : ℝ} (hT : ‖T.toE‖ = 1) (hw : unitVector (t.fl : V3 (Fl R)) = w.fl)
    (dw : ‖w.toE - T.toE‖ ≤ 5 * R.u + 2 * (5 * R.u)) (hν : 5 * R.u ≤ ν) (hν' : ν ≤ 1 / 100000) (hDr : ‖Dr.toE‖ = 1)
    (hr : ‖r.toE - Dr.toE‖ ≤ 26 * ν) (hb : |b| ≤ 5) (hβ : |β| ≤ 5) :
    ∃ v : V3 ℝ, unitVector (M3.mulVec (rotationMatrixAxisAngle (t.fl : V3 (Fl R)) (-Fl.fin β))
        (unitVector (M3.mulVec (rotationMatrixAxisAngle (t.fl : V3 (Fl R)) (Fl.fin b)) r.fl))) = v.fl ∧ NearUnit R v ∧
      ‖v.toE - (rodrigues T (-β') (rodrigues T α' Dr)).toE‖ ≤ 857 * ν + |b - α'| + |β - β'| := by
  have hu := R.u_pos
  obtain ⟨h5, h6⟩ := five_u (R := R)
  have lr : ‖r.toE‖ ≤ 1 + 1 / 1000 := by
    have := norm_add_le (r.toE - Dr.toE) Dr.toE
    rw [sub_add_cancel] at this; linarith
  obtain ⟨x, hx, dx⟩ := turn_axis_near (R := R) hT hw dw hb lr
  have dx1 : ‖x.toE - (rodrigues T b Dr).toE‖ ≤ 151 * ν := by
    have h1 := norm_add_le (x.toE - (rodrigues T b r).toE) ((rodrigues T b r).toE - (rodrigues T b Dr).toE)
    rw [sub_add_sub_cancel, rodrigues_isom hT] at h1
    linarith
  have e1 : ‖(rodrigues T b Dr).toE‖ = 1 := by rw [rodrigues_norm hT, hDr]
  have sx : SaneLength x := sane_of_near (by
    have h1 := abs_norm_sub_norm_le x.toE (rodrigues T b Dr).toE
    rw [e1] at h1; linarith)
  obtain ⟨y, hy, dy, ny⟩ := reunit_near (R := R) e1 sx dx1
  have ly : ‖y.toE‖ ≤ 1 + 1 / 1000 := by unfold NearUnit at ny; linarith [(abs_le.mp ny).2]
  obtain ⟨z, hz, dz⟩ := turn_axis_near (R := R) (θ := -β) hT hw dw (by rwa [abs_neg]) ly
  have dz1 : ‖z.toE - (rodrigues T (-β) (rodrigues T b Dr)).toE‖ ≤ 428 * ν := by
    have h1 := norm_add_le (z.toE - (rodrigues T (-β) y).toE) ((rodrigues T (-β) y).toE - (rodrigues T (-β) (rodrigues T b Dr)).toE)
    rw [sub_add_sub_cancel, rodrigues_isom hT] at h1
    linarith
  have e2 : ‖(rodrigues T (-β) (rodrigues T b Dr)).toE‖ = 1 := by rw [rodrigues_norm hT, e1]
  have sz : SaneLength z := sane_of_near (by
    have h1 := abs_norm_sub_norm_le z.toE (rodrigues T (-β) (rodrigues T b Dr)).toE
    rw [e2] at h1; linarith)
  obtain ⟨v, hv, dv, nv⟩ := reunit_near (R := R) e2 sz dz1
  refine ⟨v, by rw [fl_neg, hx, hy, hz, hv], nv, ?_⟩
  have a1 := rodrigues_angle hT (-β) (-β') (rodrigues T b Dr)
  rw [e1, mul_one, show -β - -β' = -(β - β') by ring, abs_neg] at a1
  have a2 := rodrigues_angle hT b α' Dr
  rw [hDr, mul_one] at a2
  have a3 := rodrigues_isom hT (-β') (rodrigues T b Dr) (rodrigues T α' Dr)
  have a4 := norm_add_le (v.toE - (rodrigues T (-β) (rodrigues T b Dr)).toE)
    ((rodrigues T (-β) (rodrigues T b Dr)).toE - (rodrigues T (-β') (rodrigues T b Dr)).toE)
  have a5 := norm_add_le (v.toE - (rodrigues T (-β') (rodrigues T b Dr)).toE)
    ((rodrigues T (-β') (rodrigues T b Dr)).toE - (rodrigues T (-β') (rodrigues T α' Dr)).toE)
  rw [sub_add_sub_cancel] at a4 a5
  linarith

/-- The exact direction is two turns of the mirrored one. -/
theorem grating_rotations {D N T : V3 ℝ} (hD : ‖D.toE‖ = 1) (hN : ‖N.toE‖ = 1) (hT : ‖T.toE‖ = 1) (h : dot N T = 0)
    (hp : 0 < planeLength D T) (G m wl : ℝ) :
    gratingDirection D N T G m wl =
      rodrigues T (-gratingBeta D N T (G / 1e6 * m * wl)) (rodrigues T (-(|gratingAlpha D N T|)) (D - (2 * dot D N) * N)) := by
  have hD' := unit_dot_self hD
  have hN' := unit_dot_self hN
  have hT' := unit_dot_self hT
  rw [(grating_eq hD' hN' hT' h (project_ne_zero hp) G m wl).1]
  obtain ⟨hpol, -, -⟩ := direction_polar hN' hT' h (project_ne_zero hp)
  have hr : D - (2 * dot D N) * N = polar N T (dot D T) (planeLength D T) (-gratingAlpha D N T) := by
    have e1 : D = -polar N T (-dot D T) (planeLength D T) (gratingAlpha D N T) := by rw [← hpol, neg_neg']
    have e2 : dot D N = -(planeLength D T * Real.cos (gratingAlpha D N T)) := by
      conv_lhs => rw [e1]
      rw [dot_neg_left, polar_dot_n hN' h]
    rw [e2]
    have ex := congrArg V3.x e1
    have ey := congrArg V3.y e1
    have ez := congrArg V3.z e1
    unfold polar at ex ey ez ⊢
    rw [Real.cos_neg, Real.sin_neg]
    generalize planeLength D T = ρ at *
    generalize gratingAlpha D N T = φ at *
    generalize dot D T = a at *
    generalize cross T N = b at *
    simp only [add_x, add_y, add_z, smul_x, smul_y, smul_z, neg_x, neg_y, neg_z] at ex ey ez
    ext <;> simp only [sub_x, sub_y, sub_z, add_x, add_y, add_z, smul_x, smul_y, smul_z]
    · linear_combination ex
    · linear_combination ey
    · linear_combination ez
  rw [hr, rodrigues_polar hN' hT' h, rodrigues_polar hN' hT' h]
  congr 1

/-- The normal and the incident direction, made unit, and the mirrored direction. -/
theorem mirrored_near {n t N T d : V3 ℝ} {ν : ℝ} (S : StoredFrame R n t N T ν) (hν : ν ≤ 1 / 100000) (hd : SaneLength d)
    {D : V3 ℝ} (hDd : D = unitVector d) (hD : ‖D.toE‖ = 1) :
    ∃ i1 n1 r : V3 ℝ, unitVector (d.fl : V3 (Fl R)) = i1.fl ∧ unitVector (n.fl : V3 (Fl R)) = n1.fl ∧
      ‖i1.toE - D.toE‖ ≤ 5 * R.u ∧ ‖n1.toE - N.toE‖ ≤ 3 * ν ∧ NearUnit R i1 ∧ NearUnit R n1 ∧
      (i1.fl : V3 (Fl R)) - (2.0 * dot (i1.fl : V3 (Fl R)) n1.fl) * (n1.fl : V3 (Fl R)) = r.fl ∧
      ‖r.toE - (D - (2 * dot D N) * N).toE‖ ≤ 26 * ν := by
  have hu := R.u_pos
  obtain ⟨h5, h6⟩ := five_u (R := R)
  obtain ⟨hN, hT, hp, hn, hTt, hν5⟩ := S
  have uE : D.toE = d.dirE := by
    rw [hDd]
    unfold V3.dirE
    rw [← toE_smul, norm_toE]
    congr 1
    unfold unitVector
    ext <;> simp [div_eq_inv_mul]
  obtain ⟨i1, hi1, di1⟩ := unitVector_near (R := R) hd
  rw [← uE] at di1
  have ni : NearUnit R i1 := by
    have := abs_norm_sub_norm_le i1.toE D.toE
    rw [hD] at this
    exact this.trans di1
  have sn : SaneLength n := sane_of_near (by
    have := abs_norm_sub_norm_le n.toE N.toE
    rw [hN] at this; linarith)
  obtain ⟨n1, hn1, dn1, nn⟩ := reunit_near (R := R) hN sn hn
  have dn1' : ‖n1.toE - N.toE‖ ≤ 3 * ν := by linarith
  have ni' := ni
  have nn' := nn
  unfold NearUnit at ni' nn'
  obtain ⟨r, hr, dr⟩ := turned_near (R := R) (i := i1) (n := n1) (by linarith) (by linarith)
  have im := image_near hD hN di1 dn1' (by linarith)
  refine ⟨i1, n1, r, hi1, hn1, di1, dn1', ni, nn, hr, ?_⟩
  have e : (D - (2 * dot D N) * N).toE = D.toE - (2 * inner ℝ D.toE N.toE) • N.toE := by
    rw [toE_sub, toE_smul, inner_toE]
  rw [e]
  have := norm_add_le (r.toE - (i1.toE - (2 * inner ℝ i1.toE n1.toE) • n1.toE))
    ((i1.toE - (2 * inner ℝ i1.toE n1.toE) • n1.toE) - (D.toE - (2 * inner ℝ D.toE N.toE) • N.toE))
  rw [sub_add_sub_cancel] at this
  linarith

theorem mirrored_unit {D N : V3 ℝ} (hD : ‖D.toE‖ = 1) (hN : ‖N.toE‖ = 1) : ‖(D - (2 * dot D N) * N).toE‖ = 1 := by
  have h1 := unit_dot_self hD
  have h2 := unit_dot_self hN
  have : dot (D - (2 * dot D N) * N) (D - (2 * dot D N) * N) = 1 := by
    have e : dot (D - (2 * dot D N) * N) (D - (2 * dot D N) * N) = dot D D - 4 * dot D N ^ 2 + 4 * dot D N ^ 2 * dot N N := by
      simp only [dot, sub_x, sub_y, sub_z, smul_x, smul_y, smul_z]; ring
    rw [e, h1, h2]; ring
  rw [norm_toE, norm_eq, this, Real.sqrt_one]

end Optics
