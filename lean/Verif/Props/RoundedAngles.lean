import Verif.Lemmas.RoundedAngle
import Mathlib.Analysis.Real.Pi.Bounds

/-!
# C106: angles with rounding

`angle_between` computes the unsigned angle with an arc cosine and the signed angle with `arctan2`.  With exact numbers both
are right (C04, C05).  With rounding the arc cosine loses half of the digits near 0 and `π`, and may be asked for the arc cosine
of a number greater than 1; `arctan2` has neither problem.
-/

namespace Optics
open V3

variable {R : Rounding}

/-- The rounded dot product of the rounded unit vectors. -/
theorem unit_dot_near {v1 v2 : V3 ℝ} (h1 : SaneLength v1) (h2 : SaneLength v2) :
    ∃ w1 w2 : V3 ℝ, ∃ x : ℝ, unitVector (v1.fl : V3 (Fl R)) = w1.fl ∧ unitVector (v2.fl : V3 (Fl R)) = w2.fl ∧
      ‖w1.toE - v1.dirE‖ ≤ 5 * R.u ∧ ‖w2.toE - v2.dirE‖ ≤ 5 * R.u ∧ ‖w1.toE‖ ≤ 1 + 5 * R.u ∧ ‖w2.toE‖ ≤ 1 + 5 * R.u ∧
      dot (w1.fl : V3 (Fl R)) w2.fl = Fl.fin x ∧ |x - inner ℝ v1.dirE v2.dirE| ≤ 14 * R.u := by
  have hu := R.u_pos
  have hus := (five_u (R := R)).2
  obtain ⟨w1, e1, d1⟩ := unitVector_near (R := R) h1
  obtain ⟨w2, e2, d2⟩ := unitVector_near (R := R) h2
  have p1 : 0 < ‖v1.toE‖ := lt_of_lt_of_le (by positivity) h1.1
  have p2 : 0 < ‖v2.toE‖ := lt_of_lt_of_le (by positivity) h2.1
  have n1 := dirE_norm p1
  have n2 := dirE_norm p2
  have l1 : ‖w1.toE‖ ≤ 1 + 5 * R.u := by
    have := (abs_le.mp (abs_norm_sub_norm_le w1.toE v1.dirE)).2
    linarith
  have l2 : ‖w2.toE‖ ≤ 1 + 5 * R.u := by
    have := (abs_le.mp (abs_norm_sub_norm_le w2.toE v2.dirE)).2
    linarith
  have l12 : ‖w1.toE‖ * ‖w2.toE‖ ≤ 1 + 1 / 1000 := by
    have := mul_le_mul l1 l2 (_root_.norm_nonneg _) (by positivity)
    nlinarith
  obtain ⟨x, hx, ex⟩ := dot_near' (R := R) (A := 1 + 1 / 1000) l12 (by norm_num) (by norm_num)
  refine ⟨w1, w2, x, e1, e2, d1, d2, l1, l2, hx, ?_⟩
  have k : inner ℝ w1.toE w2.toE - inner ℝ v1.dirE v2.dirE = inner ℝ (w1.toE - v1.dirE) w2.toE + inner ℝ v1.dirE (w2.toE - v2.dirE) := by
    rw [inner_sub_left, inner_sub_right]; ring
  have k1 := abs_real_inner_le_norm (w1.toE - v1.dirE) w2.toE
  have k2 := abs_real_inner_le_norm v1.dirE (w2.toE - v2.dirE)
  have k3 : ‖w1.toE - v1.dirE‖ * ‖w2.toE‖ ≤ 5 * R.u * (1 + 1 / 1000) :=
    mul_le_mul d1 (by linarith) (_root_.norm_nonneg _) (by positivity)
  rw [n1, one_mul] at k2
  have k4 := abs_add_le (inner ℝ (w1.toE - v1.dirE) w2.toE) (inner ℝ v1.dirE (w2.toE - v2.dirE))
  rw [← k] at k4
  have k5 := abs_add_le (x - inner ℝ w1.toE w2.toE) (inner ℝ w1.toE w2.toE - inner ℝ v1.dirE v2.dirE)
  rw [sub_add_sub_cancel] at k5
  linarith

theorem cos_angle_dirE {v1 v2 : V3 ℝ} (h1 : 0 < ‖v1.toE‖) (h2 : 0 < ‖v2.toE‖) :
    Real.cos (InnerProductGeometry.angle v1.toE v2.toE) = inner ℝ v1.dirE v2.dirE := by
  rw [InnerProductGeometry.cos_angle]
  unfold V3.dirE
  rw [inner_smul_left, inner_smul_right]
  simp only [conj_trivial]
  field_simp

/-- C106, unsigned: with rounding, `angle_between` is the angle between the vectors.  It is within `10 √u` of it, and away from 0
and `π` within a few roundoffs: the error times the sine is at most `50 u`.  Otherwise it is `nan`, and then the vectors are
parallel or antiparallel up to `6 √u`. -/
theorem C106_unsigned (v1 v2 : V3 ℝ) (h1 : SaneLength v1) (h2 : SaneLength v2) :
    let θ := InnerProductGeometry.angle v1.toE v2.toE
    (∃ a : ℝ, angleBetween (v1.fl : V3 (Fl R)) v2.fl none = Fl.fin a ∧ |a - θ| * Real.sin θ ≤ 50 * R.u ∧ |a - θ| ^ 2 ≤ 100 * R.u) ∨
      (angleBetween (v1.fl : V3 (Fl R)) v2.fl none = ⟨.nan⟩ ∧ Real.sin θ ^ 2 ≤ 28 * R.u) := by
  intro θ
  have hu := R.u_pos
  have hus := (five_u (R := R)).2
  have p1 : 0 < ‖v1.toE‖ := lt_of_lt_of_le (by positivity) h1.1
  have p2 : 0 < ‖v2.toE‖ := lt_of_lt_of_le (by positivity) h2.1
  have hcos : Real.cos θ = inner ℝ v1.dirE v2.dirE := cos_angle_dirE p1 p2
  obtain ⟨w1, w2, x, e1, e2, -, -, -, -, hx, ex⟩ := unit_dot_near (R := R) h1 h2
  rw [← hcos] at ex
  have hpi := Real.pi_pos
  have hpi4 := Real.pi_lt_d2
  have ht0 : 0 ≤ θ := InnerProductGeometry.angle_nonneg _ _
  have ht1 : θ ≤ Real.pi := InnerProductGeometry.angle_le_pi _ _
  have hs0 := Real.sin_nonneg_of_nonneg_of_le_pi ht0 ht1
  have hs1 := Real.sin_le_one θ
  have ex' := abs_le.mp ex
  have hang : angleBetween (v1.fl : V3 (Fl R)) v2.fl none = PyNum.arccos (Fl.fin x) := by
    show PyNum.arccos (dot (unitVector v1.fl) (unitVector v2.fl)) = _
    rw [e1, e2, hx]
  rw [hang]
  by_cases hin : -1 ≤ x ∧ x ≤ 1
  · left
    have a0 := Real.arccos_nonneg x
    have a1 := Real.arccos_le_pi x
    obtain ⟨a, ha, ea⟩ := rnd_mid (R := R) (x := Real.arccos x) (e := 315 / 100) (by rw [abs_of_nonneg a0]; linarith) (by norm_num)
    refine ⟨a, by rw [fl_arccos x hin, ha]; rfl, ?_⟩
    obtain ⟨b1, b2⟩ := angle_of_cos (δ := 14 * R.u) a0 a1 ht0 ht1 (by rw [Real.cos_arccos hin.1 hin.2]; exact ex)
    have tri := abs_add_le (a - Real.arccos x) (Real.arccos x - θ)
    rw [sub_add_sub_cancel] at tri
    have hpu := mul_le_mul_of_nonneg_right hpi4.le hu.le
    constructor
    · have := mul_le_mul_of_nonneg_right tri hs0
      have h3 : |a - Real.arccos x| * Real.sin θ ≤ R.u * (315 / 100 + 1 / 1000) * 1 :=
        mul_le_mul ea hs1 hs0 (by positivity)
      linarith
    · have h4 : Real.pi ^ 2 ≤ 993 / 100 := by nlinarith
      have h5 : Real.pi ^ 2 * (14 * R.u / 2) ≤ 993 / 100 * (14 * R.u / 2) := mul_le_mul_of_nonneg_right h4 (by positivity)
      have h6 : |a - θ| ^ 2 ≤ (R.u * (315 / 100 + 1 / 1000) + |Real.arccos x - θ|) ^ 2 :=
        pow_le_pow_left₀ (abs_nonneg _) (tri.trans (by linarith)) 2
      have h7 : |Real.arccos x - θ| ≤ 7 := by rw [abs_le]; constructor <;> linarith
      have h8 : 0 ≤ |Real.arccos x - θ| := abs_nonneg _
      have h9 : R.u * |Real.arccos x - θ| ≤ R.u * (1 / 100) + 100 * |Real.arccos x - θ| ^ 2 * R.u := by
        have : |Real.arccos x - θ| ≤ 1 / 100 + 100 * |Real.arccos x - θ| ^ 2 := by
          nlinarith [sq_nonneg (10 * |Real.arccos x - θ| - 1 / 20)]
        nlinarith
      have h10 : R.u * R.u ≤ 1 / 1000000 * R.u := mul_le_mul_of_nonneg_right hus hu.le
      have h11 : 100 * |Real.arccos x - θ| ^ 2 * R.u ≤ 1 / 10000 * |Real.arccos x - θ| ^ 2 := by
        have := mul_le_mul_of_nonneg_left hus (sq_nonneg |Real.arccos x - θ|)
        linarith
      nlinarith
  · right
    refine ⟨fl_arccos_out x hin, ?_⟩
    have hc1 := Real.cos_le_one θ
    have hc2 := Real.neg_one_le_cos θ
    have := Real.sin_sq_add_cos_sq θ
    have hx1 : x < -1 ∨ 1 < x := by
      by_contra hcon
      push Not at hcon
      exact hin hcon
    rcases hx1 with h | h <;> nlinarith

/-- C106, unsigned: the `nan` does occur.  With doubles, the angle between `(1, 1, 1)` and itself is `nan`, not 0. -/
theorem C106_nan :
    angleBetween (V3.fl ⟨1, 1, 1⟩ : V3 D64) (V3.fl ⟨1, 1, 1⟩) none = ⟨.nan⟩ := by
  have one : (Fl.fin 1 : D64) = dy 4503599627370496 (-52) := by unfold dy; congr 1; norm_num
  have m1 : dy 4503599627370496 (-52) * dy 4503599627370496 (-52) = dy 4503599627370496 (-52) := dy_mul (by dyE)
  have a1 : dy 4503599627370496 (-52) + dy 4503599627370496 (-52) = dy 4503599627370496 (-51) := dy_add (by dyE)
  have a2 : dy 4503599627370496 (-51) + dy 4503599627370496 (-52) = dy 6755399441055744 (-51) := dy_add (by dyE)
  have s : PyNum.sqrt (dy 6755399441055744 (-51)) = dy 7800463371553962 (-52) :=
    dy_sqrtN (by norm_num) (by norm_num) (by norm_num) (by norm_num) (by norm_num) (by norm_num) (by norm_num) (by norm_num)
  have d : dy 4503599627370496 (-52) / dy 7800463371553962 (-52) = dy 5200308914369309 (-53) := dy_div (by norm_num) (by dyN)
  have m2 : dy 5200308914369309 (-53) * dy 5200308914369309 (-53) = dy 6004799503160663 (-54) := dy_mul (by dyN)
  have a3 : dy 6004799503160663 (-54) + dy 6004799503160663 (-54) = dy 6004799503160663 (-53) := dy_add (by dyE)
  have a4 : dy 6004799503160663 (-53) + dy 6004799503160663 (-54) = dy 4503599627370497 (-52) := dy_add (by dyN)
  have uv : unitVector (V3.fl ⟨1, 1, 1⟩ : V3 D64) =
      ⟨dy 5200308914369309 (-53), dy 5200308914369309 (-53), dy 5200308914369309 (-53)⟩ := by
    have q : (Fl.fin 1 : D64) / PyNum.sqrt (Fl.fin 1 * Fl.fin 1 + Fl.fin 1 * Fl.fin 1 + Fl.fin 1 * Fl.fin 1) =
        dy 5200308914369309 (-53) := by
      rw [one, m1, a1, a2, s, d]
    exact V3.ext q q q
  show PyNum.arccos (dot (unitVector _) (unitVector _)) = _
  rw [uv]
  show PyNum.arccos (dy _ _ * dy _ _ + dy _ _ * dy _ _ + dy _ _ * dy _ _) = _
  rw [m2, a3, a4]
  exact fl_arccos_out _ (by norm_num)

/-- Turning a vector across the axis, by two angles. -/
theorem rodrigues_dist {K v : V3 ℝ} (hK : ‖K.toE‖ = 1) (hv : ‖v.toE‖ = 1) (h : dot K v = 0) (a b : ℝ) :
    ‖(rodrigues K a v).toE - (rodrigues K b v).toE‖ ^ 2 = (Real.cos a - Real.cos b) ^ 2 + (Real.sin a - Real.sin b) ^ 2 := by
  have e : rodrigues K a v - rodrigues K b v = (Real.cos a - Real.cos b) * v + (Real.sin a - Real.sin b) * cross K v := by
    unfold rodrigues
    rw [h]
    ext <;> simp only [sub_x, sub_y, sub_z, add_x, add_y, add_z, smul_x, smul_y, smul_z] <;> ring
  have d : ∀ v : V3 ℝ, ‖v.toE‖ ^ 2 = dot v v := by
    intro v; rw [normE_sq]; simp only [dot]; ring
  have c := cross_dot_self K v
  have c2 : dot v (cross K v) = 0 := by simp only [dot, cross]; ring
  rw [← toE_sub, e, d]
  rw [h, ← d K, ← d v, hK, hv] at c
  have hv2 := d v
  rw [hv] at hv2
  have : dot ((Real.cos a - Real.cos b) * v + (Real.sin a - Real.sin b) * cross K v)
      ((Real.cos a - Real.cos b) * v + (Real.sin a - Real.sin b) * cross K v) =
      (Real.cos a - Real.cos b) ^ 2 * dot v v + 2 * (Real.cos a - Real.cos b) * (Real.sin a - Real.sin b) * dot v (cross K v) +
        (Real.sin a - Real.sin b) ^ 2 * dot (cross K v) (cross K v) := by
    simp only [dot, add_x, add_y, add_z, smul_x, smul_y, smul_z]; ring
  rw [this, c, c2, ← hv2]; ring

theorem chord_le_arc (a b : ℝ) : (Real.cos a - Real.cos b) ^ 2 + (Real.sin a - Real.sin b) ^ 2 ≤ (a - b) ^ 2 := by
  have h := Real.one_sub_sq_div_two_le_cos (x := a - b)
  rw [Real.cos_sub] at h
  have h1 := Real.sin_sq_add_cos_sq a
  have h2 := Real.sin_sq_add_cos_sq b
  linarith

/-- The direction of a point of the plane that is close to a point of the unit circle. -/
theorem arg_near {x y c s δ : ℝ} (h1 : c ^ 2 + s ^ 2 = 1) (hd : (x - c) ^ 2 + (y - s) ^ 2 ≤ δ ^ 2) (hδ : 0 ≤ δ) (hδ' : δ ≤ 1 / 2) :
    (Real.cos (Complex.arg ⟨x, y⟩) - c) ^ 2 + (Real.sin (Complex.arg ⟨x, y⟩) - s) ^ 2 ≤ (2 * δ) ^ 2 := by
  obtain ⟨z, hz⟩ : ∃ z : ℂ, z = ⟨x, y⟩ := ⟨_, rfl⟩
  obtain ⟨w, hw⟩ : ∃ w : ℂ, w = ⟨c, s⟩ := ⟨_, rfl⟩
  have nsq : ∀ p q : ℝ, ‖(⟨p, q⟩ : ℂ)‖ ^ 2 = p ^ 2 + q ^ 2 := by
    intro p q
    rw [Complex.sq_norm, Complex.normSq_mk]; ring
  have nw : ‖w‖ = 1 := by
    have := nsq c s
    rw [h1, ← hw] at this
    exact (pow_eq_one_iff_of_nonneg (_root_.norm_nonneg w) (by norm_num)).mp this
  have hzw : ‖z - w‖ ≤ δ := by
    refine abs_le_of_sq_le_sq' ?_ hδ |>.2
    rw [hz, hw, show (⟨x, y⟩ : ℂ) - ⟨c, s⟩ = ⟨x - c, y - s⟩ from rfl, nsq]; exact hd
  have hn := abs_le.mp (abs_norm_sub_norm_le z w)
  rw [nw] at hn
  have hz0 : 0 < ‖z‖ := by linarith [hn.1]
  have hne : z ≠ 0 := norm_pos_iff.mp hz0
  have key : ‖(⟨Real.cos z.arg - c, Real.sin z.arg - s⟩ : ℂ)‖ ≤ 2 * δ := by
    have e : (⟨Real.cos z.arg - c, Real.sin z.arg - s⟩ : ℂ) = (‖z‖⁻¹ - 1 : ℝ) • z + (z - w) := by
      rw [Complex.cos_arg hne, Complex.sin_arg, hw]
      apply Complex.ext <;> simp <;> ring
    rw [e]
    refine (norm_add_le _ _).trans ?_
    rw [_root_.norm_smul, Real.norm_eq_abs, ← abs_of_pos hz0, ← abs_mul, abs_of_pos hz0, sub_mul, inv_mul_cancel₀ hz0.ne', one_mul]
    have : |1 - ‖z‖| ≤ δ := by
      rw [abs_le]; constructor <;> linarith [hn.1, hn.2]
    linarith
  have := nsq (Real.cos z.arg - c) (Real.sin z.arg - s)
  rw [← hz, ← this]
  exact pow_le_pow_left₀ (_root_.norm_nonneg _) key 2

/-- C106, signed: with rounding, `angle_between` with a normal is a number, and turning the direction of `v2` by it about the
normal gives the direction of `v1` up to 61 roundoffs, for all vectors across the normal, parallel or not. -/
theorem C106_signed (v1 v2 K k : V3 ℝ) (h1 : SaneLength v1) (h2 : SaneLength v2) (hK : ‖K.toE‖ = 1) (hK1 : dot K v1 = 0)
    (hK2 : dot K v2 = 0) (hk : ‖k.toE - K.toE‖ ≤ 5 * R.u) :
    ∃ a : ℝ, angleBetween (v1.fl : V3 (Fl R)) v2.fl (some k.fl) = Fl.fin a ∧ |a| ≤ 4 ∧
      ‖(rodrigues K a (unitVector v2)).toE - v1.dirE‖ ≤ 61 * R.u := by
  have hu := R.u_pos
  have hus := (five_u (R := R)).2
  have hpi4 := Real.pi_lt_d2
  have p1 : 0 < ‖v1.toE‖ := lt_of_lt_of_le (by positivity) h1.1
  have p2 : 0 < ‖v2.toE‖ := lt_of_lt_of_le (by positivity) h2.1
  have z1 : v1 ≠ ⟨0, 0, 0⟩ := by
    rintro rfl
    rw [norm_toE] at p1; simp [V3.norm, dot] at p1
  have z2 : v2 ≠ ⟨0, 0, 0⟩ := by
    rintro rfl
    rw [norm_toE] at p2; simp [V3.norm, dot] at p2
  have uE : ∀ v : V3 ℝ, (unitVector v).toE = v.dirE := by
    intro v
    unfold V3.dirE
    rw [← toE_smul, norm_toE]
    congr 1
    unfold unitVector
    ext <;> simp [div_eq_inv_mul]
  obtain ⟨w1, w2, x, e1, e2, d1, d2, l1, l2, hx, ex⟩ := unit_dot_near (R := R) h1 h2
  obtain ⟨c, hc, ec⟩ := cross_near (R := R) (a := w2) (b := w1) (by linarith) (by linarith)
  have hKK : dot K K = 1 := by rw [← inner_toE, real_inner_self_eq_norm_sq, hK, one_pow]
  obtain ⟨hcos, hsin, -⟩ := signed_angle_cos_sin v1 v2 K z1 z2 hKK hK1 hK2
  have hrot := (C05_angle_signed v1 v2 K z1 z2 hKK hK1 hK2).2.2.2.1
  obtain ⟨θ, hθ⟩ : ∃ θ, θ = angleBetween v1 v2 (some K) := ⟨_, rfl⟩
  rw [← hθ] at hcos hsin hrot
  rw [← inner_toE, uE, uE] at hcos
  rw [← inner_toE] at hsin
  -- the rounded sine
  have n1 := dirE_norm p1
  have n2 := dirE_norm p2
  have cE : ‖(cross w2 w1).toE - (cross (unitVector v2) (unitVector v1)).toE‖ ≤ 11 * R.u := by
    have e : cross w2 w1 - cross (unitVector v2) (unitVector v1) =
        cross (w2 - unitVector v2) w1 + cross (unitVector v2) (w1 - unitVector v1) := by
      ext <;> simp only [cross, sub_x, sub_y, sub_z, add_x, add_y, add_z] <;> ring
    rw [← toE_sub, e, toE_add]
    refine (norm_add_le _ _).trans ?_
    have f1 := norm_cross_le (w2 - unitVector v2) w1
    have f2 := norm_cross_le (unitVector v2) (w1 - unitVector v1)
    rw [toE_sub, uE] at f1 f2
    rw [uE, n2, one_mul] at f2
    have f3 : ‖w2.toE - v2.dirE‖ * ‖w1.toE‖ ≤ 5 * R.u * (1 + 1 / 1000) :=
      mul_le_mul d2 (by linarith) (_root_.norm_nonneg _) (by positivity)
    linarith
  have cC : ‖c.toE - (cross (unitVector v2) (unitVector v1)).toE‖ ≤ 16 * R.u := by
    have := norm_add_le (c.toE - (cross w2 w1).toE) ((cross w2 w1).toE - (cross (unitVector v2) (unitVector v1)).toE)
    rw [sub_add_sub_cancel] at this
    linarith
  have cU : ‖(cross (unitVector v2) (unitVector v1)).toE‖ ≤ 1 := by
    have := norm_cross_le (unitVector v2) (unitVector v1)
    rw [uE, uE, n1, n2, one_mul] at this
    exact this
  have lc : ‖c.toE‖ ≤ 1 + 16 * R.u := by
    have := (abs_le.mp (abs_norm_sub_norm_le c.toE (cross (unitVector v2) (unitVector v1)).toE)).2
    linarith
  have lk : ‖k.toE‖ ≤ 1 + 5 * R.u := by
    have := (abs_le.mp (abs_norm_sub_norm_le k.toE K.toE)).2
    linarith
  obtain ⟨y, hy, ey⟩ := dot_near' (R := R) (a := c) (b := k) (A := 1 + 1 / 1000) (by
    have := mul_le_mul lc lk (_root_.norm_nonneg _) (by positivity)
    nlinarith) (by norm_num) (by norm_num)
  have ey' : |y - Real.sin θ| ≤ 25 * R.u := by
    have k0 : inner ℝ c.toE k.toE - Real.sin θ = inner ℝ (c.toE - (cross (unitVector v2) (unitVector v1)).toE) k.toE +
        inner ℝ (cross (unitVector v2) (unitVector v1)).toE (k.toE - K.toE) := by
      rw [hsin, inner_sub_left, inner_sub_right]; ring
    have k1 := abs_real_inner_le_norm (c.toE - (cross (unitVector v2) (unitVector v1)).toE) k.toE
    have k2 := abs_real_inner_le_norm (cross (unitVector v2) (unitVector v1)).toE (k.toE - K.toE)
    have k3 : ‖c.toE - (cross (unitVector v2) (unitVector v1)).toE‖ * ‖k.toE‖ ≤ 16 * R.u * (1 + 1 / 1000) :=
      mul_le_mul cC (by linarith) (_root_.norm_nonneg _) (by positivity)
    have k4 : ‖(cross (unitVector v2) (unitVector v1)).toE‖ * ‖k.toE - K.toE‖ ≤ 1 * (5 * R.u) :=
      mul_le_mul cU hk (_root_.norm_nonneg _) (by norm_num)
    have k5 := abs_add_le (inner ℝ (c.toE - (cross (unitVector v2) (unitVector v1)).toE) k.toE)
      (inner ℝ (cross (unitVector v2) (unitVector v1)).toE (k.toE - K.toE))
    rw [← k0] at k5
    have k6 := abs_add_le (y - inner ℝ c.toE k.toE) (inner ℝ c.toE k.toE - Real.sin θ)
    rw [sub_add_sub_cancel] at k6
    linarith
  rw [← hcos] at ex
  -- the angle
  have hax : |Complex.arg ⟨x, y⟩| ≤ 315 / 100 := (Complex.abs_arg_le_pi _).trans (by linarith)
  obtain ⟨a, ha, ea⟩ := rnd_mid (R := R) hax (by norm_num)
  refine ⟨a, ?_, ?_, ?_⟩
  · show PyNum.arctan2 (dot (cross (unitVector v2.fl) (unitVector v1.fl)) k.fl) (dot (unitVector v1.fl) (unitVector v2.fl)) = _
    rw [e1, e2, hx, hc, hy, fl_arctan2, ha]; rfl
  · have := abs_add_le (a - Complex.arg ⟨x, y⟩) (Complex.arg ⟨x, y⟩)
    rw [sub_add_cancel] at this
    linarith
  · have near := arg_near (x := x) (y := y) (c := Real.cos θ) (s := Real.sin θ) (δ := 287 / 10 * R.u) (Real.cos_sq_add_sin_sq θ) (by
      have t1 : (x - Real.cos θ) ^ 2 ≤ (14 * R.u) ^ 2 := by rw [← sq_abs]; exact pow_le_pow_left₀ (abs_nonneg _) ex 2
      have t2 : (y - Real.sin θ) ^ 2 ≤ (25 * R.u) ^ 2 := by rw [← sq_abs]; exact pow_le_pow_left₀ (abs_nonneg _) ey' 2
      linarith only [t1, t2, sq_nonneg R.u]) (by positivity) (by linarith)
    have hnu : ‖(unitVector v2).toE‖ = 1 := by rw [uE]; exact n2
    have hKu : dot K (unitVector v2) = 0 := by rw [unitVector, dot_div_right, hK2, zero_div]
    have A := rodrigues_dist hK hnu hKu (Complex.arg ⟨x, y⟩) θ
    have B := rodrigues_dist hK hnu hKu a (Complex.arg ⟨x, y⟩)
    rw [hrot, uE] at A
    have A' : ‖(rodrigues K (Complex.arg ⟨x, y⟩) (unitVector v2)).toE - v1.dirE‖ ≤ 574 / 10 * R.u := by
      refine abs_le_of_sq_le_sq' ?_ (by positivity) |>.2
      rw [A]; exact near.trans_eq (by ring)
    have B' : ‖(rodrigues K a (unitVector v2)).toE - (rodrigues K (Complex.arg ⟨x, y⟩) (unitVector v2)).toE‖ ≤
        |a - Complex.arg ⟨x, y⟩| := by
      refine abs_le_of_sq_le_sq' ?_ (abs_nonneg _) |>.2
      rw [B, sq_abs]
      exact chord_le_arc _ _
    have := norm_add_le ((rodrigues K a (unitVector v2)).toE - (rodrigues K (Complex.arg ⟨x, y⟩) (unitVector v2)).toE)
      ((rodrigues K (Complex.arg ⟨x, y⟩) (unitVector v2)).toE - v1.dirE)
    rw [sub_add_sub_cancel] at this
    linarith

/-- The hypotheses can be met with doubles: vectors in the `xy` plane and the `z` axis. -/
example : ∃ a : ℝ, angleBetween (V3.fl ⟨1, 0, 0⟩ : V3 D64) (V3.fl ⟨0, 1, 0⟩) (some (V3.fl ⟨0, 0, 1⟩)) = Fl.fin a ∧ |a| ≤ 4 ∧
    ‖(rodrigues ⟨0, 0, 1⟩ a (unitVector ⟨0, 1, 0⟩)).toE - (⟨1, 0, 0⟩ : V3 ℝ).dirE‖ ≤ 61 * binary64.u := by
  have n1 : ‖(⟨1, 0, 0⟩ : V3 ℝ).toE‖ = 1 := by rw [norm_toE]; simp [V3.norm, dot]
  have n2 : ‖(⟨0, 1, 0⟩ : V3 ℝ).toE‖ = 1 := by rw [norm_toE]; simp [V3.norm, dot]
  have n3 : ‖(⟨0, 0, 1⟩ : V3 ℝ).toE‖ = 1 := by rw [norm_toE]; simp [V3.norm, dot]
  refine C106_signed (R := binary64) _ _ ⟨0, 0, 1⟩ ⟨0, 0, 1⟩ (sane_of_near (by rw [n1]; norm_num)) (sane_of_near (by rw [n2]; norm_num)) n3
    (by simp [dot]) (by simp [dot]) ?_
  rw [sub_self, norm_zero]
  have := binary64.u_pos
  linarith

end Optics
