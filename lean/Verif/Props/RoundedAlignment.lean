import Verif.Lemmas.RoundedAlign
import Verif.Lemmas.Resonator64
import Verif.Props.Rotations
import Verif.Lemmas.Dyadic64
import Verif.Props.RoundedRefraction
import Verif.Model.Optics
/-!
C113: `rotation_matrix2` with rounded arithmetic.
-/

namespace Optics
open V3

variable {R : Rounding}

theorem sane_ne_zero {v : V3 ℝ} (hv : SaneLength v) : v ≠ ⟨0, 0, 0⟩ := by
  intro h
  have h1 := hv.1
  rw [h, norm_toE] at h1
  simp [V3.norm, dot] at h1
  norm_num at h1

/-- **C113: the matrix that takes one direction to another.** Computed with rounding, every entry of `rotation_matrix2(a, b)` is within
`130u/(1 + cos)` of the entry of a rotation that takes the direction of `a` to that of `b`, where `cos` is the cosine of the angle
between them, and the caller's arrays become unit vectors to within `5u`. -/
theorem C113_matrix (a b : V3 ℝ) (ha : SaneLength a) (hb : SaneLength b) (hq : 40000 * R.u ≤ 1 + inner ℝ a.dirE b.dirE)
    (hfine : 1 / 10 ^ 100 ≤ R.u) :
    IsRotation (rotationMatrix2 a b).1 ∧ M3.mulVec (rotationMatrix2 a b).1 (unitVector a) = unitVector b ∧
    ∃ (M : M3 ℝ) (a' b' : V3 ℝ), rotationMatrix2 (a.fl : V3 (Fl R)) b.fl = (M.fl, a'.fl, b'.fl) ∧
      M.Close (rotationMatrix2 a b).1 (130 * R.u / (1 + inner ℝ a.dirE b.dirE)) ∧
      ‖a'.toE - a.dirE‖ ≤ 5 * R.u ∧ ‖b'.toE - b.dirE‖ ≤ 5 * R.u := by
  have hu := R.u_pos
  obtain ⟨h5, h6⟩ := five_u (R := R)
  have ua := sane_unit ha
  have ub := sane_unit hb
  obtain ⟨A, hA⟩ : ∃ A, A = unitVector a := ⟨_, rfl⟩
  obtain ⟨B, hB⟩ : ∃ B, B = unitVector b := ⟨_, rfl⟩
  have eA : a.dirE = A.toE := by rw [hA, unitVector_dirE]
  have eB : b.dirE = B.toE := by rw [hB, unitVector_dirE]
  rw [← hA] at ua
  rw [← hB] at ub
  rw [eA, eB] at hq ⊢
  have qd : inner ℝ A.toE B.toE = dot A B := inner_toE A B
  rw [qd] at hq ⊢
  obtain ⟨q, eq⟩ : ∃ q, q = 1 + dot A B := ⟨_, rfl⟩
  rw [← eq] at hq ⊢
  have dA := unit_dot_self ua
  have dB := unit_dot_self ub
  have hq2 : q ≤ 2 := by
    have := abs_real_inner_le_norm A.toE B.toE
    rw [ua, ub, one_mul, qd] at this
    linarith [(abs_le.mp this).2]
  have hq0 : 0 < q := by linarith
  have hsin : ‖(cross A B).toE‖ ^ 2 = q * (2 - q) := by
    have := cross_dot_self A B
    rw [dA, dB] at this
    rw [normE_sq]
    simp only [dot] at this eq ⊢
    rw [eq]; linarith
  have hex : (rotationMatrix2 a b).1 = alignMat (cross A B) q := by
    rw [rotationMatrix2_unit (sane_ne_zero ha) (sane_ne_zero hb), ← hA, ← hB, align_exact dA dB (by linarith), eq]
  have hanti : ¬ ∃ c : ℝ, c < 0 ∧ b = c * a := by
    rintro ⟨c, hc, h⟩
    have hp := ha.pos
    have e1 : b.dirE = -a.dirE := by
      unfold V3.dirE
      rw [h, toE_smul, _root_.norm_smul, Real.norm_of_nonpos hc.le, smul_smul, ← neg_smul]
      congr 1
      have := hc.ne
      field_simp
    rw [eA, eB] at e1
    rw [eq, ← qd, e1, inner_neg_right, real_inner_self_eq_norm_sq, ua] at hq0
    norm_num at hq0
  obtain ⟨r1, r2, -⟩ := C07_rotation_matrix2_partial a b (sane_ne_zero ha) (sane_ne_zero hb) hanti
  refine ⟨r1, r2, ?_⟩
  obtain ⟨a', ha', da⟩ := unitVector_near (R := R) ha
  obtain ⟨b', hb', db⟩ := unitVector_near (R := R) hb
  rw [eA] at da
  rw [eB] at db
  have na : ‖a'.toE‖ ≤ 1 + 1 / 1000 := by
    have := norm_add_le (a'.toE - A.toE) A.toE
    rw [sub_add_cancel, ua] at this; linarith
  have nb : ‖b'.toE‖ ≤ 1 + 1 / 1000 := by
    have := norm_add_le (b'.toE - B.toE) B.toE
    rw [sub_add_cancel, ub] at this; linarith
  obtain ⟨v, hv, dv⟩ := cross_near (R := R) na nb
  have dv' : ‖v.toE - (cross A B).toE‖ ≤ 16 * R.u := by
    have e : cross a' b' - cross A B = cross (a' - A) b' + cross A (b' - B) := by
      ext <;> simp only [cross, sub_x, sub_y, sub_z, add_x, add_y, add_z] <;> ring
    have k1 := norm_cross_le (a' - A) b'
    have k2 := norm_cross_le A (b' - B)
    rw [toE_sub] at k1 k2
    rw [ua, one_mul] at k2
    have k3 := mul_le_mul da nb (_root_.norm_nonneg _) (by positivity)
    have k4 := norm_add_le (cross (a' - A) b').toE (cross A (b' - B)).toE
    rw [← toE_add, ← e, toE_sub] at k4
    have k5 := norm_add_le (v.toE - (cross a' b').toE) ((cross a' b').toE - (cross A B).toE)
    rw [sub_add_sub_cancel] at k5
    linarith
  obtain ⟨c, hc, dc⟩ := dot_near' (R := R) (a := a') (b := b') (A := 101 / 100) (by
    have := mul_le_mul na nb (_root_.norm_nonneg _) (by norm_num); linarith) (by norm_num) (by norm_num)
  have dc' : |c - (q - 1)| ≤ 139 / 10 * R.u := by
    have e1 : inner ℝ a'.toE b'.toE - (q - 1) = inner ℝ (a'.toE - A.toE) b'.toE + inner ℝ A.toE (b'.toE - B.toE) := by
      rw [inner_sub_left, inner_sub_right, qd, eq]; ring
    have a1 := abs_real_inner_le_norm (a'.toE - A.toE) b'.toE
    have a2 := abs_real_inner_le_norm A.toE (b'.toE - B.toE)
    rw [ua, one_mul] at a2
    have a3 := mul_le_mul da nb (_root_.norm_nonneg _) (by positivity)
    have a5 := abs_add_le (c - inner ℝ a'.toE b'.toE) (inner ℝ a'.toE b'.toE - (q - 1))
    rw [sub_add_sub_cancel] at a5
    have a6 := abs_add_le (inner ℝ (a'.toE - A.toE) b'.toE) (inner ℝ A.toE (b'.toE - B.toE))
    rw [← e1] at a6
    linarith
  have hV1 : ‖(cross A B).toE‖ ≤ 1 := by
    have := norm_cross_le A B
    rwa [ua, ub, one_mul] at this
  obtain ⟨r, hr⟩ := norm_finite (R := R) (v := v) (by
    have := norm_add_le (v.toE - (cross A B).toE) (cross A B).toE
    rw [sub_add_cancel] at this; linarith)
  have ha2 : (a.fl : V3 (Fl R)) / V3.norm (a.fl : V3 (Fl R)) = a'.fl := ha'
  have hb2 : (b.fl : V3 (Fl R)) / V3.norm (b.fl : V3 (Fl R)) = b'.fl := hb'
  rw [hex]
  by_cases h0 : r = 0
  · have tiny : ‖v.toE‖ ≤ 1 / 10 ^ 100 := by
      by_contra hcon
      obtain ⟨r', hr', er⟩ := norm_near (R := R) (v := v) ⟨(not_le.mp hcon).le, by
        have := norm_add_le (v.toE - (cross A B).toE) (cross A B).toE
        rw [sub_add_cancel] at this
        have : (2 : ℝ) ≤ 10 ^ 100 := by norm_num
        linarith⟩
      rw [hr, h0] at hr'
      have e0 : r' = 0 := by
        have := congrArg Fl.val hr'
        exact (XR.fin.inj this).symm
      rw [e0, zero_sub, abs_neg, abs_of_nonneg (_root_.norm_nonneg _)] at er
      have p : 0 < ‖v.toE‖ := lt_trans (by positivity) (not_le.mp hcon)
      nlinarith
    have hV : ‖(cross A B).toE‖ ≤ 17 * R.u := by
      have := norm_sub_norm_le (cross A B).toE v.toE
      rw [norm_sub_rev] at this
      linarith
    obtain ⟨M, eM, hM⟩ := eye_near (R := R) hV hq hq2
    have hcpos : 0 < c := by
      have k1 := pow_le_pow_left₀ (_root_.norm_nonneg _) hV 2
      rw [hsin] at k1
      have k2 : 40000 * R.u * (2 - q) ≤ q * (2 - q) := mul_le_mul_of_nonneg_right hq (by linarith)
      have k3 : 2 - q ≤ 1 := by
        by_contra hcon
        have : 40000 * R.u * 1 ≤ 40000 * R.u * (2 - q) := mul_le_mul_of_nonneg_left (not_le.mp hcon).le (by positivity)
        nlinarith
      have k4 : 40000 * R.u * (2 - q) ≤ 40000 * R.u * (1 / 10000 * 1) := by nlinarith
      have k5 := le_of_mul_le_mul_left k4 (by positivity)
      linarith [(abs_le.mp dc').1]
    refine ⟨M, a', b', ?_, hM, da, db⟩
    rw [← eM]
    unfold rotationMatrix2
    simp only [ha2, hb2, hv, hr, hc, fl_lit0, fl_eqb, h0, decide_true, if_true, gt_iff_lt, fl_lt, hcpos]
  · obtain ⟨M, eM, hM⟩ := align_near (R := R) dv' hV1 (by rw [hsin]; nlinarith) dc' hq hq2
    refine ⟨M, a', b', ?_, hM, da, db⟩
    rw [← eM]
    unfold rotationMatrix2
    simp only [ha2, hb2, hv, hr, hc, fl_lit0, fl_eqb, h0, decide_false, Bool.false_eq_true, if_false]
    rfl

/-- A row of a matrix that is close to a rotation, times a vector. -/
theorem close_row {m N v : V3 ℝ} {X e : ℝ} (hx : |m.x - N.x| ≤ e) (hy : |m.y - N.y| ≤ e) (hz : |m.z - N.z| ≤ e) (he : e ≤ 4 / 1000)
    (hN : dot N N = 1) (hv : ‖v.toE‖ ≤ X) (hX : 1 ≤ X) (hX' : X ≤ 10 ^ 150) :
    ∃ y, dot (m.fl : V3 (Fl R)) v.fl = Fl.fin y ∧ |y - dot N v| ≤ (9 / 5 * e + 36 / 10 * R.u) * X := by
  have hu := R.u_pos
  have e0 : 0 ≤ e := (abs_nonneg _).trans hx
  have hN1 : ‖N.toE‖ = 1 := by rw [norm_toE, norm_eq_one_iff.mpr hN]
  have hd := normE_le (v := m - N) (e := e) e0 hx hy hz
  rw [toE_sub] at hd
  have hm : ‖m.toE‖ ≤ 101 / 100 := by
    have := norm_add_le (m.toE - N.toE) N.toE
    rw [sub_add_cancel] at this; linarith
  have h0 := _root_.norm_nonneg v.toE
  have hmv : ‖m.toE‖ * ‖v.toE‖ ≤ 101 / 100 * X := mul_le_mul hm hv h0 (by norm_num)
  obtain ⟨y, hy, ey⟩ := dot_near' (R := R) hmv (by linarith) (by
    have : (101 / 100 : ℝ) * 10 ^ 150 ≤ 10 ^ 200 := by norm_num
    linarith)
  rw [inner_toE] at ey
  refine ⟨y, hy, ?_⟩
  have e1 : dot m v - dot N v = inner ℝ (m.toE - N.toE) v.toE := by
    rw [inner_sub_left, inner_toE, inner_toE]
  have h1 : |dot m v - dot N v| ≤ 9 / 5 * e * X := by
    rw [e1]
    exact (abs_real_inner_le_norm _ _).trans (mul_le_mul hd hv h0 (by positivity))
  have h2 := abs_add_le (y - dot m v) (dot m v - dot N v)
  rw [sub_add_sub_cancel] at h2
  have h3 : 0 ≤ R.u * X := by positivity
  linarith

/-- **C113: vectors are turned** by a rotation that takes the direction of `a` to that of `b`, with an error of at most
`450u/(1 + cos)` of their length (of 1, for vectors shorter than 1). -/
theorem C113_turn (a b v : V3 ℝ) (X : ℝ) (ha : SaneLength a) (hb : SaneLength b) (hq : 40000 * R.u ≤ 1 + inner ℝ a.dirE b.dirE)
    (hfine : 1 / 10 ^ 100 ≤ R.u) (hX : 1 ≤ X) (hX' : X ≤ 10 ^ 100) (hv : ‖v.toE‖ ≤ X) :
    IsRotation (rotationMatrix2 a b).1 ∧ M3.mulVec (rotationMatrix2 a b).1 (unitVector a) = unitVector b ∧
    ∃ w : V3 ℝ, M3.mulVec (rotationMatrix2 (a.fl : V3 (Fl R)) b.fl).1 v.fl = w.fl ∧
      ‖w.toE - (M3.mulVec (rotationMatrix2 a b).1 v).toE‖ ≤ 450 * R.u / (1 + inner ℝ a.dirE b.dirE) * X := by
  have hu := R.u_pos
  obtain ⟨rot, maps, M, a', b', eM, hM, -, -⟩ := C113_matrix a b ha hb hq hfine
  refine ⟨rot, maps, ?_⟩
  obtain ⟨q, eq⟩ : ∃ q, q = 1 + inner ℝ a.dirE b.dirE := ⟨_, rfl⟩
  rw [← eq] at hq hM ⊢
  have hq0 : 0 < q := by linarith
  have hq2 : q ≤ 2 := by
    have := abs_real_inner_le_norm a.dirE b.dirE
    rw [dirE_norm ha.pos, dirE_norm hb.pos, one_mul] at this
    linarith [(abs_le.mp this).2]
  have huq : R.u ≤ 2 * (R.u / q) := by
    rw [mul_div_assoc', le_div_iff₀ hq0]; nlinarith
  have he : 130 * R.u / q ≤ 4 / 1000 := by rw [div_le_iff₀ hq0]; linarith
  have hX150 : X ≤ 10 ^ 150 := hX'.trans (pow_le_pow_right₀ (by norm_num) (by norm_num))
  obtain ⟨⟨d0, d1, d2, -⟩, -⟩ := (isRotation_iff _).mp rot
  obtain ⟨⟨a0, a1, a2⟩, ⟨b0, b1, b2⟩, c0, c1, c2⟩ := hM
  obtain ⟨x, ex, hx⟩ := close_row (R := R) a0 a1 a2 he d0 hv hX hX150
  obtain ⟨y, ey, hy⟩ := close_row (R := R) b0 b1 b2 he d1 hv hX hX150
  obtain ⟨z, ez, hz⟩ := close_row (R := R) c0 c1 c2 he d2 hv hX hX150
  refine ⟨⟨x, y, z⟩, ?_, ?_⟩
  · rw [eM]
    unfold M3.mulVec M3.fl
    simp only [ex, ey, ez]
    rfl
  · rw [← toE_sub]
    have := normE_le (v := (⟨x, y, z⟩ : V3 ℝ) - M3.mulVec (rotationMatrix2 a b).1 v) (e := (9 / 5 * (130 * R.u / q) + 36 / 10 * R.u) * X)
      (by positivity) hx hy hz
    refine this.trans ?_
    rw [← mul_assoc]
    refine mul_le_mul_of_nonneg_right ?_ (by linarith)
    rw [mul_div_assoc, mul_div_assoc]
    have : 0 ≤ R.u / q := by positivity
    linarith

/-! ### Nearly opposite directions -/

theorem nan_add (a : Fl R) : (⟨.nan⟩ : Fl R) + a = ⟨.nan⟩ := by cases a; rfl
theorem add_nan (a : Fl R) : a + (⟨.nan⟩ : Fl R) = ⟨.nan⟩ := by rcases a with ⟨_ | _ | _ | _⟩ <;> rfl
theorem nan_mul (a : Fl R) : (⟨.nan⟩ : Fl R) * a = ⟨.nan⟩ := by cases a; rfl
theorem mul_nan (a : Fl R) : a * (⟨.nan⟩ : Fl R) = ⟨.nan⟩ := by rcases a with ⟨_ | _ | _ | _⟩ <;> rfl
theorem nan_sub (a : Fl R) : (⟨.nan⟩ : Fl R) - a = ⟨.nan⟩ := by cases a; rfl
theorem sub_nan (a : Fl R) : a - (⟨.nan⟩ : Fl R) = ⟨.nan⟩ := by rcases a with ⟨_ | _ | _ | _⟩ <;> rfl
theorem fl_zero_div : (Fl.fin 0 : Fl R) / Fl.fin 0 = ⟨.nan⟩ := by
  show (⟨R.apply (XR.fin 0 / XR.fin 0)⟩ : Fl R) = _
  rw [XR.zero_div_zero]; rfl

/-- What is added to 1 is lost if it is small enough. -/
theorem rnd64_absorb {δ : ℝ} (h0 : 0 ≤ δ) (h1 : δ ≤ 1 / 10 ^ 17) : rnd64 (1 + δ) = .fin 1 := by
  have hr : roundEven ((1 + δ) / 2 ^ (-52 : ℤ)) = 2 ^ 52 := by
    have e : (1 + δ) / 2 ^ (-52 : ℤ) = 2 ^ 52 + δ * 2 ^ 52 := by norm_num; ring
    have hf : ⌊(2 : ℝ) ^ 52 + δ * 2 ^ 52⌋ = 2 ^ 52 := by
      rw [Int.floor_eq_iff]
      push_cast
      constructor <;> nlinarith
    rw [e]
    unfold roundEven
    rw [hf, if_pos]
    push_cast
    norm_num
    linarith
  have := rnd64_at (x := 1 + δ) (m := 2 ^ 52) (e := -52) (by norm_num) (by norm_num)
    (by rw [abs_of_pos (by linarith)]; norm_num; linarith) (by rw [abs_of_pos (by linarith)]; norm_num; linarith) hr
  rw [this]; norm_num

/-- Two doubles, small but not zero. -/
structure Tilt (x y : ℝ) : Prop where
  x_double : rnd64 x = .fin x
  y_double : rnd64 y = .fin y
  x_small : |x| ≤ 1 / 10 ^ 9
  y_small : |y| ≤ 1 / 10 ^ 9
  tilted : 1 / 10 ^ 90 ≤ |x| ∨ 1 / 10 ^ 90 ≤ |y|

theorem Tilt.norm {x y : ℝ} (h : Tilt x y) : V3.norm (V3.fl ⟨x, y, -1⟩ : V3 D64) = Fl.fin 1 := by
  have hu : binary64.u = 1 / 2 ^ 53 := rfl
  have sq : ∀ {a : ℝ}, |a| ≤ 1 / 10 ^ 9 → ∃ b, binary64.rnd (a * a) = .fin b ∧ 0 ≤ b ∧ b ≤ 11 / 10 / 10 ^ 18 := by
    intro a ha
    have h1 : |a * a| ≤ 1 / 10 ^ 18 := by
      rw [abs_mul]
      have := mul_le_mul ha ha (abs_nonneg _) (by norm_num)
      norm_num at this ⊢; linarith
    obtain ⟨b, hb, eb⟩ := rnd_near (R := binary64) h1 (by norm_num)
    have hb' : binary64.rnd (a * a) = .fin b := congrArg Fl.val hb
    refine ⟨b, hb', rnd_nonneg (mul_self_nonneg a) hb', ?_⟩
    have := (abs_le.mp eb).2
    have h2 := (abs_le.mp h1).2
    rw [hu] at this
    norm_num at *
    linarith
  obtain ⟨p, hp, p0, p1⟩ := sq h.x_small
  obtain ⟨r, hr, r0, r1⟩ := sq h.y_small
  obtain ⟨t, ht, et⟩ := rnd_near (R := binary64) (x := p + r) (e := 22 / 10 / 10 ^ 18) (by rw [abs_of_nonneg (by linarith)]; linarith) (by norm_num)
  have ht' : binary64.rnd (p + r) = .fin t := congrArg Fl.val ht
  have t0 : 0 ≤ t := rnd_nonneg (by linarith) ht'
  have t1 : t ≤ 1 / 10 ^ 17 := by
    have := (abs_le.mp et).2
    rw [hu] at this
    norm_num at *
    linarith
  have hs : binary64.rnd (t + 1) = .fin 1 := by rw [add_comm]; exact rnd64_absorb t0 t1
  unfold V3.norm dot V3.fl
  simp only [fl_mul, hp, hr, fl_mk, fl_add, ht', neg_mul_neg, mul_one, d1, hs]
  rw [fl_sqrt _ (by norm_num), Real.sqrt_one, d1]; rfl

theorem Tilt.unit {x y : ℝ} (h : Tilt x y) : unitVector (V3.fl ⟨x, y, -1⟩ : V3 D64) = V3.fl ⟨x, y, -1⟩ := by
  unfold unitVector
  rw [h.norm]
  have hx : binary64.rnd x = .fin x := h.x_double
  have hy : binary64.rnd y = .fin y := h.y_double
  ext <;> simp only [sdiv_x, sdiv_y, sdiv_z, V3.fl] <;> rw [fl_div _ _ (by norm_num), div_one]
  · rw [hx]; rfl
  · rw [hy]; rfl
  · rw [dm1]; rfl

/-- **C113: nearly opposite directions.** With doubles, `rotation_matrix2` of a direction that differs from the opposite of the `z`
axis by less than `1e-9` (but is not exactly opposite) and the `z` axis contains `nan`: `1 + cos` is rounded to 0. -/
theorem C113_opposite {x y : ℝ} (h : Tilt x y) :
    (rotationMatrix2 (V3.fl ⟨x, y, -1⟩ : V3 D64) ⟨0.0, 0.0, 1.0⟩).1.r0.z = ⟨.nan⟩ ∧
    (rotationMatrix2 (V3.fl ⟨x, y, -1⟩ : V3 D64) ⟨0.0, 0.0, 1.0⟩).1.r1.z = ⟨.nan⟩ := by
  have hu : binary64.u = 1 / 2 ^ 53 := rfl
  have l0 : (0.0 : D64) = Fl.fin 0 := fl_lit0
  have l1 : (1.0 : D64) = Fl.fin 1 := fl_lit1 binary64_one
  have hx : binary64.rnd x = .fin x := h.x_double
  have hy : binary64.rnd y = .fin y := h.y_double
  have na : (V3.fl ⟨x, y, -1⟩ : V3 D64) / V3.norm (V3.fl ⟨x, y, -1⟩ : V3 D64) = V3.fl ⟨x, y, -1⟩ := h.unit
  have nb : (V3.fl ⟨0, 0, 1⟩ : V3 D64) / V3.norm (V3.fl ⟨0, 0, 1⟩ : V3 D64) = V3.fl ⟨0, 0, 1⟩ := d_unit (s := 1) (.inl rfl)
  have eb : (⟨Fl.fin 0, Fl.fin 0, Fl.fin 1⟩ : V3 D64) = V3.fl ⟨0, 0, 1⟩ := rfl
  obtain ⟨w, hw, ew⟩ := rnd_near (R := binary64) (x := 0 - x) (e := |x|) (by rw [zero_sub, abs_neg]) (by linarith [h.x_small])
  have hw' : binary64.rnd (0 - x) = .fin w := congrArg Fl.val hw
  have hcr : cross (V3.fl ⟨x, y, -1⟩ : V3 D64) (V3.fl ⟨0, 0, 1⟩) = V3.fl ⟨y, w, 0⟩ := by
    unfold cross V3.fl
    simp only [fl_mul, mul_one, mul_zero, hx, hy, d0, fl_mk, fl_sub, sub_zero, sub_self, hw']
  have hdt : dot (V3.fl ⟨x, y, -1⟩ : V3 D64) (V3.fl ⟨0, 0, 1⟩) = Fl.fin (-1) := by
    unfold dot V3.fl
    simp only [fl_mul, mul_one, mul_zero, d0, dm1, fl_mk, fl_add, add_zero, zero_add]
  have hn : PyNum.eqb (V3.norm (V3.fl ⟨y, w, 0⟩ : V3 D64)) (Fl.fin 0) = false := by
    obtain ⟨cx, cy, -⟩ := comp_le_norm ⟨y, w, 0⟩
    have hwx := abs_sub_abs_le_abs_sub w (0 - x)
    have hxw := abs_sub_abs_le_abs_sub (0 - x) w
    rw [abs_sub_comm (0 - x) w] at hxw
    rw [zero_sub, abs_neg] at hwx hxw
    rw [zero_sub] at ew
    have hxs := h.x_small
    have hys := h.y_small
    have h250 : (1 : ℝ) / 10 ^ 250 ≤ 1 / 10 ^ 91 := one_div_le_one_div_of_le (by positivity) (pow_le_pow_right₀ (by norm_num) (by norm_num))
    have hsm : binary64.u * (|x| + 1 / 10 ^ 250) ≤ 1 / 2 * |x| + 1 / 10 ^ 91 := by
      have h0 := abs_nonneg x
      have h1 : (0 : ℝ) ≤ 1 / 10 ^ 250 := by positivity
      obtain ⟨t, et⟩ : ∃ t : ℝ, t = 1 / 10 ^ 250 := ⟨_, rfl⟩
      obtain ⟨t', et'⟩ : ∃ t : ℝ, t = 1 / 10 ^ 91 := ⟨_, rfl⟩
      rw [hu]
      rw [← et] at h250 h1 ⊢
      rw [← et'] at h250 ⊢
      linarith
    have hlow : 1 / 10 ^ 100 ≤ ‖(⟨y, w, 0⟩ : V3 ℝ).toE‖ := by
      have e1 : (1 : ℝ) / 10 ^ 91 = 1 / 10 ^ 90 / 10 := by norm_num
      have e2 : (1 : ℝ) / 10 ^ 100 ≤ 1 / 10 ^ 90 / 10 := by norm_num
      simp only at cx cy
      obtain ⟨t, et⟩ : ∃ t : ℝ, t = 1 / 10 ^ 90 := ⟨_, rfl⟩
      have t0 : 0 < t := by rw [et]; positivity
      have ht := h.tilted
      rw [e1] at hsm
      rw [← et] at hsm ht e2
      rcases ht with ht | ht <;> linarith
    have hhigh : ‖(⟨y, w, 0⟩ : V3 ℝ).toE‖ ≤ 10 ^ 100 := by
      have := normE_le (v := ⟨y, w, 0⟩) (e := 1) (by norm_num) (by simp only; linarith)
        (by
          have e1 : (1 : ℝ) / 10 ^ 91 ≤ 1 / 10 := by norm_num
          simp only; linarith) (by simp)
      refine this.trans ?_
      norm_num
    obtain ⟨r, er, hr⟩ := norm_near (R := binary64) ⟨hlow, hhigh⟩
    rw [er, fl_eqb, decide_eq_false_iff_not]
    intro h0
    have hpos : 0 < ‖(⟨y, w, 0⟩ : V3 ℝ).toE‖ := lt_of_lt_of_le (by positivity) hlow
    rw [h0, zero_sub, abs_neg, abs_of_pos hpos, hu] at hr
    linarith
  have hz : (1.0 : D64) + Fl.fin (-1) = Fl.fin 0 := by
    rw [l1, fl_add, show (1 : ℝ) + -1 = 0 by ring, d0]; rfl
  unfold rotationMatrix2
  dsimp only
  rw [l0, l1, eb, na, nb, hcr, hdt, hn, ← l1, hz]
  constructor
  · show (_ + _) + dot _ _ / Fl.fin 0 = _
    simp only [dot, V3.fl, M3.col2, fl_mul, fl_neg, neg_zero, mul_zero, zero_mul, d0, fl_mk, fl_add, add_zero, fl_zero_div, add_nan]
  · show (_ + _) + dot _ _ / Fl.fin 0 = _
    simp only [dot, V3.fl, M3.col2, fl_mul, fl_neg, neg_zero, mul_zero, zero_mul, d0, fl_mk, fl_add, add_zero, fl_zero_div, add_nan]

/-- **C113: an invisible cylinder.** With doubles, an infinite cylinder of any nonzero radius anywhere, constructed with such an axis, is hit by no
ray and contains no point. -/
theorem C113_invisible {x y : ℝ} (h : Tilt x y) (center : V3 D64) (Rad D : Option D64) (c : InfiniteCylinder D64)
    (hc : InfiniteCylinder.new center (V3.fl ⟨x, y, -1⟩) Rad D = .ok c) (hr : PyNum.eqb c.R 0.0 = false) :
    (∀ ray, c.testIntersect ray = .ok (Hit6.miss 0)) ∧ ∀ p, c.testPoint p = .ok false := by
  obtain ⟨n0, n1⟩ := C113_opposite h
  have hd : c.direction = V3.fl ⟨x, y, -1⟩ := by
    unfold InfiniteCylinder.new at hc
    cases hk : checkRAndD Rad D with
    | error e => rw [hk] at hc; simp [bind, Except.bind] at hc
    | ok k =>
      rw [hk] at hc
      simp only [bind, Except.bind, pure, Except.pure, Except.ok.injEq] at hc
      rw [← hc]; exact h.unit
  have hp : ∀ p, (c.pointToObjectSpace p).x = ⟨.nan⟩ := by
    intro p
    unfold InfiniteCylinder.pointToObjectSpace
    dsimp only
    rw [hd]
    unfold rotationMatrix4
    dsimp only
    unfold M4.mulVec scalingMatrix4 V4.dot
    dsimp only
    rw [n0]
    simp only [nan_mul, add_nan, nan_add, mul_nan]
  have hdx : ∀ d, (c.dirToObjectSpace d).x = ⟨.nan⟩ := by
    intro d
    unfold InfiniteCylinder.dirToObjectSpace
    rw [hd]
    unfold rotationMatrix4
    dsimp only
    unfold M4.mulVec V4.dot V3.hom
    dsimp only
    rw [n0]
    simp only [nan_mul, add_nan, nan_add, mul_nan]
  constructor
  · intro ray
    unfold InfiniteCylinder.testIntersect
    rw [hr]
    dsimp only
    rw [hp, hdx]
    simp only [nan_mul, add_nan, nan_add, mul_nan, nan_sub]
    have hroots : ∀ a b : D64, cylinderRoots a ⟨.nan⟩ b = (none, none) := by
      intro a b
      unfold cylinderRoots
      dsimp only
      rw [nan_mul, nan_sub, if_neg (by rintro h; rcases h1 : (0.0 : D64) with ⟨_ | _ | _ | _⟩ <;> rw [h1] at h <;> exact h), if_neg]
      rcases h1 : (0.0 : D64) with ⟨_ | _ | _ | _⟩ <;> simp [PyNum.eqb, XR.eqb]
    rw [hroots]
    rfl
  · intro p
    unfold InfiniteCylinder.testPoint
    rw [hr]
    dsimp only
    rw [hp, nan_mul, nan_add]
    have hs : PyNum.sqrt (⟨.nan⟩ : D64) = ⟨.nan⟩ := rfl
    rw [hs, if_neg (by decide), if_neg]
    intro h
    exact h

/-! ## The hypotheses hold -/

/-- Doubles: turning (0, 0, 5) to (3, 0, 0), the vector (1, 2, 3) becomes (3, 2, -1) up to 1800 rounding errors. -/
example : ∃ w : V3 ℝ, M3.mulVec (rotationMatrix2 (V3.fl ⟨0, 0, 5⟩ : V3 D64) (V3.fl ⟨3, 0, 0⟩)).1 (V3.fl ⟨1, 2, 3⟩) = w.fl ∧
    ‖w.toE - (M3.mulVec (rotationMatrix2 (⟨0, 0, 5⟩ : V3 ℝ) ⟨3, 0, 0⟩).1 ⟨1, 2, 3⟩).toE‖ ≤ 1800 / 2 ^ 53 := by
  have hu : binary64.u = 1 / 2 ^ 53 := rfl
  have n1 : ‖(⟨0, 0, 5⟩ : V3 ℝ).toE‖ = 5 := by rw [norm_toE]; simp only [V3.norm, dot]; exact (Real.sqrt_eq_iff_mul_self_eq (by norm_num) (by norm_num)).mpr (by norm_num)
  have n2 : ‖(⟨3, 0, 0⟩ : V3 ℝ).toE‖ = 3 := by rw [norm_toE]; simp only [V3.norm, dot]; exact (Real.sqrt_eq_iff_mul_self_eq (by norm_num) (by norm_num)).mpr (by norm_num)
  have n3 : ‖(⟨1, 2, 3⟩ : V3 ℝ).toE‖ ≤ 4 := by
    rw [norm_toE]; simp only [V3.norm, dot]; exact Real.sqrt_le_iff.mpr ⟨by norm_num, by norm_num⟩
  have hin : inner ℝ (⟨0, 0, 5⟩ : V3 ℝ).dirE (⟨3, 0, 0⟩ : V3 ℝ).dirE = 0 := by
    rw [← unitVector_dirE, ← unitVector_dirE, inner_toE]
    simp [unitVector, dot]
  obtain ⟨-, -, w, hw, h⟩ := C113_turn (R := binary64) ⟨0, 0, 5⟩ ⟨3, 0, 0⟩ ⟨1, 2, 3⟩ 4 ⟨by rw [n1]; norm_num, by rw [n1]; norm_num⟩
    ⟨by rw [n2]; norm_num, by rw [n2]; norm_num⟩ (by rw [hin, hu]; norm_num) (by rw [hu]; norm_num) (by norm_num) (by norm_num) n3
  refine ⟨w, hw, h.trans ?_⟩
  rw [hin, hu]; norm_num

/-- An axis tilted by `2^-31`. -/
theorem tilt_witness : Tilt (1 / 2 ^ 31) 0 where
  x_double := by
    have := rnd64_dyE (x := 1 / 2 ^ 31) (m := 1) (e := -31) (by norm_num) (by norm_num) (by norm_num) (by norm_num)
    rw [this]; norm_num
  y_double := d0
  x_small := by rw [abs_of_pos (by positivity)]; norm_num
  y_small := by norm_num
  tilted := .inl (by rw [abs_of_pos (by positivity)]; norm_num)

/-- A cylinder of radius 1 about the origin with that axis: the ray from (10, 0, 0) towards it misses, and its centre is outside. -/
example : ∃ c : InfiniteCylinder D64,
    InfiniteCylinder.new (V3.fl ⟨0, 0, 0⟩) (V3.fl ⟨1 / 2 ^ 31, 0, -1⟩) (some (Fl.fin 1)) none = .ok c ∧
    c.testIntersect (Ray.new (V3.fl ⟨10, 0, 0⟩) (V3.fl ⟨-1, 0, 0⟩) (Fl.fin 532) (Fl.fin 0) "prism") = .ok (Hit6.miss 0) ∧ c.testPoint (V3.fl ⟨0, 0, 0⟩) = .ok false := by
  refine ⟨_, rfl, ?_⟩
  obtain ⟨h1, h2⟩ := C113_invisible tilt_witness (V3.fl ⟨0, 0, 0⟩) (some (Fl.fin 1)) none _ rfl (by
    show PyNum.eqb (Fl.fin 1 : D64) 0.0 = false
    rw [fl_lit0, fl_eqb]; norm_num)
  exact ⟨h1 _, h2 _⟩

end Optics
