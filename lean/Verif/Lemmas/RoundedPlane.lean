import Verif.Lemmas.RoundedRun

/-! # Flying to a plane with rounding -/

namespace Optics
variable {R : Rounding}
open V3

/-- A bound for the length of a vector whose components are bounded by those of another one. -/
theorem normE_le_scaled {v w : V3 ℝ} {a b : ℝ} (ha : 0 ≤ a) (hb : 0 ≤ b)
    (hx : |v.x| ≤ a * |w.x| + b) (hy : |v.y| ≤ a * |w.y| + b) (hz : |v.z| ≤ a * |w.z| + b) :
    ‖v.toE‖ ≤ a * ‖w.toE‖ + 9 / 5 * b := by
  have h1 : ‖v.toE‖ ≤ ‖(⟨a * |w.x| + b, a * |w.y| + b, a * |w.z| + b⟩ : V3 ℝ).toE‖ := by
    refine abs_le_of_sq_le_sq (a := ‖v.toE‖) ?_ (_root_.norm_nonneg _) |> fun h => (le_abs_self _).trans h
    rw [normE_sq, normE_sq]
    have e1 := sq_le_sq' (a := v.x) (b := a * |w.x| + b) (by linarith [(abs_le.mp hx).1]) (abs_le.mp hx).2
    have e2 := sq_le_sq' (a := v.y) (b := a * |w.y| + b) (by linarith [(abs_le.mp hy).1]) (abs_le.mp hy).2
    have e3 := sq_le_sq' (a := v.z) (b := a * |w.z| + b) (by linarith [(abs_le.mp hz).1]) (abs_le.mp hz).2
    simp only
    linarith
  have h2 : (⟨a * |w.x| + b, a * |w.y| + b, a * |w.z| + b⟩ : V3 ℝ).toE =
      a • (⟨|w.x|, |w.y|, |w.z|⟩ : V3 ℝ).toE + (⟨b, b, b⟩ : V3 ℝ).toE := by
    rw [← toE_smul, ← toE_add]; rfl
  have h3 : ‖(⟨|w.x|, |w.y|, |w.z|⟩ : V3 ℝ).toE‖ = ‖w.toE‖ := by
    have := normE_sq (⟨|w.x|, |w.y|, |w.z|⟩ : V3 ℝ)
    have h' := normE_sq w
    simp only [sq_abs] at this
    rw [← h'] at this
    exact (sq_eq_sq₀ (_root_.norm_nonneg _) (_root_.norm_nonneg _)).mp this
  have h4 : ‖(⟨b, b, b⟩ : V3 ℝ).toE‖ ≤ 9 / 5 * b := normE_le hb (abs_of_nonneg hb).le (abs_of_nonneg hb).le (abs_of_nonneg hb).le
  rw [h2] at h1
  have h5 := norm_add_le (a • (⟨|w.x|, |w.y|, |w.z|⟩ : V3 ℝ).toE) (⟨b, b, b⟩ : V3 ℝ).toE
  rw [_root_.norm_smul, Real.norm_of_nonneg ha, h3] at h5
  linarith

/-- Rounding the components of a vector. -/
theorem vec_near {v : V3 ℝ} {X : ℝ} (hv : ‖v.toE‖ ≤ X) (hX : X ≤ 10 ^ 200) :
    ∃ w : V3 ℝ, (⟨⟨R.rnd v.x⟩, ⟨R.rnd v.y⟩, ⟨R.rnd v.z⟩⟩ : V3 (Fl R)) = w.fl ∧
      ‖w.toE - v.toE‖ ≤ R.u * (X + 1 / 1000) := by
  have hu := R.u_pos
  obtain ⟨cx, cy, cz⟩ := comp_le v
  have hb : (10 : ℝ) ^ 200 ≤ 10 ^ 250 := pow_le_pow_right₀ (by norm_num) (by norm_num)
  obtain ⟨x, hx, ex⟩ := rnd_near (R := R) (x := v.x) le_rfl (by linarith)
  obtain ⟨y, hy, ey⟩ := rnd_near (R := R) (x := v.y) le_rfl (by linarith)
  obtain ⟨z, hz, ez⟩ := rnd_near (R := R) (x := v.z) le_rfl (by linarith)
  refine ⟨⟨x, y, z⟩, by rw [hx, hy, hz]; rfl, ?_⟩
  have ht : (1 : ℝ) / 10 ^ 250 ≤ 1 / 10000 := by norm_num
  have ht0 : (0 : ℝ) ≤ 1 / 10 ^ 250 := by positivity
  generalize (1 : ℝ) / 10 ^ 250 = t at *
  rw [← toE_sub]
  have := normE_le_scaled (v := (⟨x, y, z⟩ : V3 ℝ) - v) (w := v) (a := R.u) (b := R.u * t) hu.le (by positivity)
    (by rw [sub_x]; simpa [mul_add] using ex) (by rw [sub_y]; simpa [mul_add] using ey)
    (by rw [sub_z]; simpa [mul_add] using ez)
  refine this.trans ?_
  have h1 := mul_le_mul_of_nonneg_left hv hu.le
  have h2 := mul_le_mul_of_nonneg_left ht hu.le
  linarith

theorem vadd_near {a b : V3 ℝ} {X : ℝ} (h : ‖a.toE + b.toE‖ ≤ X) (hX : X ≤ 10 ^ 200) :
    ∃ w : V3 ℝ, (a.fl : V3 (Fl R)) + b.fl = w.fl ∧ ‖w.toE - (a.toE + b.toE)‖ ≤ R.u * (X + 1 / 1000) := by
  rw [← toE_add] at *
  obtain ⟨w, h1, h2⟩ := vec_near (R := R) h hX
  exact ⟨w, h1, h2⟩

theorem vsub_near {a b : V3 ℝ} {X : ℝ} (h : ‖a.toE - b.toE‖ ≤ X) (hX : X ≤ 10 ^ 200) :
    ∃ w : V3 ℝ, (a.fl : V3 (Fl R)) - b.fl = w.fl ∧ ‖w.toE - (a.toE - b.toE)‖ ≤ R.u * (X + 1 / 1000) := by
  rw [← toE_sub] at *
  obtain ⟨w, h1, h2⟩ := vec_near (R := R) h hX
  refine ⟨w, ?_, h2⟩
  rw [← h1]
  ext <;> simp only [sub_x, sub_y, sub_z, V3.fl, fl_sub]

theorem vsmul_near {t : ℝ} {a : V3 ℝ} {X : ℝ} (h : ‖t • a.toE‖ ≤ X) (hX : X ≤ 10 ^ 200) :
    ∃ w : V3 ℝ, (Fl.fin t : Fl R) * (a.fl : V3 (Fl R)) = w.fl ∧ ‖w.toE - t • a.toE‖ ≤ R.u * (X + 1 / 1000) := by
  rw [← toE_smul] at *
  obtain ⟨w, h1, h2⟩ := vec_near (R := R) h hX
  exact ⟨w, h1, h2⟩

/-- A dot product of vectors of known lengths. -/
theorem dot_near' {a b : V3 ℝ} {A : ℝ} (hA : ‖a.toE‖ * ‖b.toE‖ ≤ A) (hlo : 1 ≤ A) (hhi : A ≤ 10 ^ 200) :
    ∃ s, dot (a.fl : V3 (Fl R)) b.fl = Fl.fin s ∧ |s - inner ℝ a.toE b.toE| ≤ 7 / 2 * R.u * A := by
  have h1 : |a.x * b.x| + |a.y * b.y| + |a.z * b.z| ≤ A := by
    refine le_trans ?_ hA
    have e : ∀ v : V3 ℝ, ‖(⟨|v.x|, |v.y|, |v.z|⟩ : V3 ℝ).toE‖ = ‖v.toE‖ := by
      intro v
      have := normE_sq (⟨|v.x|, |v.y|, |v.z|⟩ : V3 ℝ)
      have h' := normE_sq v
      simp only [sq_abs] at this
      rw [← h'] at this
      exact (sq_eq_sq₀ (_root_.norm_nonneg _) (_root_.norm_nonneg _)).mp this
    have := real_inner_le_norm (⟨|a.x|, |a.y|, |a.z|⟩ : V3 ℝ).toE (⟨|b.x|, |b.y|, |b.z|⟩ : V3 ℝ).toE
    rw [e, e, inner_toE] at this
    unfold dot at this
    simpa only [abs_mul] using this
  obtain ⟨s, h2, h3⟩ := dot_near (R := R) h1 (le_trans (by norm_num) hlo)
    (hhi.trans (pow_le_pow_right₀ (by norm_num) (by norm_num)))
  exact ⟨s, h2, by rw [inner_toE]; exact h3⟩

theorem five_u : 5 * R.u ≤ 1 / 100000 ∧ R.u ≤ 1 / 1000000 := by
  have := R.u_small
  norm_num at this
  constructor <;> linarith

theorem NearUnit.bounds {w : V3 ℝ} (h : NearUnit R w) : ‖w.toE‖ ≤ 1 + 1 / 100000 ∧ 1 - 1 / 100000 ≤ ‖w.toE‖ := by
  have h' := abs_le.mp h
  have := (five_u (R := R)).1
  constructor <;> linarith [h'.1, h'.2]

/-- One step of flight, in a direction not much longer than 1. -/
theorem fly_near_of {P w : V3 ℝ} {s B : ℝ} (hP : ‖P.toE‖ ≤ B) (hB : 1 ≤ B) (hB' : B ≤ 10 ^ 50) (hw1 : ‖w.toE‖ ≤ 1 + 1 / 100000)
    (hs : 0 ≤ s) (hs' : s ≤ 10 ^ 100) :
    ∃ P' : V3 ℝ, (P.fl : V3 (Fl R)) + (Fl.fin s : Fl R) * (w.fl : V3 (Fl R)) = P'.fl ∧
      ‖P'.toE - (P.toE + s • w.toE)‖ ≤ R.u * (21 / 10 * s + 11 / 10 * B) := by
  have hu := R.u_pos
  have hus := (five_u (R := R)).2
  have n1 : ‖s • w.toE‖ ≤ s * (1 + 1 / 100000) := by
    rw [_root_.norm_smul, Real.norm_of_nonneg hs]; exact mul_le_mul_of_nonneg_left hw1 hs
  have big : (10 : ℝ) ^ 100 * 2 + 10 ^ 50 * 2 ≤ 10 ^ 200 := by norm_num
  have hus1 : R.u * s ≤ s / 1000000 := by
    have := mul_le_mul_of_nonneg_right hus hs; linarith
  have hus0 : 0 ≤ R.u * s := by positivity
  have huB : R.u ≤ R.u * B := by nlinarith
  obtain ⟨q, hq, eq⟩ := vsmul_near (R := R) n1 (by linarith)
  have n2 : ‖P.toE + q.toE‖ ≤ B + s * (1 + 1 / 1000) + 1 / 1000 := by
    have h1 := norm_add_le P.toE q.toE
    have h2 := norm_le_norm_add_norm_sub' q.toE (s • w.toE)
    have h3 : R.u * (s * (1 + 1 / 100000) + 1 / 1000) = R.u * s * (1 + 1 / 100000) + R.u / 1000 := by ring
    linarith
  obtain ⟨P', hP', eP⟩ := vadd_near (R := R) n2 (by linarith)
  refine ⟨P', by rw [hq, hP'], ?_⟩
  have e : P'.toE - (P.toE + s • w.toE) = (P'.toE - (P.toE + q.toE)) + (q.toE - s • w.toE) := by abel
  rw [e]
  refine (norm_add_le _ _).trans ((add_le_add eP eq).trans ?_)
  have : R.u * (B + s * (1 + 1 / 1000) + 1 / 1000 + 1 / 1000) + R.u * (s * (1 + 1 / 100000) + 1 / 1000) =
      R.u * B + R.u * s * (1 + 1 / 1000 + 1 + 1 / 100000) + R.u * 3 / 1000 := by ring
  rw [this]
  linarith

/-- One step of flight. -/
theorem fly_near {P w : V3 ℝ} {s B : ℝ} (hP : ‖P.toE‖ ≤ B) (hB : 1 ≤ B) (hB' : B ≤ 10 ^ 50) (hw : NearUnit R w)
    (hs : 0 ≤ s) (hs' : s ≤ 10 ^ 100) :
    ∃ P' : V3 ℝ, (P.fl : V3 (Fl R)) + (Fl.fin s : Fl R) * (w.fl : V3 (Fl R)) = P'.fl ∧
      ‖P'.toE - (P.toE + s • w.toE)‖ ≤ R.u * (21 / 10 * s + 11 / 10 * B) :=
  fly_near_of hP hB hB' hw.bounds.1 hs hs'

/-- The step flown, compared with the step of the same length along the direction. -/
theorem leg_near {P P' w : V3 ℝ} {s B : ℝ} (hB : 1 ≤ B) (hw : NearUnit R w) (hs : 0 ≤ s) (hsB : s ≤ B)
    (h : ‖P'.toE - (P.toE + s • w.toE)‖ ≤ R.u * (21 / 10 * s + 11 / 10 * B)) :
    ‖P'.toE - P.toE - ‖P'.toE - P.toE‖ • w.toE‖ ≤ 12 * (R.u * B) ∧ |‖P'.toE - P.toE‖ - s| ≤ 9 * (R.u * B) := by
  have hu := R.u_pos
  have huB : 0 < R.u * B := by positivity
  have hsu : R.u * s ≤ R.u * B := mul_le_mul_of_nonneg_left hsB hu.le
  have hsu0 : 0 ≤ R.u * s := by positivity
  have h1 : ‖(P'.toE - P.toE) - s • w.toE‖ ≤ 16 / 5 * (R.u * B) := by
    rw [sub_sub]
    refine h.trans ?_
    have : R.u * (21 / 10 * s + 11 / 10 * B) = 21 / 10 * (R.u * s) + 11 / 10 * (R.u * B) := by ring
    linarith
  have h2 := (abs_norm_sub_norm_le (P'.toE - P.toE) (s • w.toE)).trans h1
  rw [_root_.norm_smul, Real.norm_of_nonneg hs] at h2
  have h3 : |s * ‖w.toE‖ - s| ≤ 5 * (R.u * B) := by
    rw [show s * ‖w.toE‖ - s = s * (‖w.toE‖ - 1) by ring, abs_mul, abs_of_nonneg hs]
    have := mul_le_mul_of_nonneg_left hw hs
    linarith
  have h4 : |‖P'.toE - P.toE‖ - s| ≤ 41 / 5 * (R.u * B) := by
    have := abs_add_le (‖P'.toE - P.toE‖ - s * ‖w.toE‖) (s * ‖w.toE‖ - s)
    rw [sub_add_sub_cancel] at this
    linarith
  refine ⟨?_, by linarith⟩
  have e : P'.toE - P.toE - ‖P'.toE - P.toE‖ • w.toE =
      (P'.toE - P.toE - s • w.toE) - (‖P'.toE - P.toE‖ - s) • w.toE := by rw [sub_smul]; abel
  rw [e]
  refine (norm_sub_le _ _).trans ?_
  rw [_root_.norm_smul, Real.norm_eq_abs]
  have := hw.bounds.1
  have h5 : |‖P'.toE - P.toE‖ - s| * ‖w.toE‖ ≤ 41 / 5 * (R.u * B) * (1 + 1 / 100000) :=
    mul_le_mul h4 this (_root_.norm_nonneg _) (by positivity)
  linarith

/-- The numbers `Plane.test_intersect` computes for a plane with centre `C` and exact normal `N`. -/
theorem plane_numbers {C N P w : V3 ℝ} {B : ℝ} (hN : SaneLength N) (hC : ‖C.toE‖ ≤ B) (hP : ‖P.toE‖ ≤ B) (hB : 1 ≤ B)
    (hB' : B ≤ 10 ^ 50) (hw : NearUnit R w) :
    ∃ (n n' w' D : V3 ℝ) (den num : ℝ), unitVector (N.fl : V3 (Fl R)) = n.fl ∧ unitVector (n.fl : V3 (Fl R)) = n'.fl ∧
      unitVector (w.fl : V3 (Fl R)) = w'.fl ∧ dot (n'.fl : V3 (Fl R)) w'.fl = Fl.fin den ∧ (C.fl : V3 (Fl R)) - P.fl = D.fl ∧
      dot (D.fl : V3 (Fl R)) n.fl = Fl.fin num ∧ |den - inner ℝ N.dirE w.toE| ≤ 29 * R.u ∧
      |num - inner ℝ N.dirE (C.toE - P.toE)| ≤ 20 * (R.u * B) ∧ |num| ≤ 11 / 5 * B := by
  have hu := R.u_pos
  obtain ⟨h5u, hus⟩ := five_u (R := R)
  have huB : R.u ≤ R.u * B := by nlinarith
  have huB1 : R.u * B ≤ B / 1000000 := by
    have := mul_le_mul_of_nonneg_right hus (by linarith : 0 ≤ B); linarith
  have hN1 := dirE_norm hN.pos
  obtain ⟨n, hn, en⟩ := unitVector_near (R := R) hN
  have hnu := nearUnit_of hN1 en
  obtain ⟨n', hn', en', -⟩ := reunit_near (R := R) hN1 hnu.sane en
  obtain ⟨w', hw', ew'⟩ := unitVector_near (R := R) hw.sane
  have hw'u := nearUnit_of (dirE_norm hw.sane.pos) ew'
  have eww : ‖w'.toE - w.toE‖ ≤ 10 * R.u := by
    have h1 := dirE_dist hw.sane.pos
    have h2 := norm_sub_le_norm_sub_add_norm_sub w'.toE w.dirE w.toE
    have h3 : |‖w.toE‖ - 1| ≤ 5 * R.u := hw
    linarith
  have n'b : ‖n'.toE‖ ≤ 1 + 1 / 10000 := by
    have := norm_le_norm_add_norm_sub' n'.toE N.dirE
    linarith
  have w'b := hw'u.bounds.1
  have wb := hw.bounds.1
  have nb := hnu.bounds.1
  obtain ⟨den, hden, eden⟩ := dot_near' (R := R) (a := n') (b := w') (A := 1 + 1 / 1000)
    (by
      have := mul_le_mul n'b w'b (_root_.norm_nonneg _) (by norm_num)
      refine this.trans (by norm_num)) (by norm_num)
    (le_trans (by norm_num : (1 : ℝ) + 1 / 1000 ≤ 10) (by norm_num))
  -- the denominator
  have eden' : |den - inner ℝ N.dirE w.toE| ≤ 29 * R.u := by
    have e : den - inner ℝ N.dirE w.toE = (den - inner ℝ n'.toE w'.toE) + inner ℝ (n'.toE - N.dirE) w'.toE +
        inner ℝ N.dirE (w'.toE - w.toE) := by
      rw [inner_sub_left, inner_sub_right]; ring
    have i1 := abs_real_inner_le_norm (n'.toE - N.dirE) w'.toE
    have i2 := abs_real_inner_le_norm N.dirE (w'.toE - w.toE)
    rw [hN1] at i2
    have i3 : ‖n'.toE - N.dirE‖ * ‖w'.toE‖ ≤ (15 * R.u) * (1 + 1 / 100000) :=
      mul_le_mul (by linarith) w'b (_root_.norm_nonneg _) (by positivity)
    have a1 := abs_add_le (den - inner ℝ n'.toE w'.toE + inner ℝ (n'.toE - N.dirE) w'.toE) (inner ℝ N.dirE (w'.toE - w.toE))
    have a2 := abs_add_le (den - inner ℝ n'.toE w'.toE) (inner ℝ (n'.toE - N.dirE) w'.toE)
    rw [e]
    linarith
  -- the numerator
  have nCP : ‖C.toE - P.toE‖ ≤ 2 * B := (norm_sub_le _ _).trans (by linarith)
  have big : (10 : ℝ) ^ 50 * 10 ≤ 10 ^ 200 := by norm_num
  obtain ⟨D, hD, eD⟩ := vsub_near (R := R) nCP (by linarith)
  have eD' : ‖D.toE - (C.toE - P.toE)‖ ≤ 201 / 100 * (R.u * B) := by
    refine eD.trans ?_
    have : R.u * (2 * B + 1 / 1000) = 2 * (R.u * B) + R.u / 1000 := by ring
    linarith
  have nD : ‖D.toE‖ ≤ 201 / 100 * B := by
    have := norm_le_norm_add_norm_sub' D.toE (C.toE - P.toE)
    linarith
  obtain ⟨num, hnum, enum⟩ := dot_near' (R := R) (a := D) (b := n) (A := 21 / 10 * B)
    (by
      have := mul_le_mul nD nb (_root_.norm_nonneg _) (by linarith)
      refine this.trans (by linarith)) (by linarith) (by linarith)
  have enum' : |num - inner ℝ N.dirE (C.toE - P.toE)| ≤ 20 * (R.u * B) := by
    have e : num - inner ℝ N.dirE (C.toE - P.toE) = (num - inner ℝ D.toE n.toE) +
        inner ℝ (D.toE - (C.toE - P.toE)) n.toE + inner ℝ (C.toE - P.toE) (n.toE - N.dirE) := by
      generalize C.toE - P.toE = V
      rw [inner_sub_left, inner_sub_right, real_inner_comm V N.dirE]; ring
    have i1 := abs_real_inner_le_norm (D.toE - (C.toE - P.toE)) n.toE
    have i2 := abs_real_inner_le_norm (C.toE - P.toE) (n.toE - N.dirE)
    have i3 : ‖D.toE - (C.toE - P.toE)‖ * ‖n.toE‖ ≤ 201 / 100 * (R.u * B) * (1 + 1 / 100000) :=
      mul_le_mul eD' nb (_root_.norm_nonneg _) (by positivity)
    have i4 : ‖C.toE - P.toE‖ * ‖n.toE - N.dirE‖ ≤ 2 * B * (5 * R.u) :=
      mul_le_mul nCP en (_root_.norm_nonneg _) (by linarith)
    have a1 := abs_add_le (num - inner ℝ D.toE n.toE + inner ℝ (D.toE - (C.toE - P.toE)) n.toE)
      (inner ℝ (C.toE - P.toE) (n.toE - N.dirE))
    have a2 := abs_add_le (num - inner ℝ D.toE n.toE) (inner ℝ (D.toE - (C.toE - P.toE)) n.toE)
    rw [e]
    linarith
  have numb : |num| ≤ 11 / 5 * B := by
    have i1 := abs_real_inner_le_norm D.toE n.toE
    have i2 : ‖D.toE‖ * ‖n.toE‖ ≤ 201 / 100 * B * (1 + 1 / 100000) := mul_le_mul nD nb (_root_.norm_nonneg _) (by linarith)
    have a1 := abs_add_le (num - inner ℝ D.toE n.toE) (inner ℝ D.toE n.toE)
    rw [sub_add_cancel] at a1
    linarith
  exact ⟨n, n', w', D, den, num, hn, hn', hw', hden, hD, hnum, eden', enum', numb⟩

/-- Where `Plane.test_intersect` finds a hit. -/
theorem plane_near {C N P w : V3 ℝ} {B : ℝ} (hN : SaneLength N) (hC : ‖C.toE‖ ≤ B) (hP : ‖P.toE‖ ≤ B) (hB : 1 ≤ B)
    (hB' : B ≤ 10 ^ 50) (hw : NearUnit R w) {ray : Ray (Fl R)} (hp : ray.position = P.fl) (hd : ray.direction = w.fl)
    {pt : V3 (Fl R)} {nn : Option (V3 (Fl R))}
    (h : (Plane.new C.fl N.fl).testIntersect ray = ⟨true, some pt, nn⟩) :
    ∃ t : ℝ, (Fl.fin t : Fl R) > arbEpsilon ∧ t ≤ 10 ^ 90 ∧ pt = P.fl + (Fl.fin t : Fl R) * (w.fl : V3 (Fl R)) ∧
      |t * inner ℝ N.dirE w.toE - inner ℝ N.dirE (C.toE - P.toE)| ≤ R.u * (29 * t + 23 * B) := by
  have hu := R.u_pos
  obtain ⟨h5u, hus⟩ := five_u (R := R)
  have huB : R.u ≤ R.u * B := by nlinarith
  have huB1 : R.u * B ≤ B / 1000000 := by
    have := mul_le_mul_of_nonneg_right hus (by linarith : 0 ≤ B); linarith
  have hN1 := dirE_norm hN.pos
  have wb := hw.bounds.1
  obtain ⟨n, n', w', D, den, num, hn, hn', hw', hden, hD, hnum, eden', enum', numb⟩ :=
    plane_numbers (R := R) hN hC hP hB hB' hw
  unfold Plane.testIntersect Plane.new at h
  simp only [hp, hd, hn, hn', hw', hden, hD, hnum] at h
  obtain ⟨e, he0, he1, heps⟩ : ∃ e : ℝ, 1 / 10 ^ 10 ≤ e ∧ e ≤ 1 ∧ (arbEpsilon : Fl R) = Fl.fin e := by
    obtain ⟨y, hy, ey⟩ := rnd_near (R := R) (x := (1e-9 : ℝ)) (e := 1 / 10 ^ 9) (by norm_num [abs_of_pos]) (by norm_num)
    have ht : (1 : ℝ) / 10 ^ 250 ≤ 1 / 10 ^ 9 := by norm_num
    have hb : R.u * (1 / 10 ^ 9 + 1 / 10 ^ 250) ≤ 1 / 1000000 * (2 / 10 ^ 9) :=
      mul_le_mul hus (by linarith) (by positivity) (by norm_num)
    have hc := abs_le.mp (ey.trans hb)
    norm_num at hc
    refine ⟨y, by norm_num; linarith [hc.1], by linarith [hc.2], hy⟩
  rw [heps] at h ⊢
  split_ifs at h with c1 c2
  · have c1' : e < |den| := c1
    have hden0 : den ≠ 0 := by rintro rfl; rw [abs_zero] at c1'; linarith [show (0:ℝ) < 1 / 10 ^ 10 by positivity]
    have hdenp : 0 < |den| := abs_pos.mpr hden0
    have hq : |num / den| ≤ 10 ^ 80 := by
      rw [abs_div, div_le_iff₀ hdenp]
      have : (10 : ℝ) ^ 80 * (1 / 10 ^ 10) ≤ 10 ^ 80 * |den| := mul_le_mul_of_nonneg_left (by linarith) (by positivity)
      have : (11 : ℝ) / 5 * 10 ^ 50 ≤ 10 ^ 80 * (1 / 10 ^ 10) := by norm_num
      linarith
    obtain ⟨t, ht, et⟩ := rnd_near (R := R) (x := num / den) le_rfl (hq.trans (by norm_num))
    rw [fl_div _ _ hden0, ht] at c2 h
    have hpt := congrArg Hit3.pt h
    simp only [Option.some.injEq] at hpt
    have tin : (1 : ℝ) / 10 ^ 250 ≤ 1 / 1000 := by norm_num
    have tin0 : (0 : ℝ) ≤ 1 / 10 ^ 250 := by positivity
    generalize (1 : ℝ) / 10 ^ 250 = τ at *
    have hut : R.u * (|num / den| + τ) ≤ 1 / 1000000 * (10 ^ 80 + 1 / 1000) :=
      mul_le_mul hus (by linarith) (by positivity) (by norm_num)
    refine ⟨t, c2, ?_, hpt.symm, ?_⟩
    · have h1 := (abs_le.mp (et.trans hut)).2
      have h2 := (abs_le.mp hq).2
      have : (10 : ℝ) ^ 80 + 1 / 1000000 * (10 ^ 80 + 1 / 1000) ≤ 10 ^ 90 := by norm_num
      linarith
    · have ht0 : 0 < t := by
        have : e < t := c2
        linarith [show (0 : ℝ) < 1 / 10 ^ 10 by positivity]
      have h1 : |t * den - num| ≤ R.u * (|num| + τ * |den|) := by
        have e1 : t * den - num = (t - num / den) * den := by field_simp
        rw [e1, abs_mul]
        refine (mul_le_mul_of_nonneg_right et hdenp.le).trans ?_
        rw [abs_div, mul_assoc, add_mul, div_mul_cancel₀ _ hdenp.ne']
      have hdb : |den| ≤ 2 := by
        have i := abs_real_inner_le_norm N.dirE w.toE
        rw [hN1] at i
        have a1 := abs_add_le (den - inner ℝ N.dirE w.toE) (inner ℝ N.dirE w.toE)
        rw [sub_add_cancel] at a1
        linarith
      have h2 : R.u * (|num| + τ * |den|) ≤ 23 / 10 * (R.u * B) := by
        have h3 : τ * |den| ≤ 1 / 1000 * 2 := mul_le_mul tin hdb hdenp.le (by norm_num)
        have := mul_le_mul_of_nonneg_left (show |num| + τ * |den| ≤ 23 / 10 * B by linarith) hu.le
        linarith
      have e1 : t * inner ℝ N.dirE w.toE - inner ℝ N.dirE (C.toE - P.toE) =
          -(t * (den - inner ℝ N.dirE w.toE)) + (t * den - num) + (num - inner ℝ N.dirE (C.toE - P.toE)) := by ring
      have a1 := abs_add_le (-(t * (den - inner ℝ N.dirE w.toE)) + (t * den - num)) (num - inner ℝ N.dirE (C.toE - P.toE))
      have a2 := abs_add_le (-(t * (den - inner ℝ N.dirE w.toE))) (t * den - num)
      rw [abs_neg, abs_mul, abs_of_pos ht0] at a2
      have h3 := mul_le_mul_of_nonneg_left eden' ht0.le
      rw [e1]
      have e2 : R.u * (29 * t + 23 * B) = t * (29 * R.u) + 23 * (R.u * B) := by ring
      rw [e2]
      linarith
  all_goals exact absurd (congrArg Hit3.hit h) (by simp [Hit3.miss])

theorem fl_eps : ∃ e : ℝ, 9 / 10 ^ 10 ≤ e ∧ e ≤ 11 / 10 ^ 10 ∧ (arbEpsilon : Fl R) = Fl.fin e := by
  have hus := (five_u (R := R)).2
  have hu := R.u_pos
  obtain ⟨y, hy, ey⟩ := rnd_near (R := R) (x := (1e-9 : ℝ)) (e := 1 / 10 ^ 9) (by norm_num [abs_of_pos]) (by norm_num)
  have ht : (1 : ℝ) / 10 ^ 250 ≤ 1 / 10 ^ 9 := by norm_num
  have hb : R.u * (1 / 10 ^ 9 + 1 / 10 ^ 250) ≤ 1 / 1000000 * (2 / 10 ^ 9) :=
    mul_le_mul hus (by linarith) (by positivity) (by norm_num)
  have hc := abs_le.mp (ey.trans hb)
  norm_num at hc
  refine ⟨y, by norm_num; linarith [hc.1], by norm_num; linarith [hc.2], hy⟩

/-- A plane ahead, not seen edge on, is hit. -/
theorem plane_hits {C N P w : V3 ℝ} {B a g : ℝ} (hN : SaneLength N) (hC : ‖C.toE‖ ≤ B) (hP : ‖P.toE‖ ≤ B) (hB : 1 ≤ B)
    (hB' : B ≤ 10 ^ 50) (huB : R.u * B ≤ 1 / 10 ^ 10) (hw : NearUnit R w) {ray : Ray (Fl R)} (hp : ray.position = P.fl)
    (hd : ray.direction = w.fl) (ha : 1 / 1000 ≤ a) (hg : 1 / 10 ^ 6 ≤ g)
    (h : (inner ℝ N.dirE w.toE = a ∧ inner ℝ N.dirE (C.toE - P.toE) = g) ∨
      (inner ℝ N.dirE w.toE = -a ∧ inner ℝ N.dirE (C.toE - P.toE) = -g)) :
    ∃ (t : ℝ) (n : V3 ℝ), (Plane.new C.fl N.fl).testIntersect ray =
      ⟨true, some (P.fl + (Fl.fin t : Fl R) * (w.fl : V3 (Fl R))), some n.fl⟩ := by
  have hu := R.u_pos
  have hus := (five_u (R := R)).2
  obtain ⟨n, n', w', D, den, num, hn, hn', hw', hden, hD, hnum, eden, enum, numb⟩ :=
    plane_numbers (R := R) hN hC hP hB hB' hw
  obtain ⟨e, he0, he1, heps⟩ := fl_eps (R := R)
  have hN1 := dirE_norm hN.pos
  have hwb := hw.bounds.1
  have ha1 : a ≤ 1 + 1 / 100000 := by
    have i := abs_real_inner_le_norm N.dirE w.toE
    rw [hN1, one_mul] at i
    rcases h with ⟨h, -⟩ | ⟨h, -⟩ <;> rw [h] at i
    · exact (le_abs_self _).trans (i.trans hwb)
    · rw [abs_neg] at i; exact (le_abs_self _).trans (i.trans hwb)
  norm_num at hg huB he1
  have key : ∀ σ : ℝ, |σ * den - a| ≤ 29 * R.u → |σ * num - g| ≤ 20 * (R.u * B) → σ * σ = 1 →
      1 / 2000000 ≤ num / den ∧ e < |den| := by
    intro σ h1 h2 h3
    have h1' := abs_le.mp h1
    have h2' := abs_le.mp h2
    have q : num / den = (σ * num) / (σ * den) := by
      have : σ ≠ 0 := by rintro rfl; norm_num at h3
      rw [mul_div_mul_left _ _ this]
    have hσ : |σ| = 1 := by
      have := abs_mul_abs_self σ
      rw [h3] at this
      nlinarith [abs_nonneg σ]
    have hpos : 0 < σ * den := by linarith [h1'.1]
    constructor
    · rw [q, le_div_iff₀ hpos]
      linarith [h1'.2, h2'.1]
    · have : |den| = |σ * den| := by rw [abs_mul, hσ, one_mul]
      rw [this, abs_of_pos hpos]
      linarith [h1'.1]
  have hq : 1 / 2000000 ≤ num / den ∧ e < |den| := by
    rcases h with ⟨h1, h2⟩ | ⟨h1, h2⟩ <;> rw [h1] at eden <;> rw [h2] at enum
    · exact key 1 (by rw [one_mul]; exact eden) (by rw [one_mul]; exact enum) (by norm_num)
    · refine key (-1) ?_ ?_ (by norm_num)
      · rw [show -1 * den - a = -(den - -a) by ring, abs_neg]; exact eden
      · rw [show -1 * num - g = -(num - -g) by ring, abs_neg]; exact enum
  have hden0 : den ≠ 0 := by
    rintro rfl
    have := hq.2
    rw [abs_zero] at this
    linarith [show (0 : ℝ) < 9 / 10 ^ 10 by positivity]
  have hqb : |num / den| ≤ 10 ^ 80 := by
    rw [abs_div, div_le_iff₀ (abs_pos.mpr hden0)]
    have h1 : (10 : ℝ) ^ 80 * (9 / 10 ^ 10) ≤ 10 ^ 80 * |den| := mul_le_mul_of_nonneg_left (by linarith [hq.2]) (by positivity)
    have h2 : (11 : ℝ) / 5 * 10 ^ 50 ≤ 10 ^ 80 * (9 / 10 ^ 10) := by norm_num
    linarith
  obtain ⟨t, ht, et⟩ := rnd_near (R := R) (x := num / den) le_rfl (hqb.trans (by norm_num))
  have hte : e < t := by
    have h1 := (abs_le.mp et).1
    rw [abs_of_nonneg (by linarith [hq.1] : 0 ≤ num / den)] at h1
    have h2 : R.u * (num / den + 1 / 10 ^ 250) ≤ 1 / 1000000 * (num / den + 1 / 10 ^ 9) :=
      mul_le_mul hus (by linarith [show (1 : ℝ) / 10 ^ 250 ≤ 1 / 10 ^ 9 by norm_num])
        (by have := hq.1; have : (0 : ℝ) ≤ 1 / 10 ^ 250 := by positivity
            linarith) (by norm_num)
    norm_num at h1 h2
    linarith [hq.1]
  refine ⟨t, n, ?_⟩
  unfold Plane.testIntersect Plane.new
  simp only [hp, hd, hn, hn', hw', hden, hD, hnum, fl_abs]
  rw [heps, if_pos (show (Fl.fin |den| : Fl R) > Fl.fin e from hq.2), fl_div _ _ hden0, ht,
    if_pos (show (Fl.fin t : Fl R) > Fl.fin e from hte)]

/-- The point flown to lies close to the plane and to the point reported. -/
theorem hit_near_both {C N P w P' : V3 ℝ} {B s : ℝ} (hN : SaneLength N) (hC : ‖C.toE‖ ≤ B) (hP : ‖P.toE‖ ≤ B) (hB : 1 ≤ B)
    (hB' : B ≤ 10 ^ 50) (huB : R.u * B ≤ 1 / 10 ^ 10) (hw : NearUnit R w) {ray : Ray (Fl R)} (hp : ray.position = P.fl)
    (hd : ray.direction = w.fl) {pt : V3 (Fl R)} {nn : Option (V3 (Fl R))}
    (h : (Plane.new C.fl N.fl).testIntersect ray = ⟨true, some pt, nn⟩)
    (hs : distanceBetween ray.position pt = Fl.fin s) (hsB : s ≤ B)
    (hP' : ‖P'.toE - (P.toE + s • w.toE)‖ ≤ R.u * (21 / 10 * s + 11 / 10 * B)) :
    |inner ℝ N.dirE (P'.toE - C.toE)| ≤ 70 * (R.u * B) ∧ ∃ q : V3 ℝ, pt = q.fl ∧ ‖P'.toE - q.toE‖ ≤ 22 * (R.u * B) := by
  have hu := R.u_pos
  obtain ⟨h5u, hus⟩ := five_u (R := R)
  have huBp : 0 < R.u * B := by positivity
  have huB0 : R.u ≤ R.u * B := by nlinarith
  have huB1 : R.u * B ≤ B / 1000000 := by
    have := mul_le_mul_of_nonneg_right hus (by linarith : 0 ≤ B); linarith
  obtain ⟨t, ht, htb, hpt, et⟩ := plane_near hN hC hP hB hB' hw hp hd h
  obtain ⟨ε, he0, -, heps⟩ := fl_eps (R := R)
  rw [heps] at ht
  have ht' : 9 / 10 ^ 10 < t := lt_of_le_of_lt he0 ht
  have ht0 : 0 < t := lt_trans (by positivity) ht'
  have hut : R.u * t ≤ t / 1000000 := by
    have := mul_le_mul_of_nonneg_right hus ht0.le; linarith
  have hut0 : 0 < R.u * t := by positivity
  obtain ⟨hw1, hw0⟩ := hw.bounds
  obtain ⟨q, hq, eq⟩ := fly_near (R := R) hP hB hB' hw ht0.le (htb.trans (by norm_num))
  rw [hpt, hq, hp] at hs
  have ntw : ‖t • w.toE‖ = t * ‖w.toE‖ := by rw [_root_.norm_smul, Real.norm_of_nonneg ht0.le]
  have ntw1 : t * ‖w.toE‖ ≤ t * (1 + 1 / 100000) := mul_le_mul_of_nonneg_left hw1 ht0.le
  have ntw0 : t * (1 - 1 / 100000) ≤ t * ‖w.toE‖ := mul_le_mul_of_nonneg_left hw0 ht0.le
  have eqe : R.u * (21 / 10 * t + 11 / 10 * B) = 21 / 10 * (R.u * t) + 11 / 10 * (R.u * B) := by ring
  rw [eqe] at eq
  have eq' : ‖P.toE - q.toE - -(t • w.toE)‖ ≤ 21 / 10 * (R.u * t) + 11 / 10 * (R.u * B) := by
    rw [show P.toE - q.toE - -(t • w.toE) = -(q.toE - (P.toE + t • w.toE)) by abel, _root_.norm_neg]; exact eq
  have nX : ‖P.toE - q.toE‖ ≤ t * (1 + 1 / 1000) + B / 1000 := by
    have := norm_le_norm_add_norm_sub' (P.toE - q.toE) (-(t • w.toE))
    rw [_root_.norm_neg, ntw] at this
    linarith
  have bigt : (10 : ℝ) ^ 90 * 2 + 10 ^ 50 ≤ 10 ^ 200 := by norm_num
  obtain ⟨Δ, hΔ, eΔ⟩ := vsub_near (R := R) nX (by linarith)
  have eΔ' : ‖Δ.toE - -(t • w.toE)‖ ≤ 16 / 5 * (R.u * t) + 6 / 5 * (R.u * B) := by
    have := norm_sub_le_norm_sub_add_norm_sub Δ.toE (P.toE - q.toE) (-(t • w.toE))
    have e : R.u * (t * (1 + 1 / 1000) + B / 1000 + 1 / 1000) = (1 + 1 / 1000) * (R.u * t) + R.u * B / 1000 + R.u / 1000 := by
      ring
    linarith
  have nΔ := (abs_norm_sub_norm_le Δ.toE (-(t • w.toE))).trans eΔ'
  rw [_root_.norm_neg, ntw] at nΔ
  have nΔ' := abs_le.mp nΔ
  have hsane : SaneLength Δ := by
    norm_num at ht' huB
    constructor
    · refine le_trans (show (1 : ℝ) / 10 ^ 100 ≤ 1 / 10 ^ 10 by norm_num) ?_
      norm_num
      linarith [nΔ'.1]
    · have : (10 : ℝ) ^ 90 * 2 + 10 ^ 50 ≤ 10 ^ 100 := by norm_num
      linarith [nΔ'.2]
  obtain ⟨r, hr, er⟩ := norm_near (R := R) hsane
  have hrs : r = s := by
    unfold distanceBetween at hs
    rw [hΔ, hr] at hs
    have := congrArg Fl.val hs
    exact XR.fin.inj this
  rw [hrs] at er
  have er' : |s - ‖Δ.toE‖| ≤ 31 / 10 * (R.u * t) + 1 / 100 * (R.u * B) := by
    refine er.trans ?_
    have h1 : ‖Δ.toE‖ ≤ t * (1 + 1 / 100) + B / 1000 := by linarith [nΔ'.2]
    have h2 := mul_le_mul_of_nonneg_left h1 (by positivity : 0 ≤ 3 * R.u)
    have e : 3 * R.u * (t * (1 + 1 / 100) + B / 1000) = 3 * (1 + 1 / 100) * (R.u * t) + 3 / 1000 * (R.u * B) := by ring
    linarith
  have h3 : |t * ‖w.toE‖ - t| ≤ 5 * (R.u * t) := by
    rw [show t * ‖w.toE‖ - t = t * (‖w.toE‖ - 1) by ring, abs_mul, abs_of_nonneg ht0.le]
    have := mul_le_mul_of_nonneg_left hw ht0.le
    linarith
  have est : |s - t| ≤ 113 / 10 * (R.u * t) + 61 / 50 * (R.u * B) := by
    have a1 := abs_add_le (s - ‖Δ.toE‖ + (‖Δ.toE‖ - t * ‖w.toE‖)) (t * ‖w.toE‖ - t)
    have a2 := abs_add_le (s - ‖Δ.toE‖) (‖Δ.toE‖ - t * ‖w.toE‖)
    rw [show s - ‖Δ.toE‖ + (‖Δ.toE‖ - t * ‖w.toE‖) + (t * ‖w.toE‖ - t) = s - t by ring] at a1
    linarith
  have htB : t ≤ 51 / 50 * B := by
    have := (abs_le.mp est).1
    linarith
  have hutB : R.u * t ≤ 51 / 50 * (R.u * B) := by
    have := mul_le_mul_of_nonneg_left htB hu.le; linarith
  have husB : R.u * s ≤ R.u * B := mul_le_mul_of_nonneg_left hsB hu.le
  have hN1 := dirE_norm hN.pos
  have e : inner ℝ N.dirE (P'.toE - C.toE) = inner ℝ N.dirE (P'.toE - (P.toE + s • w.toE)) +
      (s - t) * inner ℝ N.dirE w.toE + (t * inner ℝ N.dirE w.toE - inner ℝ N.dirE (C.toE - P.toE)) := by
    simp only [inner_sub_right, inner_add_right, real_inner_smul_right]
    ring
  have i1 := abs_real_inner_le_norm N.dirE (P'.toE - (P.toE + s • w.toE))
  have i2 := abs_real_inner_le_norm N.dirE w.toE
  rw [hN1] at i1 i2
  have i3 : |(s - t) * inner ℝ N.dirE w.toE| ≤ (113 / 10 * (R.u * t) + 61 / 50 * (R.u * B)) * (1 + 1 / 100000) := by
    rw [abs_mul]
    exact mul_le_mul est (by linarith) (abs_nonneg _) (by positivity)
  have a1 := abs_add_le (inner ℝ N.dirE (P'.toE - (P.toE + s • w.toE)) + (s - t) * inner ℝ N.dirE w.toE)
    (t * inner ℝ N.dirE w.toE - inner ℝ N.dirE (C.toE - P.toE))
  have a2 := abs_add_le (inner ℝ N.dirE (P'.toE - (P.toE + s • w.toE))) ((s - t) * inner ℝ N.dirE w.toE)
  have e1 : R.u * (29 * t + 23 * B) = 29 * (R.u * t) + 23 * (R.u * B) := by ring
  have e2 : R.u * (21 / 10 * s + 11 / 10 * B) = 21 / 10 * (R.u * s) + 11 / 10 * (R.u * B) := by ring
  refine ⟨by rw [e]; linarith, q, by rw [hpt, hq], ?_⟩
  have e3 : P'.toE - q.toE = (P'.toE - (P.toE + s • w.toE)) - (q.toE - (P.toE + t • w.toE)) + (s - t) • w.toE := by
    rw [sub_smul]; abel
  rw [e3]
  have b1 := norm_add_le ((P'.toE - (P.toE + s • w.toE)) - (q.toE - (P.toE + t • w.toE))) ((s - t) • w.toE)
  have b2 := norm_sub_le (P'.toE - (P.toE + s • w.toE)) (q.toE - (P.toE + t • w.toE))
  have b3 : ‖(s - t) • w.toE‖ ≤ (113 / 10 * (R.u * t) + 61 / 50 * (R.u * B)) * (1 + 1 / 100000) := by
    rw [_root_.norm_smul, Real.norm_eq_abs]
    exact mul_le_mul est hw1 (_root_.norm_nonneg _) (by positivity)
  linarith

/-- The point flown to lies close to the plane. -/
theorem hit_near {C N P w P' : V3 ℝ} {B s : ℝ} (hN : SaneLength N) (hC : ‖C.toE‖ ≤ B) (hP : ‖P.toE‖ ≤ B) (hB : 1 ≤ B)
    (hB' : B ≤ 10 ^ 50) (huB : R.u * B ≤ 1 / 10 ^ 10) (hw : NearUnit R w) {ray : Ray (Fl R)} (hp : ray.position = P.fl)
    (hd : ray.direction = w.fl) {pt : V3 (Fl R)} {nn : Option (V3 (Fl R))}
    (h : (Plane.new C.fl N.fl).testIntersect ray = ⟨true, some pt, nn⟩)
    (hs : distanceBetween ray.position pt = Fl.fin s) (hsB : s ≤ B)
    (hP' : ‖P'.toE - (P.toE + s • w.toE)‖ ≤ R.u * (21 / 10 * s + 11 / 10 * B)) :
    |inner ℝ N.dirE (P'.toE - C.toE)| ≤ 70 * (R.u * B) :=
  (hit_near_both hN hC hP hB hB' huB hw hp hd h hs hsB hP').1

end Optics
