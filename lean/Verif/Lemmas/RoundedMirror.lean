import Verif.Lemmas.RoundedVec

/-! # Reflection with rounding -/

namespace Optics
variable {R : Rounding}
open V3

/-- A computed direction: finite, and within `5u` of length 1. -/
def NearUnit (R : Rounding) (w : V3 ℝ) : Prop := |‖w.toE‖ - 1| ≤ 5 * R.u

theorem small_u : 300 * R.u ≤ 3 / 10000 := by
  have := R.u_small
  norm_num at this
  linarith

theorem nearUnit_of {w : V3 ℝ} {e : E3} (he : ‖e‖ = 1) (h : ‖w.toE - e‖ ≤ 5 * R.u) : NearUnit R w := by
  unfold NearUnit
  have := abs_norm_sub_norm_le w.toE e
  rw [he] at this
  exact this.trans h

theorem sane_of_near {w : V3 ℝ} (h : |‖w.toE‖ - 1| ≤ 1 / 100) : SaneLength w := by
  have h' := abs_le.mp h
  constructor
  · refine le_trans (show (1 : ℝ) / 10 ^ 100 ≤ 1 / 2 by norm_num) (by linarith [h'.1])
  · refine le_trans (show ‖w.toE‖ ≤ 2 by linarith [h'.2]) (by norm_num)

theorem NearUnit.sane {w : V3 ℝ} (h : NearUnit R w) : SaneLength w := by
  have := small_u (R := R)
  have := R.u_pos
  exact sane_of_near (h.trans (by linarith))

theorem SaneLength.pos {w : V3 ℝ} (h : SaneLength w) : 0 < ‖w.toE‖ := lt_of_lt_of_le (by positivity) h.1

/-- How far a vector is from its direction. -/
theorem dirE_dist {w : V3 ℝ} (h : 0 < ‖w.toE‖) : ‖w.dirE - w.toE‖ = |‖w.toE‖ - 1| := by
  unfold V3.dirE
  rw [show (1 / ‖w.toE‖) • w.toE - w.toE = (1 / ‖w.toE‖ - 1) • w.toE by rw [sub_smul, one_smul], _root_.norm_smul,
    Real.norm_eq_abs, abs_sub_comm]
  nth_rewrite 2 [← abs_of_pos h]
  rw [← abs_mul]
  congr 1
  field_simp

/-- The direction of a vector close to a unit vector. -/
theorem dirE_near {w : V3 ℝ} {e : E3} (he : ‖e‖ = 1) (hw : 0 < ‖w.toE‖) {δ : ℝ} (h : ‖w.toE - e‖ ≤ δ) :
    ‖w.dirE - e‖ ≤ 2 * δ := by
  have h1 := abs_norm_sub_norm_le w.toE e
  rw [he] at h1
  have h2 := dirE_dist hw
  have h3 := norm_sub_le_norm_sub_add_norm_sub w.dirE w.toE e
  linarith

/-- The computed unit vector of a computed direction. -/
theorem reunit_near {w : V3 ℝ} {e : E3} (he : ‖e‖ = 1) (hw : SaneLength w) {δ : ℝ} (h : ‖w.toE - e‖ ≤ δ) :
    ∃ w' : V3 ℝ, unitVector (w.fl : V3 (Fl R)) = w'.fl ∧ ‖w'.toE - e‖ ≤ 5 * R.u + 2 * δ ∧ NearUnit R w' := by
  obtain ⟨w', h1, h2⟩ := unitVector_near (R := R) hw
  refine ⟨w', h1, ?_, nearUnit_of (dirE_norm hw.pos) h2⟩
  have h3 := dirE_near he hw.pos h
  have h4 := norm_sub_le_norm_sub_add_norm_sub w'.toE w.dirE e
  linarith

theorem mirrorImage_apply {N : V3 ℝ} (hN : 0 < ‖N.toE‖) (d : E3) :
    mirrorImage N d = d - (2 * inner ℝ d N.dirE) • N.dirE := by
  unfold mirrorImage V3.dirE
  rw [Submodule.reflection_orthogonal_apply, Submodule.reflection_singleton_apply]
  have : (‖N.toE‖ : ℝ) ≠ 0 := hN.ne'
  rw [inner_smul_right, real_inner_comm]
  simp only [RCLike.ofReal_real_eq_id, id_eq, neg_sub, smul_smul, ← Nat.cast_smul_eq_nsmul ℝ]
  congr 2
  field_simp
  push_cast
  ring

/-- Multiplying the dot product by the literal 2. -/
theorem twice_near {s D : ℝ} (hs : |s - D| ≤ 19 / 5 * R.u) (hD : |D| ≤ 103 / 100) :
    ∃ m, (2.0 : Fl R) * Fl.fin s = Fl.fin m ∧ |m - 2 * D| ≤ 12 * R.u := by
  have hu := R.u_pos
  have hsm := small_u (R := R)
  obtain ⟨τ, hτ, eτ⟩ := rnd_near (R := R) (x := 2) (e := 2) (by norm_num) (by norm_num)
  have hl : (2.0 : Fl R) = Fl.fin τ := by
    rw [fl_lit, show (OfScientific.ofScientific 20 true 1 : ℝ) = 2 by norm_num, hτ]
  have eτ' : |τ - 2| ≤ 201 / 100 * R.u := by
    refine eτ.trans ?_
    have : R.u * (2 + 1 / 10 ^ 250) ≤ R.u * (201 / 100) := mul_le_mul_of_nonneg_left (by norm_num) hu.le
    linarith
  have hs1 : |s| ≤ 104 / 100 := by
    have := abs_add_le (s - D) D; rw [sub_add_cancel] at this; linarith
  have e1 : |τ * s - 2 * D| ≤ 98 / 10 * R.u := by
    have e : τ * s - 2 * D = (τ - 2) * s + 2 * (s - D) := by ring
    rw [e]
    have h1 := abs_add_le ((τ - 2) * s) (2 * (s - D))
    rw [abs_mul, abs_mul, abs_two] at h1
    have h2 : |τ - 2| * |s| ≤ (201 / 100 * R.u) * (104 / 100) := mul_le_mul eτ' hs1 (abs_nonneg _) (by positivity)
    linarith
  have h2 : |τ * s| ≤ 207 / 100 := by
    have h := abs_add_le (τ * s - 2 * D) (2 * D)
    rw [sub_add_cancel, abs_mul 2 D, abs_two] at h
    linarith
  obtain ⟨m, hm, em⟩ := rnd_near (R := R) h2 (by norm_num)
  refine ⟨m, by rw [hl, fl_mul, hm], ?_⟩
  have e : m - 2 * D = (m - τ * s) + (τ * s - 2 * D) := by ring
  rw [e]
  have h3 := abs_add_le (m - τ * s) (τ * s - 2 * D)
  have h4 : R.u * (207 / 100 + 1 / 10 ^ 250) ≤ R.u * (208 / 100) := mul_le_mul_of_nonneg_left (by norm_num) hu.le
  linarith

/-- One component of `incident - (2 * dot) * normal`. -/
theorem turn_near {m T a b : ℝ} (hm : |m - T| ≤ 12 * R.u) (hT : |T| ≤ 206 / 100) (ha : |a| ≤ 101 / 100)
    (hb : |b| ≤ 101 / 100) :
    ∃ w, (Fl.fin a : Fl R) - Fl.fin m * Fl.fin b = Fl.fin w ∧ |w - (a - T * b)| ≤ 18 * R.u := by
  have hu := R.u_pos
  have hsm := small_u (R := R)
  have hm1 : |m| ≤ 207 / 100 := by
    have := abs_add_le (m - T) T; rw [sub_add_cancel] at this; linarith
  have hmb : |m * b| ≤ 2091 / 1000 := by
    rw [abs_mul]
    have := mul_le_mul hm1 hb (abs_nonneg _) (by norm_num)
    linarith
  obtain ⟨q, hq, eq⟩ := rnd_near (R := R) hmb (by norm_num)
  have eq' : |q - m * b| ≤ 21 / 10 * R.u := by
    refine eq.trans ?_
    have : R.u * (2091 / 1000 + 1 / 10 ^ 250) ≤ R.u * (21 / 10) := mul_le_mul_of_nonneg_left (by norm_num) hu.le
    linarith
  have haq : |a - q| ≤ 32 / 10 := by
    have h1 := abs_sub a q
    have h2 := abs_add_le (q - m * b) (m * b)
    rw [sub_add_cancel] at h2
    linarith
  obtain ⟨w, hw, ew⟩ := rnd_near (R := R) haq (by norm_num)
  refine ⟨w, by rw [fl_mul, hq, fl_sub, hw], ?_⟩
  have e : w - (a - T * b) = (w - (a - q)) + ((m * b - q) + (T - m) * b) := by ring
  rw [e]
  have h1 := abs_add_le (w - (a - q)) ((m * b - q) + (T - m) * b)
  have h2 := abs_add_le (m * b - q) ((T - m) * b)
  rw [abs_sub_comm (m * b) q, abs_mul, abs_sub_comm T m] at h2
  have h3 : |m - T| * |b| ≤ 12 * R.u * (101 / 100) := mul_le_mul hm hb (abs_nonneg _) (by positivity)
  have h4 : R.u * (32 / 10 + 1 / 10 ^ 250) ≤ R.u * (33 / 10) := mul_le_mul_of_nonneg_left (by norm_num) hu.le
  linarith

/-- The computed `incident - 2 * dot(incident, normal) * normal`. -/
theorem turned_near {i n : V3 ℝ} (hi : |‖i.toE‖ - 1| ≤ 1 / 1000) (hn : |‖n.toE‖ - 1| ≤ 1 / 1000) :
    ∃ r : V3 ℝ, (i.fl : V3 (Fl R)) - (2.0 * dot (i.fl : V3 (Fl R)) n.fl) * (n.fl : V3 (Fl R)) = r.fl ∧
      ‖r.toE - (i.toE - (2 * inner ℝ i.toE n.toE) • n.toE)‖ ≤ 33 * R.u := by
  have hu := R.u_pos
  have hi' := abs_le.mp hi
  have hn' := abs_le.mp hn
  obtain ⟨ix, iy, iz⟩ := comp_le i
  obtain ⟨nx, ny, nz⟩ := comp_le n
  have hA : |i.x * n.x| + |i.y * n.y| + |i.z * n.z| ≤ 101 / 100 := by
    have h1 := normE_sq i
    have h2 := normE_sq n
    have amgm : ∀ a b : ℝ, |a * b| ≤ (a ^ 2 + b ^ 2) / 2 := by
      intro a b
      rw [abs_le]; constructor <;> nlinarith [sq_nonneg (a - b), sq_nonneg (a + b)]
    have h3 := amgm i.x n.x
    have h4 := amgm i.y n.y
    have h5 := amgm i.z n.z
    have h6 : ‖i.toE‖ ^ 2 ≤ 101 / 100 := by nlinarith [_root_.norm_nonneg i.toE]
    have h7 : ‖n.toE‖ ^ 2 ≤ 101 / 100 := by nlinarith [_root_.norm_nonneg n.toE]
    linarith
  obtain ⟨s, hs, es⟩ := dot_near (R := R) hA (by norm_num) (by norm_num)
  have hD : |dot i n| ≤ 101 / 100 := by
    unfold dot
    have h1 := abs_add_le (i.x * n.x + i.y * n.y) (i.z * n.z)
    have h2 := abs_add_le (i.x * n.x) (i.y * n.y)
    linarith
  obtain ⟨m, hm, em⟩ := twice_near (R := R) (s := s) (D := dot i n) (es.trans (by nlinarith)) (by linarith)
  have hT : |2 * dot i n| ≤ 206 / 100 := by rw [abs_mul, abs_two]; linarith
  obtain ⟨wx, hx, ex⟩ := turn_near (R := R) (a := i.x) (b := n.x) em hT (by linarith) (by linarith)
  obtain ⟨wy, hy, ey⟩ := turn_near (R := R) (a := i.y) (b := n.y) em hT (by linarith) (by linarith)
  obtain ⟨wz, hz, ez⟩ := turn_near (R := R) (a := i.z) (b := n.z) em hT (by linarith) (by linarith)
  refine ⟨⟨wx, wy, wz⟩, ?_, ?_⟩
  · rw [hs, hm]
    unfold V3.fl
    ext
    · exact hx
    · exact hy
    · exact hz
  · rw [inner_toE, ← toE_smul, ← toE_sub, ← toE_sub]
    refine (normE_le (e := 18 * R.u) (by positivity) ?_ ?_ ?_).trans (by linarith)
    · simpa using ex
    · simpa using ey
    · simpa using ez

/-- How much the mirror image changes with the direction and the normal. -/
theorem image_near {i n I M : E3} (hI : ‖I‖ = 1) (hM : ‖M‖ = 1) {δ ε : ℝ} (hi : ‖i - I‖ ≤ δ) (hn : ‖n - M‖ ≤ ε)
    (hε : ε ≤ 1 / 100) :
    ‖(i - (2 * inner ℝ i n) • n) - (I - (2 * inner ℝ I M) • M)‖ ≤ 4 * δ + 5 * ε := by
  have hnn : ‖n‖ ≤ 1 + ε := by
    have := norm_sub_norm_le n M; rw [hM] at this; linarith
  have hδ0 : 0 ≤ δ := (_root_.norm_nonneg _).trans hi
  have hε0 : 0 ≤ ε := (_root_.norm_nonneg _).trans hn
  have hin : |inner ℝ i n - inner ℝ I M| ≤ δ * (1 + ε) + ε := by
    have e : inner ℝ i n - inner ℝ I M = inner ℝ (i - I) n + inner ℝ I (n - M) := by
      rw [inner_sub_left, inner_sub_right]; ring
    rw [e]
    have h1 := abs_add_le (inner ℝ (i - I) n) (inner ℝ I (n - M))
    have h2 := abs_real_inner_le_norm (i - I) n
    have h3 := abs_real_inner_le_norm I (n - M)
    rw [hI, one_mul] at h3
    have h4 : ‖i - I‖ * ‖n‖ ≤ δ * (1 + ε) := mul_le_mul hi hnn (_root_.norm_nonneg _) hδ0
    linarith
  have hIM : |inner ℝ I M| ≤ 1 := by
    have := abs_real_inner_le_norm I M; rw [hI, hM, one_mul] at this; exact this
  have e : (i - (2 * inner ℝ i n) • n) - (I - (2 * inner ℝ I M) • M) =
      (i - I) - ((2 * (inner ℝ i n - inner ℝ I M)) • n + (2 * inner ℝ I M) • (n - M)) := by
    module
  rw [e]
  have h1 := norm_sub_le (i - I) ((2 * (inner ℝ i n - inner ℝ I M)) • n + (2 * inner ℝ I M) • (n - M))
  have h2 := norm_add_le ((2 * (inner ℝ i n - inner ℝ I M)) • n) ((2 * inner ℝ I M) • (n - M))
  rw [_root_.norm_smul, _root_.norm_smul, Real.norm_eq_abs, Real.norm_eq_abs, abs_mul, abs_mul, abs_two] at h2
  have h3 : 2 * |inner ℝ i n - inner ℝ I M| * ‖n‖ ≤ 2 * (δ * (1 + ε) + ε) * (1 + ε) :=
    mul_le_mul (by linarith) hnn (_root_.norm_nonneg _) (by positivity)
  have h4 : 2 * |inner ℝ I M| * ‖n - M‖ ≤ 2 * ε :=
    mul_le_mul (by linarith) hn (_root_.norm_nonneg _) (by norm_num)
  have h5 : δ * (1 + ε) * (1 + ε) ≤ δ * (103 / 100) := by
    rw [mul_assoc]; apply mul_le_mul_of_nonneg_left _ hδ0; nlinarith
  have h6 : ε * (1 + ε) ≤ ε * (101 / 100) := by apply mul_le_mul_of_nonneg_left _ hε0; linarith
  nlinarith

/-- The core of C98 and of total internal reflection: one computed reflection.  `d` need not be of length 1. -/
theorem specular_sane {d n N : V3 ℝ} (hd : SaneLength d) (hN : SaneLength N) (hn : ‖n.toE - N.dirE‖ ≤ 5 * R.u) :
    ∃ w : V3 ℝ, specular (d.fl : V3 (Fl R)) n.fl = w.fl ∧ NearUnit R w ∧
      ‖w.toE - mirrorImage N d.dirE‖ ≤ 261 * R.u := by
  have hu := R.u_pos
  have hsm := small_u (R := R)
  have hdn := dirE_norm (v := d) hd.pos
  have hNn := dirE_norm (v := N) hN.pos
  have hnu : NearUnit R n := nearUnit_of hNn hn
  obtain ⟨i, hi, ei⟩ := unitVector_near (R := R) hd
  obtain ⟨m, hm, em, hmu⟩ := reunit_near (R := R) hNn hnu.sane hn
  have hiu : NearUnit R i := nearUnit_of hdn ei
  obtain ⟨r, hr, er⟩ := turned_near (R := R) (i := i) (n := m) (hiu.trans (by linarith)) (hmu.trans (by linarith))
  have him := image_near hdn hNn ei em (by linarith)
  rw [← mirrorImage_apply hN.pos] at him
  have hone : ‖mirrorImage N d.dirE‖ = 1 := by
    unfold mirrorImage; rw [LinearIsometryEquiv.norm_map, hdn]
  have hrI : ‖r.toE - mirrorImage N d.dirE‖ ≤ 128 * R.u := by
    have := norm_sub_le_norm_sub_add_norm_sub r.toE (i.toE - (2 * inner ℝ i.toE m.toE) • m.toE) (mirrorImage N d.dirE)
    linarith
  have hrs : SaneLength r := by
    apply sane_of_near
    have := abs_norm_sub_norm_le r.toE (mirrorImage N d.dirE)
    rw [hone] at this
    linarith
  obtain ⟨w, hw, ew, hwu⟩ := reunit_near (R := R) hone hrs hrI
  refine ⟨w, ?_, hwu, ?_⟩
  · unfold specular
    simp only []
    rw [hi, hm, hr, hw]
  · linarith

/-- C98's core: one computed reflection.  `d` is a computed direction; `n` is a computed unit normal of the mirror with
normal `N`. -/
theorem specular_near {d n N : V3 ℝ} (hd : NearUnit R d) (hN : SaneLength N) (hn : ‖n.toE - N.dirE‖ ≤ 5 * R.u) :
    ∃ w : V3 ℝ, specular (d.fl : V3 (Fl R)) n.fl = w.fl ∧ NearUnit R w ∧
      ‖w.toE - mirrorImage N d.toE‖ ≤ 300 * R.u := by
  have hu := R.u_pos
  obtain ⟨w, hw, hwu, ew⟩ := specular_sane (R := R) hd.sane hN hn
  refine ⟨w, hw, hwu, ?_⟩
  have h1 : ‖mirrorImage N d.dirE - mirrorImage N d.toE‖ ≤ 5 * R.u := by
    unfold mirrorImage
    rw [← map_sub, LinearIsometryEquiv.norm_map, dirE_dist hd.sane.pos]
    exact hd
  have := norm_sub_le_norm_sub_add_norm_sub w.toE (mirrorImage N d.dirE) (mirrorImage N d.toE)
  linarith

end Optics
