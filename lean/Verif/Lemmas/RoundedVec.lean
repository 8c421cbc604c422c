import Verif.Lemmas.Rounded
import Verif.Spec.Rounded
import Verif.Lemmas.Vec

/-! # Error bounds for `np.dot` and `unit_vector` with rounding -/

namespace Optics
variable {R : Rounding}
open V3

theorem normE_sq (v : V3 ℝ) : ‖v.toE‖ ^ 2 = v.x ^ 2 + v.y ^ 2 + v.z ^ 2 := by
  rw [norm_toE, norm_sq]; unfold dot; ring

theorem comp_le (v : V3 ℝ) : |v.x| ≤ ‖v.toE‖ ∧ |v.y| ≤ ‖v.toE‖ ∧ |v.z| ≤ ‖v.toE‖ := by
  have h := normE_sq v
  have hn := _root_.norm_nonneg v.toE
  refine ⟨abs_le_of_sq_le_sq ?_ hn, abs_le_of_sq_le_sq ?_ hn, abs_le_of_sq_le_sq ?_ hn⟩ <;>
    nlinarith [sq_nonneg v.x, sq_nonneg v.y, sq_nonneg v.z]

/-- An upper bound for the length of a vector from its components. -/
theorem normE_le {v : V3 ℝ} {e : ℝ} (he : 0 ≤ e) (hx : |v.x| ≤ e) (hy : |v.y| ≤ e) (hz : |v.z| ≤ e) :
    ‖v.toE‖ ≤ 9 / 5 * e := by
  have h := normE_sq v
  have h1 : v.x ^ 2 ≤ e ^ 2 := sq_le_sq' (by linarith [(abs_le.mp hx).1]) (abs_le.mp hx).2
  have h2 : v.y ^ 2 ≤ e ^ 2 := sq_le_sq' (by linarith [(abs_le.mp hy).1]) (abs_le.mp hy).2
  have h3 : v.z ^ 2 ≤ e ^ 2 := sq_le_sq' (by linarith [(abs_le.mp hz).1]) (abs_le.mp hz).2
  refine abs_le_of_sq_le_sq (a := ‖v.toE‖) ?_ (by positivity) |> fun h => (le_abs_self _).trans h
  nlinarith

/-- A bound for a vector that is componentwise close to a multiple of a unit vector. -/
theorem normE_le_rel {v w : V3 ℝ} {a b : ℝ} (ha : 0 ≤ a) (hb : 0 ≤ b) (hw : ‖w.toE‖ ≤ 1)
    (hx : |v.x| ≤ a * |w.x| + b) (hy : |v.y| ≤ a * |w.y| + b) (hz : |v.z| ≤ a * |w.z| + b) : ‖v.toE‖ ≤ a + 3 * b := by
  obtain ⟨wx, wy, wz⟩ := comp_le w
  have hw2 := normE_sq w
  have h := normE_sq v
  have hw1 : w.x ^ 2 + w.y ^ 2 + w.z ^ 2 ≤ 1 := by
    rw [← hw2]; nlinarith [_root_.norm_nonneg w.toE]
  have sq : ∀ {p q : ℝ}, |p| ≤ a * |q| + b → |q| ≤ 1 → p ^ 2 ≤ a ^ 2 * q ^ 2 + 2 * a * b + b ^ 2 := by
    intro p q hp hq
    have h1 : p ^ 2 ≤ (a * |q| + b) ^ 2 := by rw [← sq_abs p]; exact pow_le_pow_left₀ (abs_nonneg p) hp 2
    have h2 : (a * |q| + b) ^ 2 = a ^ 2 * q ^ 2 + 2 * (a * b) * |q| + b ^ 2 := by rw [← sq_abs q]; ring
    have h3 : 2 * (a * b) * |q| ≤ 2 * (a * b) * 1 := by apply mul_le_mul_of_nonneg_left hq; positivity
    linarith
  have h1 := sq hx (wx.trans hw)
  have h2 := sq hy (wy.trans hw)
  have h3 := sq hz (wz.trans hw)
  refine abs_le_of_sq_le_sq (a := ‖v.toE‖) ?_ (by positivity) |> fun h => (le_abs_self _).trans h
  have h4 : a ^ 2 * (w.x ^ 2 + w.y ^ 2 + w.z ^ 2) ≤ a ^ 2 * 1 := by apply mul_le_mul_of_nonneg_left hw1; positivity
  nlinarith [mul_nonneg ha hb, mul_nonneg hb hb]

/-- One rounded operation. -/
theorem rnd_near {x e : ℝ} (hx : |x| ≤ e) (he : e ≤ 10 ^ 250) :
    ∃ y, (⟨R.rnd x⟩ : Fl R) = Fl.fin y ∧ |y - x| ≤ R.u * (e + 1 / 10 ^ 250) := by
  have h1 : (10 : ℝ) ^ 250 ≤ 10 ^ 300 := pow_le_pow_right₀ (by norm_num) (by norm_num)
  obtain ⟨y, hy, h⟩ := R.near x (hx.trans (he.trans h1))
  refine ⟨y, by rw [hy]; rfl, h.trans ?_⟩
  apply mul_le_mul_of_nonneg_left _ R.u_pos.le
  exact add_le_add hx (one_div_le_one_div_of_le (by positivity) h1)

/-- A sum of three products of which the sum of absolute values is at most `A`. -/
theorem dot_near {a b : V3 ℝ} {A : ℝ} (hA : |a.x * b.x| + |a.y * b.y| + |a.z * b.z| ≤ A)
    (hlo : 1 / 10 ^ 200 ≤ A) (hhi : A ≤ 10 ^ 201) :
    ∃ s, dot (a.fl : V3 (Fl R)) b.fl = Fl.fin s ∧ |s - dot a b| ≤ 7 / 2 * R.u * A := by
  have hu := R.u_pos
  have hus := R.u_small
  have hA0 : 0 < A := lt_of_lt_of_le (by positivity) hlo
  have ht : (1 : ℝ) / 10 ^ 250 ≤ A / 100 := by
    have : (1 : ℝ) / 10 ^ 250 ≤ 1 / 10 ^ 200 * (1 / 100) := by norm_num
    linarith
  have ht0 : (0 : ℝ) < 1 / 10 ^ 250 := by positivity
  have hbig : 2 * A ≤ 10 ^ 250 := by
    have : (2 * 10 ^ 201 : ℝ) ≤ 10 ^ 250 := by norm_num
    linarith
  have huA : R.u * A ≤ A / 1000 := by
    have : R.u * A ≤ 1 / 2 ^ 20 * A := mul_le_mul_of_nonneg_right hus hA0.le
    have : (1 : ℝ) / 2 ^ 20 * A ≤ 1 / 1000 * A := mul_le_mul_of_nonneg_right (by norm_num) hA0.le
    linarith
  have huA0 : 0 < R.u * A := by positivity
  have nx := abs_nonneg (a.x * b.x)
  have ny := abs_nonneg (a.y * b.y)
  have nz := abs_nonneg (a.z * b.z)
  obtain ⟨p, hp, ep⟩ := rnd_near (R := R) (x := a.x * b.x) le_rfl (by linarith)
  obtain ⟨q, hq, eq⟩ := rnd_near (R := R) (x := a.y * b.y) le_rfl (by linarith)
  obtain ⟨r, hr, er⟩ := rnd_near (R := R) (x := a.z * b.z) le_rfl (by linarith)
  generalize ht' : (1 : ℝ) / 10 ^ 250 = t at *
  have hut : R.u * t ≤ R.u * A / 100 := by
    have := mul_le_mul_of_nonneg_left ht hu.le; linarith
  have e3 : R.u * (|a.x * b.x| + t) + R.u * (|a.y * b.y| + t) + R.u * (|a.z * b.z| + t) ≤ R.u * A * (103 / 100) := by
    have := mul_le_mul_of_nonneg_left hA hu.le
    have e : R.u * (|a.x * b.x| + t) + R.u * (|a.y * b.y| + t) + R.u * (|a.z * b.z| + t) =
      R.u * (|a.x * b.x| + |a.y * b.y| + |a.z * b.z|) + 3 * (R.u * t) := by ring
    rw [e]; linarith
  have px : |p| ≤ |p - a.x * b.x| + |a.x * b.x| := by have := abs_add_le (p - a.x * b.x) (a.x * b.x); simpa using this
  have qx : |q| ≤ |q - a.y * b.y| + |a.y * b.y| := by have := abs_add_le (q - a.y * b.y) (a.y * b.y); simpa using this
  have rx : |r| ≤ |r - a.z * b.z| + |a.z * b.z| := by have := abs_add_le (r - a.z * b.z) (a.z * b.z); simpa using this
  have ut0 : 0 ≤ R.u * t := by positivity
  have e3z : 0 ≤ R.u * (|a.z * b.z| + t) := by positivity
  have hpq : |p + q| ≤ A * (101 / 100) := by
    have := abs_add_le p q
    linarith
  obtain ⟨s1, h1, e1⟩ := rnd_near (R := R) hpq (by linarith)
  rw [ht'] at e1
  have e1' : R.u * (A * (101 / 100) + t) ≤ R.u * A * (103 / 100) := by
    have e : R.u * (A * (101 / 100) + t) = R.u * A * (101 / 100) + R.u * t := by ring
    rw [e]; linarith
  have hs1 : |s1 + r| ≤ A * (101 / 100) := by
    have h2 : |s1 + r| ≤ |s1 - (p + q)| + |p + q| + |r| := by
      have := abs_add_le (s1 - (p + q) + (p + q)) r
      have := abs_add_le (s1 - (p + q)) (p + q)
      simp only [sub_add_cancel] at *
      linarith
    have := abs_add_le p q
    linarith
  obtain ⟨s, h2, e2⟩ := rnd_near (R := R) hs1 (by linarith)
  rw [ht'] at e2
  refine ⟨s, ?_, ?_⟩
  · unfold dot V3.fl
    simp only [fl_mul]
    rw [hp, hq, hr, fl_add, h1, fl_add, h2]
  · have e : s - dot a b = (s - (s1 + r)) + (s1 - (p + q)) + ((p - a.x * b.x) + (q - a.y * b.y) + (r - a.z * b.z)) := by
      unfold dot; ring
    rw [e]
    have a1 := abs_add_le (s - (s1 + r) + (s1 - (p + q))) ((p - a.x * b.x) + (q - a.y * b.y) + (r - a.z * b.z))
    have a2 := abs_add_le (s - (s1 + r)) (s1 - (p + q))
    have a3 := abs_add_le ((p - a.x * b.x) + (q - a.y * b.y)) (r - a.z * b.z)
    have a4 := abs_add_le (p - a.x * b.x) (q - a.y * b.y)
    linarith

/-- `np.linalg.norm` of a vector of sane length. -/
theorem norm_near {v : V3 ℝ} (hv : SaneLength v) :
    ∃ r, V3.norm (v.fl : V3 (Fl R)) = Fl.fin r ∧ |r - ‖v.toE‖| ≤ 3 * R.u * ‖v.toE‖ := by
  obtain ⟨hlo, hhi⟩ := hv
  have hu := R.u_pos
  have hus := R.u_small
  have hN := normE_sq v
  set N := ‖v.toE‖ with hNd
  have hN0 : 0 < N := lt_of_lt_of_le (by positivity) hlo
  have hd : dot v v = N ^ 2 := by rw [hN]; unfold dot; ring
  have hA : |v.x * v.x| + |v.y * v.y| + |v.z * v.z| ≤ N ^ 2 := by
    rw [abs_mul_self, abs_mul_self, abs_mul_self, ← hd]; exact le_rfl
  have hlo2 : 1 / 10 ^ 200 ≤ N ^ 2 := by
    have := pow_le_pow_left₀ (by positivity) hlo 2
    refine le_trans (by norm_num) this
  have hhi2 : N ^ 2 ≤ 10 ^ 201 := by
    have := pow_le_pow_left₀ hN0.le hhi 2
    refine le_trans this (by norm_num)
  obtain ⟨s, hs, es⟩ := dot_near (R := R) hA hlo2 hhi2
  rw [hd] at es
  have huN : R.u * N ^ 2 ≤ N ^ 2 / 1000 := by
    have h1 : R.u * N ^ 2 ≤ 1 / 2 ^ 20 * N ^ 2 := mul_le_mul_of_nonneg_right hus (by positivity)
    have h2 : (1 : ℝ) / 2 ^ 20 * N ^ 2 ≤ 1 / 1000 * N ^ 2 := mul_le_mul_of_nonneg_right (by norm_num) (by positivity)
    linarith
  have huN1 : R.u * N ≤ N / 1000 := by
    have h1 : R.u * N ≤ 1 / 2 ^ 20 * N := mul_le_mul_of_nonneg_right hus hN0.le
    have h2 : (1 : ℝ) / 2 ^ 20 * N ≤ 1 / 1000 * N := mul_le_mul_of_nonneg_right (by norm_num) hN0.le
    linarith
  have huN0 : 0 < R.u * N := by positivity
  have es' := abs_le.mp es
  have hs0 : (99 / 100 * N) ^ 2 ≤ s := by
    have : (99 / 100 * N) ^ 2 = 9801 / 10000 * N ^ 2 := by ring
    rw [this]
    linarith [es'.1]
  have hs1 : 0 ≤ s := le_trans (by positivity) hs0
  set q := Real.sqrt s with hq
  have hqs : q * q = s := Real.mul_self_sqrt hs1
  have hq0 : 99 / 100 * N ≤ q := Real.le_sqrt_of_sq_le hs0
  have eq : |q - N| ≤ 9 / 5 * R.u * N := by
    have h1 : (q - N) * (q + N) = s - N ^ 2 := by rw [← hqs]; ring
    have h2 : |q - N| * (q + N) ≤ 7 / 2 * R.u * N ^ 2 := by
      rw [← abs_of_nonneg (show 0 ≤ q + N by linarith), ← abs_mul, h1]; exact es
    have h3 : |q - N| * (199 / 100 * N) ≤ |q - N| * (q + N) :=
      mul_le_mul_of_nonneg_left (by linarith) (abs_nonneg _)
    have h4 : |q - N| * (199 / 100) * N ≤ 7 / 2 * R.u * N * N := by nlinarith
    have h5 := le_of_mul_le_mul_right h4 hN0
    linarith
  have eq' := abs_le.mp eq
  have hq1 : |q| ≤ 101 / 100 * N := by
    rw [abs_of_nonneg (by linarith)]; linarith [eq'.2]
  obtain ⟨r, hr, er⟩ := rnd_near (R := R) hq1 (by
    have : (101 / 100 : ℝ) * 10 ^ 100 ≤ 10 ^ 250 := by norm_num
    linarith)
  refine ⟨r, ?_, ?_⟩
  · unfold V3.norm; rw [hs, fl_sqrt _ hs1, hr]
  · have h1 : (1 : ℝ) / 10 ^ 250 ≤ N / 100 := by
      have : (1 : ℝ) / 10 ^ 250 ≤ 1 / 10 ^ 100 * (1 / 100) := by norm_num
      linarith
    have h2 : R.u * (101 / 100 * N + 1 / 10 ^ 250) ≤ R.u * (102 / 100 * N) :=
      mul_le_mul_of_nonneg_left (by linarith) hu.le
    have h3 : r - N = (r - q) + (q - N) := by ring
    rw [h3]
    have := abs_add_le (r - q) (q - N)
    linarith

/-- The exact unit vector. -/
noncomputable def V3.dirE (v : V3 ℝ) : E3 := (1 / ‖v.toE‖) • v.toE

theorem dirE_norm {v : V3 ℝ} (hv : 0 < ‖v.toE‖) : ‖v.dirE‖ = 1 := by
  unfold V3.dirE
  rw [_root_.norm_smul, Real.norm_of_nonneg (by positivity)]
  field_simp

/-- `unit_vector` of a vector of sane length is within `5u` of the unit vector. -/
theorem unitVector_near {v : V3 ℝ} (hv : SaneLength v) :
    ∃ w : V3 ℝ, unitVector (v.fl : V3 (Fl R)) = w.fl ∧ ‖w.toE - v.dirE‖ ≤ 5 * R.u := by
  have hu := R.u_pos
  have hus := R.u_small
  obtain ⟨r, hr, er⟩ := norm_near (R := R) hv
  obtain ⟨hlo, hhi⟩ := hv
  obtain ⟨cx, cy, cz⟩ := comp_le v
  set N := ‖v.toE‖ with hNd
  have hN0 : 0 < N := lt_of_lt_of_le (by positivity) hlo
  have huN1 : R.u * N ≤ N / 1000 := by
    have h1 : R.u * N ≤ 1 / 2 ^ 20 * N := mul_le_mul_of_nonneg_right hus hN0.le
    have h2 : (1 : ℝ) / 2 ^ 20 * N ≤ 1 / 1000 * N := mul_le_mul_of_nonneg_right (by norm_num) hN0.le
    linarith
  have er' := abs_le.mp er
  have hr0 : 99 / 100 * N ≤ r := by linarith [er'.1]
  have hrp : 0 < r := by linarith
  -- one component
  have comp : ∀ x : ℝ, |x| ≤ N → ∃ w, (Fl.fin x : Fl R) / Fl.fin r = Fl.fin w ∧
      |w - x / N| ≤ 9 / 2 * R.u * |x / N| + R.u / 10 ^ 250 := by
    intro x hx
    have hxr : |x / r| ≤ 101 / 99 * |x / N| := by
      rw [abs_div, abs_div, abs_of_pos hrp, abs_of_pos hN0, div_le_iff₀ hrp]
      have : 101 / 99 * (|x| / N) * r ≥ 101 / 99 * (|x| / N) * (99 / 100 * N) :=
        mul_le_mul_of_nonneg_left hr0 (by positivity)
      have e : 101 / 99 * (|x| / N) * (99 / 100 * N) = 101 / 100 * |x| := by field_simp
      have := abs_nonneg x
      linarith
    have hxN : |x / N| ≤ 1 := by rw [abs_div, abs_of_pos hN0, div_le_one hN0]; exact hx
    obtain ⟨w, hw, ew⟩ := rnd_near (R := R) hxr (by
      have : (101 / 99 : ℝ) ≤ 10 ^ 250 := by norm_num
      nlinarith)
    refine ⟨w, by rw [fl_div _ _ hrp.ne', hw], ?_⟩
    have e1 : x / r - x / N = (x / N) * ((N - r) / r) := by field_simp
    have e2 : |(N - r) / r| ≤ 303 / 99 * R.u := by
      rw [abs_div, abs_of_pos hrp, div_le_iff₀ hrp, abs_sub_comm]
      have : 303 / 99 * R.u * r ≥ 303 / 99 * R.u * (99 / 100 * N) := mul_le_mul_of_nonneg_left hr0 (by positivity)
      have : 0 < R.u * N := by positivity
      linarith
    have e3 : |x / r - x / N| ≤ 303 / 99 * R.u * |x / N| := by
      rw [e1, abs_mul]
      have := mul_le_mul_of_nonneg_left e2 (abs_nonneg (x / N))
      linarith
    have e4 : w - x / N = (w - x / r) + (x / r - x / N) := by ring
    rw [e4]
    have a1 := abs_add_le (w - x / r) (x / r - x / N)
    have e5 : R.u * (101 / 99 * |x / N| + 1 / 10 ^ 250) = 101 / 99 * (R.u * |x / N|) + R.u / 10 ^ 250 := by ring
    rw [e5] at ew
    have : 0 ≤ R.u * |x / N| := by positivity
    linarith
  obtain ⟨wx, hx, ex⟩ := comp v.x cx
  obtain ⟨wy, hy, ey⟩ := comp v.y cy
  obtain ⟨wz, hz, ez⟩ := comp v.z cz
  refine ⟨⟨wx, wy, wz⟩, ?_, ?_⟩
  · unfold unitVector
    rw [hr]
    unfold V3.fl
    ext
    · exact hx
    · exact hy
    · exact hz
  · have e : (⟨wx, wy, wz⟩ : V3 ℝ).toE - v.dirE = (⟨wx - v.x / N, wy - v.y / N, wz - v.z / N⟩ : V3 ℝ).toE := by
      unfold V3.dirE
      rw [← toE_smul, ← toE_sub, ← hNd]
      congr 1
      ext <;> simp <;> ring
    rw [e]
    have hun : ‖(⟨v.x / N, v.y / N, v.z / N⟩ : V3 ℝ).toE‖ ≤ 1 := by
      have h1 : (⟨v.x / N, v.y / N, v.z / N⟩ : V3 ℝ).toE = v.dirE := by
        unfold V3.dirE
        rw [← toE_smul, ← hNd]
        congr 1
        ext <;> simp <;> ring
      rw [h1, dirE_norm hN0]
    have := normE_le_rel (v := ⟨wx - v.x / N, wy - v.y / N, wz - v.z / N⟩) (a := 9 / 2 * R.u) (b := R.u / 10 ^ 250)
      (by positivity) (by positivity) hun ex ey ez
    refine this.trans ?_
    have : R.u / 10 ^ 250 ≤ R.u / 100 := by
      apply div_le_div_of_nonneg_left hu.le (by norm_num) (by norm_num)
    linarith

end Optics
