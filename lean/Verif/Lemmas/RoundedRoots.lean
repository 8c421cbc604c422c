import Verif.Lemmas.RoundedQuadratic
/-!
The roots of the quadratic equation of `InfiniteCylinder.test_intersect` with rounded arithmetic.
Used by `Lemmas/RoundedCylinder.lean`.
-/

namespace Optics

variable {R : Rounding} {ε N : ℝ}

/-- A quadratic equation whose solutions are both ahead of the ray, and the sizes of its coefficients. -/
structure Approach (R : Rounding) (A₀ B₀ C₀ s ε N : ℝ) : Prop where
  apos : 0 < A₀
  atop : A₀ ≤ 1001 / 1000
  spos : 0 < s
  disc : s ^ 2 = B₀ ^ 2 - 4 * A₀ * C₀
  slow : s ^ 2 ≤ 4 * A₀
  toward : B₀ < 0
  outside : 0 ≤ C₀
  ctop : C₀ ≤ N ^ 2
  btop : |B₀| ≤ 2001 / 1000 * N
  size : 1 ≤ N
  range : N ≤ 10 ^ 50
  unit : 5 * R.u ≤ ε
  small : ε ≤ 1 / 10 ^ 4
  steep : 10 ^ 4 * (ε * N ^ 2) ≤ A₀ * s ^ 2

variable {A₀ B₀ C₀ s A B C D : ℝ}

theorem Approach.facts (H : Approach R A₀ B₀ C₀ s ε N) {κ : ℝ} (hκ : κ = ε * N ^ 2) :
    0 < κ ∧ s ≤ -B₀ ∧ s ≤ 2002 / 1000 ∧ 5 * R.u * N ^ 2 ≤ κ ∧ ε * N ≤ κ ∧ κ ≤ 2002 / 1000 * (κ / s) ∧ κ / s ≤ s * (1001 / 10 ^ 7) ∧
      5 * R.u ≤ κ ∧ N ≤ N ^ 2 ∧ N ^ 2 ≤ 10 ^ 100 ∧ ε ≤ κ := by
  have hu := R.u_pos
  have hN := H.size
  have hs := H.spos
  have ha := H.apos
  have ε0 : 0 < ε := by linarith [H.unit]
  have NN : N ≤ N ^ 2 := by nlinarith only [hN]
  have n2 : 0 < N ^ 2 := by linarith
  have κ0 : 0 < κ := by rw [hκ]; positivity
  have s1 : s ≤ -B₀ := by
    refine le_of_sq_le_sq ?_ (by linarith [H.toward])
    have := mul_nonneg ha.le H.outside
    rw [H.disc]; linarith [neg_sq B₀]
  have s2 : s ≤ 2002 / 1000 := by
    refine le_of_sq_le_sq ?_ (by norm_num)
    have := H.slow
    have := H.atop
    norm_num; linarith
  have h5 : 5 * R.u * N ^ 2 ≤ κ := by rw [hκ]; exact mul_le_mul_of_nonneg_right H.unit n2.le
  refine ⟨κ0, s1, s2, h5, ?_, ?_, ?_, ?_, NN, ?_, ?_⟩
  · rw [hκ]; exact mul_le_mul_of_nonneg_left NN ε0.le
  · rw [mul_div_assoc', le_div_iff₀ hs]; nlinarith only [κ0, s2]
  · rw [div_le_iff₀ hs]
    have h1 := H.steep
    rw [← hκ] at h1
    have h2 : A₀ * s ^ 2 ≤ 1001 / 1000 * s ^ 2 := mul_le_mul_of_nonneg_right H.atop (by positivity)
    have : s * (1001 / 10 ^ 7) * s = 1001 / 10 ^ 7 * s ^ 2 := by ring
    rw [this]; norm_num at h1 ⊢; linarith
  · have : 5 * R.u * 1 ≤ 5 * R.u * N ^ 2 := mul_le_mul_of_nonneg_left (by linarith) (by linarith)
    linarith
  · calc N ^ 2 ≤ (10 ^ 50) ^ 2 := pow_le_pow_left₀ (by linarith) H.range 2
      _ = 10 ^ 100 := by norm_num
  · rw [hκ]; nlinarith only [ε0, hN, NN]

/-- The sum of `-B` and the root. -/
theorem Approach.sum (H : Approach R A₀ B₀ C₀ s ε N) {κ : ℝ} (hκ : κ = ε * N ^ 2) (hB : |B - B₀| ≤ 15 / 2 * (ε * N))
    (hD : |D - s ^ 2| ≤ 62 * κ) :
    0 < D ∧ B < 0 ∧ ∃ r q : ℝ, PyNum.sqrt (Fl.fin D : Fl R) = Fl.fin r ∧ -(Fl.fin B : Fl R) + Fl.fin r = Fl.fin q ∧
      |q - (s - B₀)| ≤ 50 * (κ / s) := by
  obtain ⟨κ0, s1, s2, u2, e1, k1, k2, u1, NN, big, -⟩ := H.facts hκ
  have hs := H.spos
  have hN := H.size
  have hu := R.u_pos
  have ks : 0 < κ / s := by positivity
  obtain ⟨D0, r, hr, dr⟩ := root_near (R := R) hs s2 (by norm_num) (by norm_num) hD (by
    have := k2
    rw [div_le_iff₀ hs] at this
    have h2 : s * (1001 / 10 ^ 7) * s = 1001 / 10 ^ 7 * s ^ 2 := by ring
    rw [h2] at this
    have := sq_nonneg s
    norm_num at *; linarith)
  have dr' : |r - s| ≤ 325 / 10 * (κ / s) := by
    have e : 62 * κ / s = 62 * (κ / s) := by ring
    rw [e] at dr; linarith
  have hb : |B₀| ≤ 2001 / 1000 * N := H.btop
  have d1 : |(-B + r) - (s - B₀)| ≤ 477 / 10 * (κ / s) := by
    have h1 := abs_add_le (-(B - B₀)) (r - s)
    rw [abs_neg, show -(B - B₀) + (r - s) = (-B + r) - (s - B₀) by ring] at h1
    linarith
  have n1 : |(-B + r)| ≤ 41 / 10 * N := by
    have h1 := abs_add_le ((-B + r) - (s - B₀)) (s - B₀)
    rw [sub_add_cancel] at h1
    have h2 := abs_sub s B₀
    rw [abs_of_pos hs] at h2
    norm_num at k2; linarith
  have hb200 : (10 : ℝ) ^ 100 * 100 ≤ 10 ^ 200 := by norm_num
  obtain ⟨q, eq, dq⟩ := rnd_big (R := R) n1 (by linarith)
  have huN : R.u * (41 / 10 * N + 1 / 1000) ≤ R.u * (411 / 100 * N ^ 2) := mul_le_mul_of_nonneg_left (by linarith) hu.le
  have hB0 : B < 0 := by
    have h1 := (abs_le.mp hB).2
    norm_num at k2; linarith
  refine ⟨D0, hB0, r, q, hr, by rw [fl_neg, fl_add, eq], ?_⟩
  have h1 := abs_add_le (q - (-B + r)) ((-B + r) - (s - B₀))
  rw [sub_add_sub_cancel] at h1
  linarith

/-- The nearer solution. -/
theorem Approach.near (H : Approach R A₀ B₀ C₀ s ε N) (hR : Proper R) {κ q t : ℝ} (hκ : κ = ε * N ^ 2)
    (hC : |C - C₀| ≤ 7 / 2 * (ε * N ^ 2)) (hq : |q - (s - B₀)| ≤ 50 * (κ / s)) (ht : t * (s - B₀) = 2 * C₀) :
    ∃ y : ℝ, (2.0 * Fl.fin C : Fl R) / Fl.fin q = Fl.fin y ∧ s * |y - t| ≤ 30 * (κ / A₀) ∧ 0 ≤ t ∧ s * t ≤ N ^ 2 := by
  obtain ⟨κ0, s1, s2, u2, e1, k1, k2, u1, NN, big, -⟩ := H.facts hκ
  have hs := H.spos
  have hN := H.size
  have hu := R.u_pos
  have ha := H.apos
  have c0 := H.outside
  have c1 := H.ctop
  have hus := (five_u (R := R)).2
  obtain ⟨q₀, hq₀⟩ : ∃ q₀, q₀ = s - B₀ := ⟨_, rfl⟩
  rw [← hq₀] at hq ht
  have q0 : 2 * s ≤ q₀ := by linarith
  have qlo : 997 / 1000 * q₀ ≤ q := by
    have := (abs_le.mp hq).1
    norm_num at k2; linarith
  have qpos : 0 < q := by linarith
  have q0pos : 0 < q₀ := by linarith
  have t0 : 0 ≤ t := by
    by_contra h
    have := mul_neg_of_neg_of_pos (not_le.mp h) q0pos
    linarith
  have st : s * t ≤ C₀ := by nlinarith only [ht, q0, t0]
  have κA : κ ≤ 1001 / 1000 * (κ / A₀) := by
    rw [mul_div_assoc', le_div_iff₀ ha]; nlinarith only [κ0, H.atop]
  have tq : A₀ * t ≤ q₀ / 2 := by
    have h1 : 4 * A₀ * C₀ ≤ q₀ ^ 2 := by
      have h2 : B₀ ^ 2 ≤ q₀ ^ 2 := by
        rw [hq₀]; nlinarith only [hs, H.toward]
      have := H.disc
      have := sq_nonneg s
      linarith
    have h3 : A₀ * t * q₀ ≤ q₀ / 2 * q₀ := by
      have : A₀ * t * q₀ = A₀ * (t * q₀) := by ring
      rw [this, ht]; nlinarith only [h1]
    exact le_of_mul_le_mul_right h3 q0pos
  have hb : (10 : ℝ) ^ 100 * 100 ≤ 10 ^ 200 := by norm_num
  rw [← hκ] at hC
  have sC : |2 * C| ≤ 2001 / 1000 * N ^ 2 := by
    have h1 := abs_le.mp hC
    have : κ ≤ 1 / 10 ^ 4 * N ^ 2 := by rw [hκ]; exact mul_le_mul_of_nonneg_right H.small (by positivity)
    have n2 : 0 < N ^ 2 := by linarith
    rw [abs_le]; constructor <;> norm_num at this ⊢ <;> linarith
  obtain ⟨c, ec, dc⟩ := rnd_big (R := R) sC (by linarith)
  have dc' : |c - 2 * C₀| ≤ 741 / 100 * κ := by
    have h1 := abs_add_le (c - 2 * C) (2 * (C - C₀))
    rw [abs_mul 2, abs_two, show c - 2 * C + 2 * (C - C₀) = c - 2 * C₀ by ring] at h1
    have : R.u * (2001 / 1000 * N ^ 2 + 1 / 1000) ≤ R.u * (2002 / 1000 * N ^ 2) := mul_le_mul_of_nonneg_left (by linarith) hu.le
    linarith
  have hdiv : s * |c / q - t| ≤ 2885 / 100 * (κ / A₀) := by
    have e : c / q - t = ((c - 2 * C₀) - t * (q - q₀)) / q := by
      rw [← ht]; field_simp; ring
    rw [e, abs_div, abs_of_pos qpos, mul_div_assoc', div_le_iff₀ qpos]
    have h1 := abs_sub (c - 2 * C₀) (t * (q - q₀))
    rw [abs_mul, abs_of_nonneg t0] at h1
    have h2 := mul_le_mul_of_nonneg_left hq t0
    have h3 : s * (741 / 100 * κ) ≤ 3717 / 1000 * κ * q := by
      have h9 : κ * (1994 / 1000 * s) ≤ κ * q := mul_le_mul_of_nonneg_left (by linarith) κ0.le
      have h10 : 0 < κ * q := by positivity
      nlinarith only [h9, h10]
    have h4 : s * (t * (50 * (κ / s))) = 50 * (κ / A₀) * (A₀ * t) := by field_simp
    have h5 : 50 * (κ / A₀) * (A₀ * t) ≤ 50 * (κ / A₀) * (q * (1000 / 1994)) :=
      mul_le_mul_of_nonneg_left (by linarith) (by positivity)
    have h6 : 3717 / 1000 * κ * q ≤ 3717 / 1000 * (1001 / 1000 * (κ / A₀)) * q := by
      apply mul_le_mul_of_nonneg_right _ qpos.le; linarith
    have h7 : s * |c - 2 * C₀ - t * (q - q₀)| ≤ s * (741 / 100 * κ + t * (50 * (κ / s))) :=
      mul_le_mul_of_nonneg_left (by linarith) hs.le
    have h8 : 0 < κ / A₀ * q := by positivity
    nlinarith only [h3, h4, h5, h6, h7, h8]
  -- the quotient is not too large
  have sbig : 1 / 10 ^ 50 ≤ s := by
    have h1 : 10 ^ 4 * κ ≤ A₀ * s ^ 2 := by rw [hκ]; exact H.steep
    have h2 : A₀ * s ^ 2 ≤ 1001 / 1000 * s ^ 2 := mul_le_mul_of_nonneg_right H.atop (by positivity)
    have h3 := hR.fine
    refine le_of_sq_le_sq ?_ hs.le
    have : ((1 : ℝ) / 10 ^ 50) ^ 2 = 1 / 10 ^ 100 := by norm_num
    rw [this]; linarith
  have n2 : 0 < N ^ 2 := by linarith
  have sdiv : s * |c / q| ≤ 102 / 100 * N ^ 2 := by
    have h1 := abs_add_le (c / q - t) t
    rw [sub_add_cancel, abs_of_nonneg t0] at h1
    have h2 := mul_le_mul_of_nonneg_left h1 hs.le
    rw [mul_add] at h2
    have h3 : κ / A₀ ≤ 1 / 10 ^ 4 * s ^ 2 := by
      rw [div_le_iff₀ ha]
      have := H.steep
      rw [← hκ] at this; norm_num at this ⊢; linarith
    have h4 : s ^ 2 ≤ 401 / 100 := by have := H.slow; have := H.atop; linarith
    norm_num at h3; linarith
  have hcq : |c / q| ≤ 102 / 100 * N ^ 2 / s := by
    rw [le_div_iff₀ hs, mul_comm]; exact sdiv
  have hcap : 102 / 100 * N ^ 2 / s ≤ 10 ^ 250 := by
    rw [div_le_iff₀ hs]
    have : (10 : ℝ) ^ 250 * (1 / 10 ^ 50) ≤ 10 ^ 250 * s := mul_le_mul_of_nonneg_left sbig (by positivity)
    have e : (10 : ℝ) ^ 250 * (1 / 10 ^ 50) = 10 ^ 200 := by norm_num
    rw [e] at this; linarith
  obtain ⟨y, ey, dy⟩ := rnd_near (R := R) hcq hcap
  refine ⟨y, by rw [hR.lit2, fl_mul, ec, fl_div _ _ qpos.ne', ey], ?_, t0, st.trans c1⟩
  have h1 := abs_add_le (y - c / q) (c / q - t)
  rw [sub_add_sub_cancel] at h1
  have h2 : s * |y - c / q| ≤ 103 / 100 * (R.u * N ^ 2) := by
    have h3 := mul_le_mul_of_nonneg_left dy hs.le
    have h4 : s * (R.u * (102 / 100 * N ^ 2 / s + 1 / 10 ^ 250)) = R.u * (102 / 100 * N ^ 2 + s * (1 / 10 ^ 250)) := by field_simp
    have h5 : s * (1 / 10 ^ 250) ≤ 2002 / 1000 * (1 / 1000) := mul_le_mul s2 (by norm_num) (by positivity) (by norm_num)
    have h6 : R.u * (102 / 100 * N ^ 2 + s * (1 / 10 ^ 250)) ≤ R.u * (103 / 100 * N ^ 2) :=
      mul_le_mul_of_nonneg_left (by linarith) hu.le
    linarith
  have h3 := mul_le_mul_of_nonneg_left h1 hs.le
  rw [mul_add] at h3
  linarith

/-- The farther solution. -/
theorem Approach.far (H : Approach R A₀ B₀ C₀ s ε N) (hR : Proper R) {κ q t : ℝ} (hκ : κ = ε * N ^ 2)
    (hA : |A - A₀| ≤ 33 / 10 * ε) (hq : |q - (s - B₀)| ≤ 50 * (κ / s)) (ht : t * (2 * A₀) = s - B₀) :
    ∃ y : ℝ, (Fl.fin q : Fl R) / (2.0 * Fl.fin A) = Fl.fin y ∧ A₀ * |y - t| ≤ s / 200 ∧ 0 ≤ t ∧ A₀ * t ≤ 21 / 10 * N := by
  obtain ⟨κ0, s1, s2, u2, e1, k1, k2, u1, NN, big, eκ⟩ := H.facts hκ
  have hs := H.spos
  have hN := H.size
  have hu := R.u_pos
  have ha := H.apos
  have hus := (five_u (R := R)).2
  obtain ⟨q₀, hq₀⟩ : ∃ q₀, q₀ = s - B₀ := ⟨_, rfl⟩
  rw [← hq₀] at hq ht
  have q0 : 2 * s ≤ q₀ := by linarith
  have q0pos : 0 < q₀ := by linarith
  have qtop : q₀ ≤ 42 / 10 * N := by
    have := (abs_le.mp H.btop).1
    linarith
  have t0 : 0 ≤ t := by
    by_contra h
    have := mul_neg_of_neg_of_pos (not_le.mp h) (by linarith : 0 < 2 * A₀)
    linarith
  have At : A₀ * t ≤ 21 / 10 * N := by linarith
  have st : κ ≤ 1 / 10 ^ 4 * (A₀ * s ^ 2) := by
    have := H.steep
    rw [← hκ] at this; norm_num at this ⊢; linarith
  have εA : ε ≤ 401 / 10 ^ 6 * A₀ := by
    have h1 : A₀ * s ^ 2 ≤ A₀ * (401 / 100) := mul_le_mul_of_nonneg_left (by have := H.slow; have := H.atop; linarith) ha.le
    norm_num at st ⊢; linarith
  have sA : |2 * A| ≤ 3 := by
    have h1 := abs_le.mp hA
    have := H.small
    have := H.atop
    rw [abs_le]; constructor <;> norm_num at this ⊢ <;> linarith
  have e0 : 0 < ε := by linarith [H.unit]
  have hb : 3 ≤ (10 : ℝ) ^ 250 := by norm_num
  -- `2.0 * A`
  obtain ⟨a, ea, da⟩ := rnd_near (R := R) (x := 2 * A) (e := |2 * A|) le_rfl (sA.trans hb)
  have da' : |a - 2 * A₀| ≤ 73 / 10 * ε := by
    have h1 := abs_add_le (a - 2 * A) (2 * (A - A₀))
    rw [abs_mul 2, abs_two, show a - 2 * A + 2 * (A - A₀) = a - 2 * A₀ by ring] at h1
    have h3 : |2 * A| ≤ 2 * (1001 / 1000) + 2 * (33 / 10 * ε) := by
      have := abs_add_le (2 * (A - A₀)) (2 * A₀)
      rw [show 2 * (A - A₀) + 2 * A₀ = 2 * A by ring, abs_mul 2 (A - A₀), abs_two, abs_of_pos (by linarith : 0 < 2 * A₀)] at this
      linarith [H.atop]
    have h2 : R.u * (|2 * A| + 1 / 10 ^ 250) ≤ R.u * (21 / 10) := by
      apply mul_le_mul_of_nonneg_left _ hu.le
      have : (1 : ℝ) / 10 ^ 250 ≤ 1 / 1000 := by norm_num
      have := H.small
      norm_num at this; linarith
    linarith [H.unit]
  have alo : 199 / 100 * A₀ ≤ a := by
    have := (abs_le.mp da').1
    norm_num at εA; linarith
  have apos : 0 < a := by linarith
  have hdiv : A₀ * |q / a - t| ≤ 43 / 10 ^ 4 * s := by
    have e : q / a - t = ((q - q₀) - t * (a - 2 * A₀)) / a := by rw [← ht]; field_simp; ring
    rw [e, abs_div, abs_of_pos apos, mul_div_assoc', div_le_iff₀ apos]
    have h1 := abs_sub (q - q₀) (t * (a - 2 * A₀))
    rw [abs_mul, abs_of_nonneg t0] at h1
    have h2 := mul_le_mul_of_nonneg_left da' t0
    have h3 : A₀ * (t * (73 / 10 * ε)) ≤ 73 / 10 * (21 / 10 * κ) := by
      have : A₀ * (t * (73 / 10 * ε)) = 73 / 10 * (ε * (A₀ * t)) := by ring
      rw [this]
      have := mul_le_mul_of_nonneg_left At e0.le
      linarith
    have h4 : A₀ * |q - q₀ - t * (a - 2 * A₀)| ≤ A₀ * (50 * (κ / s)) + A₀ * (t * (73 / 10 * ε)) := by
      rw [← mul_add]; exact mul_le_mul_of_nonneg_left (by linarith) ha.le
    have h5 : A₀ * (50 * (κ / s)) ≤ A₀ * (50 * (s * (1001 / 10 ^ 7))) := mul_le_mul_of_nonneg_left (by linarith) ha.le
    have h6 : A₀ * s ^ 2 ≤ A₀ * s * (2002 / 1000) := by
      have : A₀ * s ^ 2 = A₀ * s * s := by ring
      rw [this]; exact mul_le_mul_of_nonneg_left s2 (by positivity)
    have h7 : 43 / 10 ^ 4 * s * (199 / 100 * A₀) ≤ 43 / 10 ^ 4 * s * a := mul_le_mul_of_nonneg_left alo (by positivity)
    have h8 : 0 < A₀ * s := by positivity
    norm_num at st h5 h7 ⊢; linarith
  have Abig : 1 / 10 ^ 100 ≤ A₀ := by
    have h3 := hR.fine
    linarith [H.unit]
  have hqa : |q / a| ≤ t + 43 / 10 ^ 4 * s / A₀ := by
    have h1 := abs_add_le (q / a - t) t
    rw [sub_add_cancel, abs_of_nonneg t0] at h1
    have : |q / a - t| ≤ 43 / 10 ^ 4 * s / A₀ := by rw [le_div_iff₀ ha, mul_comm]; exact hdiv
    linarith
  have hAq : A₀ * (t + 43 / 10 ^ 4 * s / A₀) = A₀ * t + 43 / 10 ^ 4 * s := by field_simp
  have hcap : t + 43 / 10 ^ 4 * s / A₀ ≤ 10 ^ 250 := by
    have h1 : A₀ * (t + 43 / 10 ^ 4 * s / A₀) ≤ 3 * N := by rw [hAq]; linarith
    have h2 : (t + 43 / 10 ^ 4 * s / A₀) * (1 / 10 ^ 100) ≤ 3 * N := by
      refine le_trans ?_ h1
      rw [mul_comm A₀]; exact mul_le_mul_of_nonneg_left Abig (by positivity)
    have h3 := H.range
    have h4 : 3 * (10 : ℝ) ^ 50 * 10 ^ 100 ≤ 10 ^ 250 := by norm_num
    have h5 : (t + 43 / 10 ^ 4 * s / A₀) = (t + 43 / 10 ^ 4 * s / A₀) * (1 / 10 ^ 100) * 10 ^ 100 := by
      rw [mul_assoc, one_div_mul_cancel (by positivity), mul_one]
    rw [h5]
    refine le_trans (mul_le_mul_of_nonneg_right (h2.trans (mul_le_mul_of_nonneg_left h3 (by norm_num))) (by positivity)) h4
  obtain ⟨y, ey, dy⟩ := rnd_near (R := R) hqa hcap
  refine ⟨y, by rw [hR.lit2, fl_mul, ea, fl_div _ _ apos.ne', ey], ?_, t0, At⟩
  have h1 := abs_add_le (y - q / a) (q / a - t)
  rw [sub_add_sub_cancel] at h1
  have h3 := mul_le_mul_of_nonneg_left h1 ha.le
  rw [mul_add] at h3
  have h4 : A₀ * |y - q / a| ≤ R.u * (A₀ * t + 43 / 10 ^ 4 * s + A₀ * (1 / 10 ^ 250)) := by
    have := mul_le_mul_of_nonneg_left dy ha.le
    rw [show A₀ * (R.u * (t + 43 / 10 ^ 4 * s / A₀ + 1 / 10 ^ 250)) = R.u * (A₀ * (t + 43 / 10 ^ 4 * s / A₀) + A₀ * (1 / 10 ^ 250)) by ring, hAq] at this
    exact this
  have h5 : A₀ * (1 / 10 ^ 250) ≤ 1001 / 1000 * (1 / 1000) := mul_le_mul H.atop (by norm_num) (by positivity) (by norm_num)
  have h6 : R.u * (A₀ * t + 43 / 10 ^ 4 * s + A₀ * (1 / 10 ^ 250)) ≤ R.u * (3 * N ^ 2) := mul_le_mul_of_nonneg_left (by linarith) hu.le
  have h7 : A₀ * s ^ 2 ≤ 1001 / 1000 * (2002 / 1000) * s := by
    have h8 : A₀ * s ^ 2 = A₀ * s * s := by ring
    have h9 := mul_le_mul H.atop s2 hs.le (by norm_num)
    rw [h8]; exact mul_le_mul_of_nonneg_right h9 hs.le
  norm_num at st ⊢; linarith

/-- **The roots computed**, when both are ahead. -/
theorem Approach.roots (H : Approach R A₀ B₀ C₀ s ε N) (hR : Proper R) (hA : |A - A₀| ≤ 33 / 10 * ε) (hB : |B - B₀| ≤ 15 / 2 * (ε * N))
    (hC : |C - C₀| ≤ 7 / 2 * (ε * N ^ 2)) {t₀ t₁ : ℝ} (ht₀ : t₀ * (s - B₀) = 2 * C₀) (ht₁ : t₁ * (2 * A₀) = s - B₀) :
    ∃ y₀ y₁ : ℝ, cylinderRoots (Fl.fin A : Fl R) (Fl.fin B) (Fl.fin C) = (some (Fl.fin y₀), some (Fl.fin y₁)) ∧
      s * |y₀ - t₀| ≤ 30 * (ε * N ^ 2 / A₀) ∧ A₀ * |y₁ - t₁| ≤ s / 200 ∧ 0 ≤ t₀ ∧ A₀ * (t₁ - t₀) = s ∧ s * t₀ ≤ N ^ 2 ∧
      A₀ * t₁ ≤ 21 / 10 * N := by
  obtain ⟨D, eD, dD⟩ := discriminant_near (R := R) hR H.size H.range H.unit H.small hA hB hC (by rw [abs_of_pos H.apos]; exact H.atop)
    H.btop (by rw [abs_of_nonneg H.outside]; exact H.ctop)
  rw [← H.disc] at dD
  obtain ⟨D0, B0, r, q, er, eq, dq⟩ := H.sum rfl hB dD
  obtain ⟨y₀, ey₀, d0, t0, st⟩ := H.near hR rfl hC dq ht₀
  obtain ⟨y₁, ey₁, d1, t1, At⟩ := H.far hR rfl hA dq ht₁
  have hs := H.spos
  have q0 : 0 < s - B₀ := by linarith [H.toward]
  refine ⟨y₀, y₁, ?_, d0, d1, t0, ?_, st, At⟩
  · unfold cylinderRoots
    simp only [eD, er]
    rw [if_pos (by rw [fl_lit0]; exact (fl_lt _ _).mpr D0), if_neg (by rw [fl_lit0]; exact not_le.mpr B0), eq, ey₀, ey₁]
  · have h1 : A₀ * (t₁ - t₀) * (2 * (s - B₀)) = s * (2 * (s - B₀)) := by
      have e1 : A₀ * (t₁ - t₀) * (2 * (s - B₀)) = (t₁ * (2 * A₀)) * (s - B₀) - 2 * A₀ * (t₀ * (s - B₀)) := by ring
      rw [e1, ht₀, ht₁]
      have := H.disc
      linarith [this, (by ring : (s - B₀) * (s - B₀) - 2 * A₀ * (2 * C₀) = s ^ 2 - 2 * s * B₀ + (B₀ ^ 2 - 4 * A₀ * C₀))]
    exact mul_right_cancel₀ (by linarith) h1

end Optics
