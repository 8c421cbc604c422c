import Verif.Lemmas.Idempotent64
import Verif.Lemmas.RoundedSphere
/-!
The quadratic equation of `InfiniteCylinder.test_intersect` with rounded arithmetic. Used by `Lemmas/RoundedCylinder.lean`.
-/

namespace Optics

variable {R : Rounding}

theorem Proper.lit1 (h : Proper R) : (1.0 : Fl R) = Fl.fin 1 := fl_lit1 h.one

theorem Proper.lit2 (h : Proper R) : (2.0 : Fl R) = Fl.fin 2 := by
  rw [fl_lit, show (OfScientific.ofScientific 20 true 1 : ℝ) = 2 by norm_num, h.two]; rfl

theorem Proper.lit4 (h : Proper R) : (4.0 : Fl R) = Fl.fin 4 := by
  rw [fl_lit, show (OfScientific.ofScientific 40 true 1 : ℝ) = 4 by norm_num, h.four]; rfl

/-- A sum of two products. -/
theorem dot2_near {a b c d S : ℝ} (h : |a * b| + |c * d| ≤ S) (hS : 1 / 10 ≤ S) (hS' : S ≤ 10 ^ 200) :
    ∃ y, (Fl.fin a : Fl R) * Fl.fin b + Fl.fin c * Fl.fin d = Fl.fin y ∧ |y - (a * b + c * d)| ≤ 201 / 100 * R.u * S := by
  have hu := R.u_pos
  have hus := (five_u (R := R)).2
  have ht : (1 : ℝ) / 10 ^ 250 ≤ 1 / 10000 := by norm_num
  have hb : (10 : ℝ) ^ 200 ≤ 10 ^ 250 := pow_le_pow_right₀ (by norm_num) (by norm_num)
  obtain ⟨τ, hτ⟩ : ∃ τ : ℝ, τ = 1 / 10 ^ 250 := ⟨_, rfl⟩
  have a0 := abs_nonneg (a * b)
  have c0 := abs_nonneg (c * d)
  obtain ⟨p, hp, ep⟩ := rnd_near (R := R) (x := a * b) le_rfl (by linarith)
  obtain ⟨q, hq, eq⟩ := rnd_near (R := R) (x := c * d) le_rfl (by linarith)
  rw [← hτ] at ht ep eq
  have e1 : |(p + q) - (a * b + c * d)| ≤ R.u * (S + 2 * τ) := by
    have h1 := abs_add_le (p - a * b) (q - c * d)
    rw [show p - a * b + (q - c * d) = (p + q) - (a * b + c * d) by ring] at h1
    have : R.u * (|a * b| + τ) + R.u * (|c * d| + τ) ≤ R.u * (S + 2 * τ) := by
      rw [← mul_add]; apply mul_le_mul_of_nonneg_left _ hu.le; linarith
    linarith
  have hw : R.u * (S + 2 * τ) ≤ 1 / 1000000 * (2 * S) := mul_le_mul hus (by linarith) (by rw [hτ]; positivity) (by norm_num)
  have e2 : |p + q| ≤ S + 1 / 1000000 * (2 * S) := by
    have h1 := abs_add_le ((p + q) - (a * b + c * d)) (a * b + c * d)
    rw [sub_add_cancel] at h1
    have := abs_add_le (a * b) (c * d)
    linarith
  have hb2 : 2 * (10 : ℝ) ^ 200 ≤ 10 ^ 250 := by norm_num
  obtain ⟨y, hy, ey⟩ := rnd_near (R := R) (x := p + q) e2 (by linarith)
  refine ⟨y, by rw [fl_mul, fl_mul, hp, hq, fl_add, hy], ?_⟩
  have h1 := abs_add_le (y - (p + q)) ((p + q) - (a * b + c * d))
  rw [sub_add_sub_cancel] at h1
  rw [← hτ] at ey
  have : R.u * (S + 1 / 1000000 * (2 * S) + τ) + R.u * (S + 2 * τ) ≤ 201 / 100 * R.u * S := by
    rw [← mul_add, mul_comm (201 / 100) R.u, mul_assoc]
    apply mul_le_mul_of_nonneg_left _ hu.le; linarith
  linarith

/-- Two numbers whose squares add up to at most `N²`. -/
theorem abs_sum_le {x y N : ℝ} (h : x ^ 2 + y ^ 2 ≤ N ^ 2) (hN : 0 ≤ N) : |x| + |y| ≤ 14143 / 10000 * N ∧ |x| ≤ N ∧ |y| ≤ N := by
  refine ⟨le_of_sq_le_sq ?_ (by positivity), abs_le_of_sq_le_sq (by nlinarith [sq_nonneg y]) hN, abs_le_of_sq_le_sq (by nlinarith [sq_nonneg x]) hN⟩
  have := sq_abs x
  have := sq_abs y
  nlinarith [sq_nonneg (|x| - |y|), sq_nonneg N]

/-- How an inner product of plane vectors depends on the components. -/
theorem inner2_near {x y p q x' y' p' q' a b N Q : ℝ} (hx : |x' - x| ≤ a) (hy : |y' - y| ≤ a) (hp : |p' - p| ≤ b) (hq : |q' - q| ≤ b)
    (hN : |x| + |y| ≤ N) (hQ : |p| + |q| ≤ Q) : |(x' * p' + y' * q') - (x * p + y * q)| ≤ a * Q + b * N + 2 * (a * b) := by
  have a0 : 0 ≤ a := (abs_nonneg _).trans hx
  have b0 : 0 ≤ b := (abs_nonneg _).trans hp
  have e : (x' * p' + y' * q') - (x * p + y * q) = ((x' - x) * p + (y' - y) * q) + (x * (p' - p) + y * (q' - q)) +
      ((x' - x) * (p' - p) + (y' - y) * (q' - q)) := by ring
  rw [e]
  have h1 : |(x' - x) * p + (y' - y) * q| ≤ a * Q := by
    refine (abs_add_le _ _).trans ?_
    rw [abs_mul, abs_mul]
    have := mul_le_mul_of_nonneg_right hx (abs_nonneg p)
    have := mul_le_mul_of_nonneg_right hy (abs_nonneg q)
    have := mul_le_mul_of_nonneg_left hQ a0
    linarith
  have h2 : |x * (p' - p) + y * (q' - q)| ≤ b * N := by
    refine (abs_add_le _ _).trans ?_
    rw [abs_mul, abs_mul]
    have := mul_le_mul_of_nonneg_left hp (abs_nonneg x)
    have := mul_le_mul_of_nonneg_left hq (abs_nonneg y)
    have := mul_le_mul_of_nonneg_left hN b0
    linarith
  have h3 : |(x' - x) * (p' - p) + (y' - y) * (q' - q)| ≤ 2 * (a * b) := by
    refine (abs_add_le _ _).trans ?_
    rw [abs_mul, abs_mul]
    have := mul_le_mul hx hp (abs_nonneg _) a0
    have := mul_le_mul hy hq (abs_nonneg _) a0
    linarith
  have := abs_add_three ((x' - x) * p + (y' - y) * q) (x * (p' - p) + y * (q' - q)) ((x' - x) * (p' - p) + (y' - y) * (q' - q))
  linarith

/-- The object-space ray of `test_intersect`: position `(xE, yE)` and direction `(xD, yD)`, and the computed components `x y p q`. -/
structure PlaneRay (R : Rounding) (xE yE xD yD x y p q ε N : ℝ) : Prop where
  dir : xD ^ 2 + yD ^ 2 ≤ (1 + 1 / 10000) ^ 2
  pos : xE ^ 2 + yE ^ 2 ≤ N ^ 2
  size : 1 ≤ N
  range : N ≤ 10 ^ 50
  unit : 5 * R.u ≤ ε
  small : ε ≤ 1 / 10 ^ 4
  ex : |x - xE| ≤ ε * N
  ey : |y - yE| ≤ ε * N
  ep : |p - xD| ≤ ε
  eq : |q - yD| ≤ ε

variable {xE yE xD yD x y p q ε N : ℝ}

/-- The coefficients of the quadratic equation. -/
theorem PlaneRay.exact (H : PlaneRay R xE yE xD yD x y p q ε N) :
    |(p * p + q * q) - (xD ^ 2 + yD ^ 2)| ≤ 284 / 100 * ε ∧
    |(x * p + y * q) - (xE * xD + yE * yD)| ≤ 284 / 100 * (ε * N) ∧
    |(x * x + y * y) - (xE ^ 2 + yE ^ 2)| ≤ 284 / 100 * (ε * N ^ 2) := by
  obtain ⟨hD, hE, hN, hN', hε, hs, hx, hy, hp, hq⟩ := H
  have hu := R.u_pos
  have ε0 : 0 < ε := by linarith
  have e1 : 0 < ε * N := by positivity
  have e2 : 0 < ε * N ^ 2 := by positivity
  obtain ⟨sD, -, -⟩ := abs_sum_le hD (by norm_num)
  obtain ⟨sE, -, -⟩ := abs_sum_le hE (by linarith)
  have hεε : ε * ε ≤ 1 / 10 ^ 4 * ε := mul_le_mul_of_nonneg_right hs ε0.le
  refine ⟨?_, ?_, ?_⟩
  · have := inner2_near hp hq hp hq sD sD
    rw [show xD ^ 2 + yD ^ 2 = xD * xD + yD * yD by ring]
    nlinarith
  · have := inner2_near hx hy hp hq sE sD
    have h2 : ε * N * ε ≤ 1 / 10 ^ 4 * (ε * N) := by nlinarith
    nlinarith
  · have := inner2_near hx hy hx hy sE sE
    rw [show xE ^ 2 + yE ^ 2 = xE * xE + yE * yE by ring]
    have h2 : ε * N * (ε * N) ≤ 1 / 10 ^ 4 * (ε * N ^ 2) := by nlinarith
    nlinarith

theorem PlaneRay.coefA (H : PlaneRay R xE yE xD yD x y p q ε N) :
    ∃ A : ℝ, (Fl.fin p : Fl R) * Fl.fin p + Fl.fin q * Fl.fin q = Fl.fin A ∧ |A - (xD ^ 2 + yD ^ 2)| ≤ 33 / 10 * ε := by
  obtain ⟨hA, -, -⟩ := H.exact
  have hD := H.dir
  have hs := H.small
  have hε := H.unit
  have sD : |p * p| + |q * q| ≤ 1001 / 1000 := by
    rw [abs_mul_self, abs_mul_self]
    have := (abs_le.mp hA).2
    norm_num at hD hs
    linarith
  obtain ⟨A, eA, dA⟩ := dot2_near (R := R) sD (by norm_num) (by norm_num)
  refine ⟨A, eA, ?_⟩
  have := abs_add_le (A - (p * p + q * q)) ((p * p + q * q) - (xD ^ 2 + yD ^ 2))
  rw [sub_add_sub_cancel] at this
  have := R.u_pos
  linarith

theorem PlaneRay.sizes (H : PlaneRay R xE yE xD yD x y p q ε N) :
    x * x + y * y ≤ 1001 / 1000 * N ^ 2 ∧ |x| ≤ 1001 / 1000 * N ∧ |y| ≤ 1001 / 1000 * N ∧ |p| + |q| ≤ 1416 / 1000 ∧
      N ^ 2 ≤ 10 ^ 100 ∧ N ≤ N ^ 2 := by
  obtain ⟨hA, -, hC⟩ := H.exact
  obtain ⟨hD, hE, hN, hN', hε, hs, hx, hy, hp, hq⟩ := H
  have NN : 0 < N ^ 2 := by positivity
  have sD : p * p + q * q ≤ 1001 / 1000 := by
    have := (abs_le.mp hA).2
    norm_num at hD hs
    linarith
  have sE : x * x + y * y ≤ 1001 / 1000 * N ^ 2 := by
    have := (abs_le.mp hC).2
    have : ε * N ^ 2 ≤ 1 / 10 ^ 4 * N ^ 2 := mul_le_mul_of_nonneg_right hs (by positivity)
    linarith
  have x0 := mul_self_nonneg x
  have y0 := mul_self_nonneg y
  refine ⟨sE, ?_, ?_, ?_, ?_, ?_⟩
  · refine abs_le_of_sq_le_sq ?_ (by positivity)
    rw [mul_pow, sq x]; linarith
  · refine abs_le_of_sq_le_sq ?_ (by positivity)
    rw [mul_pow, sq y]; linarith
  · refine le_of_sq_le_sq ?_ (by norm_num)
    nlinarith [sq_abs p, sq_abs q, sq_nonneg (|p| - |q|)]
  · calc N ^ 2 ≤ (10 ^ 50) ^ 2 := pow_le_pow_left₀ (by linarith) hN' 2
      _ = 10 ^ 100 := by norm_num
  · nlinarith only [hN]

theorem PlaneRay.coefC (H : PlaneRay R xE yE xD yD x y p q ε N) (hR : Proper R) :
    ∃ C : ℝ, (Fl.fin x : Fl R) * Fl.fin x + Fl.fin y * Fl.fin y - 1.0 = Fl.fin C ∧
      |C - (xE ^ 2 + yE ^ 2 - 1)| ≤ 7 / 2 * (ε * N ^ 2) := by
  obtain ⟨-, -, hC⟩ := H.exact
  obtain ⟨sE, -, -, -, big, NN⟩ := H.sizes
  have hN := H.size
  have hu := R.u_pos
  have hus := (five_u (R := R)).2
  have hb : (10 : ℝ) ^ 100 * 100 ≤ 10 ^ 200 := by norm_num
  have n2 : 0 < N ^ 2 := by linarith
  have u2 : 5 * R.u * N ^ 2 ≤ ε * N ^ 2 := mul_le_mul_of_nonneg_right H.unit n2.le
  obtain ⟨K, eK, dK⟩ := dot2_near (R := R) (a := x) (b := x) (c := y) (d := y) (S := 1001 / 1000 * N ^ 2) (by rw [abs_mul_self, abs_mul_self]; exact sE)
    (by linarith) (by linarith)
  have h2 : R.u * N ^ 2 ≤ 1 / 1000000 * N ^ 2 := mul_le_mul_of_nonneg_right hus n2.le
  have e3 : 201 / 100 * R.u * (1001 / 1000 * N ^ 2) = 201201 / 100000 * (R.u * N ^ 2) := by ring
  rw [e3] at dK
  have hK : |K - 1| ≤ 101 / 100 * N ^ 2 := by
    have h1 := abs_le.mp dK
    have h4 := mul_self_nonneg x
    have h5 := mul_self_nonneg y
    rw [abs_le]; constructor <;> linarith
  obtain ⟨C, eC, dC⟩ := rnd_big (R := R) hK (by linarith)
  refine ⟨C, by rw [eK, hR.lit1, fl_sub, eC], ?_⟩
  have h1 := abs_add_three (C - (K - 1)) (K - (x * x + y * y)) ((x * x + y * y) - (xE ^ 2 + yE ^ 2))
  rw [show C - (K - 1) + (K - (x * x + y * y)) + ((x * x + y * y) - (xE ^ 2 + yE ^ 2)) = C - (xE ^ 2 + yE ^ 2 - 1) by ring] at h1
  have e4 : R.u * (101 / 100 * N ^ 2 + 1 / 1000) ≤ R.u * (1011 / 1000 * N ^ 2) := mul_le_mul_of_nonneg_left (by linarith) hu.le
  linarith

theorem PlaneRay.coefB (H : PlaneRay R xE yE xD yD x y p q ε N) (hR : Proper R) :
    ∃ B : ℝ, (2.0 : Fl R) * Fl.fin x * Fl.fin p + 2.0 * Fl.fin y * Fl.fin q = Fl.fin B ∧
      |B - 2 * (xE * xD + yE * yD)| ≤ 15 / 2 * (ε * N) := by
  obtain ⟨-, hB, -⟩ := H.exact
  obtain ⟨-, sx, sy, sp, big, NN⟩ := H.sizes
  have hN := H.size
  have hu := R.u_pos
  have hus := (five_u (R := R)).2
  have hb : (10 : ℝ) ^ 100 * 100 ≤ 10 ^ 200 := by norm_num
  have u1 : 5 * R.u * N ≤ ε * N := mul_le_mul_of_nonneg_right H.unit (by linarith)
  have h0 : R.u * N ≤ 1 / 1000000 * N := mul_le_mul_of_nonneg_right hus (by linarith)
  have huN : 0 < R.u * N := by positivity
  have hb' : 2 * (1001 / 1000 * N) ≤ 10 ^ 200 := by linarith
  obtain ⟨x2, hx2, dx2⟩ := rnd_big (R := R) (x := 2 * x) (e := 2 * (1001 / 1000 * N)) (by rw [abs_mul, abs_two]; linarith) hb'
  obtain ⟨y2, hy2, dy2⟩ := rnd_big (R := R) (x := 2 * y) (e := 2 * (1001 / 1000 * N)) (by rw [abs_mul, abs_two]; linarith) hb'
  have dx : R.u * (2 * (1001 / 1000 * N) + 1 / 1000) ≤ 2004 / 1000 * (R.u * N) := by
    have : R.u * 1 ≤ R.u * N := mul_le_mul_of_nonneg_left hN hu.le
    linarith
  have dxy : |(x2 * p + y2 * q) - 2 * (x * p + y * q)| ≤ 284 / 100 * (R.u * N) := by
    have e : (x2 * p + y2 * q) - 2 * (x * p + y * q) = (x2 - 2 * x) * p + (y2 - 2 * y) * q := by ring
    rw [e]
    refine (abs_add_le _ _).trans ?_
    rw [abs_mul, abs_mul]
    have h1 := mul_le_mul_of_nonneg_right (dx2.trans dx) (abs_nonneg p)
    have h2 := mul_le_mul_of_nonneg_right (dy2.trans dx) (abs_nonneg q)
    have h3 := mul_le_mul_of_nonneg_left sp (by positivity : 0 ≤ 2004 / 1000 * (R.u * N))
    linarith
  have sB : |x2 * p| + |y2 * q| ≤ 29 / 10 * N := by
    have h1 : |x2| ≤ 201 / 100 * N := by
      have := abs_add_le (x2 - 2 * x) (2 * x)
      rw [sub_add_cancel, abs_mul 2 x, abs_two] at this; linarith
    have h2 : |y2| ≤ 201 / 100 * N := by
      have := abs_add_le (y2 - 2 * y) (2 * y)
      rw [sub_add_cancel, abs_mul 2 y, abs_two] at this; linarith
    rw [abs_mul, abs_mul]
    have h3 := mul_le_mul_of_nonneg_right h1 (abs_nonneg p)
    have h4 := mul_le_mul_of_nonneg_right h2 (abs_nonneg q)
    have h5 := mul_le_mul_of_nonneg_left sp (by positivity : 0 ≤ 201 / 100 * N)
    linarith
  obtain ⟨B, eB, dB⟩ := dot2_near (R := R) sB (by linarith) (by linarith)
  refine ⟨B, by rw [hR.lit2, fl_mul 2 x, fl_mul 2 y, hx2, hy2, eB], ?_⟩
  have h1 := abs_add_three (B - (x2 * p + y2 * q)) ((x2 * p + y2 * q) - 2 * (x * p + y * q)) (2 * ((x * p + y * q) - (xE * xD + yE * yD)))
  rw [abs_mul 2, abs_two] at h1
  rw [show B - (x2 * p + y2 * q) + ((x2 * p + y2 * q) - 2 * (x * p + y * q)) + 2 * ((x * p + y * q) - (xE * xD + yE * yD)) =
    B - 2 * (xE * xD + yE * yD) by ring] at h1
  have : 201 / 100 * R.u * (29 / 10 * N) = 5829 / 1000 * (R.u * N) := by ring
  linarith

/-- The discriminant. -/
theorem discriminant_near {A B C A₀ B₀ C₀ : ℝ} (hR : Proper R) (hN : 1 ≤ N) (hN' : N ≤ 10 ^ 50) (hε : 5 * R.u ≤ ε) (hs : ε ≤ 1 / 10 ^ 4)
    (hA : |A - A₀| ≤ 33 / 10 * ε) (hB : |B - B₀| ≤ 15 / 2 * (ε * N)) (hC : |C - C₀| ≤ 7 / 2 * (ε * N ^ 2))
    (hA0 : |A₀| ≤ 1001 / 1000) (hB0 : |B₀| ≤ 2001 / 1000 * N) (hC0 : |C₀| ≤ N ^ 2) :
    ∃ D, (Fl.fin B : Fl R) * Fl.fin B - 4.0 * Fl.fin A * Fl.fin C = Fl.fin D ∧ |D - (B₀ ^ 2 - 4 * A₀ * C₀)| ≤ 62 * (ε * N ^ 2) := by
  have hu := R.u_pos
  have hus := (five_u (R := R)).2
  have ε0 : 0 < ε := by linarith
  have NN : N ≤ N ^ 2 := by nlinarith only [hN]
  have n1 : 0 < N := by linarith
  have n2 : 0 < N ^ 2 := by linarith
  have big : N ^ 2 ≤ 10 ^ 100 := by
    calc N ^ 2 ≤ (10 ^ 50) ^ 2 := pow_le_pow_left₀ (by linarith) hN' 2
      _ = 10 ^ 100 := by norm_num
  have hb : (10 : ℝ) ^ 100 * 100 ≤ 10 ^ 200 := by norm_num
  have u2 : 5 * R.u * N ^ 2 ≤ ε * N ^ 2 := mul_le_mul_of_nonneg_right hε n2.le
  have s1 : ε * N ≤ 1 / 10 ^ 4 * N := mul_le_mul_of_nonneg_right hs n1.le
  have s2 : ε * N ^ 2 ≤ 1 / 10 ^ 4 * N ^ 2 := mul_le_mul_of_nonneg_right hs n2.le
  have uN : R.u * N ^ 2 ≤ 1 / 1000000 * N ^ 2 := mul_le_mul_of_nonneg_right hus n2.le
  obtain ⟨κ, hκ⟩ : ∃ κ, κ = ε * N ^ 2 := ⟨_, rfl⟩
  have κ0 : 0 < κ := by rw [hκ]; positivity
  obtain ⟨v, hv⟩ : ∃ v, v = R.u * N ^ 2 := ⟨_, rfl⟩
  have v0 : 0 < v := by rw [hv]; positivity
  have huv : R.u ≤ v := by rw [hv]; nlinarith only [hN, NN, hu]
  have sA : |A| ≤ 1002 / 1000 := by
    have := abs_add_le (A - A₀) A₀
    rw [sub_add_cancel] at this; norm_num at hs; linarith
  have sB : |B| ≤ 2002 / 1000 * N := by
    have := abs_add_le (B - B₀) B₀
    rw [sub_add_cancel] at this; linarith
  have sC : |C| ≤ 1001 / 1000 * N ^ 2 := by
    have := abs_add_le (C - C₀) C₀
    rw [sub_add_cancel] at this; linarith
  have sBB : |B * B| ≤ 401 / 100 * N ^ 2 := by
    rw [abs_mul]
    have := mul_le_mul sB sB (abs_nonneg _) (by positivity)
    nlinarith only [this, n2]
  obtain ⟨b, eb, db⟩ := rnd_big (R := R) sBB (by linarith)
  obtain ⟨a, ea, da⟩ := rnd_big (R := R) (x := 4 * A) (e := 4008 / 1000) (by rw [abs_mul, abs_of_pos (by norm_num : (0 : ℝ) < 4)]; linarith) (by norm_num)
  have sa : |a| ≤ 401 / 100 := by
    have := abs_add_le (a - 4 * A) (4 * A)
    rw [sub_add_cancel, abs_mul 4 A, abs_of_pos (by norm_num : (0 : ℝ) < 4)] at this; linarith
  have saC : |a * C| ≤ 402 / 100 * N ^ 2 := by
    rw [abs_mul]
    have := mul_le_mul sa sC (abs_nonneg _) (by norm_num)
    linarith
  obtain ⟨c, ec, dc⟩ := rnd_big (R := R) saC (by linarith)
  have wb : R.u * (401 / 100 * N ^ 2 + 1 / 1000) ≤ 402 / 100 * v := by rw [hv]; nlinarith only [hN, NN, hu]
  have wc : R.u * (402 / 100 * N ^ 2 + 1 / 1000) ≤ 403 / 100 * v := by rw [hv]; nlinarith only [hN, NN, hu]
  have sbc : |b - c| ≤ 81 / 10 * N ^ 2 := by
    have h1 := abs_add_three (b - B * B) (B * B - a * C) (-(c - a * C))
    rw [show b - B * B + (B * B - a * C) + -(c - a * C) = b - c by ring, abs_neg] at h1
    have h2 := abs_sub (B * B) (a * C)
    linarith
  obtain ⟨D, eD, dD⟩ := rnd_big (R := R) sbc (by linarith)
  have wD : R.u * (81 / 10 * N ^ 2 + 1 / 1000) ≤ 811 / 100 * v := by rw [hv]; nlinarith only [hN, NN, hu]
  refine ⟨D, by rw [hR.lit4, fl_mul, fl_mul, eb, ea, fl_mul, ec, fl_sub, eD], ?_⟩
  have r1 : |B * B - B₀ ^ 2| ≤ 3004 / 100 * κ := by
    rw [show B * B - B₀ ^ 2 = (B - B₀) * (B + B₀) by ring, abs_mul]
    have h1 := abs_add_le B B₀
    have h2 := mul_le_mul hB (show |B + B₀| ≤ 4003 / 1000 * N by linarith) (abs_nonneg _) (by positivity)
    rw [hκ]; linarith
  have r2 : |a * C - 4 * A * C| ≤ 402 / 100 * v := by
    rw [← sub_mul, abs_mul]
    have := mul_le_mul da sC (abs_nonneg _) (by positivity)
    have e : R.u * (4008 / 1000 + 1 / 1000) * (1001 / 1000 * N ^ 2) = 4009 / 1000 * (1001 / 1000) * (R.u * N ^ 2) := by ring
    rw [e, ← hv] at this
    linarith
  have r3 : |4 * A * C - 4 * A₀ * C₀| ≤ 2725 / 100 * κ := by
    rw [show 4 * A * C - 4 * A₀ * C₀ = 4 * (A * (C - C₀)) + 4 * ((A - A₀) * C₀) by ring]
    have h1 := abs_add_le (4 * (A * (C - C₀))) (4 * ((A - A₀) * C₀))
    rw [abs_mul 4, abs_mul 4, abs_mul, abs_mul, abs_of_pos (by norm_num : (0 : ℝ) < 4)] at h1
    have h2 := mul_le_mul sA hC (abs_nonneg _) (by norm_num)
    have h3 := mul_le_mul hA hC0 (abs_nonneg _) (by positivity)
    have e : 33 / 10 * ε * N ^ 2 = 33 / 10 * (ε * N ^ 2) := by ring
    rw [e, ← hκ] at h3
    rw [← hκ] at h2
    linarith
  have hvκ : 5 * v ≤ κ := by rw [hv, hκ]; linarith
  have t1 := abs_add_three (D - (b - c)) (b - B * B) (-(c - a * C))
  have t2 := abs_add_three (B * B - B₀ ^ 2) (-(a * C - 4 * A * C)) (-(4 * A * C - 4 * A₀ * C₀))
  rw [abs_neg] at t1
  rw [abs_neg, abs_neg] at t2
  have t3 := abs_add_le (D - (b - c) + (b - B * B) + -(c - a * C)) (B * B - B₀ ^ 2 + -(a * C - 4 * A * C) + -(4 * A * C - 4 * A₀ * C₀))
  rw [show D - (b - c) + (b - B * B) + -(c - a * C) + (B * B - B₀ ^ 2 + -(a * C - 4 * A * C) + -(4 * A * C - 4 * A₀ * C₀)) =
    D - (B₀ ^ 2 - 4 * A₀ * C₀) by ring] at t3
  rw [← hκ]
  linarith

end Optics
