import Verif.Lemmas.BallLens
import Mathlib.Topology.Instances.Real.Lemmas
import Mathlib.Analysis.SpecialFunctions.Pow.Real

/-!
# C90: a ball lens focuses parallel light

script_testBallLens.py sends a bundle of parallel rays through a glass ball.
-/

namespace Optics
open V3

/-- How far behind the centre of a ball of radius `R` and index `n` a ray at the distance `N` from the axis crosses it:
`N / sin (2 (θ₁ - θ₂))` with `sin θ₁ = N / R` and `n sin θ₂ = N / R`, written without the angles. -/
noncomputable def ballFocus (n R N : ℝ) : ℝ :=
  n ^ 2 * R ^ 4 / (2 * (Real.sqrt (n ^ 2 * R ^ 2 - N ^ 2) - Real.sqrt (R ^ 2 - N ^ 2)) *
    (Real.sqrt (n ^ 2 * R ^ 2 - N ^ 2) * Real.sqrt (R ^ 2 - N ^ 2) + N ^ 2))

/-- C90: that is the distance in terms of the angles. -/
theorem C90_angles (n R N θ₁ θ₂ : ℝ) (hn : 1 < n) (hN : 0 < N) (hNR : N < R) (h1 : 0 ≤ θ₁ ∧ θ₁ ≤ Real.pi / 2)
    (h2 : 0 ≤ θ₂ ∧ θ₂ ≤ Real.pi / 2) (hs : R * Real.sin θ₁ = N) (hsnell : Real.sin θ₁ = n * Real.sin θ₂) :
    ballFocus n R N * Real.sin (2 * (θ₁ - θ₂)) = N := by
  have hR : 0 < R := hN.trans hNR
  have c1 : 0 ≤ Real.cos θ₁ := Real.cos_nonneg_of_neg_pi_div_two_le_of_le (by linarith [Real.pi_pos]) h1.2
  have c2 : 0 ≤ Real.cos θ₂ := Real.cos_nonneg_of_neg_pi_div_two_le_of_le (by linarith [Real.pi_pos]) h2.2
  have t1 := Real.sin_sq_add_cos_sq θ₁
  have t2 := Real.sin_sq_add_cos_sq θ₂
  have hC : Real.sqrt (R ^ 2 - N ^ 2) = R * Real.cos θ₁ := by
    rw [show R ^ 2 - N ^ 2 = (R * Real.cos θ₁) ^ 2 by rw [← hs]; linear_combination (R ^ 2) * t1.symm]
    exact Real.sqrt_sq (by positivity)
  have hP : Real.sqrt (n ^ 2 * R ^ 2 - N ^ 2) = n * R * Real.cos θ₂ := by
    rw [show n ^ 2 * R ^ 2 - N ^ 2 = (n * R * Real.cos θ₂) ^ 2 by
      rw [← hs, hsnell]; linear_combination (n ^ 2 * R ^ 2) * t2.symm]
    exact Real.sqrt_sq (by positivity)
  have e1 : Real.sqrt (n ^ 2 * R ^ 2 - N ^ 2) - Real.sqrt (R ^ 2 - N ^ 2) = R * (n * Real.cos θ₂ - Real.cos θ₁) := by
    rw [hC, hP]; ring
  have e2 : Real.sqrt (n ^ 2 * R ^ 2 - N ^ 2) * Real.sqrt (R ^ 2 - N ^ 2) + N ^ 2 = n * R ^ 2 * Real.cos (θ₁ - θ₂) := by
    rw [hC, hP, Real.cos_sub, ← hs]
    linear_combination R ^ 2 * Real.sin θ₁ * hsnell
  have e3 : N * (n * Real.cos θ₂ - Real.cos θ₁) = n * R * Real.sin (θ₁ - θ₂) := by
    rw [Real.sin_sub, ← hs]
    linear_combination R * Real.cos θ₁ * hsnell.symm
  have hpos : 0 < n * Real.cos θ₂ - Real.cos θ₁ := by
    have h : Real.sqrt (R ^ 2 - N ^ 2) < Real.sqrt (n ^ 2 * R ^ 2 - N ^ 2) := by
      apply Real.sqrt_lt_sqrt (by nlinarith)
      have : 1 < n ^ 2 := by nlinarith
      nlinarith [mul_pos hR hR]
    have := sub_pos.mpr h
    rw [e1] at this
    exact (mul_pos_iff_of_pos_left hR).mp this
  have hcos : Real.cos (θ₁ - θ₂) ≠ 0 := by
    intro h0
    rw [h0, mul_zero] at e2
    have : 0 ≤ Real.sqrt (n ^ 2 * R ^ 2 - N ^ 2) * Real.sqrt (R ^ 2 - N ^ 2) := by positivity
    nlinarith
  unfold ballFocus
  rw [e1, e2, Real.sin_two_mul]
  rw [div_mul_eq_mul_div, div_eq_iff (by positivity)]
  linear_combination (-2 * n * R ^ 3 * Real.cos (θ₁ - θ₂)) * e3

/-- The coordinates of the ray behind the ball, along and across the axis. -/
theorem ball_algebra {n R C P N : ℝ} (hn : 1 < n) (hR : 0 < R) (hC : 0 < C) (hP : 0 < P) (hCC : C ^ 2 = R ^ 2 - N ^ 2)
    (hPP : P ^ 2 = n ^ 2 * R ^ 2 - N ^ 2) (hlt : C < P) :
    let z := n ^ 2 * R ^ 4 / (2 * (P - C) * (P * C + N ^ 2))
    let g := (C - P) / (n * R ^ 2)
    let κ := 1 + 2 * P / n * g
    let γ := -C + 2 * P / n * (1 / n - g * C)
    κ + κ * z * (n * g + (C - P) / R ^ 2 * κ) = 0 ∧
    γ + κ * z * (n * (1 / n - g * C) + (C - P) / R ^ 2 * γ) = z := by
  intro z g κ γ
  have hu : 0 < P * C + N ^ 2 := by positivity
  have hpc : 0 < P - C := by linarith
  have hN : N ^ 2 = R ^ 2 - C ^ 2 := by linarith
  have hk : n * g + (C - P) / R ^ 2 * κ = -2 * (P - C) * (P * C + N ^ 2) / (n ^ 2 * R ^ 4) := by
    simp only [κ, g]
    field_simp
    linear_combination (-2 * (C - P)) * hPP
  have hz : z * (n * g + (C - P) / R ^ 2 * κ) = -1 := by
    rw [hk]; simp only [z]; field_simp
  constructor
  · linear_combination κ * hz
  · have hdet : κ * (n * (1 / n - g * C) + (C - P) / R ^ 2 * γ) - γ * (n * g + (C - P) / R ^ 2 * κ) = 1 := by
      simp only [κ, γ]
      field_simp
      ring
    linear_combination z * hdet + γ * hz

/-- C90: parallel light through a glass ball.  A ray whose line passes the centre at the offset `a`, smaller than the radius,
and whose chord is above the clipping floor, is refracted into the ball and out of it, and leaves along a line that crosses
the line through the centre parallel to the light at the distance `ballFocus` behind the centre.  It uses up exactly the
distance allowed. -/
theorem C90_focus (c : V3 ℝ) (n : Option (V3 ℝ)) (hn : n ≠ some ⟨0, 0, 0⟩) (R : ℝ) (hR : 0 < R) (w h f : Option ℝ)
    (type : String) (hty : type ≠ "ideal" ∧ type ≠ "ideal_collimate" ∧ type ≠ "ideal_focus") (index : ℝ) (hi : 1 < index)
    (l : Lens ℝ) (hl : Lens.new c n "spherical" (some (2 * R)) w h f type index = .ok l)
    (ray : Ray ℝ) (hd : ‖ray.direction.toE‖ = 1) (a : V3 ℝ) (ha : inner ℝ a.toE ray.direction.toE = 0) (hap : ‖a.toE‖ < R)
    (y : ℝ) (hy : Real.sqrt (R ^ 2 - ‖a.toE‖ ^ 2) + 1e-12 < y) (hp : ray.position = c + (-y) * ray.direction + a)
    (hf : ray.type ≠ "faerie_fire") (hbl : ray.blocked = false) (md : ℝ)
    (hfloor : 1e-12 < 2 * Real.sqrt (index ^ 2 * R ^ 2 - ‖a.toE‖ ^ 2) / index)
    (hmd : y - Real.sqrt (R ^ 2 - ‖a.toE‖ ^ 2) + 2 * Real.sqrt (index ^ 2 * R ^ 2 - ‖a.toE‖ ^ 2) / index < md)
    (fuel : Nat) (hfu : 4 ≤ fuel) :
    ∃ (s : RunState XR) (x d₁ x₁ d₂ : V3 ℝ) (L u : ℝ),
      ray.lift.run (.fin md) [(Optic.lens l).lift] none fuel = .finished s ∧
      s.ray = { ray with position := lineAt x₁ d₂ L, direction := d₂,
                         pointHistory := ray.pointHistory ++ [x, x₁, lineAt x₁ d₂ L] }.lift ∧
      s.log = [] ∧ s.interactions = 2 ∧
      x = c + (-Real.sqrt (R ^ 2 - ‖a.toE‖ ^ 2)) * ray.direction + a ∧ dist x.toE c.toE = R ∧ dist x₁.toE c.toE = R ∧
      Refracted 1 index (R⁻¹ • (x - c).toE) ray.direction.toE d₁.toE ∧
      Refracted index 1 (R⁻¹ • (x₁ - c).toE) d₁.toE d₂.toE ∧
      dist ray.position.toE x.toE + dist x.toE x₁.toE + L = md ∧
      lineAt x₁ d₂ u = c + ballFocus index R ‖a.toE‖ * ray.direction := by
  rw [norm_toE, norm_eq_one_iff] at hd
  rw [inner_toE] at ha
  have hN : 0 ≤ ‖a.toE‖ := _root_.norm_nonneg _
  have hA : dot a a = ‖a.toE‖ ^ 2 := by rw [norm_toE, norm_sq]
  unfold ballFocus
  generalize hNe : ‖a.toE‖ = N at *
  have hdisc : 0 < R ^ 2 - N ^ 2 := pos_of_sq_lt hR hN hap
  have hi0 : 0 < index := by linarith
  have hdisc' : R ^ 2 - N ^ 2 < index ^ 2 * R ^ 2 - N ^ 2 := by
    have h1 : 1 < index ^ 2 := one_lt_pow₀ hi two_ne_zero
    have := mul_lt_mul_of_pos_right h1 (pow_pos hR 2)
    linarith
  have hC := Real.sqrt_pos.mpr hdisc
  have hCC := Real.sq_sqrt hdisc.le
  have hP := Real.sqrt_pos.mpr (hdisc.trans hdisc')
  have hPP := Real.sq_sqrt (hdisc.trans hdisc').le
  have hlt := Real.sqrt_lt_sqrt hdisc.le hdisc'
  generalize Real.sqrt (R ^ 2 - N ^ 2) = C at *
  generalize Real.sqrt (index ^ 2 * R ^ 2 - N ^ 2) = P at *
  have hda : dot ray.direction a = 0 := by rw [dot_comm]; exact ha
  have hat : ∀ s, ray.at s - c = (s - y) * ray.direction + a := by
    intro s
    rw [at_eq, hp]
    ext <;> simp only [sub_x, sub_y, sub_z, add_x, add_y, add_z, smul_x, smul_y, smul_z] <;> ring
  have hon : ∀ s, OnSphere c R (ray.at s) ↔ (s - y) ^ 2 = C ^ 2 := by
    intro s
    rw [onSphere_iff, hat]
    simp only [dot_add_left, dot_add_right, dot_smul_left, dot_smul_right, hd, ha, hda, hA]
    constructor <;> intro <;> linarith
  have hT : ¬ Tangent c R ray.position ray.direction := by
    rintro ⟨s, h1, h2⟩
    have h1 := (hon s).mp h1
    rw [show lineAt ray.position ray.direction s = ray.at s from rfl, hat, inner_toE, dot_add_left, dot_smul_left, hd, ha] at h2
    have h0 : s - y = 0 := by linarith
    rw [h0] at h1
    exact absurd h1.symm (by simpa using hC.ne')
  have ht12 : 1e-12 < y - C := by linarith
  have hfirst : FirstOnSphere c R ray.position ray.direction (y - C) := by
    refine ⟨ht12, (hon _).mpr (by ring), fun s _ hs => ?_⟩
    have hs := (hon s).mp hs
    rcases sq_eq_sq_iff_eq_or_eq_neg.mp hs with e | e <;> linarith
  obtain ⟨x, hx⟩ : ∃ x, x = lineAt ray.position ray.direction (y - C) := ⟨_, rfl⟩
  have hxc : x - c = (-C) * ray.direction + a := by
    rw [hx, show lineAt ray.position ray.direction (y - C) = ray.at (y - C) from rfl, hat]
    ext <;> simp only [add_x, add_y, add_z, smul_x, smul_y, smul_z] <;> ring
  have hxe : x = c + (-C) * ray.direction + a := by
    rw [V3.ext_iff] at hxc ⊢
    simp only [sub_x, sub_y, sub_z, add_x, add_y, add_z, smul_x, smul_y, smul_z] at hxc ⊢
    obtain ⟨h1, h2, h3⟩ := hxc
    exact ⟨by linarith, by linarith, by linarith⟩
  obtain ⟨s, d₁, x₁, d₂, L, r1, r2, r3, r4, r5, r6, r7, r8, r9, r10, r11, r12, r13⟩ := run_ball hn hR hty hi.le hl hd hx hfirst hC hP
    (by rw [hxc, dot_add_right, dot_smul_right, hd, hda]; ring) (by rw [hPP, hCC]; ring) hT hf hbl hfloor hmd hfu
  obtain ⟨g1, g2⟩ := ball_algebra hi hR hC hP hCC hPP hlt
  refine ⟨s, x, d₁, x₁, d₂, L, (1 + 2 * P / index * ((C - P) / (index * R ^ 2))) *
    (index ^ 2 * R ^ 4 / (2 * (P - C) * (P * C + N ^ 2))), r1, r2, r3, r4, hxe, ?_, ?_, r5, r6, ?_, ?_⟩
  · rw [r7, abs_of_pos hR]
  · rw [r8, abs_of_pos hR]
  · have e1 : dist ray.position.toE x.toE = y - C := by
      rw [dist_toE_eq, hx]
      change distanceBetween _ _ = _
      rw [distance_lineAt hd (by norm_num at ht12; linarith)]
    have hu₁ : dot d₁ d₁ = 1 := by have := r5.unit; rwa [norm_toE, norm_eq_one_iff] at this
    have e2 : dist x.toE x₁.toE = 2 * P / index := by
      rw [dist_toE_eq, r10]
      change distanceBetween _ _ = _
      rw [distance_lineAt hu₁ (by positivity)]
    rw [e1, e2, r13]; ring
  · have hd₁ : d₁ = (1 / index - (C - P) / (index * R ^ 2) * C) * ray.direction + ((C - P) / (index * R ^ 2)) * a := by
      rw [r9, hxc]
      ext <;> simp only [add_x, add_y, add_z, smul_x, smul_y, smul_z] <;> ring
    rw [r11, r10, hd₁, hxe]
    generalize index ^ 2 * R ^ 4 / (2 * (P - C) * (P * C + N ^ 2)) = z at *
    generalize (C - P) / (index * R ^ 2) = g at *
    generalize 2 * P / index = t at *
    generalize (C - P) / R ^ 2 = m at *
    generalize 1 / index - g * C = b at *
    unfold lineAt
    ext <;> simp only [sub_x, sub_y, sub_z, add_x, add_y, add_z, smul_x, smul_y, smul_z]
    · linear_combination ray.direction.x * g2 + a.x * g1
    · linear_combination ray.direction.y * g2 + a.y * g1
    · linear_combination ray.direction.z * g2 + a.z * g1

/-- C90: close to the axis the focus is `n R / (2 (n - 1))` behind the centre, the textbook value. -/
theorem C90_paraxial (n R : ℝ) (hn : 1 < n) (hR : 0 < R) :
    Filter.Tendsto (ballFocus n R) (nhds 0) (nhds (n * R / (2 * (n - 1)))) := by
  have hn0 : 0 < n := by linarith
  have hn1 : n - 1 ≠ 0 := by linarith
  have h1 : Real.sqrt (n ^ 2 * R ^ 2 - 0 ^ 2) = n * R := by
    rw [show n ^ 2 * R ^ 2 - (0 : ℝ) ^ 2 = (n * R) ^ 2 by ring]; exact Real.sqrt_sq (by positivity)
  have h2 : Real.sqrt (R ^ 2 - 0 ^ 2) = R := by
    rw [show R ^ 2 - (0 : ℝ) ^ 2 = R ^ 2 by ring]; exact Real.sqrt_sq hR.le
  have h3 : n * R - R ≠ 0 := by
    rw [show n * R - R = (n - 1) * R by ring]; exact mul_ne_zero hn1 hR.ne'
  have h0 : ballFocus n R 0 = n * R / (2 * (n - 1)) := by
    unfold ballFocus
    rw [h1, h2, show n * R - R = (n - 1) * R by ring]
    field_simp
    ring
  rw [← h0]
  refine ContinuousAt.tendsto ?_
  unfold ballFocus
  refine ContinuousAt.div (by fun_prop) (by fun_prop) ?_
  rw [h1, h2]
  have : n * R * R + 0 ^ 2 ≠ 0 := by positivity
  exact mul_ne_zero (mul_ne_zero two_ne_zero h3) this

/-- C90: and for glass of index up to `9/5`, rays off the axis cross it before that. -/
theorem C90_aberration (n R N : ℝ) (hn : 1 < n) (hn' : n ≤ 9 / 5) (hN : 0 < N) (hNR : N < R) :
    ballFocus n R N < n * R / (2 * (n - 1)) := by
  have hR : 0 < R := hN.trans hNR
  have hdisc : 0 < R ^ 2 - N ^ 2 := pos_of_sq_lt hR hN.le hNR
  have hn0 : 0 < n := by linarith
  have h1 : 1 < n ^ 2 := one_lt_pow₀ hn two_ne_zero
  have hdisc' : R ^ 2 - N ^ 2 < n ^ 2 * R ^ 2 - N ^ 2 := by
    have := mul_lt_mul_of_pos_right h1 (pow_pos hR 2)
    linarith
  have hC := Real.sqrt_pos.mpr hdisc
  have hCC := Real.sq_sqrt hdisc.le
  have hP := Real.sqrt_pos.mpr (hdisc.trans hdisc')
  have hPP := Real.sq_sqrt (hdisc.trans hdisc').le
  have hlt := Real.sqrt_lt_sqrt hdisc.le hdisc'
  unfold ballFocus
  generalize Real.sqrt (R ^ 2 - N ^ 2) = C at *
  generalize Real.sqrt (n ^ 2 * R ^ 2 - N ^ 2) = P at *
  have hpc : 0 < P - C := by linarith
  have hN2 : 0 < N ^ 2 := pow_pos hN 2
  have hCR : C < R := lt_of_pow_lt_pow_left₀ 2 hR.le (by linarith)
  have hPR : P < n * R := lt_of_pow_lt_pow_left₀ 2 (by positivity) (by rw [mul_pow]; linarith)
  obtain ⟨S, hS⟩ : ∃ S, S = P + C := ⟨_, rfl⟩
  have hS0 : 0 < S := by rw [hS]; linarith
  have hT : 0 < (n + 1) * R - S := by rw [hS]; linarith
  have hdiff : (P - C) * S = (n ^ 2 - 1) * R ^ 2 := by rw [hS]; linear_combination hPP - hCC
  have hSS : (n ^ 2 - 1) * R ^ 2 < S ^ 2 := by
    rw [← hdiff, sq]
    exact mul_lt_mul_of_pos_right (by linarith) hS0
  have hK : 0 < (n ^ 2 - 1) * R ^ 2 := by rw [← hdiff]; positivity
  -- the quadratic factor
  have hb : 0 < 2 * n - n ^ 2 + 1 := by nlinarith
  have hw : (n ^ 2 - 1) * (n - 1) * R < (2 * n - n ^ 2 + 1) * S := by
    refine lt_of_pow_lt_pow_left₀ 2 (by positivity) ?_
    have e1 : (n ^ 2 - 1) * (n - 1) ^ 2 ≤ (2 * n - n ^ 2 + 1) ^ 2 := by
      have u1 : (n ^ 2 - 1) ≤ 56 / 25 := by nlinarith
      have u2 : (n - 1) ^ 2 ≤ 16 / 25 := by nlinarith
      have u3 : 34 / 25 ≤ 2 * n - n ^ 2 + 1 := by nlinarith
      have u4 : (34 / 25) ^ 2 ≤ (2 * n - n ^ 2 + 1) ^ 2 := pow_le_pow_left₀ (by norm_num) u3 2
      have u5 : (n ^ 2 - 1) * (n - 1) ^ 2 ≤ 56 / 25 * (16 / 25) := mul_le_mul u1 u2 (sq_nonneg _) (by norm_num)
      have u6 : (56 / 25 * (16 / 25) : ℝ) ≤ (34 / 25) ^ 2 := by norm_num
      linarith
    calc ((n ^ 2 - 1) * (n - 1) * R) ^ 2 = ((n ^ 2 - 1) * (n - 1) ^ 2) * ((n ^ 2 - 1) * R ^ 2) := by ring
      _ ≤ (2 * n - n ^ 2 + 1) ^ 2 * ((n ^ 2 - 1) * R ^ 2) := mul_le_mul_of_nonneg_right e1 hK.le
      _ < (2 * n - n ^ 2 + 1) ^ 2 * S ^ 2 := mul_lt_mul_of_pos_left hSS (by positivity)
      _ = ((2 * n - n ^ 2 + 1) * S) ^ 2 := by ring
  have hquad : 0 < 2 * n * S ^ 2 - (n + 1) * (n - 1) ^ 2 * R * S - (n + 1) ^ 2 * (n - 1) ^ 2 * R ^ 2 := by
    have q1 := mul_lt_mul_of_pos_right hw hS0
    have q2 := mul_lt_mul_of_pos_left hSS (show 0 < n ^ 2 - 1 by linarith)
    nlinarith
  have hmain : n * R * (P + C) < (n + 1) * (P * C + N ^ 2) := by
    have f1 := mul_pos (mul_pos hR hT) hquad
    have f2 : R * ((n + 1) * R - S) * (2 * n * S ^ 2 - (n + 1) * (n - 1) ^ 2 * R * S - (n + 1) ^ 2 * (n - 1) ^ 2 * R ^ 2)
        = 2 * S ^ 2 * ((n + 1) * (P * C + N ^ 2) - n * R * S) := by
      have g1 : 2 * S ^ 2 * (P * C + N ^ 2) = 2 * R ^ 2 * S ^ 2 + (S ^ 2 - (n ^ 2 - 1) * R ^ 2) * ((n ^ 2 - 1) * R ^ 2) := by
        rw [← hdiff, hS]
        linear_combination (2 * (P + C) ^ 2) * hCC
      linear_combination (-(n + 1)) * g1
    rw [f2] at f1
    have f3 := (mul_pos_iff_of_pos_left (show 0 < 2 * S ^ 2 by positivity)).mp f1
    rw [hS] at f3
    linarith
  have hu : 0 < P * C + N ^ 2 := by positivity
  rw [div_lt_div_iff₀ (by positivity) (by linarith)]
  have h4 := mul_lt_mul_of_pos_left hmain (show 0 < 2 * n * R * (P - C) by positivity)
  rw [← hS] at h4
  have h5 : (n + 1) * (n ^ 2 * R ^ 4 * (2 * (n - 1))) = 2 * n * R * (P - C) * (n * R * S) := by
    linear_combination (-2 * n ^ 2 * R ^ 2) * hdiff
  have h6 : 2 * n * R * (P - C) * ((n + 1) * (P * C + N ^ 2)) = (n + 1) * (n * R * (2 * (P - C) * (P * C + N ^ 2))) := by ring
  rw [← h5, h6] at h4
  exact lt_of_mul_lt_mul_left h4 (by linarith)

/-! ## A case meeting the hypotheses -/

/-- The ball of radius 5 and index 4/3, and the ray 4 off its axis: it is refracted at `(4, 0, 3)`, after a chord of 8 it
leaves, and it crosses the axis `625 / 84` (about 7.4) behind the centre; rays close to the axis do at 10. -/
noncomputable def ballRay : Ray ℝ := ⟨⟨4, 0, 20⟩, ⟨0, 0, -1⟩, 532, 0, [⟨4, 0, 20⟩], false, "normal"⟩

example : ∃ l s x₁ d₂ u, Lens.new (⟨0, 0, 0⟩ : V3 ℝ) none "spherical" (some (2 * 5)) none none none "normal" (4 / 3) = .ok l ∧
    ballRay.lift.run (.fin 100) [(Optic.lens l).lift] none 4 = .finished s ∧ s.interactions = 2 ∧
    s.ray.direction = V3.lift d₂ ∧ lineAt x₁ d₂ u = ⟨0, 0, -(625 / 84)⟩ ∧ V3.lift x₁ ∈ s.ray.pointHistory := by
  have h4 : ‖(⟨4, 0, 0⟩ : V3 ℝ).toE‖ = 4 := by
    rw [norm_toE, V3.norm, real_sqrt, show dot (⟨4, 0, 0⟩ : V3 ℝ) ⟨4, 0, 0⟩ = 4 * 4 by norm_num [dot]]
    exact Real.sqrt_mul_self (by norm_num)
  have hc : Real.sqrt (5 ^ 2 - 4 ^ 2) = 3 := by
    rw [show (5 ^ 2 - 4 ^ 2 : ℝ) = 3 ^ 2 by norm_num]; exact Real.sqrt_sq (by norm_num)
  have hp : Real.sqrt ((4 / 3) ^ 2 * 5 ^ 2 - 4 ^ 2) = 16 / 3 := by
    rw [show ((4 / 3) ^ 2 * 5 ^ 2 - 4 ^ 2 : ℝ) = (16 / 3) ^ 2 by norm_num]; exact Real.sqrt_sq (by norm_num)
  obtain ⟨l, hl⟩ : ∃ l, Lens.new (⟨0, 0, 0⟩ : V3 ℝ) none "spherical" (some (2 * 5)) none none none "normal" (4 / 3) = .ok l :=
    ⟨_, rfl⟩
  obtain ⟨s, x, d₁, x₁, d₂, L, u, r1, r2, -, r4, -, -, -, -, -, -, r11⟩ := C90_focus ⟨0, 0, 0⟩ none (by simp) 5 (by norm_num) none none none
    "normal" ⟨by decide, by decide, by decide⟩ (4 / 3) (by norm_num) l hl ballRay
    (by rw [norm_toE, norm_eq_one_iff]; norm_num [ballRay, dot]) ⟨4, 0, 0⟩ (by rw [inner_toE]; norm_num [ballRay, dot])
    (by rw [h4]; norm_num) 20 (by rw [h4, hc]; norm_num) (by ext <;> norm_num [ballRay]) (by decide) rfl 100
    (by rw [h4, hp]; norm_num) (by rw [h4, hp, hc]; norm_num) 4 le_rfl
  refine ⟨l, s, x₁, d₂, u, hl, r1, r4, by rw [r2]; rfl, ?_, ?_⟩
  · rw [r11, h4]
    unfold ballFocus
    rw [hc, hp]
    ext <;> norm_num [ballRay]
  · rw [r2]
    simp [Ray.lift]

end Optics
