import Verif.Lemmas.GlassBall64
import Verif.Lemmas.BallMirrors
import Verif.Props.BallLens
import Verif.Props.BallMirrors

/-!
# C102: how often a glass ball refracts a ray

With exact numbers a ray that meets a glass ball is refracted twice: into the ball and out of it.  With doubles the computed
point of entry may be outside the ball by more than the clipping floor of `1e-12`; then the ray is refracted into the ball a
second time.
-/

namespace Optics
open V3

/-- C102 with exact numbers: a ray that starts more than `1e-12` outside a glass ball and flies towards its interior is
refracted exactly twice, on the ball, and the run ends.  (The ball must not be so small, or its index so close to 1, that
a chord may be below the clipping floor.)  What is missing is the same for doubles, which is false: `C102_double`. -/
theorem C102_twice_partial (c : V3 ℝ) (n : Option (V3 ℝ)) (hn : n ≠ some ⟨0, 0, 0⟩) (R : ℝ) (hR : 0 < R) (w h f : Option ℝ)
    (type : String) (hty : type ≠ "ideal" ∧ type ≠ "ideal_collimate" ∧ type ≠ "ideal_focus") (index : ℝ) (hi : 1 < index)
    (hfloor : 1e-12 < 2 * R * Real.sqrt (1 - 1 / index ^ 2))
    (l : Lens ℝ) (hl : Lens.new c n "spherical" (some (2 * R)) w h f type index = .ok l)
    (ray : Ray ℝ) (hd : ‖ray.direction.toE‖ = 1) (hf : ray.type ≠ "faerie_fire") (hbl : ray.blocked = false)
    (hout : R + 1e-12 < dist ray.position.toE c.toE)
    (hmeet : ∃ t, 0 < t ∧ dist (lineAt ray.position ray.direction t).toE c.toE < R)
    (md : ℝ) (hmd : dist ray.position.toE c.toE + 2 * R < md) (fuel : Nat) (hfu : 4 ≤ fuel) :
    ∃ (s : RunState XR) (x d₁ x₁ d₂ e : V3 ℝ), ray.lift.run (.fin md) [(Optic.lens l).lift] none fuel = .finished s ∧
      s.interactions = 2 ∧
      s.ray = { ray with position := e, direction := d₂, pointHistory := ray.pointHistory ++ [x, x₁, e] }.lift ∧
      dist x.toE c.toE = R ∧ dist x₁.toE c.toE = R ∧
      Refracted 1 index (R⁻¹ • (x - c).toE) ray.direction.toE d₁.toE ∧
      Refracted index 1 (R⁻¹ • (x₁ - c).toE) d₁.toE d₂.toE := by
  obtain ⟨p, d, hp, hdd⟩ : ∃ p d, p = ray.position ∧ d = ray.direction := ⟨_, _, rfl, rfl⟩
  rw [← hp] at hout hmeet hmd
  rw [← hdd] at hd hmeet
  have hdot : dot d d = 1 := by rwa [norm_toE, norm_eq_one_iff] at hd
  obtain ⟨v, hv⟩ : ∃ v, v = inner ℝ d.toE (c - p).toE := ⟨_, rfl⟩
  have hF : ∀ t, dist (lineAt p d t).toE c.toE ^ 2 = (t - v) ^ 2 + (dist p.toE c.toE ^ 2 - v ^ 2) := by
    intro t
    rw [line_dist_sq p d c hd t, ← hv]
    ring
  have hNN : ‖(p - c + v * d).toE‖ ^ 2 = dist p.toE c.toE ^ 2 - v ^ 2 := by
    have e : p - c + v * d = lineAt p d v - c := by ext <;> simp [lineAt] <;> ring
    rw [e, toE_sub, ← dist_eq_norm, hF]
    ring
  have hN0 := _root_.norm_nonneg (p - c + v * d).toE
  have had : inner ℝ (p - c + v * d).toE d.toE = 0 := by
    rw [inner_toE] at hv ⊢
    rw [hv]
    simp only [dot, sub_x, sub_y, sub_z, add_x, add_y, add_z, smul_x, smul_y, smul_z] at hdot ⊢
    linear_combination (d.x * (c.x - p.x) + d.y * (c.y - p.y) + d.z * (c.z - p.z)) * hdot
  obtain ⟨t, ht0, ht⟩ := hmeet
  have hε : (0 : ℝ) < 1e-12 := by norm_num
  obtain ⟨ε, hεe⟩ : ∃ ε : ℝ, ε = 1e-12 := ⟨_, rfl⟩
  rw [← hεe] at hout hε hfloor
  have ht2 : (t - v) ^ 2 + ‖(p - c + v * d).toE‖ ^ 2 < R ^ 2 := by
    rw [hNN, ← hF]
    exact pow_lt_pow_left₀ ht dist_nonneg two_ne_zero
  have hNR : ‖(p - c + v * d).toE‖ < R := by
    apply lt_of_pow_lt_pow_left₀ 2 hR.le
    nlinarith [sq_nonneg (t - v)]
  have hD2 : (R + ε) ^ 2 < dist p.toE c.toE ^ 2 := pow_lt_pow_left₀ hout (by positivity) two_ne_zero
  have hvv : v ^ 2 = dist p.toE c.toE ^ 2 - ‖(p - c + v * d).toE‖ ^ 2 := by rw [hNN]; ring
  have hv0 : 0 < v := by
    by_contra hc
    nlinarith
  have hvd : v ≤ dist p.toE c.toE := by
    apply le_of_pow_le_pow_left₀ two_ne_zero dist_nonneg
    rw [hvv]; nlinarith [sq_nonneg ‖(p - c + v * d).toE‖]
  have hpos : ray.position = c + (-v) * ray.direction + (p - c + v * d) := by
    rw [← hp, ← hdd]
    ext <;> simp only [sub_x, sub_y, sub_z, add_x, add_y, add_z, smul_x, smul_y, smul_z] <;> ring
  have hy : Real.sqrt (R ^ 2 - ‖(p - c + v * d).toE‖ ^ 2) + ε < v := by
    generalize ‖(p - c + v * d).toE‖ = N at *
    generalize dist p.toE c.toE = Δ at *
    have hC : Real.sqrt (R ^ 2 - N ^ 2) ≤ R := by
      rw [Real.sqrt_le_left hR.le]; nlinarith [sq_nonneg N]
    have hCC := Real.sq_sqrt (show 0 ≤ R ^ 2 - N ^ 2 by nlinarith)
    apply lt_of_pow_lt_pow_left₀ 2 hv0.le
    nlinarith
  have hPR : ∀ N, 0 ≤ N → N ^ 2 ≤ R ^ 2 → Real.sqrt (index ^ 2 * R ^ 2 - N ^ 2) / index = Real.sqrt (R ^ 2 - N ^ 2 / index ^ 2) := by
    intro N _ hN
    rw [← Real.sqrt_sq (show 0 ≤ index by linarith), ← Real.sqrt_div', Real.sqrt_sq (by linarith)]
    · congr 1
      field_simp
    · positivity
  have hN2 : ‖(p - c + v * d).toE‖ ^ 2 ≤ R ^ 2 := pow_le_pow_left₀ hN0 hNR.le 2
  have hP := hPR _ hN0 hN2
  have hi2 : 1 < index ^ 2 := one_lt_pow₀ hi two_ne_zero
  have k2 : ε < 2 * Real.sqrt (index ^ 2 * R ^ 2 - ‖(p - c + v * d).toE‖ ^ 2) / index := by
    rw [mul_div_assoc, hP]
    refine hfloor.trans_le ?_
    rw [mul_assoc]
    refine mul_le_mul_of_nonneg_left ?_ two_pos.le
    apply Real.le_sqrt_of_sq_le
    rw [mul_pow, Real.sq_sqrt]
    · have : ‖(p - c + v * d).toE‖ ^ 2 / index ^ 2 ≤ R ^ 2 / index ^ 2 := by gcongr
      have e : R ^ 2 * (1 - 1 / index ^ 2) = R ^ 2 - R ^ 2 / index ^ 2 := by ring
      linarith
    · rw [sub_nonneg, div_le_one (by positivity)]; exact hi2.le
  have k3 : v - Real.sqrt (R ^ 2 - ‖(p - c + v * d).toE‖ ^ 2) +
      2 * Real.sqrt (index ^ 2 * R ^ 2 - ‖(p - c + v * d).toE‖ ^ 2) / index < md := by
    rw [mul_div_assoc, hP]
    have h1 : Real.sqrt (R ^ 2 - ‖(p - c + v * d).toE‖ ^ 2 / index ^ 2) ≤ R := by
      rw [Real.sqrt_le_left hR.le]
      have : 0 ≤ ‖(p - c + v * d).toE‖ ^ 2 / index ^ 2 := by positivity
      linarith
    have := Real.sqrt_nonneg (R ^ 2 - ‖(p - c + v * d).toE‖ ^ 2)
    linarith
  rw [hεe] at hy k2
  obtain ⟨s, x, d₁, x₁, d₂, L, u, r1, r2, -, r4, -, r6, r7, r8, r9, -, -⟩ := C90_focus c n hn R hR w h f type hty index hi l hl
    ray (by rwa [← hdd]) (p - c + v * d) (by rwa [← hdd]) hNR v hy hpos hf hbl md k2 k3 fuel hfu
  exact ⟨s, x, d₁, x₁, d₂, _, r1, r4, r2, r6, r7, r8, r9⟩

theorem dy_vec (m e m' e' m'' e'' : ℤ) :
    (⟨dy m e, dy m' e', dy m'' e''⟩ : V3 D64) = V3.fl ⟨m * 2 ^ e, m' * 2 ^ e', m'' * 2 ^ e''⟩ := rfl

/-- C102 is false with doubles: a glass ball of diameter 25 and index 1.5 stands 1000 away, the ray starts beside the axis at
`(3.6, 0, 0)` and flies along z.  It is refracted three times, twice on entry, and crosses the axis inside the ball, although
the focus for exact numbers is outside of it (`C102_exact_focus`). -/
theorem C102_double (wavelength order : D64) :
    ∃ l : Lens D64, Lens.new ⟨0.0, 0.0, 1000.0⟩ none "spherical" (some 25.0) none none none "normal" 1.5 = .ok l ∧
      ∀ fuel, 5 ≤ fuel → ∃ (s : RunState D64) (p x x' x₁ e : V3 ℝ),
        (Ray.new ⟨3.6, 0.0, 0.0⟩ ⟨0.0, 0.0, 1.0⟩ wavelength order "normal").run 1050.0 [.lens l] none fuel = .finished s ∧
        s.interactions = 3 ∧ s.ray.pointHistory = [p, x, x', x₁, e].map V3.fl ∧
        dist x.toE x'.toE < 1 / 10 ^ 11 ∧ 0 < x'.x ∧ x₁.x < 0 ∧ dist x₁.toE (⟨0, 0, 1000⟩ : V3 ℝ).toE < 12.6 := by
  refine ⟨GlassBall64.ball, GlassBall64.ball_new, fun fuel hf => ?_⟩
  obtain ⟨k, rfl⟩ : ∃ k, fuel = k + 5 := ⟨fuel - 5, by omega⟩
  obtain ⟨s1, h1, p1, d1, r1, t1, b1, i1, q1⟩ := GlassBall64.pass0
    (RunState.init (Ray.new ⟨3.6, 0.0, 0.0⟩ ⟨0.0, 0.0, 1.0⟩ wavelength order "normal") 1050.0) GlassBall64.start_position
    GlassBall64.start_direction GlassBall64.start_budget rfl rfl
  obtain ⟨s2, h2, p2, d2, r2, t2, b2, i2, q2⟩ := GlassBall64.pass1 s1 p1 d1 r1 t1 b1
  obtain ⟨s3, h3, p3, d3, r3, t3, b3, i3, q3⟩ := GlassBall64.pass2 s2 p2 d2 r2 t2 b2
  obtain ⟨s4, h4, p4, d4, r4, i4, q4⟩ := GlassBall64.pass3 s3 p3 d3 r3 t3 b3
  have hist := q4
  rw [q3, q2, q1, show (RunState.init (Ray.new (⟨3.6, 0.0, 0.0⟩ : V3 D64) ⟨0.0, 0.0, 1.0⟩ wavelength order "normal")
    1050.0).ray.pointHistory = [⟨3.6, 0.0, 0.0⟩] from rfl, GlassBall64.start_position] at hist
  simp only [dy_vec, List.cons_append, List.nil_append] at hist
  refine ⟨s4, _, _, _, _, _, ?_, ?_, hist, ?_, ?_, ?_, ?_⟩
  · unfold Ray.run
    rw [runLoop, if_pos (GlassBall64.continues0 _ GlassBall64.start_budget rfl), h1]
    simp only
    rw [runLoop, if_pos (GlassBall64.continues1 _ r1 b1), h2]
    simp only
    rw [runLoop, if_pos (GlassBall64.continues2 _ r2 b2), h3]
    simp only
    rw [runLoop, if_pos (GlassBall64.continues3 _ r3 b3), h4]
    simp only
    rw [runLoop, if_neg (by rw [GlassBall64.stops _ r4]; decide)]
  · rw [i4, i3, i2, i1]; rfl
  · rw [dist_toE_eq]
    show Real.sqrt _ < _
    rw [Real.sqrt_lt' (by norm_num)]
    norm_num [dot]
  · norm_num
  · norm_num
  · rw [dist_toE_eq]
    show Real.sqrt _ < _
    rw [Real.sqrt_lt' (by norm_num)]
    norm_num [dot]

/-- The focus of the ball in `C102_double` for this ray, with exact numbers (C90), is outside the ball. -/
theorem C102_exact_focus : 18 < ballFocus 1.5 12.5 3.6 := by
  have h1 : Real.sqrt (1.5 ^ 2 * 12.5 ^ 2 - 3.6 ^ 2) < 18.402 := by rw [Real.sqrt_lt' (by norm_num)]; norm_num
  have h2 : 18.4 < Real.sqrt (1.5 ^ 2 * 12.5 ^ 2 - 3.6 ^ 2) := by rw [Real.lt_sqrt (by norm_num)]; norm_num
  have h3 : 11.97 < Real.sqrt (12.5 ^ 2 - 3.6 ^ 2) := by rw [Real.lt_sqrt (by norm_num)]; norm_num
  have h4 : Real.sqrt (12.5 ^ 2 - 3.6 ^ 2) < 11.971 := by rw [Real.sqrt_lt' (by norm_num)]; norm_num
  unfold ballFocus
  generalize Real.sqrt (1.5 ^ 2 * 12.5 ^ 2 - 3.6 ^ 2) = P at *
  generalize Real.sqrt (12.5 ^ 2 - 3.6 ^ 2) = C at *
  have h5 : 0 < P - C := by norm_num at *; linarith
  have h6 : P - C < 6.432 := by norm_num at *; linarith
  have h7 : P * C + 3.6 ^ 2 < 233.3 := by norm_num at *; nlinarith
  have h8 : 0 < P * C + 3.6 ^ 2 := by norm_num at *; nlinarith
  rw [lt_div_iff₀ (by positivity)]
  have h9 : (P - C) * (P * C + 3.6 ^ 2) < 6.432 * 233.3 := mul_lt_mul'' h6 h7 h5.le h8.le
  norm_num at *
  linarith

/-- The hypotheses of `C102_twice_partial` can be met: the ball of radius 5 and index 4/3 and the ray of C90's example. -/
example : ∃ l s, Lens.new (⟨0, 0, 0⟩ : V3 ℝ) none "spherical" (some (2 * 5)) none none none "normal" (4 / 3) = .ok l ∧
    ballRay.lift.run (.fin 100) [(Optic.lens l).lift] none 4 = .finished s ∧ s.interactions = 2 := by
  obtain ⟨l, hl⟩ : ∃ l, Lens.new (⟨0, 0, 0⟩ : V3 ℝ) none "spherical" (some (2 * 5)) none none none "normal" (4 / 3) = .ok l :=
    ⟨_, rfl⟩
  have h1 : (1 / 2 : ℝ) < Real.sqrt (1 - 1 / (4 / 3) ^ 2) := by rw [Real.lt_sqrt (by norm_num)]; norm_num
  have h2 : 5 + 1e-12 < dist ballRay.position.toE (⟨0, 0, 0⟩ : V3 ℝ).toE := by
    rw [dist_toE_eq]
    show (5 : ℝ) + 1e-12 < Real.sqrt _
    rw [Real.lt_sqrt (by norm_num)]
    norm_num [dot, ballRay]
  have h3 : dist (lineAt ballRay.position ballRay.direction 20).toE (⟨0, 0, 0⟩ : V3 ℝ).toE < 5 := by
    rw [dist_toE_eq]
    show Real.sqrt _ < 5
    rw [Real.sqrt_lt' (by norm_num)]
    norm_num [dot, ballRay, lineAt]
  have h4 : dist ballRay.position.toE (⟨0, 0, 0⟩ : V3 ℝ).toE + 2 * 5 < 100 := by
    rw [dist_toE_eq, ← lt_sub_iff_add_lt]
    show Real.sqrt _ < _
    rw [Real.sqrt_lt' (by norm_num)]
    norm_num [dot, ballRay]
  obtain ⟨s, -, -, -, -, -, r1, r2, -⟩ := C102_twice_partial ⟨0, 0, 0⟩ none (by simp) 5 (by norm_num) none none none
    "normal" ⟨by decide, by decide, by decide⟩ (4 / 3) (by norm_num) (by norm_num at h1 ⊢; linarith) l hl ballRay
    (by rw [norm_toE, norm_eq_one_iff]; norm_num [ballRay, dot]) (by decide) rfl h2 ⟨20, by norm_num, h3⟩ 100 h4 4 le_rfl
  exact ⟨l, s, hl, r1, r2⟩

end Optics
