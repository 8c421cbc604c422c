import Verif.Lemmas.SingletAxis

/-!
# The lenses of script_testSingletLens.py and script_testBestformLens.py: bounds for every ray of the scripts
-/

namespace Optics

/-- The direction in the glass is of length one. -/
theorem sg_unit {n R h : ℝ} (hn : 1 < n) (hR : 0 < R) (hh : h ^ 2 < R ^ 2) : sgU n R h ^ 2 + h ^ 2 * sgV n R h ^ 2 = 1 := by
  have hC : sgC R h ^ 2 = R ^ 2 - h ^ 2 := Real.sq_sqrt (by linarith)
  have hn0 : 0 < n := by linarith
  have hnR : 1 < n ^ 2 := one_lt_pow₀ hn two_ne_zero
  have h1 : (h / (n * R)) ^ 2 ≤ 1 := by
    rw [div_pow, div_le_one (by positivity), mul_pow]
    nlinarith [sq_nonneg R]
  have hG : (Real.sqrt (1 - (h / (n * R)) ^ 2)) ^ 2 = 1 - (h / (n * R)) ^ 2 := Real.sq_sqrt (by linarith)
  unfold sgU sgV sgG
  generalize Real.sqrt (1 - (h / (n * R)) ^ 2) = q at *
  generalize sgC R h = C at *
  field_simp at hG ⊢
  have e1 : C ^ 2 = R ^ 2 - h ^ 2 := hC
  have e2 : h ^ 2 = R ^ 2 - C ^ 2 := by linarith
  rw [e2] at hG ⊢
  linear_combination R ^ 2 * hG

theorem mul_mem_pos {x y l u l' u' : ℝ} (h0 : 0 ≤ l) (h0' : 0 ≤ l') (h1 : l ≤ x) (h2 : x ≤ u) (h3 : l' ≤ y) (h4 : y ≤ u') :
    l * l' ≤ x * y ∧ x * y ≤ u * u' :=
  ⟨mul_le_mul h1 h3 h0' (h0.trans h1), mul_le_mul h2 h4 (h0'.trans h3) ((h0.trans h1).trans h2)⟩

theorem sq_mem {x y l u : ℝ} (hx : 0 ≤ x) (h : x ^ 2 = y) (hu : 0 ≤ u) (h1 : l ^ 2 ≤ y) (h2 : y ≤ u ^ 2) : l ≤ x ∧ x ≤ u :=
  ⟨le_of_not_gt fun hc => by nlinarith, abs_le_of_sq_le_sq' (h ▸ h2) hu |>.2⟩

/-- The path in the glass. -/
theorem singlet_glass {k C q G U V E M D r L : ℝ} (k0 : 0 ≤ k) (k1 : k ≤ (4033/100))
    (hC0 : 0 ≤ C) (hC : C ^ 2 = (262144/25) - k) (hq0 : 0 ≤ q) (hq : q ^ 2 = 1 - k / (235558798336/9765625))
    (hG : G = q - C / (485344/3125)) (hU : U = (10000/15167) + G * C / (512/5)) (hV : V = G / (512/5)) (hUV : U ^ 2 + k * V ^ 2 = 1)
    (hE : E = (-1006/5) + C) (hM : M = U * E + k * V) (hD : D = M ^ 2 - (E ^ 2 + k - (262144/25)))
    (hr0 : 0 ≤ r) (hr : 0 ≤ D → r ^ 2 = D) (hL : L = M + r) :
    (255507/2500) ≤ C ∧ C ≤ (512/5) ∧ (331871/100000000) ≤ V ∧ V ≤ (33393/10000000) ∧ (39991/40000) ≤ U ∧ U ≤ 1 ∧ (-247493/2500) ≤ E ∧ E ≤ (-494/5) ∧ (520717/50) ≤ D ∧ D ≤ (262144/25) ∧ (2041/20) ≤ r ∧ r ≤ (512/5) ∧ (763/250) ≤ L ∧ L ≤ (3757/1000) := by
  obtain ⟨c1, c2⟩ : (255507/2500) ≤ C ∧ C ≤ (512/5) :=
    sq_mem hC0 hC (by norm_num) (by linarith) (by linarith)
  obtain ⟨q1, q2⟩ : (999163/1000000) ≤ q ∧ q ≤ 1 :=
    sq_mem hq0 hq (by norm_num) (by linarith) (by linarith)
  obtain ⟨g1, g2⟩ : (84959/250000) ≤ G ∧ G ≤ (42743/125000) := ⟨by linarith, by linarith⟩
  obtain ⟨v1, v2⟩ : (331871/100000000) ≤ V ∧ V ≤ (33393/10000000) := ⟨by linarith, by linarith⟩
  have u0 : 0 ≤ U := by
    have := mul_nonneg (by linarith : 0 ≤ G) hC0
    linarith
  have kv2 : k * V ^ 2 ≤ (4033/100) * (33393/10000000) ^ 2 :=
    mul_le_mul k1 (pow_le_pow_left₀ (by linarith) v2 2) (by positivity) (by norm_num)
  have kv0 : 0 ≤ k * V ^ 2 := by positivity
  obtain ⟨u1, u2⟩ : (39991/40000) ≤ U ∧ U ≤ 1 := ⟨by
    by_contra hc
    have := pow_le_pow_left₀ u0 (not_le.mp hc).le 2
    nlinarith, by nlinarith⟩
  obtain ⟨e1, e2⟩ : (-247493/2500) ≤ E ∧ E ≤ (-494/5) := ⟨by linarith, by linarith⟩
  obtain ⟨t1, t2⟩ := mul_mem_pos le_rfl (by norm_num : (0 : ℝ) ≤ (331871/100000000)) k0 k1 v1 v2
  obtain ⟨a1, a2⟩ := mul_mem_pos (by norm_num : (0 : ℝ) ≤ (39991/40000)) (by norm_num : (0 : ℝ) ≤ (494/5)) u1 u2 (by linarith : (494/5) ≤ -E) (by linarith : -E ≤ (247493/2500))
  obtain ⟨m1, m2⟩ : (-247493/2500) ≤ M ∧ M ≤ (-98643/1000) := ⟨by linarith, by linarith⟩
  obtain ⟨b1, b2⟩ := mul_mem_pos le_rfl (by norm_num : (0 : ℝ) ≤ (494/5)) (sub_nonneg.mpr u2) (sub_le_sub_left u1 1) (by linarith : (494/5) ≤ -E) (by linarith : -E ≤ (247493/2500))
  have me : M - E = (1 - U) * (-E) + k * V := by rw [hM]; ring
  obtain ⟨d1, d2⟩ := mul_mem_pos le_rfl (by norm_num : (0 : ℝ) ≤ (197443/1000)) (by linarith : 0 ≤ M - E) (by linarith : M - E ≤ (157/1000))
    (by linarith : (197443/1000) ≤ -(M + E)) (by linarith : -(M + E) ≤ (247493/1250))
  have hD' : D = (262144/25) - k - (M - E) * -(M + E) := by rw [hD]; ring
  obtain ⟨D1, D2⟩ : (520717/50) ≤ D ∧ D ≤ (262144/25) := ⟨by linarith, by linarith⟩
  have hr' := hr (by linarith)
  obtain ⟨r1, r2⟩ : (2041/20) ≤ r ∧ r ≤ (512/5) :=
    sq_mem hr0 hr' (by norm_num) (by linarith) (by linarith)
  obtain ⟨l1, l2⟩ : (763/250) ≤ L ∧ L ≤ (3757/1000) := ⟨by linarith, by linarith⟩
  exact ⟨c1, c2, v1, v2, u1, u2, e1, e2, D1, D2, r1, r2, l1, l2⟩

/-- Where the ray crosses the axis. -/
theorem singlet_axis {C U V E D r L H X A B F : ℝ} (hI : (255507/2500) ≤ C ∧ C ≤ (512/5) ∧ (331871/100000000) ≤ V ∧ V ≤ (33393/10000000) ∧ (39991/40000) ≤ U ∧ U ≤ 1 ∧ (-247493/2500) ≤ E ∧ E ≤ (-494/5) ∧ (520717/50) ≤ D ∧ D ≤ (262144/25) ∧ (2041/20) ≤ r ∧ r ≤ (512/5) ∧ (763/250) ≤ L ∧ L ≤ (3757/1000))
    (hH : (51151/100000) ≤ H ∧ H ≤ (52457/100000)) (hX : (19749/20000) ≤ X ∧ X ≤ (24747/25000)) (hB : (4983/500000) ≤ B ∧ B ≤ (50679/5000000))
    (hA : A = (15167/10000) * U + H * (E - L * U) / (512/5)) (hF : F = (512/5) - C + L * U - (18/5) + X / B * A) : (95 < F ∧ F < 101) ∧ 0 < X / B ∧ X / B < 110 := by
  obtain ⟨c1, c2, v1, v2, u1, u2, e1, e2, D1, D2, r1, r2, l1, l2⟩ := hI
  obtain ⟨h1, h2⟩ := hH
  obtain ⟨X1, X2⟩ := hX
  obtain ⟨B1, B2⟩ := hB
  clear D1 D2 r1 r2 v1 v2
  obtain ⟨z1, z2⟩ := mul_mem_pos (by norm_num : (0 : ℝ) ≤ (763/250)) (by norm_num : (0 : ℝ) ≤ (39991/40000)) l1 l2 u1 u2
  obtain ⟨K1, K2⟩ : (101851/1000) ≤ L * U - E ∧ L * U - E ≤ (20551/200) := ⟨by linarith, by linarith⟩
  obtain ⟨n1, n2⟩ := mul_mem_pos (by norm_num : (0 : ℝ) ≤ (51151/100000)) (by norm_num : (0 : ℝ) ≤ (101851/1000)) h1 h2 K1 K2
  have hA' : A = (15167/10000) * U - H * (L * U - E) / ((512/5)) := by rw [hA]; ring
  obtain ⟨A1, A2⟩ : (9899/10000) ≤ A ∧ A ≤ (126/125) := ⟨by linarith, by linarith⟩
  have B0 : 0 < B := by linarith
  obtain ⟨o1, o2⟩ : (4871/50) ≤ X / B ∧ X / B ≤ (9933/100) := ⟨by rw [le_div_iff₀ B0]; linarith, by rw [div_le_iff₀ B0]; linarith⟩
  obtain ⟨p1, p2⟩ := mul_mem_pos (by norm_num : (0 : ℝ) ≤ (4871/50)) (by norm_num : (0 : ℝ) ≤ (9899/10000)) o1 o2 A1 A2
  exact ⟨⟨by linarith, by linarith⟩, by linarith, by linarith⟩

/-- The path behind the lens. -/
theorem singlet_numbers {k C U V E D r L W w H X A B F : ℝ} (k0 : 0 ≤ k) (k1 : k ≤ (4033/100)) (hC : C ^ 2 = (262144/25) - k)
    (hI : (255507/2500) ≤ C ∧ C ≤ (512/5) ∧ (331871/100000000) ≤ V ∧ V ≤ (33393/10000000) ∧ (39991/40000) ≤ U ∧ U ≤ 1 ∧ (-247493/2500) ≤ E ∧ E ≤ (-494/5) ∧ (520717/50) ≤ D ∧ D ≤ (262144/25) ∧ (2041/20) ≤ r ∧ r ≤ (512/5) ∧ (763/250) ≤ L ∧ L ≤ (3757/1000))
    (hW : W = 1 - (230037889/100000000) * (1 - D / (262144/25)))
    (hw0 : 0 ≤ w) (hw : 0 ≤ W → w ^ 2 = W) (hH : H = -w + (15167/10000) * r / (512/5)) (hX : X = 1 - L * V)
    (hA : A = (15167/10000) * U + H * (E - L * U) / (512/5)) (hB : B = (15167/10000) * V + H * X / (512/5))
    (hF : F = (512/5) - C + L * U - (18/5) + X / B * A) :
    E ^ 2 + k < (262144/25) ∧ (1 / 100000000 - C) ^ 2 + k < (262144/25) ∧ (E - 1 / 100000000) ^ 2 + k < (262144/25) ∧ 0 < D ∧
      1 < L ∧ (L * U - C) ^ 2 + k * X ^ 2 < (262144/25) ∧ 0 < W ∧ 0 < B ∧ (512/5) - C + L < 5 ∧ (95 < F ∧ F < 101) ∧ 0 < X / B ∧ X / B < 110 := by
  have hI' := hI
  obtain ⟨c1, c2, v1, v2, u1, u2, e1, e2, D1, D2, r1, r2, l1, l2⟩ := hI
  obtain ⟨W1, W2⟩ : (98433/100000) ≤ W ∧ W ≤ 1 := ⟨by linarith, by linarith⟩
  have hw' := hw (by linarith)
  obtain ⟨w1, w2⟩ : (99213/100000) ≤ w ∧ w ≤ 1 :=
    sq_mem hw0 hw' (by norm_num) (by linarith) (by linarith)
  obtain ⟨h1, h2⟩ : (51151/100000) ≤ H ∧ H ≤ (52457/100000) := ⟨by linarith, by linarith⟩
  obtain ⟨x1, x2⟩ := mul_mem_pos (by norm_num : (0 : ℝ) ≤ (763/250)) (by norm_num : (0 : ℝ) ≤ (331871/100000000)) l1 l2 v1 v2
  obtain ⟨X1, X2⟩ : (19749/20000) ≤ X ∧ X ≤ (24747/25000) := ⟨by linarith, by linarith⟩
  obtain ⟨y1, y2⟩ := mul_mem_pos (by norm_num : (0 : ℝ) ≤ (51151/100000)) (by norm_num : (0 : ℝ) ≤ (19749/20000)) h1 h2 X1 X2
  obtain ⟨B1, B2⟩ : (4983/500000) ≤ B ∧ B ≤ (50679/5000000) := ⟨by linarith, by linarith⟩
  obtain ⟨z1, z2⟩ := mul_mem_pos (by norm_num : (0 : ℝ) ≤ (763/250)) (by norm_num : (0 : ℝ) ≤ (39991/40000)) l1 l2 u1 u2
  have B0 : 0 < B := by linarith
  have E2 : E ^ 2 ≤ (247493/2500) ^ 2 := by
    rw [← neg_sq E]; exact pow_le_pow_left₀ (by linarith) (by linarith) 2
  have X2' : X ^ 2 ≤ 1 := pow_le_one₀ (by linarith) (by linarith)
  have J : (C - L * U) ^ 2 ≤ ((993487/10000)) ^ 2 := pow_le_pow_left₀ (by linarith) (by linarith) 2
  have N : k * X ^ 2 ≤ (4033/100) * 1 := mul_le_mul k1 X2' (by positivity) (by norm_num)
  refine ⟨by linarith, ?_, ?_, by linarith, by linarith, ?_, by linarith, B0, by linarith, singlet_axis hI' ⟨h1, h2⟩ ⟨X1, X2⟩ ⟨B1, B2⟩ hA hF⟩
  · have : (1 / 100000000 - C) ^ 2 = C ^ 2 - 2 / 100000000 * C + (1 / 100000000) ^ 2 := by ring
    rw [this, hC]; linarith
  · have : (E - 1 / 100000000) ^ 2 = E ^ 2 - 2 / 100000000 * E + (1 / 100000000) ^ 2 := by ring
    rw [this]; linarith
  · have : (L * U - C) ^ 2 = (C - L * U) ^ 2 := by ring
    rw [this]; linarith

/-- The lens of script_testSingletLens.py: every ray within 6.35 of the axis goes through and crosses the axis between 95 and 101 behind
the lens. -/
theorem singlet_through (h : ℝ) (h0 : 0 ≤ h) (h1 : h ≤ 127 / 20) (n R S T : ℝ) (hn : n = (15167/10000)) (hR : R = (512/5)) (hS : S = (512/5)) (hT : T = (18/5)) :
    SgThrough n R S T h ∧ R - sgC R h + sgL n R S T h < 5 ∧ (95 < sgF n R S T h ∧ sgF n R S T h < 101) ∧
      0 < sgX n R S T h / sgB n R S T h ∧ sgX n R S T h / sgB n R S T h < 110 := by
  have k1 : h ^ 2 ≤ (4033/100) := by
    have := pow_le_pow_left₀ h0 h1 2
    linarith
  have hm : h ^ 2 < R ^ 2 := by rw [hR]; linarith
  have hq : (h / (n * R)) ^ 2 ≤ 1 := by rw [hn, hR, div_pow, div_le_one (by norm_num)]; linarith
  have hC : sgC R h ^ 2 = (262144/25) - h ^ 2 := by unfold sgC; rw [Real.sq_sqrt (by linarith), hR]; ring
  have hI := singlet_glass (k := h ^ 2) (C := sgC R h) (q := Real.sqrt (1 - (h / (n * R)) ^ 2))
    (G := sgG n R h) (U := sgU n R h) (V := sgV n R h) (E := sgE R S T h) (M := sgM n R S T h) (D := sgD n R S T h)
    (r := Real.sqrt (sgD n R S T h)) (L := sgL n R S T h) (sq_nonneg h) k1
    (Real.sqrt_nonneg _) hC
    (Real.sqrt_nonneg _) (by rw [Real.sq_sqrt (by linarith), hn, hR]; ring)
    (by unfold sgG; rw [hn, hR]; ring_nf) (by unfold sgU; rw [hn, hR]; ring) (by unfold sgV; rw [hR])
    (sg_unit (by rw [hn]; norm_num) (by rw [hR]; norm_num) hm)
    (by unfold sgE; rw [hT, hS, hR]; ring) rfl (by unfold sgD; rw [hS]; ring)
    (Real.sqrt_nonneg _) (fun h => Real.sq_sqrt h) rfl
  obtain ⟨r1, r2, r3, r4, r5, r6, r7, r8, r9, r10⟩ := singlet_numbers (k := h ^ 2) (W := sgW n R S T h)
    (w := Real.sqrt (sgW n R S T h)) (H := sgH n R S T h)
    (X := sgX n R S T h) (A := sgA n R S T h) (B := sgB n R S T h) (F := sgF n R S T h) (sq_nonneg h) k1 hC hI
    (by unfold sgW; rw [hn, hS]; ring)
    (Real.sqrt_nonneg _) (fun h => Real.sq_sqrt h) (by unfold sgH; rw [hn, hS]) rfl
    (by unfold sgA; rw [hn, hS]) (by unfold sgB; rw [hn, hS]) (by unfold sgF; rw [hR, hT])
  refine ⟨⟨hm, ?_, ?_, ?_, r4, ?_, ?_, r7, r8⟩, ?_, r10⟩
  · rw [show S ^ 2 = (262144/25) by rw [hS]; norm_num]; exact r1
  · rw [show R ^ 2 = (262144/25) by rw [hR]; norm_num, show (1e-8 : ℝ) = 1 / 100000000 by norm_num]; exact r2
  · rw [show S ^ 2 = (262144/25) by rw [hS]; norm_num, show (1e-8 : ℝ) = 1 / 100000000 by norm_num]; exact r3
  · exact lt_trans (by norm_num) r5
  · rw [show R ^ 2 = (262144/25) by rw [hR]; norm_num]; exact r6
  · nth_rw 1 [hR]; exact r9

/-- The path in the glass. -/
theorem bestform_glass {k C q G U V E M D r L : ℝ} (k0 : 0 ≤ k) (k1 : k ≤ (4033/100))
    (hC0 : 0 ≤ C) (hC : C ^ 2 = (9006001/2500) - k) (hq0 : 0 ≤ q) (hq : q ^ 2 = 1 - k / (2071721458371889/250000000000))
    (hG : G = q - C / (45516167/500000)) (hU : U = (10000/15167) + G * C / (3001/50)) (hV : V = G / (3001/50)) (hUV : U ^ 2 + k * V ^ 2 = 1)
    (hE : E = (-10233/25) + C) (hM : M = U * E + k * V) (hD : D = M ^ 2 - (E ^ 2 + k - (12482089/100)))
    (hr0 : 0 ≤ r) (hr : 0 ≤ D → r ^ 2 = D) (hL : L = M + r) :
    (59683/1000) ≤ C ∧ C ≤ (3001/50) ∧ (281769/50000000) ≤ V ∧ V ≤ (573769/100000000) ∧ (199867/200000) ≤ U ∧ U ≤ 1 ∧ (-349637/1000) ≤ E ∧ E ≤ (-3493/10) ∧ (12445609/100) ≤ D ∧ D ≤ (12482089/100) ∧ (352783/1000) ≤ r ∧ r ≤ (3533/10) ∧ (1573/500) ≤ L ∧ L ≤ (558/125) := by
  obtain ⟨c1, c2⟩ : (59683/1000) ≤ C ∧ C ≤ (3001/50) :=
    sq_mem hC0 hC (by norm_num) (by linarith) (by linarith)
  obtain ⟨q1, q2⟩ : (997563/1000000) ≤ q ∧ q ≤ 1 :=
    sq_mem hq0 hq (by norm_num) (by linarith) (by linarith)
  obtain ⟨g1, g2⟩ : (84559/250000) ≤ G ∧ G ≤ (43047/125000) := ⟨by linarith, by linarith⟩
  obtain ⟨v1, v2⟩ : (281769/50000000) ≤ V ∧ V ≤ (573769/100000000) := ⟨by linarith, by linarith⟩
  have u0 : 0 ≤ U := by
    have := mul_nonneg (by linarith : 0 ≤ G) hC0
    linarith
  have kv2 : k * V ^ 2 ≤ (4033/100) * (573769/100000000) ^ 2 :=
    mul_le_mul k1 (pow_le_pow_left₀ (by linarith) v2 2) (by positivity) (by norm_num)
  have kv0 : 0 ≤ k * V ^ 2 := by positivity
  obtain ⟨u1, u2⟩ : (199867/200000) ≤ U ∧ U ≤ 1 := ⟨by
    by_contra hc
    have := pow_le_pow_left₀ u0 (not_le.mp hc).le 2
    nlinarith, by nlinarith⟩
  obtain ⟨e1, e2⟩ : (-349637/1000) ≤ E ∧ E ≤ (-3493/10) := ⟨by linarith, by linarith⟩
  obtain ⟨t1, t2⟩ := mul_mem_pos le_rfl (by norm_num : (0 : ℝ) ≤ (281769/50000000)) k0 k1 v1 v2
  obtain ⟨a1, a2⟩ := mul_mem_pos (by norm_num : (0 : ℝ) ≤ (199867/200000)) (by norm_num : (0 : ℝ) ≤ (3493/10)) u1 u2 (by linarith : (3493/10) ≤ -E) (by linarith : -E ≤ (349637/1000))
  obtain ⟨m1, m2⟩ : (-349637/1000) ≤ M ∧ M ≤ (-3488363/10000) := ⟨by linarith, by linarith⟩
  obtain ⟨b1, b2⟩ := mul_mem_pos le_rfl (by norm_num : (0 : ℝ) ≤ (3493/10)) (sub_nonneg.mpr u2) (sub_le_sub_left u1 1) (by linarith : (3493/10) ≤ -E) (by linarith : -E ≤ (349637/1000))
  have me : M - E = (1 - U) * (-E) + k * V := by rw [hM]; ring
  obtain ⟨d1, d2⟩ := mul_mem_pos le_rfl (by norm_num : (0 : ℝ) ≤ (6981363/10000)) (by linarith : 0 ≤ M - E) (by linarith : M - E ≤ (58/125))
    (by linarith : (6981363/10000) ≤ -(M + E)) (by linarith : -(M + E) ≤ (349637/500))
  have hD' : D = (12482089/100) - k - (M - E) * -(M + E) := by rw [hD]; ring
  obtain ⟨D1, D2⟩ : (12445609/100) ≤ D ∧ D ≤ (12482089/100) := ⟨by linarith, by linarith⟩
  have hr' := hr (by linarith)
  obtain ⟨r1, r2⟩ : (352783/1000) ≤ r ∧ r ≤ (3533/10) :=
    sq_mem hr0 hr' (by norm_num) (by linarith) (by linarith)
  obtain ⟨l1, l2⟩ : (1573/500) ≤ L ∧ L ≤ (558/125) := ⟨by linarith, by linarith⟩
  exact ⟨c1, c2, v1, v2, u1, u2, e1, e2, D1, D2, r1, r2, l1, l2⟩

/-- Where the ray crosses the axis. -/
theorem bestform_axis {C U V E D r L H X A B F : ℝ} (hI : (59683/1000) ≤ C ∧ C ≤ (3001/50) ∧ (281769/50000000) ≤ V ∧ V ≤ (573769/100000000) ∧ (199867/200000) ≤ U ∧ U ≤ 1 ∧ (-349637/1000) ≤ E ∧ E ≤ (-3493/10) ∧ (12445609/100) ≤ D ∧ D ≤ (12482089/100) ∧ (352783/1000) ≤ r ∧ r ≤ (3533/10) ∧ (1573/500) ≤ L ∧ L ≤ (558/125))
    (hH : (6431/12500) ≤ H ∧ H ≤ (6501/12500)) (hX : (48719/50000) ≤ X ∧ X ≤ (24557/25000)) (hB : (4983/500000) ≤ B ∧ B ≤ (25371/2500000))
    (hA : A = (15167/10000) * U + H * (E - L * U) / (3533/10)) (hF : F = (3001/50) - C + L * U - 4 + X / B * A) : (94 < F ∧ F < 100) ∧ 0 < X / B ∧ X / B < 110 := by
  obtain ⟨c1, c2, v1, v2, u1, u2, e1, e2, D1, D2, r1, r2, l1, l2⟩ := hI
  obtain ⟨h1, h2⟩ := hH
  obtain ⟨X1, X2⟩ := hX
  obtain ⟨B1, B2⟩ := hB
  clear D1 D2 r1 r2 v1 v2
  obtain ⟨z1, z2⟩ := mul_mem_pos (by norm_num : (0 : ℝ) ≤ (1573/500)) (by norm_num : (0 : ℝ) ≤ (199867/200000)) l1 l2 u1 u2
  obtain ⟨K1, K2⟩ : (352443/1000) ≤ L * U - E ∧ L * U - E ≤ (354101/1000) := ⟨by linarith, by linarith⟩
  obtain ⟨n1, n2⟩ := mul_mem_pos (by norm_num : (0 : ℝ) ≤ (6431/12500)) (by norm_num : (0 : ℝ) ≤ (352443/1000)) h1 h2 K1 K2
  have hA' : A = (15167/10000) * U - H * (L * U - E) / ((3533/10)) := by rw [hA]; ring
  obtain ⟨A1, A2⟩ : (1243/1250) ≤ A ∧ A ≤ (2007/2000) := ⟨by linarith, by linarith⟩
  have B0 : 0 < B := by linarith
  obtain ⟨o1, o2⟩ : (9601/100) ≤ X / B ∧ X / B ≤ (9857/100) := ⟨by rw [le_div_iff₀ B0]; linarith, by rw [div_le_iff₀ B0]; linarith⟩
  obtain ⟨p1, p2⟩ := mul_mem_pos (by norm_num : (0 : ℝ) ≤ (9601/100)) (by norm_num : (0 : ℝ) ≤ (1243/1250)) o1 o2 A1 A2
  exact ⟨⟨by linarith, by linarith⟩, by linarith, by linarith⟩

/-- The path behind the lens. -/
theorem bestform_numbers {k C U V E D r L W w H X A B F : ℝ} (k0 : 0 ≤ k) (k1 : k ≤ (4033/100)) (hC : C ^ 2 = (9006001/2500) - k)
    (hI : (59683/1000) ≤ C ∧ C ≤ (3001/50) ∧ (281769/50000000) ≤ V ∧ V ≤ (573769/100000000) ∧ (199867/200000) ≤ U ∧ U ≤ 1 ∧ (-349637/1000) ≤ E ∧ E ≤ (-3493/10) ∧ (12445609/100) ≤ D ∧ D ≤ (12482089/100) ∧ (352783/1000) ≤ r ∧ r ≤ (3533/10) ∧ (1573/500) ≤ L ∧ L ≤ (558/125))
    (hW : W = 1 - (230037889/100000000) * (1 - D / (12482089/100)))
    (hw0 : 0 ≤ w) (hw : 0 ≤ W → w ^ 2 = W) (hH : H = -w + (15167/10000) * r / (3533/10)) (hX : X = 1 - L * V)
    (hA : A = (15167/10000) * U + H * (E - L * U) / (3533/10)) (hB : B = (15167/10000) * V + H * X / (3533/10))
    (hF : F = (3001/50) - C + L * U - 4 + X / B * A) :
    E ^ 2 + k < (12482089/100) ∧ (1 / 100000000 - C) ^ 2 + k < (9006001/2500) ∧ (E - 1 / 100000000) ^ 2 + k < (12482089/100) ∧ 0 < D ∧
      1 < L ∧ (L * U - C) ^ 2 + k * X ^ 2 < (9006001/2500) ∧ 0 < W ∧ 0 < B ∧ (3001/50) - C + L < 5 ∧ (94 < F ∧ F < 100) ∧ 0 < X / B ∧ X / B < 110 := by
  have hI' := hI
  obtain ⟨c1, c2, v1, v2, u1, u2, e1, e2, D1, D2, r1, r2, l1, l2⟩ := hI
  obtain ⟨W1, W2⟩ : (99327/100000) ≤ W ∧ W ≤ 1 := ⟨by linarith, by linarith⟩
  have hw' := hw (by linarith)
  obtain ⟨w1, w2⟩ : (49831/50000) ≤ w ∧ w ≤ 1 :=
    sq_mem hw0 hw' (by norm_num) (by linarith) (by linarith)
  obtain ⟨h1, h2⟩ : (6431/12500) ≤ H ∧ H ≤ (6501/12500) := ⟨by linarith, by linarith⟩
  obtain ⟨x1, x2⟩ := mul_mem_pos (by norm_num : (0 : ℝ) ≤ (1573/500)) (by norm_num : (0 : ℝ) ≤ (281769/50000000)) l1 l2 v1 v2
  obtain ⟨X1, X2⟩ : (48719/50000) ≤ X ∧ X ≤ (24557/25000) := ⟨by linarith, by linarith⟩
  obtain ⟨y1, y2⟩ := mul_mem_pos (by norm_num : (0 : ℝ) ≤ (6431/12500)) (by norm_num : (0 : ℝ) ≤ (48719/50000)) h1 h2 X1 X2
  obtain ⟨B1, B2⟩ : (4983/500000) ≤ B ∧ B ≤ (25371/2500000) := ⟨by linarith, by linarith⟩
  obtain ⟨z1, z2⟩ := mul_mem_pos (by norm_num : (0 : ℝ) ≤ (1573/500)) (by norm_num : (0 : ℝ) ≤ (199867/200000)) l1 l2 u1 u2
  have B0 : 0 < B := by linarith
  have E2 : E ^ 2 ≤ (349637/1000) ^ 2 := by
    rw [← neg_sq E]; exact pow_le_pow_left₀ (by linarith) (by linarith) 2
  have X2' : X ^ 2 ≤ 1 := pow_le_one₀ (by linarith) (by linarith)
  have J : (C - L * U) ^ 2 ≤ ((568761/10000)) ^ 2 := pow_le_pow_left₀ (by linarith) (by linarith) 2
  have N : k * X ^ 2 ≤ (4033/100) * 1 := mul_le_mul k1 X2' (by positivity) (by norm_num)
  refine ⟨by linarith, ?_, ?_, by linarith, by linarith, ?_, by linarith, B0, by linarith, bestform_axis hI' ⟨h1, h2⟩ ⟨X1, X2⟩ ⟨B1, B2⟩ hA hF⟩
  · have : (1 / 100000000 - C) ^ 2 = C ^ 2 - 2 / 100000000 * C + (1 / 100000000) ^ 2 := by ring
    rw [this, hC]; linarith
  · have : (E - 1 / 100000000) ^ 2 = E ^ 2 - 2 / 100000000 * E + (1 / 100000000) ^ 2 := by ring
    rw [this]; linarith
  · have : (L * U - C) ^ 2 = (C - L * U) ^ 2 := by ring
    rw [this]; linarith

/-- The lens of script_testBestformLens.py: every ray within 6.35 of the axis goes through and crosses the axis between 94 and 100 behind
the lens. -/
theorem bestform_through (h : ℝ) (h0 : 0 ≤ h) (h1 : h ≤ 127 / 20) (n R S T : ℝ) (hn : n = (15167/10000)) (hR : R = (3001/50)) (hS : S = (3533/10)) (hT : T = 4) :
    SgThrough n R S T h ∧ R - sgC R h + sgL n R S T h < 5 ∧ (94 < sgF n R S T h ∧ sgF n R S T h < 100) ∧
      0 < sgX n R S T h / sgB n R S T h ∧ sgX n R S T h / sgB n R S T h < 110 := by
  have k1 : h ^ 2 ≤ (4033/100) := by
    have := pow_le_pow_left₀ h0 h1 2
    linarith
  have hm : h ^ 2 < R ^ 2 := by rw [hR]; linarith
  have hq : (h / (n * R)) ^ 2 ≤ 1 := by rw [hn, hR, div_pow, div_le_one (by norm_num)]; linarith
  have hC : sgC R h ^ 2 = (9006001/2500) - h ^ 2 := by unfold sgC; rw [Real.sq_sqrt (by linarith), hR]; ring
  have hI := bestform_glass (k := h ^ 2) (C := sgC R h) (q := Real.sqrt (1 - (h / (n * R)) ^ 2))
    (G := sgG n R h) (U := sgU n R h) (V := sgV n R h) (E := sgE R S T h) (M := sgM n R S T h) (D := sgD n R S T h)
    (r := Real.sqrt (sgD n R S T h)) (L := sgL n R S T h) (sq_nonneg h) k1
    (Real.sqrt_nonneg _) hC
    (Real.sqrt_nonneg _) (by rw [Real.sq_sqrt (by linarith), hn, hR]; ring)
    (by unfold sgG; rw [hn, hR]; ring_nf) (by unfold sgU; rw [hn, hR]; ring) (by unfold sgV; rw [hR])
    (sg_unit (by rw [hn]; norm_num) (by rw [hR]; norm_num) hm)
    (by unfold sgE; rw [hT, hS, hR]; ring) rfl (by unfold sgD; rw [hS]; ring)
    (Real.sqrt_nonneg _) (fun h => Real.sq_sqrt h) rfl
  obtain ⟨r1, r2, r3, r4, r5, r6, r7, r8, r9, r10⟩ := bestform_numbers (k := h ^ 2) (W := sgW n R S T h)
    (w := Real.sqrt (sgW n R S T h)) (H := sgH n R S T h)
    (X := sgX n R S T h) (A := sgA n R S T h) (B := sgB n R S T h) (F := sgF n R S T h) (sq_nonneg h) k1 hC hI
    (by unfold sgW; rw [hn, hS]; ring)
    (Real.sqrt_nonneg _) (fun h => Real.sq_sqrt h) (by unfold sgH; rw [hn, hS]) rfl
    (by unfold sgA; rw [hn, hS]) (by unfold sgB; rw [hn, hS]) (by unfold sgF; rw [hR, hT])
  refine ⟨⟨hm, ?_, ?_, ?_, r4, ?_, ?_, r7, r8⟩, ?_, r10⟩
  · rw [show S ^ 2 = (12482089/100) by rw [hS]; norm_num]; exact r1
  · rw [show R ^ 2 = (9006001/2500) by rw [hR]; norm_num, show (1e-8 : ℝ) = 1 / 100000000 by norm_num]; exact r2
  · rw [show S ^ 2 = (12482089/100) by rw [hS]; norm_num, show (1e-8 : ℝ) = 1 / 100000000 by norm_num]; exact r3
  · exact lt_trans (by norm_num) r5
  · rw [show R ^ 2 = (9006001/2500) by rw [hR]; norm_num]; exact r6
  · nth_rw 1 [hR]; exact r9

end Optics
