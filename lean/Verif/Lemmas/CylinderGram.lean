import Verif.Lemmas.RoundedCylinder
import Verif.Spec.CylinderAhead
/-!
The quadratic form of `InfiniteCylinder.test_intersect`. Used by `Props/RoundedCylinders.lean`.
-/

namespace Optics
open V3

variable {R : Rounding}

theorem across_inner (a v w : E3) : inner ℝ (across a v) w = inner ℝ v w - inner ℝ v a * inner ℝ w a := by
  unfold across
  rw [inner_sub_left, real_inner_smul_left, real_inner_comm w a]

theorem across_norm {a : E3} (ha : ‖a‖ = 1) (v : E3) : ‖across a v‖ ^ 2 = inner ℝ (across a v) v := by
  rw [across_inner, ← real_inner_self_eq_norm_sq]
  unfold across
  rw [inner_sub_left, inner_sub_right, inner_sub_right, real_inner_smul_left, real_inner_smul_left, real_inner_smul_right,
    real_inner_smul_right, real_inner_self_eq_norm_sq a, ha, real_inner_comm v a]
  ring

theorem across_le {a : E3} (ha : ‖a‖ = 1) (v : E3) : ‖across a v‖ ≤ ‖v‖ := by
  refine le_of_sq_le_sq ?_ (_root_.norm_nonneg _)
  rw [across_norm ha, across_inner, real_inner_self_eq_norm_sq]
  nlinarith [mul_self_nonneg (inner ℝ v a)]

theorem across_both {a : E3} (ha : ‖a‖ = 1) (v w : E3) : inner ℝ (across a v) (across a w) = inner ℝ (across a v) w := by
  have h : inner ℝ (across a v) a = 0 := by
    rw [across_inner, real_inner_self_eq_norm_sq, ha]; ring
  conv_lhs => unfold across
  rw [inner_sub_right, real_inner_smul_right]
  change inner ℝ (across a v) w - _ * inner ℝ (across a v) a = _
  rw [h, mul_zero, sub_zero]

theorem across_abs {a : E3} (ha : ‖a‖ = 1) (v w : E3) : |inner ℝ (across a v) w| ≤ ‖v‖ * ‖w‖ := by
  refine (abs_real_inner_le_norm _ _).trans ?_
  exact mul_le_mul_of_nonneg_right (across_le ha v) (_root_.norm_nonneg _)

theorem across_sub (a v w : E3) : across a (v - w) = across a v - across a w := by
  unfold across; rw [inner_sub_left]; module

theorem across_add (a v w : E3) : across a (v + w) = across a v + across a w := by
  unfold across; rw [inner_add_left]; module

theorem across_smul (a v : E3) (k : ℝ) : across a (k • v) = k • across a v := by
  unfold across; rw [real_inner_smul_left]; module

/-- The form measured by the first two rows of a matrix. -/
noncomputable def gram (M : M3 ℝ) (v w : V3 ℝ) : ℝ := dot M.r0 v * dot M.r0 w + dot M.r1 v * dot M.r1 w

theorem gram_comm (M : M3 ℝ) (v w : V3 ℝ) : gram M v w = gram M w v := by unfold gram; ring

theorem gram_cs (M : M3 ℝ) (v w : V3 ℝ) : gram M v w ^ 2 ≤ gram M v v * gram M w w := by
  unfold gram
  nlinarith [sq_nonneg (dot M.r0 v * dot M.r1 w - dot M.r1 v * dot M.r0 w)]

theorem gram_nonneg (M : M3 ℝ) (v : V3 ℝ) : 0 ≤ gram M v v := by
  unfold gram; nlinarith [mul_self_nonneg (dot M.r0 v), mul_self_nonneg (dot M.r1 v)]

theorem gram_add (M : M3 ℝ) (u v w : V3 ℝ) : gram M (u + v) w = gram M u w + gram M v w := by
  simp only [gram, dot, add_x, add_y, add_z]; ring

theorem gram_smul (M : M3 ℝ) (k : ℝ) (v w : V3 ℝ) : gram M (k * v) w = k * gram M v w := by
  simp only [gram, dot, smul_x, smul_y, smul_z]; ring

/-- For a rotation onto the `z` axis this is the inner product across the axis. -/
theorem gram_turn {W : M3 ℝ} {a : V3 ℝ} (h : IsRotation W) (hm : M3.mulVec W a = ⟨0, 0, 1⟩) (v w : V3 ℝ) :
    gram W v w = dot v w - dot v a * dot w a := by
  have r2 : ∀ x : V3 ℝ, dot W.r2 x = dot x a := by
    intro x
    have := h.dot_mulVec x a
    rw [hm] at this
    rw [← this]
    simp [M3.mulVec, dot]
  have h1 := h.dot_mulVec v w
  rw [← h1, ← r2 v, ← r2 w]
  simp only [gram, M3.mulVec, dot]; ring

variable {c : InfiniteCylinder (Fl R)} {C a : V3 ℝ} {ρ σ η : ℝ} {M W : M3 ℝ}

/-- **The form measured by the computed matrix**, compared with the inner product across the axis. -/
theorem CylinderFrame.form (F : CylinderFrame R c C a ρ σ M W η) {â : E3} (ha : ‖a.toE‖ = 1) (hâ : ‖â‖ = 1) (hd : ‖a.toE - â‖ ≤ 11 * R.u)
    {ω : ℝ} (hω : 73 / 10 * η + 22 * R.u ≤ ω) (v w : V3 ℝ) :
    |gram M v w - inner ℝ (across â v.toE) w.toE| ≤ ω * (‖v.toE‖ * ‖w.toE‖) := by
  obtain ⟨d0, d1, -, n0, n1, -, m0, m1, -⟩ := F.row
  obtain ⟨V, hV⟩ : ∃ V, V = ‖v.toE‖ := ⟨_, rfl⟩
  obtain ⟨X, hX⟩ : ∃ X, X = ‖w.toE‖ := ⟨_, rfl⟩
  have V0 : 0 ≤ V := hV ▸ _root_.norm_nonneg _
  have X0 : 0 ≤ X := hX ▸ _root_.norm_nonneg _
  have η0 : 0 ≤ η := (abs_nonneg _).trans F.close.1.1
  have row : ∀ m n : V3 ℝ, ‖m.toE - n.toE‖ ≤ 9 / 5 * η → ‖n.toE‖ = 1 → ‖m.toE‖ ≤ 1 + 1 / 10000 →
      |dot m v * dot m w - dot n v * dot n w| ≤ 361 / 100 * η * (V * X) := by
    intro m n h1 h2 h3
    rw [← inner_toE, ← inner_toE, ← inner_toE, ← inner_toE]
    have e : inner ℝ m.toE v.toE * inner ℝ m.toE w.toE - inner ℝ n.toE v.toE * inner ℝ n.toE w.toE =
        inner ℝ (m.toE - n.toE) v.toE * inner ℝ m.toE w.toE + inner ℝ n.toE v.toE * inner ℝ (m.toE - n.toE) w.toE := by
      rw [inner_sub_left, inner_sub_left]; ring
    rw [e]
    refine (abs_add_le _ _).trans ?_
    rw [abs_mul, abs_mul]
    have a1 := (abs_real_inner_le_norm (m.toE - n.toE) v.toE).trans (mul_le_mul_of_nonneg_right h1 (_root_.norm_nonneg _))
    have a2 := (abs_real_inner_le_norm m.toE w.toE).trans (mul_le_mul_of_nonneg_right h3 (_root_.norm_nonneg _))
    have a3 := abs_real_inner_le_norm n.toE v.toE
    have a4 := (abs_real_inner_le_norm (m.toE - n.toE) w.toE).trans (mul_le_mul_of_nonneg_right h1 (_root_.norm_nonneg _))
    rw [h2, one_mul] at a3
    rw [← hV] at a1 a3
    rw [← hX] at a2 a4
    have b1 := mul_le_mul a1 a2 (abs_nonneg _) (by positivity)
    have b2 := mul_le_mul a3 a4 (abs_nonneg _) V0
    have : 0 ≤ η * (V * X) := by positivity
    nlinarith only [b1, b2, this]
  have r0 := row _ _ d0 n0 m0
  have r1 := row _ _ d1 n1 m1
  have hG : |gram M v w - gram W v w| ≤ 722 / 100 * η * (V * X) := by
    have e : gram M v w - gram W v w = (dot M.r0 v * dot M.r0 w - dot W.r0 v * dot W.r0 w) +
      (dot M.r1 v * dot M.r1 w - dot W.r1 v * dot W.r1 w) := by unfold gram; ring
    rw [e]
    have := abs_add_le (dot M.r0 v * dot M.r0 w - dot W.r0 v * dot W.r0 w) (dot M.r1 v * dot M.r1 w - dot W.r1 v * dot W.r1 w)
    linarith
  have hA : |gram W v w - inner ℝ (across â v.toE) w.toE| ≤ 22 * R.u * (V * X) := by
    rw [gram_turn F.turn F.maps, across_inner, ← inner_toE, ← inner_toE, ← inner_toE]
    have e : inner ℝ v.toE w.toE - inner ℝ v.toE a.toE * inner ℝ w.toE a.toE - (inner ℝ v.toE w.toE - inner ℝ v.toE â * inner ℝ w.toE â) =
        -(inner ℝ v.toE (a.toE - â) * inner ℝ w.toE a.toE + inner ℝ v.toE â * inner ℝ w.toE (a.toE - â)) := by
      rw [inner_sub_right, inner_sub_right]; ring
    rw [e, abs_neg]
    refine (abs_add_le _ _).trans ?_
    rw [abs_mul, abs_mul]
    have a1 := (abs_real_inner_le_norm v.toE (a.toE - â)).trans (mul_le_mul_of_nonneg_left hd (_root_.norm_nonneg _))
    have a2 := abs_real_inner_le_norm w.toE a.toE
    have a3 := abs_real_inner_le_norm v.toE â
    have a4 := (abs_real_inner_le_norm w.toE (a.toE - â)).trans (mul_le_mul_of_nonneg_left hd (_root_.norm_nonneg _))
    rw [ha, mul_one] at a2
    rw [hâ, mul_one] at a3
    rw [← hV] at a1 a3
    rw [← hX] at a2 a4
    have hu := R.u_pos
    have b1 := mul_le_mul a1 a2 (abs_nonneg _) (by positivity)
    have b2 := mul_le_mul a3 a4 (abs_nonneg _) V0
    linarith
  have := abs_add_le (gram M v w - gram W v w) (gram W v w - inner ℝ (across â v.toE) w.toE)
  rw [sub_add_sub_cancel] at this
  rw [← hV, ← hX]
  have hVX : 0 ≤ V * X := by positivity
  have h1 := mul_le_mul_of_nonneg_right hω hVX
  have h2 : 0 ≤ η * (V * X) := by positivity
  linarith

/-- Comparing the equation measured by the computed matrix with the exact one. -/
theorem approach_perturbed {A B C s A₀ B₀ C₀ ω N : ℝ} (hR : 28 / 5 * R.u ≤ ω) (hA : |A₀ - A| ≤ 106 / 100 * ω) (hB : |B₀ - B| ≤ 203 / 100 * (ω * N))
    (hC : |C₀ - C| ≤ 101 / 100 * (ω * N ^ 2)) (a0 : 0 < A) (a1 : A ≤ 1) (b0 : B < 0) (b1 : |B| ≤ 2 * N) (c0 : 0 ≤ C) (c1 : C ≤ N ^ 2) (hs : 0 < s)
    (hs2 : s ^ 2 = B ^ 2 - 4 * A * C) (hsA : s ^ 2 ≤ 4 * A) (hN : 1 ≤ N) (hN' : N ≤ 10 ^ 50) (small : 5 * 10 ^ 4 * (ω * N ^ 2) ≤ A * s ^ 2)
    (a0' : A₀ ≤ 1001 / 1000) (b1' : |B₀| ≤ 2001 / 1000 * N) (c0' : 0 ≤ C₀) (c1' : C₀ ≤ N ^ 2) (slow : B₀ ^ 2 - 4 * A₀ * C₀ ≤ 4 * A₀) :
    ∃ s₀, Approach R A₀ B₀ C₀ s₀ (28 / 5 * R.u) N ∧ |s₀ - s| ≤ s / 1000 ∧ 999 / 1000 * A ≤ A₀ := by
  have hu := R.u_pos
  have hus := (five_u (R := R)).2
  have ω0 : 0 < ω := by linarith
  have NN : N ≤ N ^ 2 := by nlinarith only [hN]
  have n2 : 1 ≤ N ^ 2 := by linarith
  obtain ⟨κ, hκ⟩ : ∃ κ, κ = ω * N ^ 2 := ⟨_, rfl⟩
  have ωκ : ω ≤ κ := by rw [hκ]; nlinarith only [ω0, n2]
  have ωNκ : ω * N ≤ κ := by rw [hκ]; exact mul_le_mul_of_nonneg_left NN ω0.le
  rw [← hκ] at hC small
  have κ0 : 0 < κ := by linarith
  have As : A * s ^ 2 ≤ 1 * s ^ 2 := mul_le_mul_of_nonneg_right a1 (by positivity)
  have As4 : A * s ^ 2 ≤ A * 4 := mul_le_mul_of_nonneg_left (by linarith) a0.le
  have κs : κ ≤ 1 / 50000 * s ^ 2 := by norm_num at small; linarith
  have κA : κ ≤ 4 / 50000 * A := by norm_num at small; linarith
  have Alo : 999 / 1000 * A ≤ A₀ := by linarith [(abs_le.mp hA).1]
  have s2 : s ≤ 2 := by
    refine le_of_sq_le_sq ?_ (by norm_num); linarith
  have dB : |B₀ ^ 2 - B ^ 2| ≤ 813 / 100 * κ := by
    rw [show B₀ ^ 2 - B ^ 2 = (B₀ - B) * (B₀ + B) by ring, abs_mul]
    have h1 := abs_add_le B₀ B
    have h2 := mul_le_mul hB (show |B₀ + B| ≤ 4001 / 1000 * N by linarith) (abs_nonneg _) (by positivity)
    rw [hκ]
    have : 203 / 100 * (ω * N) * (4001 / 1000 * N) = 203 / 100 * (4001 / 1000) * (ω * N ^ 2) := by ring
    rw [this] at h2
    have : 0 < ω * N ^ 2 := by positivity
    linarith
  have dAC : |A₀ * C₀ - A * C| ≤ 208 / 100 * κ := by
    rw [show A₀ * C₀ - A * C = A₀ * (C₀ - C) + (A₀ - A) * C by ring]
    refine (abs_add_le _ _).trans ?_
    rw [abs_mul, abs_mul, abs_of_pos (show 0 < A₀ by linarith), abs_of_nonneg c0]
    have h1 := mul_le_mul a0' hC (abs_nonneg _) (by norm_num)
    have h2 := mul_le_mul hA c1 c0 (by positivity)
    have : 106 / 100 * ω * N ^ 2 = 106 / 100 * κ := by rw [hκ]; ring
    linarith
  obtain ⟨D, hD⟩ : ∃ D, D = B₀ ^ 2 - 4 * A₀ * C₀ := ⟨_, rfl⟩
  have dD : |D - s ^ 2| ≤ 165 / 10 * κ := by
    rw [hD, hs2, show B₀ ^ 2 - 4 * A₀ * C₀ - (B ^ 2 - 4 * A * C) = (B₀ ^ 2 - B ^ 2) - 4 * (A₀ * C₀ - A * C) by ring]
    have := abs_sub (B₀ ^ 2 - B ^ 2) (4 * (A₀ * C₀ - A * C))
    rw [abs_mul 4, abs_of_pos (by norm_num : (0 : ℝ) < 4)] at this
    linarith
  have hD' := abs_le.mp dD
  have D0 : 0 < D := by have := sq_nonneg s; nlinarith only [hD', κs, hs, this]
  have hq := Real.sq_sqrt D0.le
  have hq0 := Real.sqrt_nonneg D
  have ds : |Real.sqrt D - s| ≤ s / 1000 := by
    have e : |Real.sqrt D - s| * (Real.sqrt D + s) = |D - s ^ 2| := by
      rw [← abs_of_nonneg (by linarith : 0 ≤ Real.sqrt D + s), ← abs_mul]
      congr 1; nlinarith only [hq]
    have h1 : |Real.sqrt D - s| * s ≤ |Real.sqrt D - s| * (Real.sqrt D + s) :=
      mul_le_mul_of_nonneg_left (by linarith) (abs_nonneg _)
    have h2 : |Real.sqrt D - s| * s ≤ s / 1000 * s := by
      rw [e] at h1; nlinarith only [h1, dD, κs, sq_nonneg s]
    exact le_of_mul_le_mul_right h2 hs
  have slo : 999 / 1000 * s ≤ Real.sqrt D := by linarith [(abs_le.mp ds).1]
  refine ⟨Real.sqrt D, ⟨by linarith, a0', by linarith, by rw [hq, hD], by rw [hq, hD]; exact slow, ?_, c0', c1', b1', hN, hN', by linarith,
    by linarith, ?_⟩, ds, Alo⟩
  · have h1 : s ≤ -B := by
      refine le_of_sq_le_sq ?_ (by linarith)
      have := mul_nonneg a0.le c0
      rw [hs2]; linarith [neg_sq B]
    have h2 := (abs_le.mp hB).2
    have h3 : κ ≤ 1 / 25000 * s := by nlinarith only [κs, s2, hs]
    linarith
  · have h1 : 999 / 1000 * A * (999 / 1000 * s) ^ 2 ≤ A₀ * Real.sqrt D ^ 2 :=
      mul_le_mul Alo (pow_le_pow_left₀ (by positivity) slo 2) (by positivity) (by linarith)
    have h2 : 28 / 5 * R.u * N ^ 2 ≤ κ := by rw [hκ]; exact mul_le_mul_of_nonneg_right hR (by positivity)
    have h3 : 0 < A * s ^ 2 := by positivity
    norm_num at small h1 h2 ⊢; nlinarith only [small, h1, h2, h3]

end Optics
