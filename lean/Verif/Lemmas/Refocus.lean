import Verif.Lemmas.ThinScene

/-! # A ray that passes close to a point, through an ideal lens -/

namespace Optics
open V3
variable {R : Rounding}

/-- The distance of a point from a plane changes by no more than the point moves. -/
theorem plane_distance_moves {P M S S' : E3} (hM : ‖M‖ = 1) {ε : ℝ} (h : ‖S' - S‖ ≤ ε) :
    |(|inner ℝ (S' - P) M| - |inner ℝ (S - P) M|)| ≤ ε := by
  refine (abs_abs_sub_abs_le_abs_sub _ _).trans ?_
  have e : inner ℝ (S' - P) M - inner ℝ (S - P) M = inner ℝ (S' - S) M := by rw [← inner_sub_left]; congr 1; abel
  rw [e]
  have := abs_real_inner_le_norm (S' - S) M
  rw [hM, mul_one] at this
  exact this.trans h

/-- How far the image moves when the object does. -/
theorem image_moves {f p ε : ℝ} {P M S S' I I' : E3} (hM : ‖M‖ = 1) (hf : 0 < f) (hp : |inner ℝ (S - P) M| = p) (h : ‖S' - S‖ ≤ ε) (hεp : ε < p)
    (hε : ε ≤ |p - f| / 100) (hI : ImageOf f P M S I) (hI' : ImageOf f P M S' I') :
    f / |(|inner ℝ (S' - P) M| - f)| ≤ 102 / 100 * (f / |p - f|) ∧
      ‖I' - I‖ ≤ 102 / 100 * (f / |p - f|) * ε * (1 + ‖S - P‖ / |p - f|) := by
  have h1 := plane_distance_moves (P := P) hM h
  rw [hp] at h1
  obtain ⟨p', hp'⟩ : ∃ p', p' = |inner ℝ (S' - P) M| := ⟨_, rfl⟩
  rw [← hp'] at h1 ⊢
  have h1' := abs_le.mp h1
  have hε0 : 0 ≤ ε := (_root_.norm_nonneg _).trans h
  obtain ⟨n1, e1⟩ := hI.solved hf (by rw [hp]; linarith)
  obtain ⟨n2, e2⟩ := hI'.solved hf (by rw [← hp']; linarith)
  rw [hp] at n1 e1
  rw [← hp'] at n2 e2
  have a1 : 0 < |p - f| := abs_pos.mpr n1
  have a2 : 0 < |p' - f| := abs_pos.mpr n2
  have a3 : 99 / 100 * |p - f| ≤ |p' - f| := by
    have := abs_sub_abs_le_abs_sub (p - f) (p' - f)
    rw [show p - f - (p' - f) = -(p' - p) by ring, abs_neg] at this
    linarith
  have hk : f / |p' - f| ≤ 102 / 100 * (f / |p - f|) := by
    rw [← mul_div_assoc, div_le_div_iff₀ a2 a1]
    nlinarith
  refine ⟨hk, ?_⟩
  have e : I' - I = (-(f / (p' - f))) • (S' - S) + (f / (p - f) - f / (p' - f)) • (S - P) := by
    have : I' - I = (I' - P) - (I - P) := by abel
    rw [this, e1, e2]
    have : S' - P = (S' - S) + (S - P) := by abel
    rw [this, smul_add]
    module
  rw [e]
  refine (norm_add_le _ _).trans ?_
  rw [_root_.norm_smul, _root_.norm_smul, Real.norm_eq_abs, Real.norm_eq_abs, abs_neg, abs_div, abs_of_pos hf]
  have e3 : f / (p - f) - f / (p' - f) = f / (p' - f) * ((p' - p) / (p - f)) := by field_simp; ring
  rw [e3, abs_mul, abs_div, abs_div, abs_of_pos hf]
  obtain ⟨k, hkd⟩ : ∃ k, k = f / |p' - f| := ⟨_, rfl⟩
  rw [← hkd] at hk ⊢
  have hk0 : 0 ≤ k := by rw [hkd]; positivity
  have b1 : k * ‖S' - S‖ ≤ k * ε := mul_le_mul_of_nonneg_left h hk0
  have b2 : k * (|p' - p| / |p - f|) * ‖S - P‖ ≤ k * ε * (‖S - P‖ / |p - f|) := by
    have : k * (|p' - p| / |p - f|) * ‖S - P‖ = k * |p' - p| * (‖S - P‖ / |p - f|) := by ring
    rw [this]
    exact mul_le_mul_of_nonneg_right (mul_le_mul_of_nonneg_left h1 hk0) (by positivity)
  have b3 : k * ε * (1 + ‖S - P‖ / |p - f|) ≤ 102 / 100 * (f / |p - f|) * ε * (1 + ‖S - P‖ / |p - f|) :=
    mul_le_mul_of_nonneg_right (mul_le_mul_of_nonneg_right hk hε0) (by positivity)
  linarith

/-- A ray that has passed within `ε` of `S`, in front of the lens, passes behind the lens close to the image of `S`. -/
theorem refocus {f B c x t ε p : ℝ} (hs : ThinSizes R f B c) {O P w P' q d M S I : E3} (hM : ‖M‖ = 1) (hw1 : ‖w‖ ≤ 1 + 1 / 100000)
    (hc : |inner ℝ M w| = c) (h1 : ‖P' - (O + x • w)‖ ≤ 32 / 10 * (R.u * B)) (h2 : |inner ℝ M (P' - P)| ≤ 70 * (R.u * B))
    (h3 : ‖P' - q‖ ≤ 22 * (R.u * B)) {A : Prop}
    (h4 : ‖‖(f / c) • w - (q - P)‖ • d - ((f / c) • w - (q - P))‖ ≤ 50 * (R.u * (B / c ^ 2)) ∨
      (A ∧ ‖‖(f / c) • w - (P' - P)‖ • d - ((f / c) • w - (P' - P))‖ ≤ 62 * (R.u * (B / c ^ 2)) + 8 / 10 ^ 8 * f))
    (haim : ‖O + t • w - S‖ ≤ ε) (hside : 0 < inner ℝ M (P - S) * inner ℝ M w) (hp : |inner ℝ (S - P) M| = p)
    (hfar : ε + 200 * (R.u * (B / c ^ 2)) ≤ p) (hε : ε ≤ |p - f| / 100) (hI : ImageOf f P M S I) :
    ∃ t' : ℝ, (0 < t' ↔ f < p) ∧
      (‖P' + t' • d - I‖ ≤ (73 + 153 * (f / |p - f|)) * (R.u * (B / c ^ 2)) + 102 / 100 * (f / |p - f|) * ε * (1 + ‖S - P‖ / |p - f|) ∨
      (A ∧ ‖P' + t' • d - I‖ ≤ (73 + 153 * (f / |p - f|)) * (R.u * (B / c ^ 2)) + 102 / 100 * (f / |p - f|) * ε * (1 + ‖S - P‖ / |p - f|) +
        8 / 10 ^ 8 * f * (1 + 102 / 100 * (f / |p - f|)))) := by
  have hu := R.u_pos
  obtain ⟨hX, hBX, hGX, hXb, huX, huBX, huX1⟩ := hs.facts
  have hB := hs.one_le
  have hf := hs.f_pos
  have hcp : 0 < c := by linarith [hs.lo]
  have huB0 : 0 < R.u * B := by positivity
  have huX0 : 0 < R.u * (B / c ^ 2) := by positivity
  have hε0 : 0 ≤ ε := (_root_.norm_nonneg _).trans haim
  obtain ⟨S', hS'⟩ : ∃ S', S' = O + t • w := ⟨_, rfl⟩
  rw [← hS'] at haim
  have hmv := plane_distance_moves (P := P) hM haim
  rw [hp] at hmv
  have hmv' := abs_le.mp hmv
  obtain ⟨n1, -⟩ := hI.solved hf (by rw [hp]; linarith)
  rw [hp] at n1
  have a1 : 0 < |p - f| := abs_pos.mpr n1
  have hp'0 : 100 * (R.u * (B / c ^ 2)) ≤ |inner ℝ (S' - P) M| := by linarith
  have hne : |inner ℝ (S' - P) M| ≠ f := by
    intro h
    rw [h, abs_sub_comm] at hmv
    linarith
  obtain ⟨I', hI', -⟩ := imageOf_existsUnique f hf.ne' P M S' (abs_pos.mp (by linarith)) hne
  obtain ⟨m1, m2⟩ := image_moves hM hf hp haim (by linarith) hε hI hI'
  -- the virtual source is in front of the lens
  have hx' : 0 < x - t := by
    have j1 := abs_real_inner_le_norm M (P' - (O + x • w))
    have j2 := abs_real_inner_le_norm M (S' - S)
    rw [hM, one_mul] at j1 j2
    have i1 := abs_le.mp (j1.trans h1)
    have i2 := abs_le.mp (j2.trans haim)
    have i3 := abs_le.mp h2
    have e : (x - t) * inner ℝ M w = inner ℝ M (P' - P) + inner ℝ M (P - S) - inner ℝ M (S' - S) - inner ℝ M (P' - (O + x • w)) := by
      rw [← inner_add_right, ← inner_sub_right, ← inner_sub_right, ← inner_smul_right, hS']
      congr 1
      module
    have hp2 : |inner ℝ M (P - S)| = p := by
      rw [← hp, real_inner_comm, ← abs_neg, ← inner_neg_left, neg_sub]
    rcases pos_and_pos_or_neg_and_neg_of_mul_pos hside with ⟨s1, s2⟩ | ⟨s1, s2⟩
    · rw [abs_of_pos s1] at hp2
      have : 0 < (x - t) * inner ℝ M w := by rw [e]; linarith
      exact pos_of_mul_pos_left this s2.le
    · rw [abs_of_neg s1] at hp2
      have : (x - t) * inner ℝ M w < 0 := by rw [e]; linarith
      by_contra hn
      push Not at hn
      linarith [mul_nonneg_of_nonpos_of_nonpos hn s2.le]
  have k1 : ‖P' - (S' + (x - t) • w)‖ ≤ 32 / 10 * (R.u * B) := by
    have : S' + (x - t) • w = O + x • w := by rw [hS', sub_smul]; abel
    rw [this]; exact h1
  have hiff : f < |inner ℝ (S' - P) M| ↔ f < p := by
    constructor
    · intro h
      by_contra hn
      rw [abs_of_nonpos (by linarith)] at hε a1
      linarith
    · intro h
      rw [abs_of_pos (by linarith)] at hε
      linarith
  have hm3 : (73 + 150 * (f / |(|inner ℝ (S' - P) M| - f)|)) * (R.u * (B / c ^ 2)) ≤ (73 + 153 * (f / |p - f|)) * (R.u * (B / c ^ 2)) :=
    mul_le_mul_of_nonneg_right (by linarith) huX0.le
  rcases h4 with h4 | ⟨hA, h4⟩
  · obtain ⟨t', t1, t2⟩ := thin_image_off hs hM hw1 hc hx' hp'0 k1 h2 h3 h4 hI'
    refine ⟨t', t1.trans hiff, .inl ?_⟩
    have := norm_sub_le_norm_sub_add_norm_sub (P' + t' • d) I' I
    linarith
  · obtain ⟨t', t1, t2⟩ := thin_image_on hs hM hw1 hc hx' hp'0 k1 h2 h4 hI'
    refine ⟨t', t1.trans hiff, .inr ⟨hA, ?_⟩⟩
    have := norm_sub_le_norm_sub_add_norm_sub (P' + t' • d) I' I
    have h8 : 8 / 10 ^ 8 * f * (1 + f / |(|inner ℝ (S' - P) M| - f)|) ≤ 8 / 10 ^ 8 * f * (1 + 102 / 100 * (f / |p - f|)) :=
      mul_le_mul_of_nonneg_left (by linarith) (by positivity)
    linarith

end Optics
