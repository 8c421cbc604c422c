import Verif.Lemmas.RoundedThinRun

/-! # The image an ideal lens forms, with errors -/

namespace Optics
open V3
variable {R : Rounding}

/-- How errors of the direction and of the point on the lens move the image. -/
theorem lens_image_near {O P I w P' y d A : E3} {f c p t δ₁ δ₂ δ₃ : ℝ} (hc : c ≠ 0) (hpf : p - f ≠ 0) (hA : A = O + (p / c) • w)
    (h1 : ‖P' - y‖ ≤ δ₁) (h2 : ‖y - A‖ ≤ δ₂) (h3 : ‖t • d - ((f / c) • w - (y - P))‖ ≤ δ₃)
    (hI : I - P = (-(f / (p - f))) • (O - P)) :
    ‖P' + (p / (p - f) * t) • d - I‖ ≤ δ₁ + |p / (p - f)| * δ₃ + |f / (p - f)| * δ₂ := by
  have e : P' + (p / (p - f) * t) • d - I =
      (P' - y) + (p / (p - f)) • (t • d - ((f / c) • w - (y - P))) + (-(f / (p - f))) • (y - A) := by
    have hI' : I = P + (-(f / (p - f))) • (O - P) := by rw [← hI]; abel
    have k : p / (p - f) = 1 + f / (p - f) := by field_simp; ring
    have k2 : f / (p - f) * (p / c) = (1 + f / (p - f)) * (f / c) := by rw [← k]; ring
    rw [hI', hA, k]
    generalize f / (p - f) = μ at *
    have k3 : (-μ) • (p / c) • w = -((1 + μ) • (f / c) • w) := by rw [smul_smul, smul_smul, ← k2, ← neg_smul, neg_mul]
    have k4 : (-μ) • (y - (O + (p / c) • w)) = (-μ) • (y - O) + (1 + μ) • (f / c) • w := by
      have : y - (O + (p / c) • w) = (y - O) - (p / c) • w := by abel
      rw [this, smul_sub, k3]; abel
    rw [k4]
    generalize (f / c) • w = z
    module
  rw [e]
  refine (norm_add₃_le).trans ?_
  rw [_root_.norm_smul, _root_.norm_smul, Real.norm_eq_abs, Real.norm_eq_abs, abs_neg]
  have := mul_le_mul_of_nonneg_left h3 (abs_nonneg (p / (p - f)))
  have := mul_le_mul_of_nonneg_left h2 (abs_nonneg (f / (p - f)))
  linarith

/-- The thin lens equation, solved for the image. -/
theorem ImageOf.solved {f : ℝ} {P n O I : E3} (hf : 0 < f) (hO : 0 < |inner ℝ (O - P) n|) (h : ImageOf f P n O I) :
    |inner ℝ (O - P) n| - f ≠ 0 ∧ I - P = (-(f / (|inner ℝ (O - P) n| - f))) • (O - P) := by
  obtain ⟨q, hq, he, hI⟩ := h
  generalize |inner ℝ (O - P) n| = p at *
  have h1 : q * f + p * f = p * q := by
    field_simp at he; linarith
  have h2 : p - f ≠ 0 := by
    intro h
    have : p = f := by linarith
    subst this
    nlinarith [mul_pos hO hO]
  refine ⟨h2, ?_⟩
  rw [hI]
  congr 2
  rw [div_eq_div_iff hO.ne' h2]
  linarith

/-- Where the point on the lens lies, seen from the object. -/
theorem crossing_near {f B c p x : ℝ} (hs : ThinSizes R f B c) {O P w P' M : E3} (hM : ‖M‖ = 1) (hw1 : ‖w‖ ≤ 1 + 1 / 100000)
    (hc : |inner ℝ M w| = c) (hx : 0 < x) (hp : |inner ℝ (O - P) M| = p) (hp0 : 100 * (R.u * (B / c ^ 2)) ≤ p)
    (h1 : ‖P' - (O + x • w)‖ ≤ 32 / 10 * (R.u * B)) (h2 : |inner ℝ M (P' - P)| ≤ 70 * (R.u * B)) :
    ‖P' - (O + (p / c) • w)‖ ≤ 77 * (R.u * (B / c ^ 2)) := by
  have hu := R.u_pos
  obtain ⟨hX, hBX, hGX, hXb, huX, huBX, huX1⟩ := hs.facts
  have hcp : 0 < c := by linarith [hs.lo]
  have hB := hs.one_le
  have huB0 : 0 < R.u * B := by positivity
  have huX0 : 0 < R.u * (B / c ^ 2) := by positivity
  -- the axis, oriented along the ray
  obtain ⟨σ, hσ, hσc⟩ : ∃ σ : ℝ, |σ| = 1 ∧ σ * inner ℝ M w = c := by
    rcases abs_choice (inner ℝ M w) with h | h
    · exact ⟨1, by simp, by rw [one_mul, ← h, hc]⟩
    · exact ⟨-1, by simp, by rw [neg_one_mul, ← h, hc]⟩
  have hz : |σ * inner ℝ M (P - O)| = p := by
    rw [abs_mul, hσ, one_mul, ← hp, real_inner_comm, ← abs_neg, ← inner_neg_left, neg_sub]
  have key : |x * c - σ * inner ℝ M (P - O)| ≤ 732 / 10 * (R.u * B) := by
    have e : x * c - σ * inner ℝ M (P - O) = σ * inner ℝ M (P' - P) - σ * inner ℝ M (P' - (O + x • w)) := by
      have : P' - (O + x • w) = (P' - P) + (P - O) - x • w := by abel
      rw [this, ← hσc]
      simp only [inner_sub_right, inner_add_right, inner_smul_right]
      ring
    have i1 := abs_real_inner_le_norm M (P' - (O + x • w))
    rw [hM, one_mul] at i1
    rw [e]
    refine (abs_sub _ _).trans ?_
    rw [abs_mul, abs_mul, hσ, one_mul, one_mul]
    linarith
  have hzp : σ * inner ℝ M (P - O) = p := by
    rcases abs_choice (σ * inner ℝ M (P - O)) with h | h
    · rw [← h, hz]
    · have h' : σ * inner ℝ M (P - O) = -p := by rw [← hz, h]; ring
      rw [h'] at key
      have := (abs_le.mp key).2
      have := mul_pos hx hcp
      linarith
  rw [hzp] at key
  have e : P' - (O + (p / c) • w) = (P' - (O + x • w)) + (x - p / c) • w := by rw [sub_smul]; abel
  have h3 : |x - p / c| ≤ 732 / 10 * (R.u * B) / c := by
    have : x - p / c = (x * c - p) / c := by field_simp
    rw [this, abs_div, abs_of_pos hcp]
    exact div_le_div_of_nonneg_right key hcp.le
  have h4 : R.u * B / c ≤ (1 + 1 / 10000) * (R.u * (B / c ^ 2)) := by
    have e : R.u * B / c = c * (R.u * (B / c ^ 2)) := by field_simp
    rw [e]
    exact mul_le_mul_of_nonneg_right hs.hi huX0.le
  rw [mul_div_assoc] at h3
  rw [e]
  refine (norm_add_le _ _).trans ?_
  rw [_root_.norm_smul, Real.norm_eq_abs]
  have h5 := mul_le_mul h3 hw1 (_root_.norm_nonneg _) ((abs_nonneg _).trans h3)
  linarith

theorem IdealLensOptic.axis_norm {o : Optic (Fl R)} {P N : V3 ℝ} {f : ℝ} (h : IdealLensOptic o P N f) : ‖axisOf N‖ = 1 := by
  cases h with
  | mk hN _ => exact dirE_norm hN.pos

/-- The vector towards the focal plane does not vanish. -/
theorem thin_length_pos {f B c : ℝ} (hs : ThinSizes R f B c) {P w P' q M : E3} (hM : ‖M‖ = 1) (hc : |inner ℝ M w| = c)
    (h2 : |inner ℝ M (P' - P)| ≤ 70 * (R.u * B)) (h3 : ‖P' - q‖ ≤ 22 * (R.u * B)) : 0 < ‖(f / c) • w - (q - P)‖ := by
  have hu := R.u_pos
  obtain ⟨hX, hBX, hGX, hXb, huX, huBX, huX1⟩ := hs.facts
  have hcp : 0 < c := by linarith [hs.lo]
  have hf := hs.f_pos
  have hfine := hs.fine
  have huX0 : 0 < R.u * (B / c ^ 2) := by positivity
  have i1 := abs_real_inner_le_norm M ((f / c) • w - (q - P))
  have i2 := abs_real_inner_le_norm M (P' - q)
  rw [hM, one_mul] at i1 i2
  have e : inner ℝ M ((f / c) • w - (q - P)) = (f / c) * inner ℝ M w - inner ℝ M (P' - P) + inner ℝ M (P' - q) := by
    have : (f / c) • w - (q - P) = (f / c) • w - (P' - P) + (P' - q) := by abel
    rw [this, inner_add_right, inner_sub_right, inner_smul_right]
  have i3 : |(f / c) * inner ℝ M w| = f := by
    rw [abs_mul, hc, abs_of_pos (by positivity)]; field_simp
  rw [e] at i1
  have i4 := abs_sub_abs_le_abs_sub ((f / c) * inner ℝ M w) (inner ℝ M (P' - P))
  have i5 := abs_sub_abs_le_abs_sub ((f / c) * inner ℝ M w - inner ℝ M (P' - P)) (-inner ℝ M (P' - q))
  rw [sub_neg_eq_add, abs_neg] at i5
  linarith

theorem lambda_le {f p : ℝ} (hf : 0 < f) (h : p - f ≠ 0) : |p / (p - f)| ≤ 1 + f / |p - f| ∧ |f / (p - f)| = f / |p - f| := by
  have h2 : |f / (p - f)| = f / |p - f| := by rw [abs_div, abs_of_pos hf]
  have k : p / (p - f) = 1 + f / (p - f) := by field_simp; ring
  refine ⟨?_, h2⟩
  rw [k, ← h2]
  exact (abs_add_le _ _).trans (by rw [abs_one])

theorem lambda_pos {f p t : ℝ} (hp : 0 < p) (ht : 0 < t) (h : p - f ≠ 0) : 0 < p / (p - f) * t ↔ f < p := by
  rw [mul_pos_iff_of_pos_right ht, div_pos_iff_of_pos_left hp, sub_pos]

theorem thin_image_off {f B c x : ℝ} (hs : ThinSizes R f B c) {O P w P' q d M I : E3} (hM : ‖M‖ = 1) (hw1 : ‖w‖ ≤ 1 + 1 / 100000)
    (hc : |inner ℝ M w| = c) (hx : 0 < x) (hp0 : 100 * (R.u * (B / c ^ 2)) ≤ |inner ℝ (O - P) M|)
    (h1 : ‖P' - (O + x • w)‖ ≤ 32 / 10 * (R.u * B)) (h2 : |inner ℝ M (P' - P)| ≤ 70 * (R.u * B))
    (h3 : ‖P' - q‖ ≤ 22 * (R.u * B))
    (h4 : ‖‖(f / c) • w - (q - P)‖ • d - ((f / c) • w - (q - P))‖ ≤ 50 * (R.u * (B / c ^ 2))) (hI : ImageOf f P M O I) :
    ∃ t : ℝ, (0 < t ↔ f < |inner ℝ (O - P) M|) ∧
      ‖P' + t • d - I‖ ≤ (73 + 150 * (f / |(|inner ℝ (O - P) M| - f)|)) * (R.u * (B / c ^ 2)) := by
  have hu := R.u_pos
  obtain ⟨hX, hBX, hGX, hXb, huX, huBX, huX1⟩ := hs.facts
  have hcp : 0 < c := by linarith [hs.lo]
  have hf := hs.f_pos
  have huX0 : 0 < R.u * (B / c ^ 2) := by positivity
  have hp : 0 < |inner ℝ (O - P) M| := by linarith
  obtain ⟨hpf, hI'⟩ := hI.solved hf hp
  have hcr := crossing_near hs hM hw1 hc hx rfl hp0 h1 h2
  obtain ⟨l1, l2⟩ := lambda_le hf hpf
  have hlen := thin_length_pos hs hM hc h2 h3
  refine ⟨_, lambda_pos hp hlen hpf, ?_⟩
  have hq : ‖q - (O + (|inner ℝ (O - P) M| / c) • w)‖ ≤ 100 * (R.u * (B / c ^ 2)) := by
    have := norm_sub_le_norm_sub_add_norm_sub q P' (O + (|inner ℝ (O - P) M| / c) • w)
    rw [norm_sub_rev q P'] at this
    linarith
  refine (lens_image_near hcp.ne' hpf rfl h3 hq h4 hI').trans ?_
  rw [l2]
  have hμ : 0 ≤ f / |(|inner ℝ (O - P) M| - f)| := by positivity
  generalize f / |(|inner ℝ (O - P) M| - f)| = μ at *
  generalize R.u * (B / c ^ 2) = y at *
  have := mul_le_mul_of_nonneg_right l1 huX0.le
  nlinarith

theorem thin_image_on {f B c x : ℝ} (hs : ThinSizes R f B c) {O P w P' d M I : E3} (hM : ‖M‖ = 1) (hw1 : ‖w‖ ≤ 1 + 1 / 100000)
    (hc : |inner ℝ M w| = c) (hx : 0 < x) (hp0 : 100 * (R.u * (B / c ^ 2)) ≤ |inner ℝ (O - P) M|)
    (h1 : ‖P' - (O + x • w)‖ ≤ 32 / 10 * (R.u * B)) (h2 : |inner ℝ M (P' - P)| ≤ 70 * (R.u * B))
    (h4 : ‖‖(f / c) • w - (P' - P)‖ • d - ((f / c) • w - (P' - P))‖ ≤ 62 * (R.u * (B / c ^ 2)) + 8 / 10 ^ 8 * f)
    (hI : ImageOf f P M O I) :
    ∃ t : ℝ, (0 < t ↔ f < |inner ℝ (O - P) M|) ∧
      ‖P' + t • d - I‖ ≤ (73 + 150 * (f / |(|inner ℝ (O - P) M| - f)|)) * (R.u * (B / c ^ 2)) +
          8 / 10 ^ 8 * f * (1 + f / |(|inner ℝ (O - P) M| - f)|) := by
  have hu := R.u_pos
  obtain ⟨hX, hBX, hGX, hXb, huX, huBX, huX1⟩ := hs.facts
  have hcp : 0 < c := by linarith [hs.lo]
  have hB := hs.one_le
  have hf := hs.f_pos
  have huX0 : 0 < R.u * (B / c ^ 2) := by positivity
  have hp : 0 < |inner ℝ (O - P) M| := by linarith
  obtain ⟨hpf, hI'⟩ := hI.solved hf hp
  have hcr := crossing_near hs hM hw1 hc hx rfl hp0 h1 h2
  obtain ⟨l1, l2⟩ := lambda_le hf hpf
  have h0 : ‖P' - P'‖ ≤ 0 := by rw [sub_self, _root_.norm_zero]
  have hlen := thin_length_pos (q := P') hs hM hc h2 (h0.trans (by positivity))
  refine ⟨_, lambda_pos hp hlen hpf, ?_⟩
  refine (lens_image_near hcp.ne' hpf rfl h0 hcr h4 hI').trans ?_
  rw [l2]
  have hμ : 0 ≤ f / |(|inner ℝ (O - P) M| - f)| := by positivity
  have hg : 0 ≤ 8 / 10 ^ 8 * f := by positivity
  generalize f / |(|inner ℝ (O - P) M| - f)| = μ at *
  generalize R.u * (B / c ^ 2) = y at *
  generalize 8 / 10 ^ 8 * f = g at *
  have := mul_le_mul_of_nonneg_right l1 (show 0 ≤ 62 * y + g by positivity)
  nlinarith

end Optics
