import Verif.Lemmas.NearBallRun
import Verif.Lemmas.SnellPerturb
import Verif.Lemmas.SnellEnter
import Verif.Props.RoundedRefraction
import Verif.Spec.NearGlass

/-! # A glass ball near a ray, with rounding: the exact way, and refraction about a computed normal -/

namespace Optics
open V3

variable {R : Rounding}

/-- Snell's law for the sines, in terms of the cosines. -/
theorem SnellExact.cosines {η₁ η₂ : ℝ} {M d e : E3} (h : SnellExact η₁ η₂ M d e) (hM : ‖M‖ = 1) :
    η₂ ^ 2 * (1 - inner ℝ e M ^ 2) = η₁ ^ 2 * (1 - inner ℝ d M ^ 2) := by
  have p := congrArg (fun x : E3 => ‖x‖ ^ 2) (h.parts hM)
  have q : ∀ (η : ℝ) (x : E3), ‖η • (x - inner ℝ x M • M)‖ ^ 2 = η ^ 2 * (‖x‖ ^ 2 - inner ℝ x M ^ 2) := by
    intro η x
    rw [_root_.norm_smul, mul_pow, Real.norm_eq_abs, sq_abs, norm_sub_sq_real, _root_.norm_smul, hM, mul_one, Real.norm_eq_abs,
      sq_abs, inner_smul_right]
    ring
  simp only [q] at p
  have := h.length
  linarith

theorem SnellExact.unit {η₁ η₂ : ℝ} {M d e : E3} (h : SnellExact η₁ η₂ M d e) (h2 : 0 < η₂) (hd : ‖d‖ = 1) : ‖e‖ = 1 := by
  have := h.length
  rw [hd] at this
  have h3 : η₂ ^ 2 * (‖e‖ ^ 2 - 1) = 0 := by rw [this]; ring
  rcases mul_eq_zero.mp h3 with h | h
  · exact absurd h (by positivity)
  · exact (pow_eq_one_iff_of_nonneg (_root_.norm_nonneg _) two_ne_zero).mp (by linarith)

theorem Refracted.flip {η₁ η₂ : ℝ} {n d d' : E3} (h : Refracted η₁ η₂ (-n) d d') : Refracted η₁ η₂ n d d' where
  unit := h.unit
  surface := by
    have := h.surface
    simpa only [tangential, inner_neg_right, neg_smul_neg] using this
  farSide := by
    have := h.farSide
    simpa only [inner_neg_right, neg_mul_neg] using this

/-- The exact way through a glass ball. -/
theorem through_glass {C A e : E3} {ρ h η : ℝ} (he : ‖e‖ = 1) (hA : ‖A - C‖ = ρ) (hρ : 0 < ρ) (hh : 0 < h)
    (hc : inner ℝ e (C - A) = h) (hη : 1 ≤ η) :
    ∃ (e₁ e₂ : E3) (k : ℝ), ThroughGlass C A e e₁ e₂ ρ k η ∧ SnellExact 1 η (ρ⁻¹ • (A - C)) e e₁ ∧
      SnellExact η 1 (-(ρ⁻¹ • (A + (2 * k) • e₁ - C))) e₁ e₂ ∧ ‖e₁‖ = 1 ∧ ‖e₂‖ = 1 ∧ h ≤ k ∧ k ≤ ρ ∧
      inner ℝ e₁ (A + (2 * k) • e₁ - C) = k ∧ inner ℝ e₂ (A + (2 * k) • e₁ - C) = h ∧
      η ^ 2 * (ρ ^ 2 - k ^ 2) = ρ ^ 2 - h ^ 2 := by
  have hη0 : 0 < η := by linarith
  obtain ⟨ν, hν⟩ : ∃ ν, ν = ρ⁻¹ • (A - C) := ⟨_, rfl⟩
  have hAν : A - C = ρ • ν := by rw [hν, smul_smul, mul_inv_cancel₀ hρ.ne', one_smul]
  have hν1 : ‖ν‖ = 1 := by
    rw [hν, _root_.norm_smul, hA, Real.norm_of_nonneg (by positivity), inv_mul_cancel₀ hρ.ne']
  have hCA : ∀ x : E3, inner ℝ x (C - A) = -(ρ * inner ℝ x ν) := by
    intro x
    rw [← neg_sub A C, inner_neg_right, hAν, inner_smul_right]
  have heν : ρ * inner ℝ e ν = -h := by
    have := hCA e
    rw [hc] at this; linarith
  have heν' : inner ℝ e ν < 0 := by
    by_contra hx
    have := mul_nonneg hρ.le (not_lt.mp hx)
    linarith
  have hη2 : (1 : ℝ) ≤ η ^ 2 := one_le_pow₀ hη
  obtain ⟨e₁, s₁⟩ := snellExact_exists (η₁ := 1) (d := e) hη0 hν1 (by nlinarith [sq_nonneg (inner ℝ e ν)])
  have u₁ := s₁.unit hη0 he
  obtain ⟨k, hk⟩ : ∃ k, k = inner ℝ e₁ (C - A) := ⟨_, rfl⟩
  have hkν : ρ * inner ℝ e₁ ν = -k := by
    have := hCA e₁
    rw [← hk] at this; linarith
  have hk0 : 0 ≤ k := by
    have := mul_nonneg hρ.le (neg_nonneg.mpr s₁.across)
    linarith
  have hcos : η ^ 2 * (ρ ^ 2 - k ^ 2) = ρ ^ 2 - h ^ 2 := by
    have := s₁.cosines hν1
    rw [show k ^ 2 = ρ ^ 2 * inner ℝ e₁ ν ^ 2 by rw [← mul_pow, hkν, neg_sq],
      show h ^ 2 = ρ ^ 2 * inner ℝ e ν ^ 2 by rw [← mul_pow, heν, neg_sq]]
    linear_combination ρ ^ 2 * this
  have hkρ : k ≤ ρ := by
    have := real_inner_le_norm e₁ (C - A)
    rw [← hk, u₁, one_mul, norm_sub_rev, hA] at this
    exact this
  have hhk : h ≤ k := by
    refine abs_le_of_sq_le_sq' ?_ hk0 |>.2
    have : 0 ≤ (η ^ 2 - 1) * (ρ ^ 2 - k ^ 2) :=
      mul_nonneg (by linarith) (by nlinarith)
    linarith
  obtain ⟨B, hB⟩ : ∃ B, B = A + (2 * k) • e₁ - C := ⟨_, rfl⟩
  have hBe : B = (2 * k) • e₁ - (C - A) := by rw [hB]; abel
  have hBe₁ : inner ℝ e₁ B = k := by
    rw [hBe, inner_sub_right, inner_smul_right, real_inner_self_eq_norm_sq, u₁, ← hk]; ring
  have hBn : ‖B‖ = ρ := by
    have : ‖B‖ ^ 2 = ρ ^ 2 := by
      rw [hBe, norm_sub_sq_real, _root_.norm_smul, u₁, inner_smul_left, ← hk, norm_sub_rev C A, hA, mul_one, Real.norm_eq_abs, sq_abs]
      simp only [RCLike.conj_to_real]
      ring
    exact (pow_left_inj₀ (_root_.norm_nonneg _) hρ.le two_ne_zero).mp this
  obtain ⟨μ, hμ⟩ : ∃ μ, μ = ρ⁻¹ • B := ⟨_, rfl⟩
  have hBμ : B = ρ • μ := by rw [hμ, smul_smul, mul_inv_cancel₀ hρ.ne', one_smul]
  have hμ1 : ‖-μ‖ = 1 := by
    rw [_root_.norm_neg, hμ, _root_.norm_smul, hBn, Real.norm_of_nonneg (by positivity), inv_mul_cancel₀ hρ.ne']
  have hμe₁ : ρ * inner ℝ e₁ (-μ) = -k := by
    rw [inner_neg_right, mul_neg, ← inner_smul_right, ← hBμ, hBe₁]
  have hcos' : η ^ 2 * (1 - inner ℝ e₁ (-μ) ^ 2) = 1 - (h / ρ) ^ 2 := by
    have hx : inner ℝ e₁ (-μ) = -k / ρ := by rw [eq_div_iff hρ.ne']; linarith
    rw [hx, div_pow, div_pow, neg_sq]
    field_simp
    linarith
  obtain ⟨e₂, s₂⟩ := snellExact_exists (η₁ := η) (d := e₁) one_pos hμ1 (by rw [hcos']; nlinarith [sq_nonneg (h / ρ)])
  have u₂ := s₂.unit one_pos u₁
  have ho : inner ℝ e₂ B = h := by
    have a := s₂.cosines hμ1
    rw [hcos', one_pow, one_mul] at a
    have b : inner ℝ e₂ B = -(ρ * inner ℝ e₂ (-μ)) := by
      rw [inner_neg_right, hBμ, inner_smul_right]; ring
    have c : 0 ≤ inner ℝ e₂ B := by
      rw [b]; have := mul_nonneg hρ.le (neg_nonneg.mpr s₂.across); linarith
    have d : inner ℝ e₂ B ^ 2 = h ^ 2 := by
      rw [b, neg_sq, mul_pow]
      have : inner ℝ e₂ (-μ) ^ 2 = (h / ρ) ^ 2 := by linarith
      rw [this]; field_simp
    exact (pow_left_inj₀ c hh.le two_ne_zero).mp d
  have r₁ := s₁.refracted hν1 hη0 he heν'.le
  have r₂ := (s₂.refracted hμ1 one_pos u₁ (by
    by_contra hx
    have := mul_pos hρ (not_le.mp hx)
    linarith)).flip
  rw [hν] at r₁ s₁
  rw [hμ, hB] at r₂ s₂
  rw [hB] at hBn hBe₁ ho
  exact ⟨e₁, e₂, k, ⟨r₁, hk.symm, hBn, r₂⟩, s₁, s₂, u₁, u₂, hhk, hkρ, hBe₁, ho, hcos⟩

theorem dirE_close {c : V3 ℝ} {x : E3} {ρ E : ℝ} (hρ : 0 < ρ) (hx : ‖x‖ = ρ) (hc : ‖c.toE - x‖ ≤ E) (hc0 : 0 < ‖c.toE‖) :
    ‖c.dirE - ρ⁻¹ • x‖ ≤ 2 * E / ρ := by
  have hcn := abs_norm_sub_norm_le c.toE x
  rw [hx] at hcn
  have e1 : c.dirE - ρ⁻¹ • x = (1 / ‖c.toE‖ - 1 / ρ) • c.toE + (1 / ρ) • (c.toE - x) := by
    unfold V3.dirE
    rw [smul_sub, sub_smul, one_div ρ]; abel
  have e2 : ‖(1 / ‖c.toE‖ - 1 / ρ) • c.toE‖ ≤ E / ρ := by
    rw [_root_.norm_smul, Real.norm_eq_abs, ← abs_of_pos hc0, ← abs_mul, abs_of_pos hc0,
      show (1 / ‖c.toE‖ - 1 / ρ) * ‖c.toE‖ = (ρ - ‖c.toE‖) / ρ by field_simp, abs_div, abs_of_pos hρ]
    apply div_le_div_of_nonneg_right _ hρ.le
    rw [abs_sub_comm]
    exact hcn.trans hc
  have e3 : ‖(1 / ρ) • (c.toE - x)‖ ≤ E / ρ := by
    rw [_root_.norm_smul, Real.norm_of_nonneg (by positivity), one_div, inv_mul_eq_div]
    exact div_le_div_of_nonneg_right hc hρ.le
  rw [e1]
  refine (norm_add_le _ _).trans ?_
  rw [show 2 * E / ρ = E / ρ + E / ρ by ring]
  linarith

/-- The unit vector of a computed difference. -/
theorem normal_near {c : V3 ℝ} {x : E3} {ρ E : ℝ} (hρ : 1 ≤ ρ) (hρ' : ρ ≤ 10 ^ 40) (hx : ‖x‖ = ρ) (hc : ‖c.toE - x‖ ≤ E)
    (hE : E ≤ ρ / 10) :
    ∃ n : V3 ℝ, unitVector (c.fl : V3 (Fl R)) = n.fl ∧ NearUnit R n ∧ 0 < ‖n.toE‖ ∧
      ‖n.dirE - ρ⁻¹ • x‖ ≤ 2 * E / ρ + 10 * R.u := by
  have hcn := abs_le.mp ((abs_norm_sub_norm_le c.toE x).trans hc)
  rw [hx] at hcn
  have hsane : SaneLength c := by
    constructor
    · exact le_trans (show (1 : ℝ) / 10 ^ 100 ≤ 1 / 2 by norm_num) (by linarith [hcn.1])
    · refine le_trans (show ‖c.toE‖ ≤ 2 * 10 ^ 40 by linarith [hcn.2]) (by norm_num)
  have hc0 : 0 < ‖c.toE‖ := by linarith
  obtain ⟨n, hn, en⟩ := unitVector_near (R := R) hsane
  have hnu : NearUnit R n := nearUnit_of (dirE_norm hc0) en
  have hus := (five_u (R := R)).2
  have hn0 : 0 < ‖n.toE‖ := by
    have := abs_le.mp hnu
    linarith
  refine ⟨n, hn, hnu, hn0, ?_⟩
  have a := dirE_near (dirE_norm hc0) hn0 en
  have b := dirE_close (by linarith) hx hc hc0
  have := norm_sub_le_norm_sub_add_norm_sub n.dirE c.dirE (ρ⁻¹ • x)
  linarith

/-- The computed normal faces the ray. -/
theorem faces {d m : V3 ℝ} {M E : E3} {a b μ : ℝ} (hE : ‖E‖ = 1) (ha : ‖d.toE - E‖ ≤ a)
    (hm : NearUnit R m) (hm0 : 0 < ‖m.toE‖) (hb : ‖m.dirE - M‖ ≤ b) (hμ : inner ℝ E M ≤ -μ) (hab : a + b + 5 * R.u ≤ μ) :
    inner ℝ d.toE m.dirE ≤ -(μ - a - b) ∧ inner ℝ d.toE m.toE < -(4 * R.u) := by
  have hu := R.u_pos
  have hus := (five_u (R := R)).2
  have e1 : inner ℝ d.toE m.dirE = inner ℝ E M + (inner ℝ (d.toE - E) m.dirE + inner ℝ E (m.dirE - M)) := by
    rw [inner_sub_left, inner_sub_right]; ring
  have a1 := (le_abs_self _).trans (abs_real_inner_le_norm (d.toE - E) m.dirE)
  have a2 := (le_abs_self _).trans (abs_real_inner_le_norm E (m.dirE - M))
  rw [dirE_norm hm0, mul_one] at a1
  rw [hE, one_mul] at a2
  have e2 : inner ℝ d.toE m.dirE ≤ -(μ - a - b) := by rw [e1]; linarith
  refine ⟨e2, ?_⟩
  have e3 : m.toE = ‖m.toE‖ • m.dirE := by
    unfold V3.dirE; rw [smul_smul, mul_one_div_cancel hm0.ne', one_smul]
  rw [e3, inner_smul_right]
  have e4 := (abs_le.mp hm).1
  have e5 : ‖m.toE‖ * inner ℝ d.toE m.dirE ≤ ‖m.toE‖ * -(5 * R.u) := mul_le_mul_of_nonneg_left (by linarith) hm0.le
  have e6 : 99 / 100 * (5 * R.u) ≤ ‖m.toE‖ * (5 * R.u) := mul_le_mul_of_nonneg_right (by linarith) (by linarith)
  linarith

/-- Refraction as computed, about a computed normal, compared with exact refraction about the exact normal. -/
theorem snell_near (hone : R.rnd 1 = .fin 1) {d n m : V3 ℝ} {M E e : E3} {η₁ η₂ a b κ r S : ℝ} (h1 : 1 ≤ η₁) (h1' : η₁ ≤ 4)
    (h2 : 1 ≤ η₂) (h2' : η₂ ≤ 4) (he : SnellExact η₁ η₂ M E e) (hM : ‖M‖ = 1) (hE : ‖E‖ = 1) (ha : ‖d.toE - E‖ ≤ a)
    (ha' : a ≤ 1 / 1000) (hn : NearUnit R n) (hm : m = n ∨ m = -n) (hm0 : 0 < ‖m.toE‖) (hb : ‖m.dirE - M‖ ≤ b)
    (hlt : inner ℝ d.toE m.toE < -(4 * R.u)) (hcrit : η₁ ^ 2 * (1 - inner ℝ d.toE m.dirE ^ 2) ≤ η₂ ^ 2)
    (hκ : κ = -inner ℝ e M) (hκ0 : 0 < κ) (hr : r = η₁ / η₂)
    (hS : 102 / 100 * (2 * (r * a) + 202 / 100 * (r * b) + 102 / 100 * b) + r ^ 2 * (202 / 100 * a + 205 / 100 * b) ≤ S)
    (hSκ : S / κ + b ≤ κ / 50) (hu : R.u ≤ κ ^ 2 / 1000) :
    ∃ w : V3 ℝ, snellDirection (d.fl : V3 (Fl R)) n.fl (Fl.fin η₁) (Fl.fin η₂) = .ok w.fl ∧ ‖w.toE - e‖ ≤ (S + 736 * R.u) / κ := by
  have hup := R.u_pos
  have hmd := dirE_norm hm0
  have hd3 : |‖d.toE‖ - 1| ≤ 1 / 1000 := by
    have := abs_norm_sub_norm_le d.toE E
    rw [hE] at this
    linarith
  obtain ⟨e', s'⟩ := snellExact_exists (d := d.toE) (by linarith : 0 < η₂) hmd hcrit
  have p := snell_perturb (by linarith) h1' h2 hM hmd he s' (by rw [hE]; norm_num) hd3 (a := a) (b := b)
    (by rw [norm_sub_rev]; exact ha) (by rw [norm_sub_rev]; exact hb) hr hκ
  have p' : ‖e - e'‖ ≤ S / κ := by
    rw [le_div_iff₀ hκ0, mul_comm]; exact p.trans hS
  have sz := s'.size h1' h2 hd3 (by linarith)
  have hcos : 979 / 1000 * κ ≤ |inner ℝ e' m.dirE| := by
    have e1 : inner ℝ e' m.dirE = -κ - inner ℝ (e - e') M + inner ℝ e' (m.dirE - M) := by
      rw [inner_sub_left, inner_sub_right, hκ]; ring
    have a1 := abs_real_inner_le_norm (e - e') M
    have a2 := abs_real_inner_le_norm e' (m.dirE - M)
    rw [hM, mul_one] at a1
    have a3 : ‖e'‖ * ‖m.dirE - M‖ ≤ 102 / 100 * b := mul_le_mul sz hb (_root_.norm_nonneg _) (by norm_num)
    have b0 : 0 ≤ b := (_root_.norm_nonneg _).trans hb
    have a4 := abs_le.mp (a1.trans p')
    have a5 := abs_le.mp (a2.trans a3)
    have a6 : inner ℝ e' m.dirE ≤ -(979 / 1000 * κ) := by
      rw [e1]
      have : S / κ + 102 / 100 * b ≤ 102 / 100 * (κ / 50) := by
        have := (_root_.norm_nonneg _).trans p'
        linarith
      linarith
    rw [abs_of_neg (by linarith)]; linarith
  have hc0 : 0 < |inner ℝ e' m.dirE| := by linarith
  obtain ⟨w, hw, ew⟩ := C103_direction hone h1 h1' h2 h2' hd3 hn hm hlt s' (by
    rw [← sq_abs]
    have := pow_le_pow_left₀ (by linarith) hcos 2
    nlinarith)
  refine ⟨w, hw, ?_⟩
  have e3 : 720 * R.u / |inner ℝ e' m.dirE| ≤ 736 * R.u / κ := by
    rw [div_le_div_iff₀ hc0 hκ0]
    nlinarith
  have := norm_sub_le_norm_sub_add_norm_sub w.toE e' e
  rw [norm_sub_rev e' e] at this
  rw [add_div]
  linarith

end Optics
