import Verif.Lemmas.RoundedSnell
import Verif.Props.RayOptics
import Verif.Lemmas.Dyadic64
import Verif.Lemmas.SnellClose

/-!
# C103: Snell's law with rounding
-/

namespace Optics
variable {R : Rounding}
open V3

/-- The directions of a ray along `k` surfaces between media of indices from 1 to 4, computed with rounding: at each surface
the code's `snells_law` branch is used; the ray is then in the new medium, or, if the result is the mirror image, still in
the old one.  The normals are any computed unit vectors. -/
inductive Refractions (R : Rounding) (η₀ : ℝ) (d₀ : V3 (Fl R)) : ℕ → ℝ → V3 (Fl R) → Prop
  | start : Refractions R η₀ d₀ 0 η₀ d₀
  | refracted {k : ℕ} {η : ℝ} {d : V3 (Fl R)} {η' : ℝ} {n : V3 ℝ} {w : V3 (Fl R)} :
      Refractions R η₀ d₀ k η d → 1 ≤ η' → η' ≤ 4 → NearUnit R n →
      snellDirection d n.fl (Fl.fin η) (Fl.fin η') = .ok w → w ≠ specular d n.fl → Refractions R η₀ d₀ (k + 1) η' w
  | reflected {k : ℕ} {η : ℝ} {d : V3 (Fl R)} {n : V3 ℝ} {w : V3 (Fl R)} :
      Refractions R η₀ d₀ k η d → NearUnit R n → w = specular d n.fl → Refractions R η₀ d₀ (k + 1) η w

/-- C103: a refraction computed with any rounding that represents 1.  For indices between 1 and 4, a computed unit normal
and a direction whose length is 1 within a thousandth, the computation gives finite numbers, never a NaN and never an
exception; and the new direction either
* obeys Snell's law `n₂ sin θ₂ = n₁ sin θ₁` in every tangential direction up to 36 rounding errors, is on the far side of
  the surface, and its length is off by what the old length was off, scaled by `(n₁/n₂)²`, up to 591 rounding errors; or
* is the mirror image, of length 1 again, and then the angle is at most rounding errors below the critical angle. -/
theorem C103_snell (hone : R.rnd 1 = .fin 1) {d n : V3 ℝ} {η₁ η₂ : ℝ} (h1 : 1 ≤ η₁) (h1' : η₁ ≤ 4) (h2 : 1 ≤ η₂)
    (h2' : η₂ ≤ 4) (hd : |‖d.toE‖ - 1| ≤ 1 / 1000) (hn : NearUnit R n) :
    ∃ w : V3 ℝ, snellDirection (d.fl : V3 (Fl R)) n.fl (Fl.fin η₁) (Fl.fin η₂) = .ok w.fl ∧
      (((∀ T : E3, inner ℝ n.toE T = 0 →
            |η₂ * inner ℝ w.toE T - η₁ * inner ℝ d.toE T| ≤ 36 * η₂ * ‖T‖ * R.u) ∧
          (∀ m : V3 ℝ, m = n ∨ m = -n → inner ℝ d.toE m.toE < -(4 * R.u) → inner ℝ w.toE m.toE ≤ 110 * R.u) ∧
          |η₂ ^ 2 * (‖w.toE‖ ^ 2 - 1) - η₁ ^ 2 * (‖d.toE‖ ^ 2 - 1)| ≤ 591 * η₂ ^ 2 * R.u ∧
          η₁ ^ 2 * (1 - inner ℝ d.toE n.toE ^ 2) ≤ η₂ ^ 2 * (1 + 240 * R.u)) ∨
        (η₂ < η₁ ∧ w.fl = specular (d.fl : V3 (Fl R)) n.fl ∧ NearUnit R w ∧ ‖w.toE - mirrorImage n d.dirE‖ ≤ 261 * R.u ∧
          η₂ ^ 2 * (1 - 240 * R.u) ≤ η₁ ^ 2 * (1 - inner ℝ d.toE n.toE ^ 2))) := by
  have hu := R.u_pos
  have hu' := (five_u (R := R)).2
  have p2 : 0 < η₂ := by linarith
  obtain ⟨m, c, hm, hface, hcos, hcC, hfr, hCb⟩ := snell_facing (R := R) hd hn
  obtain ⟨ρ, hρ⟩ : ∃ ρ, ρ = η₁ / η₂ := ⟨_, rfl⟩
  have hρη : η₁ = ρ * η₂ := by rw [hρ]; field_simp
  have hρ0 : 1 / 4 ≤ ρ := by rw [hρ, le_div_iff₀ p2]; linarith
  have hρ4 : ρ ≤ 4 := by rw [hρ, div_le_iff₀ p2]; linarith
  have hmn : inner ℝ d.toE m.toE ^ 2 = inner ℝ d.toE n.toE ^ 2 := by
    rcases hm with rfl | rfl
    · rfl
    · rw [toE_neg, inner_neg_right, neg_sq]
  have hmT : ∀ T : E3, inner ℝ n.toE T = 0 → inner ℝ m.toE T = 0 := by
    intro T hT
    rcases hm with rfl | rfl
    · exact hT
    · rw [toE_neg, inner_neg_left, hT, neg_zero]
  have hmu : NearUnit R m := by
    rcases hm with rfl | rfl
    · exact hn
    · unfold NearUnit; rw [toE_neg, _root_.norm_neg]; exact hn
  obtain ⟨r, q, c2, k, s2, hr, hq, hc2, hk, hs2, er, hra, hca, es2, et, hlo⟩ :=
    snell_sine (R := R) hρ0 hρ4 (C := -inner ℝ d.toE m.toE) (by rw [abs_neg]; exact hCb) hcC
  have hratio : (Fl.fin η₁ : Fl R) / Fl.fin η₂ = Fl.fin r := by
    rw [fl_div _ _ p2.ne', ← hρ, hr]; rfl
  have hsin : (Fl.fin r : Fl R) * Fl.fin r * (1.0 - Fl.fin c * Fl.fin c) = Fl.fin s2 := by
    rw [fl_mul, hq, fl_mul, hc2, fl_lit1 hone]
    change Fl.fin q * (Fl.fin 1 - Fl.fin c2) = _
    rw [fl_sub, hk]
    change Fl.fin q * Fl.fin k = _
    rw [fl_mul, hs2]; rfl
  have hz : PyNum.eqb (Fl.fin η₂ : Fl R) 0.0 = false := by
    rw [fl_lit0, fl_eqb]; simp [p2.ne']
  have hmid : |s2 - ρ ^ 2 * (1 - inner ℝ d.toE n.toE ^ 2)| ≤ 240 * R.u := by
    rw [neg_sq, hmn] at et
    rw [show s2 - ρ ^ 2 * (1 - inner ℝ d.toE n.toE ^ 2) = (s2 - r ^ 2 * (1 - c ^ 2)) +
      (r ^ 2 * (1 - c ^ 2) - ρ ^ 2 * (1 - inner ℝ d.toE n.toE ^ 2)) by ring]
    refine (abs_add_le _ _).trans ?_
    linarith
  have hmid' := abs_le.mp hmid
  have hη2 : 0 < η₂ ^ 2 := by positivity
  have key : snellDirection (d.fl : V3 (Fl R)) n.fl (Fl.fin η₁) (Fl.fin η₂) =
      if η₁ > η₂ ∧ s2 > 1 then .ok (specular (d.fl : V3 (Fl R)) n.fl) else
        .ok ((Fl.fin r : Fl R) * (d.fl : V3 (Fl R)) +
          ((Fl.fin r : Fl R) * Fl.fin c - PyNum.sqrt (1.0 - Fl.fin s2)) * (m.fl : V3 (Fl R))) := by
    unfold snellDirection
    simp only []
    rw [hz, hface, hcos, hratio, hsin, fl_lit1 hone]
    simp only [Bool.false_eq_true, if_false]
    rfl
  rw [key]
  by_cases htir : η₁ > η₂ ∧ s2 > 1
  · rw [if_pos htir]
    have hds : SaneLength d := sane_of_near (hd.trans (by norm_num))
    obtain ⟨w, hw, hwu, ew⟩ := specular_sane (R := R) hds hn.sane (N := n) (n := n)
      (by rw [_root_.norm_sub_rev, dirE_dist hn.sane.pos]; exact hn)
    refine ⟨w, by rw [hw], Or.inr ⟨htir.1, hw.symm, hwu, ew, ?_⟩⟩
    rw [hρη, mul_pow, mul_comm (ρ ^ 2) (η₂ ^ 2), mul_assoc]
    apply mul_le_mul_of_nonneg_left _ hη2.le
    linarith [htir.2]
  · rw [if_neg htir]
    have hs21 : s2 ≤ 1 := by
      by_contra h
      have hle : η₁ ≤ η₂ := by
        by_contra h'
        exact htir ⟨not_le.mp h', not_le.mp h⟩
      have hρ1 : ρ ≤ 1 := by rw [hρ, div_le_one p2]; exact hle
      have hr1 := rnd_le_one hone hρ1 hr
      have hr0 : 0 ≤ r := rnd_nonneg (by linarith) hr
      have hq1 := rnd_le_one hone (mul_le_one₀ hr1 hr0 hr1) hq
      have hq0 : 0 ≤ q := rnd_nonneg (mul_self_nonneg r) hq
      have hc20 : 0 ≤ c2 := rnd_nonneg (mul_self_nonneg c) hc2
      have hk1 := rnd_le_one hone (by linarith) hk
      have : q * k ≤ 1 := by
        rcases le_or_gt 0 k with hk0 | hk0
        · exact mul_le_one₀ hq1 hk0 hk1
        · have := mul_nonpos_of_nonneg_of_nonpos hq0 hk0.le
          linarith
      exact h (rnd_le_one hone this hs2)
    obtain ⟨g, s, hg, hg0, hs, hs0, hs1, es⟩ := snell_root (R := R) hs21 hlo es2
    have hroot : PyNum.sqrt ((1.0 : Fl R) - Fl.fin s2) = Fl.fin s := by
      rw [fl_lit1 hone, fl_sub, hg]
      change PyNum.sqrt (Fl.fin g : Fl R) = _
      rw [fl_sqrt _ hg0, hs]; rfl
    rw [hroot]
    obtain ⟨w, hw, ew⟩ := snell_vector (R := R) hd hmu hra hca hs0 hs1
    have hcC' : |c + inner ℝ d.toE m.toE| ≤ 18 / 5 * R.u := by rwa [sub_neg_eq_add] at hcC
    obtain ⟨hlen, hcross⟩ := snell_length (d := d.toE) (n := m.toE) (w := w.toE) hu (by linarith) hd hmu hra hca hs0 hs1
      hcC' es ew
    have hd1 : ‖d.toE‖ ≤ 1001 / 1000 := by linarith [(abs_le.mp hd).2]
    refine ⟨w, by rw [hw], Or.inl ⟨?_, ?_, ?_, ?_⟩⟩
    · intro T hT
      have e : η₂ * inner ℝ w.toE T - η₁ * inner ℝ d.toE T =
          η₂ * (inner ℝ (w.toE - (r • d.toE + (r * c - s) • m.toE)) T + (r - ρ) * inner ℝ d.toE T) := by
        rw [inner_sub_left, inner_add_left, inner_smul_left, inner_smul_left, hmT T hT, hρη]
        simp only [conj_trivial]
        ring
      rw [e, abs_mul, abs_of_pos p2]
      have a1 := (abs_real_inner_le_norm (w.toE - (r • d.toE + (r * c - s) • m.toE)) T).trans
        (mul_le_mul_of_nonneg_right ew (_root_.norm_nonneg T))
      have a2 := abs_mul_le' er (abs_real_inner_le_norm d.toE T)
      have a3 : 401 / 100 * R.u * (‖d.toE‖ * ‖T‖) ≤ 401 / 100 * R.u * (1001 / 1000 * ‖T‖) := by
        apply mul_le_mul_of_nonneg_left _ (by positivity)
        exact mul_le_mul_of_nonneg_right hd1 (_root_.norm_nonneg T)
      have a4 := abs_add_le (inner ℝ (w.toE - (r • d.toE + (r * c - s) • m.toE)) T) ((r - ρ) * inner ℝ d.toE T)
      have a5 : 0 ≤ R.u * ‖T‖ := by positivity
      rw [show 36 * η₂ * ‖T‖ * R.u = η₂ * (36 * (R.u * ‖T‖)) by ring]
      apply mul_le_mul_of_nonneg_left _ p2.le
      linarith
    · intro m' hm' hlt
      have : m' = m := by
        rcases hm with rfl | rfl <;> rcases hm' with rfl | rfl
        · rfl
        · exfalso; rw [toE_neg, inner_neg_right] at hlt; linarith
        · exfalso; rw [toE_neg, inner_neg_right] at hfr; linarith
        · rfl
      rw [this]; exact hcross
    · have hdd : |‖d.toE‖ ^ 2 - 1| ≤ 21 / 10000 := by
        have := abs_le.mp hd
        rw [abs_le]; constructor <;> nlinarith
      have a2 : |r + ρ| ≤ 802 / 100 := by
        refine (abs_add_le _ _).trans ?_
        rw [abs_of_nonneg (show 0 ≤ ρ by linarith)]; linarith
      have a3 := abs_mul_le' (abs_mul_le' er a2) hdd
      rw [hρη, show η₂ ^ 2 * (‖w.toE‖ ^ 2 - 1) - (ρ * η₂) ^ 2 * (‖d.toE‖ ^ 2 - 1) = η₂ ^ 2 *
        ((‖w.toE‖ ^ 2 - 1 - r ^ 2 * (‖d.toE‖ ^ 2 - 1)) + (r - ρ) * (r + ρ) * (‖d.toE‖ ^ 2 - 1)) by ring, abs_mul,
        abs_of_pos hη2, show 591 * η₂ ^ 2 * R.u = η₂ ^ 2 * (591 * R.u) by ring]
      apply mul_le_mul_of_nonneg_left _ hη2.le
      refine (abs_add_le _ _).trans ?_
      linarith
    · rw [hρη, mul_pow, mul_comm (ρ ^ 2) (η₂ ^ 2), mul_assoc]
      apply mul_le_mul_of_nonneg_left _ hη2.le
      linarith

/-- C103, what the formula does to the length of a direction with exact numbers: nothing is normalised, so a direction that
is too long by a little stays so. -/
theorem C103_exact {d n : V3 ℝ} {η₁ η₂ : ℝ} (h1 : 0 < η₁) (h2 : 0 < η₂) (hn : ‖n.toE‖ = 1)
    (hc : η₁ ^ 2 * (1 - inner ℝ d.toE n.toE ^ 2) ≤ η₂ ^ 2) :
    ∃ w : V3 ℝ, snellDirection d n η₁ η₂ = .ok w ∧
      ∀ m : V3 ℝ, m = n ∨ m = -n → inner ℝ d.toE m.toE < 0 → SnellExact η₁ η₂ m.toE d.toE w.toE := by
  have hc' : (η₁ / η₂) ^ 2 * (1 - dot d n ^ 2) ≤ 1 := by
    rw [inner_toE] at hc
    rw [div_pow, div_mul_eq_mul_div, div_le_one (by positivity)]
    exact hc
  refine ⟨snellOut d (facing d n) (η₁ / η₂), ?_, ?_⟩
  · rw [snell_eq d n η₁ η₂ h2.ne', if_neg]
    rintro ⟨-, h⟩
    linarith
  · intro m hm hlt
    have hfm : facing d n = m := by
      rw [inner_toE] at hlt
      unfold facing
      rcases hm with rfl | rfl
      · rw [if_pos hlt]
      · rw [dot_neg_right] at hlt
        rw [if_neg (by linarith)]
    have hmn : ‖m.toE‖ = 1 := by
      rcases hm with rfl | rfl
      · exact hn
      · rw [toE_neg, _root_.norm_neg]; exact hn
    have hmd : dot d m ^ 2 = dot d n ^ 2 := by
      rcases hm with rfl | rfl
      · rfl
      · rw [dot_neg_right]; ring
    rw [hfm]
    unfold snellOut
    obtain ⟨ρ, hρ⟩ : ∃ ρ, ρ = η₁ / η₂ := ⟨_, rfl⟩
    have hρη : η₁ = ρ * η₂ := by rw [hρ]; field_simp
    rw [← hρ] at hc' ⊢
    obtain ⟨s, hs⟩ : ∃ s, s = Real.sqrt (1 - ρ ^ 2 * (1 - dot d m ^ 2)) := ⟨_, rfl⟩
    have hs0 : 0 ≤ s := hs ▸ Real.sqrt_nonneg _
    have hss : s ^ 2 = 1 - ρ ^ 2 * (1 - dot d m ^ 2) := by
      rw [hs, Real.sq_sqrt]
      rw [hmd]; linarith
    rw [← hs, toE_add, toE_smul, toE_smul]
    rw [← inner_toE] at hss ⊢
    have hmm : inner ℝ m.toE m.toE = 1 := by rw [real_inner_self_eq_norm_sq, hmn]; norm_num
    refine ⟨?_, ?_, ?_⟩
    · intro T hT
      rw [inner_add_left, inner_smul_left, inner_smul_left, hT, hρη]
      simp only [conj_trivial]
      ring
    · rw [norm_add_sq_real, inner_smul_left, inner_smul_right, _root_.norm_smul, _root_.norm_smul, mul_pow, mul_pow,
        Real.norm_eq_abs, Real.norm_eq_abs, sq_abs, sq_abs, hmn, hρη]
      simp only [conj_trivial]
      linear_combination η₂ ^ 2 * hss
    · rw [inner_add_left, inner_smul_left, inner_smul_left, hmm]
      simp only [conj_trivial]
      linarith

/-- C103, accuracy: unless the refracted ray is within about `20 √u` of grazing, the computed direction is within
`720 u / cos θ₂` of the exact one. -/
theorem C103_direction (hone : R.rnd 1 = .fin 1) {d n m : V3 ℝ} {η₁ η₂ : ℝ} (h1 : 1 ≤ η₁) (h1' : η₁ ≤ 4) (h2 : 1 ≤ η₂)
    (h2' : η₂ ≤ 4) (hd : |‖d.toE‖ - 1| ≤ 1 / 1000) (hn : NearUnit R n) (hm : m = n ∨ m = -n)
    (hlt : inner ℝ d.toE m.toE < -(4 * R.u)) {e : E3} (he : SnellExact η₁ η₂ m.dirE d.toE e)
    (hκ : 420 * R.u < inner ℝ e m.dirE ^ 2) :
    ∃ w : V3 ℝ, snellDirection (d.fl : V3 (Fl R)) n.fl (Fl.fin η₁) (Fl.fin η₂) = .ok w.fl ∧
      ‖w.toE - e‖ ≤ 720 * R.u / |inner ℝ e m.dirE| := by
  have hu := R.u_pos
  have hu' := (five_u (R := R)).2
  have p2 : 0 < η₂ := by linarith
  have p1 : 0 < η₁ := by linarith
  have hη2 : 0 < η₂ ^ 2 := by positivity
  have hmu : NearUnit R m := by
    rcases hm with rfl | rfl
    · exact hn
    · unfold NearUnit; rw [toE_neg, _root_.norm_neg]; exact hn
  have hmp := hmu.sane.pos
  obtain ⟨M, hM⟩ : ∃ M, M = m.dirE := ⟨_, rfl⟩
  have hM1 : ‖M‖ = 1 := by rw [hM]; exact dirE_norm hmp
  have hmM : m.toE = ‖m.toE‖ • M := by
    rw [hM]; unfold V3.dirE; rw [smul_smul, mul_one_div_cancel hmp.ne', one_smul]
  rw [← hM] at he hκ ⊢
  obtain ⟨hT, hL, hA⟩ := he
  obtain ⟨κ, hκe⟩ : ∃ κ, κ = -inner ℝ e M := ⟨_, rfl⟩
  have hκ0 : 0 ≤ κ := by linarith
  rw [show |inner ℝ e M| = κ by rw [hκe, abs_of_nonpos hA]]
  rw [show inner ℝ e M ^ 2 = κ ^ 2 by rw [hκe]; ring] at hκ
  have hκbig : 20000 * R.u ≤ κ := by
    exact big_cos hu (by linarith) hκ0 hκ
  have hκp : 0 < κ := by linarith
  -- sizes
  have he1 := SnellExact.size ⟨hT, hL, hA⟩ h1' h2 hd
  have hnM : ∀ T : E3, inner ℝ M T = 0 → inner ℝ n.toE T = 0 := by
    intro T h
    have h' : inner ℝ m.toE T = 0 := by rw [hmM, inner_smul_left, h, mul_zero]
    rcases hm with rfl | rfl
    · exact h'
    · rw [toE_neg, inner_neg_left] at h'; linarith
  have hnd : inner ℝ d.toE n.toE ^ 2 = ‖m.toE‖ ^ 2 * inner ℝ d.toE M ^ 2 := by
    have : inner ℝ d.toE m.toE = ‖m.toE‖ * inner ℝ d.toE M := by
      conv_lhs => rw [hmM]
      rw [inner_smul_right]
    rcases hm with rfl | rfl
    · rw [this, mul_pow]
    · rw [← mul_pow, ← this, toE_neg, inner_neg_right]; ring
  -- the exact cosine
  have hcosine := (show SnellExact η₁ η₂ M d.toE e from ⟨hT, hL, hA⟩).cosine hM1
  obtain ⟨w, hw, h | h⟩ := C103_snell (R := R) hone h1 h1' h2 h2' hd hn
  · refine ⟨w, hw, ?_⟩
    obtain ⟨ht, hx, hl, -⟩ := h
    rw [le_div_iff₀ hκp]
    refine snell_close hu hM1 he1 ?_ ?_ ?_ hκe hκbig
    · intro T hTM
      have a := ht T (hnM T hTM)
      rw [← hT T hTM, ← mul_sub, ← inner_sub_left, abs_mul, abs_of_pos p2] at a
      refine le_of_mul_le_mul_left (a := η₂) (a.trans (le_of_eq ?_)) p2
      ring
    · have b := hx m hm hlt
      rw [hmM, inner_smul_right] at b
      have c := (abs_le.mp hmu).1
      by_contra hc
      push Not at hc
      have : (1 - 5 * R.u) * (111 * R.u) < ‖m.toE‖ * inner ℝ w.toE M := by
        apply mul_lt_mul' (by linarith) (by linarith) (by positivity) hmp
      nlinarith
    · rw [← hL, ← mul_sub, abs_mul, abs_of_pos hη2] at hl
      have : η₂ ^ 2 * |‖w.toE‖ ^ 2 - 1 - (‖e‖ ^ 2 - 1)| ≤ η₂ ^ 2 * (591 * R.u) := by linarith
      have := le_of_mul_le_mul_left this hη2
      rwa [sub_sub_sub_cancel_right] at this
  · exfalso
    obtain ⟨-, -, -, -, hs⟩ := h
    rw [hnd] at hs
    rw [show inner ℝ e M ^ 2 = κ ^ 2 by rw [hκe]; ring] at hcosine
    exact absurd (below_critical hu (by linarith) p1.le h1' h2 hM1 hd hmu hcosine hs) (not_le.mpr hκ)

/-- C103 for any number of surfaces: the length of the direction drifts by at most a fixed number of rounding errors per
surface, although no refraction normalises it; the errors do not multiply.  So the hypothesis of `C103_snell` and
`C103_direction` on the length holds at each of some hundred million surfaces when computing with doubles. -/
theorem C103_chain (hone : R.rnd 1 = .fin 1) {d₀ : V3 ℝ} {η₀ : ℝ} (h1 : 1 ≤ η₀) (h1' : η₀ ≤ 4) {k : ℕ} {η : ℝ}
    {D : V3 (Fl R)} (hk : η₀ ^ 2 * |‖d₀.toE‖ ^ 2 - 1| + 9456 * k * R.u ≤ 1 / 1000)
    (h : Refractions R η₀ d₀.fl k η D) :
    (1 ≤ η ∧ η ≤ 4) ∧ ∃ d : V3 ℝ, D = d.fl ∧
      η ^ 2 * |‖d.toE‖ ^ 2 - 1| ≤ η₀ ^ 2 * |‖d₀.toE‖ ^ 2 - 1| + 9456 * k * R.u ∧ |‖d.toE‖ - 1| ≤ 1 / 1000 := by
  have hu := R.u_pos
  have hu' := (five_u (R := R)).2
  have fromSq : ∀ {x b η : ℝ}, 0 ≤ x → 1 ≤ η → η ^ 2 * |x ^ 2 - 1| ≤ b → b ≤ 1 / 1000 → |x - 1| ≤ 1 / 1000 := by
    intro x b η hx hη h hb
    have e1 : |x - 1| ≤ |x ^ 2 - 1| := by
      rw [show x ^ 2 - 1 = (x - 1) * (x + 1) by ring, abs_mul, abs_of_nonneg (show 0 ≤ x + 1 by linarith)]
      exact le_mul_of_one_le_right (abs_nonneg _) (by linarith)
    have e2 : |x ^ 2 - 1| ≤ η ^ 2 * |x ^ 2 - 1| := le_mul_of_one_le_left (abs_nonneg _) (by nlinarith)
    linarith
  obtain ⟨b, hb⟩ : ∃ b, b = η₀ ^ 2 * |‖d₀.toE‖ ^ 2 - 1| := ⟨_, rfl⟩
  rw [← hb] at hk ⊢
  have hb0 : 0 ≤ b := by rw [hb]; positivity
  induction h with
  | start =>
    refine ⟨⟨h1, h1'⟩, d₀, rfl, by rw [hb]; linarith [show (0 : ℝ) ≤ 9456 * ((0 : ℕ) : ℝ) * R.u by positivity], ?_⟩
    refine fromSq (_root_.norm_nonneg _) h1 hb.symm.le ?_
    push_cast at hk; linarith
  | refracted hprev h3 h4 hn hw hne ih =>
    rename_i k η D η' n W
    push_cast at hk
    obtain ⟨⟨e1, e2⟩, d, rfl, e3, e4⟩ := ih (by linarith)
    obtain ⟨w, hw', ⟨-, -, hl, -⟩ | ⟨-, hsp, -⟩⟩ := C103_snell (R := R) hone e1 e2 h3 h4 e4 hn
    · rw [hw] at hw'
      have hW : W = w.fl := by injection hw'
      have p1 : 0 < η ^ 2 := by positivity
      have p2 : 0 < η' ^ 2 := by positivity
      have hstep : η' ^ 2 * |‖w.toE‖ ^ 2 - 1| ≤ b + 9456 * (k + 1) * R.u := by
        have q1 := abs_sub_abs_le_abs_sub (η' ^ 2 * (‖w.toE‖ ^ 2 - 1)) (η ^ 2 * (‖d.toE‖ ^ 2 - 1))
        rw [abs_mul, abs_mul, abs_of_pos p1, abs_of_pos p2] at q1
        have q2 : 591 * η' ^ 2 * R.u ≤ 9456 * R.u := by
          have : η' ^ 2 ≤ 16 := by nlinarith
          exact mul_le_mul_of_nonneg_right (by linarith) hu.le
        linarith
      refine ⟨⟨h3, h4⟩, w, hW, by push_cast; exact hstep, fromSq (_root_.norm_nonneg _) h3 hstep hk⟩
    · exfalso
      rw [hw] at hw'
      have hW : W = w.fl := by injection hw'
      exact hne (hW.trans hsp)
  | reflected hprev hn hw ih =>
    rename_i k η D n W
    push_cast at hk
    obtain ⟨⟨e1, e2⟩, d, rfl, e3, e4⟩ := ih (by linarith)
    have hds : SaneLength d := sane_of_near (e4.trans (by norm_num))
    obtain ⟨w, hw', hwu, -⟩ := specular_sane (R := R) hds hn.sane (N := n) (n := n)
      (by rw [_root_.norm_sub_rev, dirE_dist hn.sane.pos]; exact hn)
    have hlen : |‖w.toE‖ ^ 2 - 1| ≤ 101 / 10 * R.u := by
      have hw2 := abs_le.mp hwu
      rw [show ‖w.toE‖ ^ 2 - 1 = (‖w.toE‖ - 1) * (‖w.toE‖ + 1) by ring]
      refine (abs_mul_le' (B := 2001 / 1000) hwu ?_).trans (by linarith)
      rw [abs_le]; constructor <;> linarith
    have hstep : η ^ 2 * |‖w.toE‖ ^ 2 - 1| ≤ b + 9456 * (k + 1) * R.u := by
      have q1 : η ^ 2 ≤ 16 := by nlinarith
      have q2 := mul_le_mul q1 hlen (abs_nonneg _) (by norm_num)
      have q3 : 0 ≤ (k : ℝ) * R.u := by positivity
      linarith
    refine ⟨⟨e1, e2⟩, w, hw.trans hw', by push_cast; exact hstep, fromSq (_root_.norm_nonneg _) e1 hstep hk⟩

/-! ## The hypotheses hold -/

/-- Doubles represent 1. -/
theorem binary64_one : binary64.rnd 1 = .fin 1 := by
  have := rnd64_dyE (x := 1) (m := 1) (e := 0) (by norm_num) (by norm_num) (by norm_num) (by norm_num)
  show rnd64 1 = _
  rw [this]; norm_num

/-- Doubles: a ray with direction (3/5, 0, -4/5) (rounded or not) enters glass of index 3/2 through a surface with normal
`z`; the computed direction is (2/5, 0, -√21/5) up to 787 rounding errors. -/
example : ∃ w : V3 ℝ,
    snellDirection (V3.fl ⟨3 / 5, 0, -4 / 5⟩ : V3 D64) (V3.fl ⟨0, 0, 1⟩) (Fl.fin 1) (Fl.fin (3 / 2)) = .ok w.fl ∧
      ‖w.toE - (⟨2 / 5, 0, -(Real.sqrt 21 / 5)⟩ : V3 ℝ).toE‖ ≤ 787 / 2 ^ 53 := by
  have hu : binary64.u = 1 / 2 ^ 53 := rfl
  have hz : ‖(⟨0, 0, 1⟩ : V3 ℝ).toE‖ = 1 := by rw [norm_toE]; simp [V3.norm, dot]
  have hd : ‖(⟨3 / 5, 0, -4 / 5⟩ : V3 ℝ).toE‖ = 1 := by
    rw [norm_toE, norm_eq_one_iff]; norm_num [dot]
  have h21 : Real.sqrt 21 ^ 2 = 21 := Real.sq_sqrt (by norm_num)
  have h4 : (229 / 50 : ℝ) < Real.sqrt 21 := by rw [Real.lt_sqrt (by norm_num)]; norm_num
  have he : ‖(⟨2 / 5, 0, -(Real.sqrt 21 / 5)⟩ : V3 ℝ).toE‖ = 1 := by
    rw [norm_toE, norm_eq_one_iff]; simp only [dot]; nlinarith
  have hdir : (⟨0, 0, 1⟩ : V3 ℝ).dirE = (⟨0, 0, 1⟩ : V3 ℝ).toE := by
    unfold V3.dirE; rw [hz, div_one, one_smul]
  have hin : inner ℝ (⟨2 / 5, 0, -(Real.sqrt 21 / 5)⟩ : V3 ℝ).toE (⟨0, 0, 1⟩ : V3 ℝ).toE = -(Real.sqrt 21 / 5) := by
    rw [inner_toE]; simp [dot]
  have hsn : SnellExact 1 (3 / 2) (⟨0, 0, 1⟩ : V3 ℝ).dirE (⟨3 / 5, 0, -4 / 5⟩ : V3 ℝ).toE
      (⟨2 / 5, 0, -(Real.sqrt 21 / 5)⟩ : V3 ℝ).toE := by
    refine ⟨?_, by rw [hd, he]; norm_num, by rw [hdir, hin]; linarith⟩
    intro T hT
    rw [hdir] at hT
    have e : (⟨2 / 5, 0, -(Real.sqrt 21 / 5)⟩ : V3 ℝ).toE =
        (2 / 3 : ℝ) • (⟨3 / 5, 0, -4 / 5⟩ : V3 ℝ).toE + (8 / 15 - Real.sqrt 21 / 5) • (⟨0, 0, 1⟩ : V3 ℝ).toE := by
      rw [← toE_smul, ← toE_smul, ← toE_add]
      congr 1
      apply V3.ext <;> simp <;> ring
    rw [e, inner_add_left, inner_smul_left, inner_smul_left, hT]
    simp only [conj_trivial]
    ring
  obtain ⟨w, hw, hb⟩ := C103_direction (R := binary64) binary64_one (d := ⟨3 / 5, 0, -4 / 5⟩) (n := ⟨0, 0, 1⟩)
    (m := ⟨0, 0, 1⟩) (η₁ := 1) (η₂ := 3 / 2) (by norm_num) (by norm_num) (by norm_num) (by norm_num)
    (by rw [hd]; norm_num) (by unfold NearUnit; rw [hz, sub_self, abs_zero]; linarith [binary64.u_pos]) (.inl rfl)
    (by rw [inner_toE, hu]; norm_num [dot]) hsn (by rw [hdir, hin, hu, neg_sq, div_pow, h21]; norm_num)
  refine ⟨w, hw, hb.trans ?_⟩
  rw [hdir, hin, abs_neg, abs_of_nonneg (by linarith), hu, div_le_iff₀ (by linarith)]
  norm_num
  linarith

/-- A ray goes through any number of surfaces: into glass, and then, say, reflected inside it. -/
example (hone : R.rnd 1 = .fin 1) (k : ℕ) : ∃ D, Refractions R 1 (V3.fl ⟨0, 0, 1⟩) (k + 1) (3 / 2) D := by
  have hu := R.u_pos
  have hu' := (five_u (R := R)).2
  have hz : ‖(⟨0, 0, 1⟩ : V3 ℝ).toE‖ = 1 := by rw [norm_toE]; simp [V3.norm, dot]
  have hn : NearUnit R ⟨0, 0, 1⟩ := by unfold NearUnit; rw [hz, sub_self, abs_zero]; linarith
  have hdir : (⟨0, 0, 1⟩ : V3 ℝ).dirE = (⟨0, 0, 1⟩ : V3 ℝ).toE := by
    unfold V3.dirE; rw [hz, div_one, one_smul]
  have hzz : inner ℝ (⟨0, 0, 1⟩ : V3 ℝ).toE (⟨0, 0, 1⟩ : V3 ℝ).toE = 1 := by
    rw [real_inner_self_eq_norm_sq, hz]; norm_num
  induction k with
  | zero =>
    obtain ⟨w, hw, ⟨-, hx, -⟩ | ⟨h, -⟩⟩ := C103_snell (R := R) hone (d := ⟨0, 0, 1⟩) (n := ⟨0, 0, 1⟩) (η₁ := 1) (η₂ := 3 / 2)
      (by norm_num) (by norm_num) (by norm_num) (by norm_num) (by rw [hz]; norm_num) hn
    · refine ⟨w.fl, .refracted .start (by norm_num) (by norm_num) hn hw ?_⟩
      intro hsp
      obtain ⟨w', hw', -, hm⟩ := specular_sane (R := R) hn.sane hn.sane (N := ⟨0, 0, 1⟩) (n := ⟨0, 0, 1⟩)
        (by rw [_root_.norm_sub_rev, dirE_dist hn.sane.pos]; exact hn)
      have e : w = w' := by
        have := hsp.trans hw'
        simp only [V3.fl, Fl.fin, V3.mk.injEq, Fl.mk.injEq, XR.fin.injEq] at this
        exact V3.ext this.1 this.2.1 this.2.2
      have h1 := hx (-⟨0, 0, 1⟩) (.inr rfl) (by rw [toE_neg, inner_neg_right, hzz]; linarith)
      rw [← e, mirrorImage_apply hn.sane.pos, hdir, hzz] at hm
      have h2 := abs_real_inner_le_norm (w.toE - ((⟨0, 0, 1⟩ : V3 ℝ).toE - ((2 * 1 : ℝ)) • (⟨0, 0, 1⟩ : V3 ℝ).toE))
        (⟨0, 0, 1⟩ : V3 ℝ).toE
      rw [inner_sub_left, inner_sub_left, inner_smul_left, hzz, hz, mul_one] at h2
      simp only [conj_trivial] at h2
      rw [toE_neg, inner_neg_right] at h1
      have := (abs_le.mp (h2.trans ((mul_one _).le.trans hm))).2
      linarith
    · norm_num at h
  | succ k ih =>
    obtain ⟨D, h⟩ := ih
    exact ⟨_, .reflected h hn rfl⟩

end Optics
