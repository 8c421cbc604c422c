import Verif.Lemmas.DmdBench

/-!
# The route of a ray through the optics of script_testDMD.py
-/

namespace Optics
open V3

theorem dist_le_of {a b : V3 ℝ} {B : ℝ} (hB : 0 ≤ B) (h : dot (b - a) (b - a) ≤ B ^ 2) : dist a.toE b.toE ≤ B := by
  rw [dist_comm, dist_eq_norm, ← toE_sub, norm_toE, norm_eq]
  exact Real.sqrt_le_iff.mpr ⟨hB, h⟩

theorem lt_dist_of {a b : V3 ℝ} {A : ℝ} (h : A ^ 2 < dot (b - a) (b - a)) : A < dist a.toE b.toE := by
  rw [dist_comm, dist_eq_norm, ← toE_sub, norm_toE, norm_eq]
  exact Real.lt_sqrt_of_sq_lt h

/-- What is known of the optics. -/
structure DmdFacts (σ κ s c : ℝ) (M : Mirror ℝ) (l1 l2 : Lens ℝ) (d : Detector ℝ) : Prop where
  f1 : (Optic.lens l1).IsFlat ⟨0, 100, 0⟩ ⟨0, -1, 0⟩
  fM : (Optic.mirror M).IsFlat ⟨0, 200, 0⟩ ⟨0, -1, 0⟩
  f2 : (Optic.lens l2).IsFlat ⟨50 * σ, 200 - 50 * κ, 0⟩ ⟨-(σ / κ), 1, 0⟩
  fd : (Optic.detector d).IsFlat ⟨100 * σ, 200 - 100 * κ, 0⟩ ⟨-(2 * σ * κ / (κ ^ 2 - σ ^ 2)), 1, 0⟩
  q1 : ∀ P : V3 ℝ, (Optic.lens l1).CanBeHit P ↔ P.y = 100 ∧ dist P.toE (⟨0, 100, 0⟩ : V3 ℝ).toE < 25 / 2
  qM : ∀ P : V3 ℝ, P.y = 200 → dist P.toE (⟨0, 200, 0⟩ : V3 ℝ).toE ≤ 25 → (Optic.mirror M).CanBeHit P
  q2 : ∀ P : V3 ℝ, (Optic.lens l2).CanBeHit P ↔ 50 = σ * P.x + κ * (200 - P.y) ∧
    dist P.toE (⟨50 * σ, 200 - 50 * κ, 0⟩ : V3 ℝ).toE < 25 / 2
  qd : ∀ P : V3 ℝ, 100 * κ = 2 * σ * κ * P.x + (κ ^ 2 - σ ^ 2) * (200 - P.y) →
    dist P.toE (⟨100 * σ, 200 - 100 * κ, 0⟩ : V3 ℝ).toE ≤ 15 → (Optic.detector d).CanBeHit P
  qd' : ∀ P : V3 ℝ, (Optic.detector d).CanBeHit P →
    dot (P - ⟨100 * σ, 200 - 100 * κ, 0⟩) (P - ⟨100 * σ, 200 - 100 * κ, 0⟩) ≤ 450
  law1 : l1.type = "ideal" ∧ l1.f = some 50 ∧ l1.position = ⟨0, 100, 0⟩
  law2 : l2.type = "ideal" ∧ l2.f = some 25 ∧ l2.position = ⟨50 * σ, 200 - 50 * κ, 0⟩
  lawM : M.type = "dmd" ∧ M.dmdNormal = ⟨s, -c, 0⟩
  id : d.id = 0

theorem nLens1 : (⟨0, -1, 0⟩ : V3 ℝ) ≠ ⟨0, 0, 0⟩ := e_ne (by norm_num)
theorem nLens2 (a : ℝ) : (⟨a, 1, 0⟩ : V3 ℝ) ≠ ⟨0, 0, 0⟩ := e_ne (by norm_num)
theorem nTangent : (⟨0, 0, 1⟩ : V3 ℝ) ≠ ⟨0, 0, 0⟩ := e_ne (by norm_num)

theorem dot_unitVector_zero {n : V3 ℝ} (hn : n ≠ ⟨0, 0, 0⟩) (v : V3 ℝ) : dot v (unitVector n) = 0 ↔ dot v n = 0 := by
  rw [unitVector, dot_div_right, div_eq_zero_iff, or_iff_left (norm_pos hn).ne']

theorem DmdOptics.facts {σ κ s c : ℝ} (ha : DmdAngles σ κ s c) {M : Mirror ℝ} {l1 l2 : Lens ℝ} {d : Detector ℝ}
    (h : DmdOptics σ κ s c M l1 l2 d) : DmdFacts σ κ s c M l1 l2 d := by
  obtain ⟨ql1, a1, a2, a3, a4⟩ := benchLens_flat nLens1 (by norm_num) (by norm_num) (by norm_num) h.lens1
  obtain ⟨ql2, b1, b2, b3, b4⟩ := benchLens_flat (nLens2 _) (by norm_num) (by norm_num) (by norm_num) h.lens2
  have hdmd : (⟨s / c, -1, 0⟩ : V3 ℝ) ≠ ⟨0, 0, 0⟩ := e_ne (by norm_num)
  have qM := mirror_flat (D := none) (f := none) nLens1 nTangent (w := 50) (h := 50) (by norm_num) (by norm_num) nofun nofun hdmd h.mirror
  obtain ⟨qd, d1⟩ := detector_flat (nLens2 _) nTangent (by norm_num) (by norm_num) h.detector
  obtain ⟨m1, m2⟩ := mirror_new_facts h.mirror
  have hκ : κ ≠ 0 := by linarith [ha.κlo]
  have hκ2 : κ ^ 2 - σ ^ 2 ≠ 0 := by linarith [cos2_pos ha]
  have hc := ha.cpos
  refine ⟨.lens (by norm_num) (by norm_num) (by norm_num) h.lens1,
    .rectangleMirror (D := none) (f := none) nTangent (w := 50) (h := 50) (by norm_num) (by norm_num) nofun nofun hdmd h.mirror,
    .lens (by norm_num) (by norm_num) (by norm_num) h.lens2, .detector nTangent (by norm_num) (by norm_num) h.detector,
    fun P => ?_, fun P hP hdist => ?_, fun P => ?_, fun P hP hdist => ?_, fun P hP => ?_, ⟨a4, a3, a1⟩, ⟨b4, b3, b1⟩, ⟨m1, ?_⟩, d1⟩
  · rw [ql1.canBeHit_iff nLens1, dot_unitVector_zero nLens1]
    refine and_congr_left' ?_
    simp only [dot, sub_x, sub_y, sub_z]
    constructor <;> intro h <;> linarith
  · rw [qM.canBeHit_iff nLens1, dot_unitVector_zero nLens1]
    refine ⟨?_, rectangle_near nLens1 nTangent (by norm_num [dot]) (by linarith) (by linarith)⟩
    simp only [dot, sub_x, sub_y, sub_z, hP]
    ring
  · rw [ql2.canBeHit_iff (nLens2 _), dot_unitVector_zero (nLens2 _), lens2_offset ha]
    refine and_congr_left' ?_
    rw [div_eq_zero_iff, or_iff_left hκ]
    constructor <;> intro h <;> linarith
  · rw [qd.canBeHit_iff (nLens2 _), dot_unitVector_zero (nLens2 _), detector_offset ha]
    refine ⟨?_, rectangle_near (nLens2 _) nTangent (by norm_num [dot]) (by linarith) (by linarith)⟩
    rw [div_eq_zero_iff, or_iff_left hκ2]
    linarith
  · obtain ⟨e1, e2⟩ := (qd.canBeHit_iff (nLens2 _) P).mp hP
    have := rectangle_far (nLens2 _) nTangent (by norm_num [dot]) e1 e2
    norm_num at this ⊢
    linarith
  · rw [m2]
    refine unitVector_of_smul (s := 1 / c) (by positivity) ?_ ?_
    · simp only [dot]; linear_combination ha.half
    · ext <;> simp <;> field_simp

section
variable {σ κ s c x z p q m : ℝ} (ha : DmdAngles σ κ s c) (hb : DmdBounds σ κ x z p q m)
  {M : Mirror ℝ} {l1 l2 : Lens ℝ} {d : Detector ℝ} (hf : DmdFacts σ κ s c M l1 l2 d)
include ha hb hf

/-- From the object to the first lens. -/
theorem dmd_leg1 : Leg [.mirror M, .lens l1, .lens l2, .detector d] (dmdStart x z) (dmdAt1 l1 p q) := by
  obtain ⟨x1, x2⟩ := hb.hx
  obtain ⟨p1, p2⟩ := hb.hp
  have hσ : |σ| ≤ 381 / 1000 := abs_le.mpr ⟨by linarith [ha.σlo], ha.σhi⟩
  obtain ⟨h1, h2⟩ := hb.hh
  obtain ⟨s1, s2⟩ := abs_le.mp (mul_box hσ (abs_le.mpr hb.hp))
  have hκ := ha.κlo
  refine leg_of (lt_trans (b := 1) (by norm_num) (lt_dist_of ?_)) ?_
  · simp only [dot, dmdStart, dmdAt1, sub_x, sub_y, sub_z]
    nlinarith [sq_nonneg (p - x), sq_nonneg (q - z)]
  simp only [List.mem_cons, List.not_mem_nil, or_false]
  rintro o (rfl | rfl | rfl | rfl) t h0 h1' hc
  · exact absurd hc (hf.fM.missed nLens1 (by norm_num [dot, dmdStart, dmdAt1]) h0 h1')
  · exact .inr ⟨hf.f1.atEnd nLens1 (by norm_num [dot, dmdStart]) (by norm_num [dot, dmdAt1]) hc, rfl⟩
  · refine absurd hc (hf.f2.missed (nLens2 _) (.inr ?_) h0 h1')
    rw [lens2_offset ha, lens2_offset ha]
    constructor <;> refine div_neg_of_neg_of_pos ?_ (by linarith) <;> simp only [dmdStart, dmdAt1] <;> linarith
  · exfalso
    have h450 := hf.qd' _ hc
    -- the coordinate across the axis of the second lens
    set P := (dmdStart x z).point + t * ((dmdAt1 l1 p q).point - (dmdStart x z).point) with hP
    have ex : P.x = x + t * (p - x) := by simp [hP, dmdStart, dmdAt1]
    have ey : P.y = t * 100 := by simp [hP, dmdStart, dmdAt1]
    have hPx : |P.x| ≤ 35 / 4 := by
      rw [ex, abs_le]
      constructor <;> nlinarith
    have hkey : (κ * P.x - σ * (200 - P.y)) ^ 2 ≤ 450 := by
      refine le_trans ?_ h450
      have hone := ha.one
      have : dot (P - ⟨100 * σ, 200 - 100 * κ, 0⟩) (P - ⟨100 * σ, 200 - 100 * κ, 0⟩)
          = (κ * P.x - σ * (200 - P.y)) ^ 2 + (σ * P.x + κ * (200 - P.y) - 100) ^ 2 + P.z ^ 2 := by
        simp only [dot, sub_x, sub_y, sub_z]
        linear_combination (10000 - P.x ^ 2 - (200 - P.y) ^ 2) * hone
      rw [this]
      nlinarith [sq_nonneg (σ * P.x + κ * (200 - P.y) - 100), sq_nonneg P.z]
    have hκx := abs_le.mp (mul_box (abs_le.mpr ⟨by linarith [ha.κlo], ha.κhi⟩ : |κ| ≤ 93 / 100) hPx)
    have hσy : 37 / 100 * 100 ≤ σ * (200 - P.y) := mul_le_mul ha.σlo (by rw [ey]; linarith) (by norm_num) (by linarith [ha.σlo])
    have : κ * P.x - σ * (200 - P.y) ≤ -28 := by linarith
    nlinarith

/-- From the first lens to the micromirrors. -/
theorem dmd_leg2 : Leg [.mirror M, .lens l1, .lens l2, .detector d] (dmdAt1 l1 p q) (dmdAt2 M x z) := by
  obtain ⟨x1, x2⟩ := hb.hx
  obtain ⟨p1, p2⟩ := hb.hp
  have hσ : |σ| ≤ 381 / 1000 := abs_le.mpr ⟨by linarith [ha.σlo], ha.σhi⟩
  obtain ⟨h1, h2⟩ := hb.hh
  have hκ := ha.κlo
  have hκ2 := cos2_pos ha
  have hσκ : |2 * σ * κ| ≤ 72 / 100 := by
    have := mul_box hσ (abs_le.mpr ⟨by linarith [ha.κlo], ha.κhi⟩ : |κ| ≤ 93 / 100)
    rw [mul_assoc, abs_mul, abs_two]
    linarith
  refine leg_of (lt_trans (b := 1) (by norm_num) (lt_dist_of ?_)) ?_
  · simp only [dot, dmdAt2, dmdAt1, sub_x, sub_y, sub_z]
    nlinarith [sq_nonneg (p + x), sq_nonneg (q + z)]
  simp only [List.mem_cons, List.not_mem_nil, or_false]
  rintro o (rfl | rfl | rfl | rfl) t h0 h1' hc
  · exact .inr ⟨hf.fM.atEnd nLens1 (by norm_num [dot, dmdAt1]) (by norm_num [dot, dmdAt2]) hc, rfl⟩
  · exact .inl ⟨hf.f1.atStart nLens1 (by norm_num [dot, dmdAt1]) (by norm_num [dot, dmdAt2]) hc, rfl⟩
  · exfalso
    obtain ⟨e1, e2⟩ := (hf.q2 _).mp hc
    set P := (dmdAt1 l1 p q).point + t * ((dmdAt2 M x z).point - (dmdAt1 l1 p q).point) with hP
    have ex : P.x = p + t * (-x - p) := by simp [hP, dmdAt2, dmdAt1]
    have ey : 200 - P.y = 100 * (1 - t) := by simp [hP, dmdAt2, dmdAt1]; ring
    have hPx : P.x ≤ 35 / 4 ∧ -(35 / 4) ≤ P.x := by
      rw [ex]
      constructor <;> nlinarith
    have hσx := abs_le.mp (mul_box hσ (abs_le.mpr ⟨hPx.2, hPx.1⟩))
    have ht : 1 - t ≤ 58 / 100 := by
      rw [ey] at e1
      nlinarith
    have hPx' : P.x ≤ 62 / 10 := by
      rw [ex]
      nlinarith
    have hsq : (κ * P.x - σ * (200 - P.y)) ^ 2 < (25 / 2) ^ 2 := by
      have e3 := sq_lt_sq' (by linarith [dist_nonneg (x := P.toE) (y := (⟨50 * σ, 200 - 50 * κ, 0⟩ : V3 ℝ).toE)]) e2
      refine lt_of_le_of_lt ?_ e3
      rw [dist_eq_norm, ← toE_sub, norm_toE, norm_sq]
      have hone := ha.one
      have : dot (P - ⟨50 * σ, 200 - 50 * κ, 0⟩) (P - ⟨50 * σ, 200 - 50 * κ, 0⟩)
          = (κ * P.x - σ * (200 - P.y)) ^ 2 + (σ * P.x + κ * (200 - P.y) - 50) ^ 2 + P.z ^ 2 := by
        simp only [dot, sub_x, sub_y, sub_z]
        linear_combination (2500 - P.x ^ 2 - (200 - P.y) ^ 2) * hone
      rw [this]
      nlinarith [sq_nonneg (σ * P.x + κ * (200 - P.y) - 50), sq_nonneg P.z]
    -- on the plane of the lens the coordinate across is `(x - 50 σ) / κ`
    have hX : κ * (κ * P.x - σ * (200 - P.y)) = P.x - 50 * σ := by
      linear_combination P.x * ha.one + σ * e1
    have hneg : κ * (κ * P.x - σ * (200 - P.y)) ≤ -(123 / 10) := by rw [hX]; linarith [ha.σlo]
    have hκ3 := ha.κhi
    have : -(25 / 2) < κ * P.x - σ * (200 - P.y) := (abs_lt_of_sq_lt_sq' hsq (by norm_num)).1
    nlinarith
  · refine absurd hc (hf.fd.missed (nLens2 _) (.inl ?_) h0 h1')
    have a1 := abs_le.mp (mul_box hσκ (abs_le.mpr hb.hp))
    have a2 := abs_le.mp (mul_box hσκ (abs_le.mpr hb.hx))
    rw [detector_offset ha, detector_offset ha]
    constructor <;> refine div_pos ?_ (by linarith) <;> simp only [dmdAt1, dmdAt2] <;> linarith

end

end Optics
