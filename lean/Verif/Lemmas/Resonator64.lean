import Verif.Lemmas.Rounded
import Verif.Model.Optics

/-! # Two mirrors, doubles, and a budget of `2^54` -/

namespace Optics
open V3

/-- Integers up to `2^52` are doubles. -/
theorem rnd64_int {k : ℤ} (h : |k| ≤ 2 ^ 52) : rnd64 (k : ℝ) = .fin (k : ℝ) := by
  have hk : |(k : ℝ)| ≤ 2 ^ 52 := by exact_mod_cast h
  have hlog : max (Int.log 2 |(k : ℝ)|) (-1022) - 52 ≤ 0 := by
    have : Int.log 2 |(k : ℝ)| ≤ 52 := by
      rcases (abs_nonneg (k : ℝ)).eq_or_lt with h0 | h0
      · rw [← h0, Int.log_zero_right]; norm_num
      · have := Int.log_mono_right (b := 2) h0 hk
        rwa [show ((2 : ℝ) ^ 52) = ((2 : ℕ) : ℝ) ^ (52 : ℤ) by norm_num, Int.log_zpow (by norm_num)] at this
    have := max_le this (show (-1022 : ℤ) ≤ 52 by norm_num)
    omega
  obtain ⟨m, hm⟩ := zpow_multiple hlog
  rw [zpow_zero] at hm
  apply rnd64_exact (k := k * m)
  · unfold spacing64; push_cast; rw [mul_assoc, ← hm, mul_one]
  · exact lt_of_le_of_lt hk (pow_lt_pow_right₀ (by norm_num) (by norm_num))

theorem log_below : Int.log 2 |(2 ^ 54 - 1 : ℝ)| = 53 := by
  rw [abs_of_pos (by norm_num)]
  have h0 : (0 : ℝ) < 2 ^ 54 - 1 := by norm_num
  apply le_antisymm
  · have := (Int.lt_zpow_iff_log_lt (b := 2) (x := 54) (by norm_num) h0).mp (by norm_num)
    omega
  · exact (Int.zpow_le_iff_le_log (b := 2) (x := 53) (by norm_num) h0).mp (by norm_num)

theorem rnd64_lost : rnd64 (2 ^ 54 - 1) = .fin (2 ^ 54) := by
  have hs : spacing64 (2 ^ 54 - 1) = 2 := by
    unfold spacing64; rw [log_below]; norm_num
  have hn : nearest64 (2 ^ 54 - 1) = 2 ^ 54 := by
    unfold nearest64
    rw [hs]
    have hf : ⌊((2 : ℝ) ^ 54 - 1) / 2⌋ = 2 ^ 53 - 1 := by
      rw [Int.floor_eq_iff]; norm_num
    have : roundEven (((2 : ℝ) ^ 54 - 1) / 2) = 2 ^ 53 := by
      unfold roundEven
      rw [hf]
      have ho : ¬ Even ((2 : ℤ) ^ 53 - 1) := by decide
      rw [if_neg (by norm_num), if_neg (by norm_num), if_neg ho]
      norm_num
    rw [this]; norm_num
  rw [rnd64_fin, hn]
  rw [hn, abs_of_pos (by positivity)]
  exact pow_lt_pow_right₀ (by norm_num) (by norm_num)

/-- A double. -/
noncomputable abbrev D64 := Fl binary64

theorem d0 : binary64.rnd 0 = .fin 0 := binary64.zero
theorem d1 : binary64.rnd 1 = .fin 1 := by
  show rnd64 _ = _; have := rnd64_int (k := 1) (by norm_num); simpa using this
theorem d2 : binary64.rnd 2 = .fin 2 := by
  show rnd64 _ = _; have := rnd64_int (k := 2) (by norm_num); simpa using this
theorem dm1 : binary64.rnd (-1) = .fin (-1) := by
  show rnd64 _ = _; have := rnd64_int (k := -1) (by norm_num); simpa using this
theorem dm2 : binary64.rnd (-2) = .fin (-2) := by
  show rnd64 _ = _; have := rnd64_int (k := -2) (by norm_num); simpa using this

theorem fl_mk {R : Rounding} (x : ℝ) : (⟨XR.fin x⟩ : Fl R) = Fl.fin x := rfl

/-- A vector of doubles. -/
noncomputable def dvec (x y z : ℝ) : V3 D64 := ⟨Fl.fin x, Fl.fin y, Fl.fin z⟩

theorem d_lit2 : (2.0 : D64) = Fl.fin 2 := by
  rw [fl_lit, show (OfScientific.ofScientific 20 true 1 : ℝ) = 2 by norm_num, d2, fl_mk]

theorem d_eps : ∃ e : ℝ, 0 ≤ e ∧ e < 1 ∧ (arbEpsilon : D64) = Fl.fin e := by
  obtain ⟨y, hy, he⟩ := binary64.near (1 / 10 ^ 9) (by rw [abs_of_pos (by positivity)]; exact le_trans (by norm_num) huge_ge)
  refine ⟨y, rnd_nonneg (by positivity) hy, ?_, ?_⟩
  · have := (abs_le.mp he).2
    have ht := tiny_le
    have hu : binary64.u = 1 / 2 ^ 53 := rfl
    rw [abs_of_pos (by positivity), hu] at this
    generalize (1 : ℝ) / 10 ^ 300 = t at *
    norm_num at this ht
    linarith
  · unfold arbEpsilon; rw [fl_lit, show (OfScientific.ofScientific 1 true 9 : ℝ) = 1 / 10 ^ 9 by norm_num, hy, fl_mk]

theorem d_floor : ∃ e : ℝ, 0 ≤ e ∧ e < 1 ∧ (clippingFloor : D64) = Fl.fin e := by
  obtain ⟨y, hy, he⟩ := binary64.near (1 / 10 ^ 12) (by rw [abs_of_pos (by positivity)]; exact le_trans (by norm_num) huge_ge)
  refine ⟨y, rnd_nonneg (by positivity) hy, ?_, ?_⟩
  · have := (abs_le.mp he).2
    have ht := tiny_le
    have hu : binary64.u = 1 / 2 ^ 53 := rfl
    rw [abs_of_pos (by positivity), hu] at this
    generalize (1 : ℝ) / 10 ^ 300 = t at *
    norm_num at this ht
    linarith
  · unfold clippingFloor; rw [fl_lit, show (OfScientific.ofScientific 1 true 12 : ℝ) = 1 / 10 ^ 12 by norm_num, hy, fl_mk]

theorem d_unit {s : ℝ} (hs : s = 1 ∨ s = -1) : unitVector (dvec 0 0 s) = dvec 0 0 s := by
  have h1 : Real.sqrt 1 = 1 := Real.sqrt_one
  rcases hs with rfl | rfl <;>
  · unfold unitVector dvec V3.norm dot
    simp only [fl_mul]
    norm_num [fl_add, fl_mk, d0, d1, dm1, fl_sqrt, h1]
    ext <;> simp only [sdiv_x, sdiv_y, sdiv_z] <;> rw [fl_div _ _ (by norm_num)] <;> norm_num [d0, d1, dm1, fl_mk]

/-- One of the two mirrors: the disk of diameter 2 around `(0, 0, c)`, facing along the z axis. -/
noncomputable def flatMirror (c : ℝ) : Mirror D64 :=
  { position := dvec 0 0 c, shape := "circular_flat", D := some (Fl.fin 2), w := none, h := none, f := none,
    type := "normal", dmdNormal := dvec 0 0 1, normal := some (dvec 0 0 1),
    surfaces := [.circle ⟨dvec 0 0 c, Fl.fin 1, Fl.fin 2, some (dvec 0 0 1), some ⟨dvec 0 0 c, dvec 0 0 1⟩⟩] }

theorem flatMirror_new (c : ℝ) : Mirror.new (dvec 0 0 c) "circular_flat" (some (dvec 0 0 1)) (some (Fl.fin 2)) none none
    none none "normal" (some (dvec 0 0 1)) = .ok (flatMirror c) := by
  have h : (Fl.fin 2 : D64) / 2.0 = Fl.fin 1 := by
    rw [d_lit2, fl_div _ _ (by norm_num)]; norm_num [d1, fl_mk]
  unfold Mirror.new Circle.new checkRAndD Plane.new flatMirror
  simp only [need, bind, Except.bind, pure, Except.pure, if_true, Option.map_some, d_unit (.inl rfl), h]

/-- A ray on the axis between the mirrors. -/
def OnAxis (p s : ℝ) : Prop := (p = 0 ∧ s = 1) ∨ (p = 1 ∧ s = -1)

theorem d_plane_miss {p s : ℝ} (h : OnAxis p s) (ray : Ray D64) (hp : ray.position = dvec 0 0 p)
    (hd : ray.direction = dvec 0 0 s) : Plane.testIntersect ⟨dvec 0 0 p, dvec 0 0 1⟩ ray = Hit3.miss := by
  obtain ⟨e, h0, h1, he⟩ := d_eps
  unfold Plane.testIntersect
  simp only [hp, hd, he, d_unit (.inl rfl)]
  rcases h with ⟨rfl, rfl⟩ | ⟨rfl, rfl⟩
  · rw [d_unit (.inl rfl)]
    simp only [dvec, dot, fl_mul, sub_x, sub_y, sub_z, fl_sub]
    norm_num [fl_add, fl_mk, d0, d1, dm1, fl_abs, fl_lt, fl_mul, fl_div]
    intro _ h; linarith
  · rw [d_unit (.inr rfl)]
    simp only [dvec, dot, fl_mul, sub_x, sub_y, sub_z, fl_sub]
    norm_num [fl_add, fl_mk, d0, d1, dm1, fl_abs, fl_lt, fl_mul, fl_div]
    intro _ h; linarith

theorem d_plane_hit {p s : ℝ} (h : OnAxis p s) (ray : Ray D64) (hp : ray.position = dvec 0 0 p)
    (hd : ray.direction = dvec 0 0 s) : Plane.testIntersect ⟨dvec 0 0 (p + s), dvec 0 0 1⟩ ray =
      ⟨true, some (dvec 0 0 (p + s)), some (dvec 0 0 1)⟩ := by
  obtain ⟨e, h0, h1, he⟩ := d_eps
  unfold Plane.testIntersect
  simp only [hp, hd, he, d_unit (.inl rfl)]
  rcases h with ⟨rfl, rfl⟩ | ⟨rfl, rfl⟩
  · rw [d_unit (.inl rfl)]
    simp only [dvec, dot, fl_mul, sub_x, sub_y, sub_z, fl_sub]
    norm_num [fl_add, fl_mk, d0, d1, dm1, fl_abs, fl_lt, fl_mul, fl_div, h1]
    ext <;> norm_num [fl_add, fl_mk, d0, d1, dm1, fl_mul]
  · rw [d_unit (.inr rfl)]
    simp only [dvec, dot, fl_mul, sub_x, sub_y, sub_z, fl_sub]
    norm_num [fl_add, fl_mk, d0, d1, dm1, fl_abs, fl_lt, fl_mul, fl_div, h1]
    ext <;> norm_num [fl_add, fl_mk, d0, d1, dm1, fl_mul]

theorem d_dist_self (c : ℝ) : distanceBetween (dvec 0 0 c) (dvec 0 0 c) = Fl.fin 0 := by
  unfold distanceBetween V3.norm dot dvec
  simp only [sub_x, sub_y, sub_z, fl_sub]
  norm_num [fl_mul, fl_add, fl_mk, d0, fl_sqrt]

theorem d_dist {p s : ℝ} (h : OnAxis p s) : distanceBetween (dvec 0 0 p) (dvec 0 0 (p + s)) = Fl.fin 1 := by
  unfold distanceBetween V3.norm dot dvec
  simp only [sub_x, sub_y, sub_z, fl_sub]
  rcases h with ⟨rfl, rfl⟩ | ⟨rfl, rfl⟩ <;> norm_num [fl_mul, fl_add, fl_mk, d0, d1, dm1, fl_sqrt]

theorem d_mirror_miss {p s : ℝ} (h : OnAxis p s) (ray : Ray D64) (hp : ray.position = dvec 0 0 p)
    (hd : ray.direction = dvec 0 0 s) :
    ∃ n, (Optic.mirror (flatMirror p)).testIntersect ray = .ok ⟨false, none, n, .none⟩ := by
  refine ⟨none, ?_⟩
  unfold Optic.testIntersect Mirror.testIntersect flatMirror
  simp [flatStep, Shape.testIntersect, Circle.testIntersect, d_plane_miss h ray hp hd, Hit3.miss, asHit3, bound,
    List.foldlM, bind, Except.bind, pure, Except.pure]

theorem d_mirror_hit {p s : ℝ} (h : OnAxis p s) (ray : Ray D64) (hp : ray.position = dvec 0 0 p)
    (hd : ray.direction = dvec 0 0 s) :
    (Optic.mirror (flatMirror (p + s))).testIntersect ray =
      .ok ⟨true, some (dvec 0 0 (p + s)), some (dvec 0 0 1), .none⟩ := by
  unfold Optic.testIntersect Mirror.testIntersect flatMirror
  simp [flatStep, Shape.testIntersect, Circle.testIntersect, d_plane_hit h ray hp hd, asHit3, bound, d_dist_self, fl_lt,
    List.foldlM, bind, Except.bind, pure, Except.pure, hp, d_dist h, ltMin, fl_ltInf, need, Shape.normalAttr, Functor.map,
    Except.map]

theorem d_specular {s : ℝ} (hs : s = 1 ∨ s = -1) : specular (dvec 0 0 s) (dvec 0 0 1) = dvec 0 0 (-s) := by
  unfold specular
  simp only [d_unit (.inl rfl), d_unit hs, d_lit2]
  have : dvec 0 0 s - (Fl.fin 2 * dot (dvec 0 0 s) (dvec 0 0 1)) * dvec 0 0 1 = dvec 0 0 (-s) := by
    unfold dvec dot
    rcases hs with rfl | rfl <;>
    · ext <;> simp only [sub_x, sub_y, sub_z, smul_x, smul_y, smul_z, fl_mul] <;>
        norm_num [fl_mul, fl_add, fl_sub, fl_mk, d0, d1, d2, dm1, dm2]
  rw [this]
  rcases hs with rfl | rfl
  · exact d_unit (.inr rfl)
  · rw [neg_neg]; exact d_unit (.inl rfl)

end Optics
