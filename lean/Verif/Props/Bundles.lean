import Verif.Lemmas.Vec
import Verif.Spec.Euclid
import Verif.Model.Shapes

/-!
# C10 (ray bundles) and C11 (validation of sizes)
-/

namespace Optics
open V3

/-! ## helpers -/

theorem real_ofNat (n : Nat) : (ofNat n : ℝ) = n := by
  unfold ofNat
  show ((OfScientific.ofScientific n false 0 : ℚ≥0) : ℝ) = n
  have : (OfScientific.ofScientific n false 0 : ℚ≥0) = n := by
    apply NNRat.coe_injective
    show Rat.ofScientific n false 0 = _
    simp [Rat.ofScientific_def]
  rw [this]; simp

/-- Entry `i` of `np.linspace(-s, s, n)`. -/
theorem linspace_symm_eq (s : ℝ) (n : Nat) (hn : 2 ≤ n) :
    linspace (-s) s n = (List.range n).map fun i : ℕ => -s + (i : ℝ) * (2 * s / (n - 1 : ℕ)) := by
  unfold linspace
  apply List.map_congr_left
  intro i hi
  rw [List.mem_range] at hi
  have h1 : ((n - 1 : ℕ) : ℝ) ≠ 0 := by
    have : n - 1 ≠ 0 := by omega
    exact_mod_cast this
  rw [real_ofNat, real_ofNat]
  split_ifs with h
  · have : i = n - 1 := by omega
    rw [this]; field_simp; ring
  · ring

/-- The samples along one axis, as `image_rays` uses them. -/
theorem imageAxis_spec (res : Int) (s : ℝ) (h : 1 ≤ res) :
    ∃ l, imageAxis res (-s) s = .ok l ∧ l.length = res.toNat ∧ (∀ x ∈ l, |x| ≤ |s|) ∧
      (l.map fun x => -x) = l.reverse ∧
      l = if res = 1 then [0] else
        (List.range res.toNat).map fun i : ℕ => -s + (i : ℝ) * (2 * s / (res.toNat - 1 : ℕ)) := by
  unfold imageAxis
  have h1 : ¬ res < 1 := by omega
  simp only [h1, if_false]
  by_cases h2 : res = 1
  · subst h2
    refine ⟨[0], ?_, by simp, by simp, by simp, by simp⟩
    simp [lit0]
  · have hn : 2 ≤ res.toNat := by omega
    simp only [h2, if_false]
    rw [linspace_symm_eq s _ hn]
    generalize res.toNat = n at hn
    have hpos : (0 : ℝ) < ((n - 1 : ℕ) : ℝ) := by
      have : 0 < n - 1 := by omega
      exact_mod_cast this
    refine ⟨_, rfl, by simp, ?_, ?_, rfl⟩
    · intro x hx
      obtain ⟨i, hi, rfl⟩ := List.mem_map.mp hx
      rw [List.mem_range] at hi
      have hi' : (i : ℝ) ≤ ((n - 1 : ℕ) : ℝ) := by
        have : i ≤ n - 1 := by omega
        exact_mod_cast this
      have e : -s + (i : ℝ) * (2 * s / (n - 1 : ℕ)) = s * (2 * ((i : ℝ) / (n - 1 : ℕ)) - 1) := by ring
      rw [e, abs_mul]
      have hq0 : 0 ≤ (i : ℝ) / (n - 1 : ℕ) := by positivity
      have hq1 : (i : ℝ) / (n - 1 : ℕ) ≤ 1 := (div_le_one hpos).mpr hi'
      have : |2 * ((i : ℝ) / (n - 1 : ℕ)) - 1| ≤ 1 := by rw [abs_le]; constructor <;> linarith
      nlinarith [abs_nonneg s]
    · apply List.ext_getElem
      · simp
      · intro i h1 h2
        simp only [List.length_map, List.length_range] at h1
        simp only [List.getElem_map, List.getElem_reverse, List.getElem_range, List.length_map, List.length_range]
        have : ((n - 1 - i : ℕ) : ℝ) = ((n - 1 : ℕ) : ℝ) - i := by
          rw [Nat.cast_sub (by omega)]
        rw [this]; field_simp; ring

theorem neg_perm {l : List ℝ} (h : (l.map fun x => -x) = l.reverse) : (l.map fun x => -x).Perm l := by
  rw [h]; exact List.reverse_perm l

/-! ## C10 -/

/-- The ray bundle mirrored left-right. -/
def mirrorX (p : V3 ℝ × V3 ℝ) : V3 ℝ × V3 ℝ := (⟨-p.1.x, p.1.y, p.1.z⟩, p.2)
/-- The ray bundle with origins mirrored top-bottom. -/
def mirrorZ (p : V3 ℝ × V3 ℝ) : V3 ℝ × V3 ℝ := (⟨p.1.x, p.1.y, -p.1.z⟩, p.2)
/-- The ray bundle with directions mirrored top-bottom. -/
def mirrorDir (p : V3 ℝ × V3 ℝ) : V3 ℝ × V3 ℝ := (p.1, ⟨p.2.x, p.2.y, -p.2.z⟩)

/-- C10: the bundle has `x_res * z_res * angle_res` rays; directions are unit vectors in the plane
`x = 0`; origins lie in the square of side `|size|` in the plane `y = y_center`; the multiset of rays
is symmetric about the axis (left-right, top-bottom in position, top-bottom in direction); with
pattern "circle" ray number `i` has wavelength 680 if its origin is within `pattern_d/2` of the axis
and 450 otherwise; otherwise there are no wavelengths. -/
theorem C10_image_rays (yCenter size angle patternD : ℝ) (xRes zRes angleRes : Int) (pattern : String)
    (hx : 1 ≤ xRes) (hz : 1 ≤ zRes) (ha : 1 ≤ angleRes) :
    ∃ origins dirs waves,
      imageRays yCenter size angle xRes zRes angleRes pattern patternD = .ok (origins, dirs, waves) ∧
      origins.length = (xRes * zRes * angleRes).toNat ∧ dirs.length = origins.length ∧
      (∀ d ∈ dirs, ‖d.toE‖ = 1 ∧ d.x = 0) ∧
      (∀ o ∈ origins, o.y = yCenter ∧ |o.x| ≤ |size| / 2 ∧ |o.z| ≤ |size| / 2) ∧
      ((origins.zip dirs).map mirrorX).Perm (origins.zip dirs) ∧
      ((origins.zip dirs).map mirrorZ).Perm (origins.zip dirs) ∧
      ((origins.zip dirs).map mirrorDir).Perm (origins.zip dirs) ∧
      (pattern = "circle" → waves = origins.map fun o =>
        if dist o.toE (V3.toE ⟨0, yCenter, 0⟩) ≤ |patternD| / 2 then 680 else 450) ∧
      (pattern ≠ "circle" → waves = []) := by
  obtain ⟨xs, ex, lx, bx, sx, -⟩ := imageAxis_spec xRes (size / 2) hx
  obtain ⟨zs, ez, lz, bz, sz, -⟩ := imageAxis_spec zRes (size / 2) hz
  obtain ⟨as, ea, la, ba, sa, -⟩ := imageAxis_spec angleRes angle ha
  have hsz : -size / (2.0 : ℝ) = -(size / 2) := by rw [lit2]; ring
  have hsz' : size / (2.0 : ℝ) = size / 2 := by rw [lit2]
  set grid := xs.flatMap fun x => zs.flatMap fun z => as.map fun a => (x, z, a) with hgrid
  have hzip : ((grid.map fun p => (⟨p.1, yCenter, p.2.1⟩ : V3 ℝ)).zip
      (grid.map fun p => (⟨0.0, PyNum.cos p.2.2, PyNum.sin p.2.2⟩ : V3 ℝ)))
      = grid.map fun p => ((⟨p.1, yCenter, p.2.1⟩ : V3 ℝ),
          (⟨0, Real.cos p.2.2, Real.sin p.2.2⟩ : V3 ℝ)) := by
    rw [List.zip_map']; simp [lit0]
  have hmem : ∀ p ∈ grid, p.1 ∈ xs ∧ p.2.1 ∈ zs ∧ p.2.2 ∈ as := by
    intro p hp
    simp only [hgrid, List.mem_flatMap, List.mem_map] at hp
    obtain ⟨x, hx, z, hz, a, ha, rfl⟩ := hp
    exact ⟨hx, hz, ha⟩
  refine ⟨grid.map fun p => ⟨p.1, yCenter, p.2.1⟩,
    grid.map fun p => ⟨0.0, PyNum.cos p.2.2, PyNum.sin p.2.2⟩,
    if pattern = "circle" then grid.map fun p =>
        if p.1 * p.1 + p.2.1 * p.2.1 ≤ patternD * patternD / 4.0 then 680.0 else 450.0
      else [], ?_, ?_, ?_, ?_, ?_, ?_, ?_, ?_, ?_, ?_⟩
  · unfold imageRays
    simp only [hsz, hsz', ex, ez, ea]
    rfl
  · simp only [List.length_map, hgrid, List.length_flatMap, lx, lz, la, List.map_const', List.sum_replicate,
      smul_eq_mul]
    obtain ⟨a, rfl⟩ := Int.eq_ofNat_of_zero_le (by omega : 0 ≤ xRes)
    obtain ⟨b, rfl⟩ := Int.eq_ofNat_of_zero_le (by omega : 0 ≤ zRes)
    obtain ⟨c, rfl⟩ := Int.eq_ofNat_of_zero_le (by omega : 0 ≤ angleRes)
    rw [← Int.natCast_mul, ← Int.natCast_mul]
    simp only [Int.toNat_natCast]; ring
  · simp
  · intro d hd
    obtain ⟨p, -, rfl⟩ := List.mem_map.mp hd
    refine ⟨?_, lit0⟩
    rw [norm_toE, norm_eq_one_iff]
    simp only [dot, lit0, real_cos, real_sin]
    nlinarith [Real.sin_sq_add_cos_sq p.2.2]
  · intro o ho
    obtain ⟨p, hp, rfl⟩ := List.mem_map.mp ho
    obtain ⟨h1, h2, -⟩ := hmem p hp
    have b1 := bx _ h1
    have b2 := bz _ h2
    rw [abs_div, abs_two] at b1 b2
    exact ⟨rfl, b1, b2⟩
  · rw [hzip, List.map_map]
    have : (mirrorX ∘ fun p : ℝ × ℝ × ℝ => ((⟨p.1, yCenter, p.2.1⟩ : V3 ℝ), (⟨0, Real.cos p.2.2, Real.sin p.2.2⟩ : V3 ℝ)))
      = (fun p : ℝ × ℝ × ℝ => ((⟨p.1, yCenter, p.2.1⟩ : V3 ℝ), (⟨0, Real.cos p.2.2, Real.sin p.2.2⟩ : V3 ℝ)))
        ∘ fun p => (-p.1, p.2) := rfl
    rw [this, ← List.map_map]
    apply List.Perm.map
    have e : grid.map (fun p => (-p.1, p.2)) = (xs.map fun x => -x).flatMap fun x =>
        zs.flatMap fun z => as.map fun a => (x, z, a) := by
      simp only [hgrid, List.map_flatMap, List.flatMap_map, List.map_map]; rfl
    rw [e]
    exact (neg_perm sx).flatMap_right _
  · rw [hzip, List.map_map]
    have : (mirrorZ ∘ fun p : ℝ × ℝ × ℝ => ((⟨p.1, yCenter, p.2.1⟩ : V3 ℝ), (⟨0, Real.cos p.2.2, Real.sin p.2.2⟩ : V3 ℝ)))
      = (fun p : ℝ × ℝ × ℝ => ((⟨p.1, yCenter, p.2.1⟩ : V3 ℝ), (⟨0, Real.cos p.2.2, Real.sin p.2.2⟩ : V3 ℝ)))
        ∘ fun p => (p.1, -p.2.1, p.2.2) := rfl
    rw [this, ← List.map_map]
    apply List.Perm.map
    have e : grid.map (fun p => (p.1, -p.2.1, p.2.2)) = xs.flatMap fun x =>
        (zs.map fun z => -z).flatMap fun z => as.map fun a => (x, z, a) := by
      simp only [hgrid, List.map_flatMap, List.flatMap_map, List.map_map]; rfl
    rw [e]
    exact List.Perm.flatMap_left _ fun x _ => (neg_perm sz).flatMap_right _
  · rw [hzip, List.map_map]
    have : (mirrorDir ∘ fun p : ℝ × ℝ × ℝ => ((⟨p.1, yCenter, p.2.1⟩ : V3 ℝ), (⟨0, Real.cos p.2.2, Real.sin p.2.2⟩ : V3 ℝ)))
      = (fun p : ℝ × ℝ × ℝ => ((⟨p.1, yCenter, p.2.1⟩ : V3 ℝ), (⟨0, Real.cos p.2.2, Real.sin p.2.2⟩ : V3 ℝ)))
        ∘ fun p => (p.1, p.2.1, -p.2.2) := by
      funext p; simp [mirrorDir]
    rw [this, ← List.map_map]
    apply List.Perm.map
    have e : grid.map (fun p => (p.1, p.2.1, -p.2.2)) = xs.flatMap fun x =>
        zs.flatMap fun z => (as.map fun a => -a).map fun a => (x, z, a) := by
      simp only [hgrid, List.map_flatMap, List.map_map]; rfl
    rw [e]
    exact List.Perm.flatMap_left _ fun x _ => List.Perm.flatMap_left _ fun z _ => (neg_perm sa).map _
  · intro hp
    rw [if_pos hp, List.map_map]
    apply List.map_congr_left
    intro p _
    have key : (p.1 * p.1 + p.2.1 * p.2.1 ≤ patternD * patternD / 4.0) ↔
        dist (V3.toE ⟨p.1, yCenter, p.2.1⟩) (V3.toE ⟨0, yCenter, 0⟩) ≤ |patternD| / 2 := by
      rw [dist_eq_norm, ← toE_sub, norm_toE, norm_eq, Real.sqrt_le_left (by positivity), div_pow, sq_abs, lit4]
      simp only [dot, sub_x, sub_y, sub_z]
      constructor <;> intro h <;> nlinarith
    simp only [Function.comp, key]
    congr 1 <;> norm_num
  · intro hp; rw [if_neg hp]

/-- C10, error branch: any resolution below 1 raises `ValueError`. -/
theorem C10_image_rays_raises {α : Type} [PyNum α] (yCenter size angle patternD : α) (xRes zRes angleRes : Int)
    (pattern : String) (h : xRes < 1 ∨ zRes < 1 ∨ angleRes < 1) :
    imageRays yCenter size angle xRes zRes angleRes pattern patternD = .error .valueError := by
  have err : ∀ (r : Int) (a b : α), r < 1 → imageAxis r a b = .error .valueError := by
    intro r a b hr; simp [imageAxis, hr]
  have tot : ∀ (r : Int) (a b : α), imageAxis r a b = .error .valueError ∨ ∃ l, imageAxis r a b = .ok l := by
    intro r a b; unfold imageAxis; split_ifs <;> simp
  unfold imageRays
  rcases tot xRes (-size / 2.0) (size / 2.0) with e | ⟨l, e⟩
  · rw [e]; rfl
  rw [e]
  rcases tot zRes (-size / 2.0) (size / 2.0) with e' | ⟨l', e'⟩
  · rw [e']; rfl
  rw [e']
  rcases h with h | h | h
  · rw [err _ _ _ h] at e; cases e
  · rw [err _ _ _ h] at e'; cases e'
  · rw [err _ _ _ h]; rfl

/-- A case in the scope of C10: the default bundle has 363 rays. -/
example (y : ℝ) : ∃ o d w, imageRays y 10 0.2 11 11 3 "circle" 5 = .ok (o, d, w) ∧ o.length = 363 := by
  obtain ⟨o, d, w, h, hl, -⟩ := C10_image_rays y 10 0.2 5 11 11 3 "circle" (by norm_num) (by norm_num) (by norm_num)
  exact ⟨o, d, w, h, by rw [hl]; rfl⟩

/-! ## C11 -/

/-- C11: `check_R_and_D` accepts exactly the combinations where a value is given and, if both are,
they agree to `1e-8` (absolute plus relative); what is stored is what was given, the missing one
computed from `D = 2 R`; everything else is a `ValueError`. -/
theorem C11_check_R_and_D (R D : Option ℝ) :
    (∀ r d, checkRAndD R D = .ok (r, d) ↔
      (R = none ∧ D = some d ∧ d = 2 * r) ∨ (R = some r ∧ D = none ∧ d = 2 * r) ∨
      (R = some r ∧ D = some d ∧ |d - 2 * r| ≤ 1e-8 * (1 + |2 * r|))) ∧
    (∀ e, checkRAndD R D = .error e → e = .valueError) := by
  have key : ∀ r d : ℝ, isclose d (r * 2.0) 1e-8 1e-8 = decide (|d - 2 * r| ≤ 1e-8 * (1 + |2 * r|)) := by
    intro r d
    have : (1e-8 : ℝ) * (1 + |2 * r|) = 1e-8 + 1e-8 * |r * 2| := by rw [mul_comm 2 r]; ring
    rw [this]; unfold isclose; rw [lit2, mul_comm 2 r]; rfl
  rcases R with _ | R <;> rcases D with _ | D <;> simp only [checkRAndD, lit2]
  · simp
  · refine ⟨fun r d => ?_, by simp⟩
    simp only [Except.ok.injEq, Prod.mk.injEq, Option.some.injEq, reduceCtorEq, false_and, or_false, true_and]
    constructor
    · rintro ⟨rfl, rfl⟩; exact ⟨rfl, by ring⟩
    · rintro ⟨rfl, h⟩; exact ⟨by rw [h]; ring, rfl⟩
  · refine ⟨fun r d => ?_, by simp⟩
    simp only [Except.ok.injEq, Prod.mk.injEq, Option.some.injEq, reduceCtorEq, false_and, or_false, true_and,
      false_or, and_false]
    constructor
    · rintro ⟨rfl, rfl⟩; exact ⟨rfl, by ring⟩
    · rintro ⟨rfl, h⟩; exact ⟨rfl, by rw [h]; ring⟩
  · have k := key R D
    rw [lit2] at k
    rw [k]
    by_cases h : |D - 2 * R| ≤ 1e-8 * (1 + |2 * R|)
    · simp only [h, decide_true, if_true]
      refine ⟨fun r d => ?_, by simp⟩
      simp only [Except.ok.injEq, Prod.mk.injEq, Option.some.injEq, reduceCtorEq, false_and, false_or, and_false]
      constructor
      · rintro ⟨rfl, rfl⟩; exact ⟨rfl, rfl, h⟩
      · rintro ⟨h1, h2, -⟩; exact ⟨h1, h2⟩
    · simp only [h, decide_false, Bool.false_eq_true, if_false]
      refine ⟨fun r d => ?_, by simp⟩
      simp only [Option.some.injEq, reduceCtorEq, false_and, false_or, and_false, false_iff]
      rintro ⟨rfl, rfl, h'⟩; exact h h'

/-- C11: `check_h_and_w` accepts exactly two given nonnegative numbers, unchanged; everything else is
a `ValueError`. -/
theorem C11_check_h_and_w (h w : Option ℝ) :
    (∀ a b, checkHAndW h w = .ok (a, b) ↔ h = some a ∧ w = some b ∧ 0 ≤ a ∧ 0 ≤ b) ∧
    (∀ e, checkHAndW h w = .error e → e = .valueError) := by
  rcases h with _ | h <;> rcases w with _ | w <;> simp only [checkHAndW, lit0]
  · simp
  · simp
  · simp
  · by_cases h1 : h < 0
    · simp only [h1, if_true]
      refine ⟨fun a b => ?_, by simp⟩
      simp only [reduceCtorEq, Option.some.injEq, false_iff]
      rintro ⟨rfl, -, h', -⟩; linarith
    · by_cases h2 : w < 0
      · simp only [h1, h2, if_true, if_false]
        refine ⟨fun a b => ?_, by simp⟩
        simp only [reduceCtorEq, Option.some.injEq, false_iff]
        rintro ⟨-, rfl, -, h'⟩; linarith
      · simp only [h1, h2, if_false]
        refine ⟨fun a b => ?_, by simp⟩
        simp only [Except.ok.injEq, Prod.mk.injEq, Option.some.injEq]
        constructor
        · rintro ⟨rfl, rfl⟩; exact ⟨rfl, rfl, not_lt.mp h1, not_lt.mp h2⟩
        · rintro ⟨h1, h2, -⟩; exact ⟨h1, h2⟩

/-- C11, constructors: a shape is built iff its sizes are accepted, and stores them. -/
theorem C11_constructors {α : Type} [PyNum α] (c a n t : V3 α) (no : Option (V3 α)) (R D h w : Option α) :
    (∀ e, Sphere.new c R D = .error e ↔ checkRAndD R D = .error e) ∧
    (∀ s, Sphere.new c R D = .ok s → s.center = c ∧ checkRAndD R D = .ok (s.R, s.D)) ∧
    (∀ e, Circle.new c no R D = .error e ↔ checkRAndD R D = .error e) ∧
    (∀ s, Circle.new c no R D = .ok s → s.center = c ∧ checkRAndD R D = .ok (s.R, s.D)) ∧
    (∀ e, InfiniteCylinder.new c a R D = .error e ↔ checkRAndD R D = .error e) ∧
    (∀ s, InfiniteCylinder.new c a R D = .ok s →
      s.center = c ∧ s.direction = unitVector a ∧ checkRAndD R D = .ok (s.R, s.D)) ∧
    (∀ s, Rectangle.new c n t h w = .ok s → s.center = c ∧ checkHAndW h w = .ok (s.h, s.w)) := by
  refine ⟨?_, ?_, ?_, ?_, ?_, ?_, ?_⟩
  · intro e; unfold Sphere.new
    rcases hc : checkRAndD R D with e' | ⟨r, d⟩ <;> simp [bind, Except.bind, pure, Except.pure]
  · intro s hs; unfold Sphere.new at hs
    rcases hc : checkRAndD R D with e' | ⟨r, d⟩ <;> rw [hc] at hs <;> cases hs
    exact ⟨rfl, rfl⟩
  · intro e; unfold Circle.new
    rcases hc : checkRAndD R D with e' | ⟨r, d⟩ <;> simp [bind, Except.bind, pure, Except.pure]
  · intro s hs; unfold Circle.new at hs
    rcases hc : checkRAndD R D with e' | ⟨r, d⟩ <;> rw [hc] at hs <;> cases hs
    exact ⟨rfl, rfl⟩
  · intro e; unfold InfiniteCylinder.new
    rcases hc : checkRAndD R D with e' | ⟨r, d⟩ <;> simp [bind, Except.bind, pure, Except.pure]
  · intro s hs; unfold InfiniteCylinder.new at hs
    rcases hc : checkRAndD R D with e' | ⟨r, d⟩ <;> rw [hc] at hs <;> cases hs
    exact ⟨rfl, rfl, rfl⟩
  · intro s hs; unfold Rectangle.new at hs
    simp only at hs
    split_ifs at hs with h1
    rcases hc : checkHAndW h w with e' | ⟨r, d⟩ <;> rw [hc] at hs <;> cases hs
    exact ⟨rfl, rfl⟩

/-- Cases in the scope of C11: one value suffices, agreeing values are accepted. -/
example : checkRAndD (some (3 : ℝ)) none = .ok (3, 6) :=
  ((C11_check_R_and_D _ _).1 3 6).mpr (Or.inr (Or.inl ⟨rfl, rfl, by norm_num⟩))
example : checkRAndD (some (3 : ℝ)) (some 6) = .ok (3, 6) :=
  ((C11_check_R_and_D _ _).1 3 6).mpr (Or.inr (Or.inr ⟨rfl, rfl, by norm_num [abs_of_pos]⟩))

end Optics
