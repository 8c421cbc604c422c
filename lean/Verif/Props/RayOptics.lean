import Verif.Lemmas.Lift
import Verif.Spec.RayOptics
import Verif.Model.Optics

/-!
# C30-C33: reflection and refraction
-/

namespace Optics
open V3

/-! ## C30 -/

theorem specular_unit {d n : V3 ℝ} (hd : d ≠ ⟨0, 0, 0⟩) (hn : n ≠ ⟨0, 0, 0⟩) :
    let i := unitVector d
    let m := unitVector n
    dot (i - (2 * dot i m) * m) (i - (2 * dot i m) * m) = 1 := by
  intro i m
  have h1 : dot i i = 1 := unit_dot hd
  have h2 : dot m m = 1 := unit_dot hn
  generalize i = i at *
  generalize m = m at *
  simp only [dot_sub_left, dot_sub_right, dot_smul_left, dot_smul_right, dot_comm m i, h1, h2]; ring

theorem specular_eq {d n : V3 ℝ} (hd : d ≠ ⟨0, 0, 0⟩) (hn : n ≠ ⟨0, 0, 0⟩) :
    specular d n = unitVector d - (2 * dot (unitVector d) (unitVector n)) * unitVector n := by
  unfold specular
  simp only [lit2]
  exact unitVector_of_unit (specular_unit hd hn)

/-- For unit vectors. -/
theorem specular_eq_unit {d n : V3 ℝ} (hd : dot d d = 1) (hn : dot n n = 1) :
    specular d n = d - (2 * dot d n) * n := by
  rw [specular_eq (ne_zero_of_dot_one hd) (ne_zero_of_dot_one hn), unitVector_of_unit hd, unitVector_of_unit hn]

theorem unit_smul_norm {v : V3 ℝ} (h : v ≠ ⟨0, 0, 0⟩) : norm v * unitVector v = v := by
  have := (norm_pos h).ne'
  rw [unitVector_eq]
  ext <;> simp only [smul_x, smul_y, smul_z] <;> field_simp

theorem specular_reflected {d n : V3 ℝ} (hd : d ≠ ⟨0, 0, 0⟩) (hn : n ≠ ⟨0, 0, 0⟩) :
    Reflected n.toE d.toE (specular d n).toE := by
  have e := specular_eq hd hn
  have h2 : dot (unitVector n) (unitVector n) = 1 := unit_dot hn
  have ed := unit_smul_norm hd
  have en := unit_smul_norm hn
  refine ⟨?_, ?_, ?_⟩
  · rw [norm_toE, norm_eq_one_iff, e]; exact specular_unit hd hn
  · rw [norm_toE, inner_toE, inner_toE, e]
    conv_rhs => rw [← ed]
    have : dot (unitVector d - (2 * dot (unitVector d) (unitVector n)) * unitVector n) n
        = -dot (unitVector d) n := by
      conv_lhs => rw [← en]
      conv_rhs => rw [← en]
      simp only [dot_sub_left, dot_smul_left, dot_smul_right, h2]
      rw [show unitVector (norm n * unitVector n) = unitVector n by rw [en]]
      rw [h2]; ring
    rw [this, dot_smul_left]; ring
  · intro u hu
    obtain ⟨w, rfl⟩ := toE_surjective u
    rw [inner_toE] at hu
    rw [norm_toE, inner_toE, inner_toE, e]
    conv_rhs => rw [← ed]
    have : dot (unitVector n) w = 0 := by
      rw [unitVector_eq, dot_smul_left, dot_comm, hu, mul_zero]
    rw [dot_sub_left, dot_smul_left, this, dot_smul_left]; ring

/-- A reflected direction is determined by the law. -/
theorem Reflected.unique {n d a b : E3} (hn : n ≠ 0) (hd : d ≠ 0) (ha : Reflected n d a) (hb : Reflected n d b) :
    a = b := by
  have hd' : ‖d‖ ≠ 0 := norm_ne_zero_iff.mpr hd
  have h1 : inner ℝ (a - b) n = 0 := by
    rw [inner_sub_left]
    apply mul_left_cancel₀ hd'
    rw [mul_sub, ha.normalReversed, hb.normalReversed]; ring
  have h2 := ha.surfaceKept (a - b) h1
  have h3 := hb.surfaceKept (a - b) h1
  have h4 : inner ℝ (a - b) (a - b) = 0 := by
    rw [inner_sub_left]
    apply mul_left_cancel₀ hd'
    rw [mul_sub, h2, h3]; ring
  exact sub_eq_zero.mp (inner_self_eq_zero.mp h4)

/-- C30: `Ray.reflect("specular_flat", n)` obeys the law of reflection, changes nothing but the direction,
does not depend on length or sign of the normal, and done twice restores a unit direction. -/
theorem C30_reflection (ray : Ray ℝ) (n : V3 ℝ) (optic : OpticAttrs ℝ) (hd : ray.direction ≠ ⟨0, 0, 0⟩)
    (hn : n ≠ ⟨0, 0, 0⟩) :
    ∃ d', ray.reflect "specular_flat" (some n) optic = .ok { ray with direction := d' } ∧
      Reflected n.toE ray.direction.toE d'.toE ∧
      (∀ c : ℝ, c ≠ 0 → ray.reflect "specular_flat" (some (c * n)) optic = .ok { ray with direction := d' }) ∧
      ({ ray with direction := d' } : Ray ℝ).reflect "specular_flat" (some n) optic
        = .ok { ray with direction := unitVector ray.direction } := by
  refine ⟨specular ray.direction n, rfl, specular_reflected hd hn, ?_, ?_⟩
  · intro c hc
    have hcn : c * n ≠ ⟨0, 0, 0⟩ := by
      intro e
      have := dot_self_pos hn
      have h0 : dot (c * n) (c * n) = 0 := by rw [e]; simp [dot]
      rw [dot_smul_left, dot_smul_right] at h0
      have : c * (c * dot n n) ≠ 0 := by positivity
      exact this h0
    have h1 := specular_reflected hd hcn
    have h2 := specular_reflected hd hn
    have : specular ray.direction (c * n) = specular ray.direction n := by
      apply toE_injective
      refine Reflected.unique (n := n.toE) (d := ray.direction.toE) ?_ ?_ ⟨h1.unit, ?_, ?_⟩ h2
      · rw [← norm_ne_zero_iff, norm_toE]; exact (norm_pos hn).ne'
      · rw [← norm_ne_zero_iff, norm_toE]; exact (norm_pos hd).ne'
      · have := h1.normalReversed
        rw [toE_smul, inner_smul_right, inner_smul_right] at this
        apply mul_left_cancel₀ hc
        linear_combination this
      · intro u hu
        exact h1.surfaceKept u (by rw [toE_smul, inner_smul_right, hu, mul_zero])
    show Except.ok { ray with direction := specular ray.direction (c * n) } = _
    rw [this]
  · show Except.ok { ray with direction := specular (specular ray.direction n) n } = _
    have h1 : dot (unitVector ray.direction) (unitVector ray.direction) = 1 := unit_dot hd
    have h2 : dot (unitVector n) (unitVector n) = 1 := unit_dot hn
    have e := specular_eq hd hn
    have hu : dot (specular ray.direction n) (specular ray.direction n) = 1 := by
      rw [e]; exact specular_unit hd hn
    rw [specular_eq (ne_zero_of_dot_one hu) hn, unitVector_of_unit hu, e]
    generalize unitVector ray.direction = i at *
    generalize unitVector n = m at *
    congr 2
    simp only [dot_sub_left, dot_smul_left, h2]
    ext <;> simp only [sub_x, sub_y, sub_z, smul_x, smul_y, smul_z] <;> ring

/-- C30 in numpy: no NaN for finite nonzero direction and normal. -/
theorem lift_specular {d n : V3 ℝ} (hd : d ≠ ⟨0, 0, 0⟩) (hn : n ≠ ⟨0, 0, 0⟩) :
    specular d.lift n.lift = (specular d n).lift := by
  unfold specular
  simp only [lift_unitVector hd, lift_unitVector hn, lift_dot, xlit2, XR.fin_mul, lift_smul, lift_sub, lit2]
  exact lift_unitVector (ne_zero_of_dot_one (specular_unit hd hn))

theorem C30_reflection_finite (d n : V3 ℝ) (hd : d ≠ ⟨0, 0, 0⟩) (hn : n ≠ ⟨0, 0, 0⟩) :
    (specular d.lift n.lift).IsFinite := by
  rw [lift_specular hd hn]; exact lift_finite _

/-- C30 applies: 45 degrees onto a horizontal mirror with a long normal pointing down. -/
example : Reflected (⟨0, 0, -5⟩ : V3 ℝ).toE (⟨1, 0, -1⟩ : V3 ℝ).toE
    (specular (⟨1, 0, -1⟩ : V3 ℝ) ⟨0, 0, -5⟩).toE := specular_reflected (by simp) (by simp)

/-! ## C31, C32 -/

/-- The surface normal turned against the ray. -/
noncomputable def facing (d n : V3 ℝ) : V3 ℝ := if dot d n < 0 then n else -n

theorem facing_dot {d n : V3 ℝ} (hn : dot n n = 1) : dot (facing d n) (facing d n) = 1 := by
  unfold facing; split_ifs
  · exact hn
  · rw [dot_neg_left, dot_neg_right, neg_neg]; exact hn

theorem facing_le (d n : V3 ℝ) : dot d (facing d n) ≤ 0 := by
  unfold facing; split_ifs with h
  · exact h.le
  · rw [dot_neg_right]; linarith

theorem facing_cases (d n : V3 ℝ) : facing d n = n ∨ facing d n = -n := by
  unfold facing; split_ifs <;> simp

/-- Refraction at a normal `m` facing the ray; `c = cos θ₁`. -/
noncomputable def snellOut (d m : V3 ℝ) (r : ℝ) : V3 ℝ :=
  r * d + (r * (-dot d m) - Real.sqrt (1 - r ^ 2 * (1 - dot d m ^ 2))) * m

theorem snell_eq (d n : V3 ℝ) (η₁ η₂ : ℝ) (h2 : η₂ ≠ 0) :
    snellDirection d n η₁ η₂ =
      if η₂ < η₁ ∧ 1 < (η₁ / η₂) ^ 2 * (1 - dot d n ^ 2) then .ok (specular d n)
      else .ok (snellOut d (facing d n) (η₁ / η₂)) := by
  unfold snellDirection snellOut
  simp only [real_eqb, lit0, decide_eq_true_eq, if_neg h2, lit1, gt_iff_lt, real_sqrt]
  have hf : (if dot d n < 0 then n else -n) = facing d n := rfl
  rw [hf]
  have e : dot (-d) (facing d n) * dot (-d) (facing d n) = dot d n ^ 2 := by
    rcases facing_cases d n with h | h <;> rw [h] <;> simp only [dot_neg_left, dot_neg_right] <;> ring
  have e' : dot d (facing d n) ^ 2 = dot d n ^ 2 := by
    rcases facing_cases d n with h | h <;> rw [h] <;> simp only [dot_neg_right] <;> ring
  rw [e, e', show η₁ / η₂ * (η₁ / η₂) = (η₁ / η₂) ^ 2 by ring]
  simp only [dot_neg_left]

theorem sinIncidence_sq {n d : V3 ℝ} (hn : dot n n = 1) (hd : dot d d = 1) :
    sinIncidence n.toE d.toE ^ 2 = 1 - dot d n ^ 2 := by
  have hn' : ‖n.toE‖ = 1 := by rw [norm_toE, norm_eq_one_iff]; exact hn
  have hd' : ‖d.toE‖ = 1 := by rw [norm_toE, norm_eq_one_iff]; exact hd
  rw [← norm_tangential hn' hd', tangential, norm_sub_sq_real, inner_smul_right, hd', _root_.norm_smul, hn',
    Real.norm_eq_abs, mul_one, sq_abs, inner_toE]
  ring

theorem sinIncidence_nonneg (n d : E3) : 0 ≤ sinIncidence n d := InnerProductGeometry.sin_angle_nonneg _ _

theorem snellOut_refracted {d n : V3 ℝ} (hd : dot d d = 1) (hn : dot n n = 1) {η₁ η₂ : ℝ} (h2 : η₂ ≠ 0)
    (hc : (η₁ / η₂) ^ 2 * (1 - dot d n ^ 2) ≤ 1) :
    Refracted η₁ η₂ n.toE d.toE (snellOut d (facing d n) (η₁ / η₂)).toE := by
  have hm := facing_dot (d := d) hn
  have hle := facing_le d n
  have e' : dot d (facing d n) ^ 2 = dot d n ^ 2 := by
    rcases facing_cases d n with h | h <;> rw [h] <;> simp only [dot_neg_right] <;> ring
  unfold snellOut
  rw [e']
  have hk := Real.sqrt_nonneg (1 - (η₁ / η₂) ^ 2 * (1 - dot d n ^ 2))
  have hk2 := Real.sq_sqrt (show 0 ≤ 1 - (η₁ / η₂) ^ 2 * (1 - dot d n ^ 2) by linarith)
  generalize Real.sqrt (1 - (η₁ / η₂) ^ 2 * (1 - dot d n ^ 2)) = k at *
  rw [← e'] at hk2
  have hr : η₂ * (η₁ / η₂) = η₁ := by field_simp
  generalize η₁ / η₂ = r at *
  set m := facing d n with hmdef
  have hout : dot (r * d + (r * (-dot d m) - k) * m) m = -k := by
    rw [dot_add_left, dot_smul_left, dot_smul_left, hm]; ring
  refine ⟨?_, ?_, ?_⟩
  · rw [norm_toE, norm_eq_one_iff]
    simp only [dot_add_left, dot_add_right, dot_smul_left, dot_smul_right, dot_comm m d, hd, hm]
    linear_combination hk2
  · have key : ∀ w : V3 ℝ, η₁ * (d - (dot d w) * w) = η₂ * ((r * d + (r * (-dot d m) - k) * m)
        - (dot (r * d + (r * (-dot d m) - k) * m) w) * w) →
        η₁ • tangential w.toE d.toE = η₂ • tangential w.toE (r * d + (r * (-dot d m) - k) * m).toE := by
      intro w hw
      have := congrArg V3.toE hw
      rw [tangential, tangential, inner_toE, inner_toE]
      simpa only [toE_smul, toE_sub] using this
    have base : η₁ * (d - (dot d m) * m) = η₂ * ((r * d + (r * (-dot d m) - k) * m)
        - (dot (r * d + (r * (-dot d m) - k) * m) m) * m) := by
      rw [hout]
      rw [← hr]
      ext <;> simp only [sub_x, sub_y, sub_z, add_x, add_y, add_z, smul_x, smul_y, smul_z] <;> ring
    apply key
    rcases facing_cases d n with h | h
    · rw [← h, ← hmdef]; exact base
    · have hn' : n = -m := by rw [hmdef, h, neg_neg']
      rw [hn']
      simp only [dot_neg_right]
      have hs : ∀ (a : ℝ) (v w : V3 ℝ), v - (-a) * (-w) = v - a * w := by
        intro a v w
        ext <;> simp only [sub_x, sub_y, sub_z, smul_x, smul_y, smul_z, neg_x, neg_y, neg_z] <;> ring
      rw [hs, hs]; exact base
  · rw [inner_toE, inner_toE]
    rcases facing_cases d n with h | h
    · rw [← h, ← hmdef, hout]; nlinarith
    · have hn' : n = -m := by rw [hmdef, h, neg_neg']
      rw [hn', dot_neg_right, dot_neg_right, hout]; nlinarith

/-- C31: below the critical angle `Ray.refract("snells_law", ...)` changes only the direction, to one that
obeys Snell's law (`Refracted`: unit length, plane of incidence, other side, `η₁ sin θ₁ = η₂ sin θ₂`). -/
theorem C31_snell (ray : Ray ℝ) (n : V3 ℝ) (optic : OpticAttrs ℝ) (pt : V3 ℝ) (η₁ η₂ : ℝ) (h1 : 0 < η₁) (h2 : 0 < η₂)
    (hd : ‖ray.direction.toE‖ = 1) (hn : ‖n.toE‖ = 1)
    (hc : η₁ / η₂ * sinIncidence n.toE ray.direction.toE ≤ 1) :
    ∃ d', ray.refract "snells_law" (some n) optic pt (some η₁) (some η₂) = .ok { ray with direction := d' } ∧
      Refracted η₁ η₂ n.toE ray.direction.toE d'.toE ∧
      η₁ * sinIncidence n.toE ray.direction.toE = η₂ * sinIncidence n.toE d'.toE ∧
      (∃ a b : ℝ, d' = a * ray.direction + b * n) := by
  have hd' : dot ray.direction ray.direction = 1 := by rwa [norm_toE, norm_eq_one_iff] at hd
  have hn' : dot n n = 1 := by rwa [norm_toE, norm_eq_one_iff] at hn
  have hs := sinIncidence_sq hn' hd'
  have hsn := sinIncidence_nonneg n.toE ray.direction.toE
  have hr : 0 < η₁ / η₂ := by positivity
  have hc' : (η₁ / η₂) ^ 2 * (1 - dot ray.direction n ^ 2) ≤ 1 := by
    rw [← hs, ← mul_pow]
    exact pow_le_one₀ (by positivity) hc
  have e := snell_eq ray.direction n η₁ η₂ h2.ne'
  rw [if_neg (by rintro ⟨_, h⟩; linarith)] at e
  have hR := snellOut_refracted hd' hn' h2.ne' hc'
  refine ⟨_, ?_, hR, hR.sines hn hd h1.le h2.le, ?_⟩
  · show (do let d ← snellDirection ray.direction n η₁ η₂; return { ray with direction := d }) = _
    rw [e]; rfl
  · rcases facing_cases ray.direction n with h | h
    · exact ⟨_, _, by rw [h]; rfl⟩
    · refine ⟨η₁ / η₂, -(η₁ / η₂ * (-dot ray.direction (-n)) - Real.sqrt (1 - (η₁ / η₂) ^ 2 *
        (1 - dot ray.direction (-n) ^ 2))), ?_⟩
      rw [h]; unfold snellOut
      ext <;> simp only [add_x, add_y, add_z, smul_x, smul_y, smul_z, neg_x, neg_y, neg_z] <;> ring

/-- C31: equal indices leave the ray alone. -/
theorem C31_equal_indices (ray : Ray ℝ) (n : V3 ℝ) (optic : OpticAttrs ℝ) (pt : V3 ℝ) (η : ℝ) (h : η ≠ 0) :
    ray.refract "snells_law" (some n) optic pt (some η) (some η) = .ok ray := by
  show (do let d ← snellDirection ray.direction n η η; return { ray with direction := d }) = _
  rw [snell_eq _ _ _ _ h, if_neg (by rintro ⟨h, _⟩; exact lt_irrefl _ h)]
  have : snellOut ray.direction (facing ray.direction n) (η / η) = ray.direction := by
    unfold snellOut
    rw [div_self h]
    have hle := facing_le ray.direction n
    rw [show (1 : ℝ) - 1 ^ 2 * (1 - dot ray.direction (facing ray.direction n) ^ 2)
      = dot ray.direction (facing ray.direction n) ^ 2 by ring, Real.sqrt_sq_eq_abs, abs_of_nonpos hle]
    ext <;> simp only [add_x, add_y, add_z, smul_x, smul_y, smul_z] <;> ring
  rw [this]; rfl

theorem specular_neg (d n : V3 ℝ) (hd : d ≠ ⟨0, 0, 0⟩) (hn : n ≠ ⟨0, 0, 0⟩) : specular d (-n) = specular d n := by
  have hn' : -n ≠ ⟨0, 0, 0⟩ := by
    intro e; apply hn; rw [← neg_neg' n, e]; ext <;> simp
  rw [specular_eq hd hn, specular_eq hd hn']
  have : unitVector (-n) = -unitVector n := by
    unfold unitVector; rw [norm_neg]; ext <;> simp [neg_div]
  rw [this, dot_neg_right]
  ext <;> simp only [sub_x, sub_y, sub_z, smul_x, smul_y, smul_z, neg_x, neg_y, neg_z] <;> ring

/-- C31: the side the normal points to does not matter, except for a ray exactly along the surface
(`C31_grazing_depends_on_normal`). -/
theorem C31_flip_normal (d n : V3 ℝ) (η₁ η₂ : ℝ) (hd : d ≠ ⟨0, 0, 0⟩) (hn : n ≠ ⟨0, 0, 0⟩) (h : dot d n ≠ 0) :
    snellDirection d (-n) η₁ η₂ = snellDirection d n η₁ η₂ := by
  by_cases h2 : η₂ = 0
  · subst h2; simp [snellDirection, lit0]
  rw [snell_eq _ _ _ _ h2, snell_eq _ _ _ _ h2, dot_neg_right, neg_sq, specular_neg d n hd hn]
  have : facing d (-n) = facing d n := by
    unfold facing
    rw [dot_neg_right, neg_neg']
    rcases lt_or_gt_of_ne h with h | h
    · rw [if_neg (by linarith), if_pos h]
    · rw [if_pos (by linarith), if_neg (by linarith)]
  rw [this]

/-- For a ray along the surface into a denser medium the result does depend on the side of the normal. -/
theorem C31_grazing_depends_on_normal :
    snellDirection (⟨1, 0, 0⟩ : V3 ℝ) (-⟨0, 0, 1⟩) 3 5 ≠ snellDirection (⟨1, 0, 0⟩ : V3 ℝ) ⟨0, 0, 1⟩ 3 5 := by
  rw [snell_eq _ _ _ _ (by norm_num), snell_eq _ _ _ _ (by norm_num), if_neg (by norm_num), if_neg (by norm_num)]
  intro h
  have := congrArg V3.z (Except.ok.inj h)
  have hs : Real.sqrt (1 - (3 / 5 : ℝ) ^ 2 * (1 - 0 ^ 2)) = 4 / 5 := by
    rw [show (1 : ℝ) - (3 / 5) ^ 2 * (1 - 0 ^ 2) = (4 / 5) ^ 2 by norm_num]
    exact Real.sqrt_sq (by norm_num)
  simp [snellOut, facing, dot] at this
  norm_num at this hs
  rw [hs] at this
  norm_num at this

/-- C31: `eta2 = 0` raises `ZeroDivisionError`, over every number type in which `0 == 0`. -/
theorem C31_zero_index {α : Type} [PyNum α] (ray : Ray α) (n : V3 α) (optic : OpticAttrs α) (pt : V3 α) (η₁ η₂ : α)
    (h : PyNum.eqb η₂ 0.0 = true) :
    ray.refract "snells_law" (some n) optic pt (some η₁) (some η₂) = .error .zeroDivisionError := by
  show (do let d ← snellDirection ray.direction n η₁ η₂; return { ray with direction := d }) = _
  unfold snellDirection
  simp only [h, if_true]
  rfl

/-- C31 applies: air to glass at an angle with sine 3/5. -/
example : ∃ d', snellDirection (⟨3 / 5, 0, -4 / 5⟩ : V3 ℝ) ⟨0, 0, 1⟩ 1 (3 / 2) = .ok d' ∧
    Refracted 1 (3 / 2) (⟨0, 0, 1⟩ : V3 ℝ).toE (⟨3 / 5, 0, -4 / 5⟩ : V3 ℝ).toE d'.toE := by
  rw [snell_eq _ _ _ _ (by norm_num), if_neg (by norm_num)]
  exact ⟨_, rfl, snellOut_refracted (by norm_num [dot]) (by norm_num [dot]) (by norm_num) (by norm_num [dot])⟩

theorem snell_cases (d n : V3 ℝ) (η₁ η₂ : ℝ) (h1 : 0 < η₁) (h2 : 0 < η₂) (hd : ‖d.toE‖ = 1) (hn : ‖n.toE‖ = 1) :
    ∃ d', snellDirection d n η₁ η₂ = .ok d' ∧ ‖d'.toE‖ = 1 ∧
      (1 < η₁ / η₂ * sinIncidence n.toE d.toE → Reflected n.toE d.toE d'.toE) ∧
      (η₁ / η₂ * sinIncidence n.toE d.toE ≤ 1 → Refracted η₁ η₂ n.toE d.toE d'.toE) := by
  have hd' : dot d d = 1 := by rwa [norm_toE, norm_eq_one_iff] at hd
  have hn' : dot n n = 1 := by rwa [norm_toE, norm_eq_one_iff] at hn
  have hs := sinIncidence_sq hn' hd'
  have hsn := sinIncidence_nonneg n.toE d.toE
  have hs1 : sinIncidence n.toE d.toE ≤ 1 := Real.sin_le_one _
  have hr : 0 < η₁ / η₂ := by positivity
  by_cases hc : η₁ / η₂ * sinIncidence n.toE d.toE ≤ 1
  · have hc' : (η₁ / η₂) ^ 2 * (1 - dot d n ^ 2) ≤ 1 := by
      rw [← hs, ← mul_pow]
      exact pow_le_one₀ (by positivity) hc
    have hR := snellOut_refracted hd' hn' h2.ne' hc'
    exact ⟨_, by rw [snell_eq _ _ _ _ h2.ne', if_neg (by rintro ⟨_, h⟩; linarith)], hR.unit,
      fun h => absurd hc (not_le.mpr h), fun _ => hR⟩
  · have hc' := not_le.mp hc
    have hgt : η₂ < η₁ := by
      rw [← one_lt_div h2]
      nlinarith
    have hsq : 1 < (η₁ / η₂) ^ 2 * (1 - dot d n ^ 2) := by
      rw [← hs, ← mul_pow]; exact one_lt_pow₀ hc' (by norm_num)
    have hR := specular_reflected (ne_zero_of_dot_one hd') (ne_zero_of_dot_one hn')
    exact ⟨specular d n, by rw [snell_eq _ _ _ _ h2.ne', if_pos ⟨hgt, hsq⟩], hR.unit, fun _ => hR,
      fun h => absurd h hc⟩

/-- C32: for positive indices the ray is totally reflected if `(η₁/η₂) sin θ₁ > 1` and refracted otherwise;
the new direction is a unit vector in both cases. -/
theorem C32_total_internal_reflection (ray : Ray ℝ) (n : V3 ℝ) (optic : OpticAttrs ℝ) (pt : V3 ℝ) (η₁ η₂ : ℝ)
    (h1 : 0 < η₁) (h2 : 0 < η₂) (hd : ‖ray.direction.toE‖ = 1) (hn : ‖n.toE‖ = 1) :
    ∃ d', ray.refract "snells_law" (some n) optic pt (some η₁) (some η₂) = .ok { ray with direction := d' } ∧
      ‖d'.toE‖ = 1 ∧
      (1 < η₁ / η₂ * sinIncidence n.toE ray.direction.toE → Reflected n.toE ray.direction.toE d'.toE) ∧
      (η₁ / η₂ * sinIncidence n.toE ray.direction.toE ≤ 1 → Refracted η₁ η₂ n.toE ray.direction.toE d'.toE) := by
  obtain ⟨d', e, h⟩ := snell_cases ray.direction n η₁ η₂ h1 h2 hd hn
  refine ⟨d', ?_, h⟩
  show (do let d ← snellDirection ray.direction n η₁ η₂; return { ray with direction := d }) = _
  rw [e]; rfl

/-- C32: and not both: above the critical angle no direction obeys Snell's law. -/
theorem C32_no_refraction_above (n d d' : E3) (hn : ‖n‖ = 1) (hd : ‖d‖ = 1) (η₁ η₂ : ℝ) (h1 : 0 < η₁) (h2 : 0 < η₂)
    (hc : 1 < η₁ / η₂ * sinIncidence n d) : ¬ Refracted η₁ η₂ n d d' := by
  intro h
  have e := h.sines hn hd h1.le h2.le
  have : sinIncidence n d' ≤ 1 := Real.sin_le_one _
  have : η₁ / η₂ * sinIncidence n d = sinIncidence n d' := by
    field_simp; linarith
  linarith

/-- Snell's law in numpy is the exact computation when the square root is real. -/
theorem lift_snell {d n : V3 ℝ} (hd : dot d d = 1) (hn : n ≠ ⟨0, 0, 0⟩) {η₁ η₂ : ℝ}
    (h : η₂ < η₁ ∨ (η₁ / η₂) ^ 2 * (1 - dot d n ^ 2) ≤ 1) :
    snellDirection d.lift n.lift (.fin η₁) (.fin η₂) = (snellDirection d n η₁ η₂).map V3.lift := by
  unfold snellDirection
  simp only [lift_dot, xlit0, XR.fin_lt, XR.fin_eqb, lit0, real_eqb, lift_neg]
  have hf : (if dot d n < 0 then n.lift else (-n).lift) = (if dot d n < 0 then n else -n).lift := by
    split_ifs <;> rfl
  rw [hf]
  simp only [lift_dot, decide_eq_true_eq]
  by_cases h2 : η₂ = 0
  · rw [if_pos h2, if_pos h2]; rfl
  rw [if_neg h2, if_neg h2, XR.fin_div _ _ h2]
  simp only [XR.fin_mul, xlit1, XR.fin_sub, gt_iff_lt, XR.fin_lt, lit1]
  have e : dot (-d) (if dot d n < 0 then n else -n) * dot (-d) (if dot d n < 0 then n else -n) = dot d n ^ 2 := by
    split_ifs <;> simp only [dot_neg_left, dot_neg_right] <;> ring
  rw [e]
  by_cases hc : η₂ < η₁ ∧ 1 < η₁ / η₂ * (η₁ / η₂) * (1 - dot d n ^ 2)
  · rw [if_pos hc, if_pos hc]
    rw [lift_specular (ne_zero_of_dot_one hd) hn]; rfl
  · rw [if_neg hc, if_neg hc]
    have hs : 0 ≤ 1 - η₁ / η₂ * (η₁ / η₂) * (1 - dot d n ^ 2) := by
      rcases h with h | h
      · have := not_and.mp hc h; linarith
      · nlinarith
    rw [XR.fin_sqrt _ hs]
    rfl

/-- C32 in numpy: for positive indices the result is finite (never NaN). -/
theorem C32_finite (d n : V3 ℝ) (hd : ‖d.toE‖ = 1) (hn : ‖n.toE‖ = 1) (η₁ η₂ : ℝ) (h1 : 0 < η₁) (h2 : 0 < η₂) :
    ∃ d' : V3 ℝ, snellDirection d.lift n.lift (.fin η₁) (.fin η₂) = .ok d'.lift ∧ ‖d'.toE‖ = 1 := by
  have hd' : dot d d = 1 := by rwa [norm_toE, norm_eq_one_iff] at hd
  have hn' : dot n n = 1 := by rwa [norm_toE, norm_eq_one_iff] at hn
  have hr : 0 < η₁ / η₂ := by positivity
  have hcase : η₂ < η₁ ∨ (η₁ / η₂) ^ 2 * (1 - dot d n ^ 2) ≤ 1 := by
    rcases lt_or_ge η₂ η₁ with h | h
    · exact Or.inl h
    · right
      have : η₁ / η₂ ≤ 1 := (div_le_one h2).mpr h
      have h3 : (η₁ / η₂) ^ 2 ≤ 1 := pow_le_one₀ hr.le this
      nlinarith [sq_nonneg (dot d n), sq_nonneg (η₁ / η₂)]
  rw [lift_snell hd' (ne_zero_of_dot_one hn') hcase]
  obtain ⟨d', e, hu, -⟩ := snell_cases d n η₁ η₂ h1 h2 hd hn
  exact ⟨d', by rw [e]; rfl, hu⟩

/-- C32 needs positive indices: with a negative first index numpy returns NaN. -/
theorem C32_negative_index_nan :
    snellDirection (V3.lift ⟨4 / 5, 0, -3 / 5⟩) (V3.lift ⟨0, 0, 1⟩) (.fin (-2)) (.fin 1) = .ok V3.nan := by
  unfold snellDirection
  simp only [lift_dot, xlit0, XR.fin_lt, XR.fin_eqb, lift_neg]
  have h1 : dot (⟨4 / 5, 0, -3 / 5⟩ : V3 ℝ) ⟨0, 0, 1⟩ = -3 / 5 := by norm_num [dot]
  have h2 : dot (-⟨4 / 5, 0, -3 / 5⟩ : V3 ℝ) ⟨0, 0, 1⟩ = 3 / 5 := by norm_num [dot]
  have h3 : ((-3 / 5 : ℝ) < 0) = True := by norm_num
  simp only [h1, h3, if_true, lift_dot, h2]
  rw [if_neg (by simp), XR.fin_div _ _ (by norm_num)]
  simp only [XR.fin_mul, xlit1, XR.fin_sub, gt_iff_lt, XR.fin_lt]
  rw [if_neg (by norm_num), XR.sqrt_neg _ (by norm_num)]
  congr 1

/-- C32 applies on both sides of the critical angle: glass to air at sines 4/5 (reflected) and 3/5
(refracted). -/
example : snellDirection (⟨4 / 5, 0, 3 / 5⟩ : V3 ℝ) ⟨0, 0, 1⟩ (3 / 2) 1 = .ok (specular ⟨4 / 5, 0, 3 / 5⟩ ⟨0, 0, 1⟩) ∧
    snellDirection (⟨3 / 5, 0, 4 / 5⟩ : V3 ℝ) ⟨0, 0, 1⟩ (3 / 2) 1
      = .ok (snellOut ⟨3 / 5, 0, 4 / 5⟩ (facing ⟨3 / 5, 0, 4 / 5⟩ ⟨0, 0, 1⟩) (3 / 2 / 1)) := by
  constructor
  · rw [snell_eq _ _ _ _ (by norm_num), if_pos (by norm_num [dot])]
  · rw [snell_eq _ _ _ _ (by norm_num), if_neg (by norm_num [dot])]

/-! ## C33 -/

/-- C33: refraction is reversible, strictly below the critical angle. -/
theorem C33_refraction_reversible (d n d' : V3 ℝ) (hd : ‖d.toE‖ = 1) (hn : ‖n.toE‖ = 1) (η₁ η₂ : ℝ) (h1 : 0 < η₁)
    (h2 : 0 < η₂) (hc : η₁ / η₂ * sinIncidence n.toE d.toE < 1) (h : snellDirection d n η₁ η₂ = .ok d') :
    snellDirection (-d') n η₂ η₁ = .ok (-d) := by
  have hdd : dot d d = 1 := by rwa [norm_toE, norm_eq_one_iff] at hd
  have hnn : dot n n = 1 := by rwa [norm_toE, norm_eq_one_iff] at hn
  have hs := sinIncidence_sq hnn hdd
  have hsn := sinIncidence_nonneg n.toE d.toE
  have hr : 0 < η₁ / η₂ := by positivity
  have hc' : (η₁ / η₂) ^ 2 * (1 - dot d n ^ 2) < 1 := by
    rw [← hs, ← mul_pow]
    exact pow_lt_one₀ (by positivity) hc (by norm_num)
  rw [snell_eq _ _ _ _ h2.ne', if_neg (by rintro ⟨_, h⟩; linarith)] at h
  have hout : d' = snellOut d (facing d n) (η₁ / η₂) := (Except.ok.inj h).symm
  have hm := facing_dot (d := d) hnn
  have hle := facing_le d n
  have e' : dot d (facing d n) ^ 2 = dot d n ^ 2 := by
    rcases facing_cases d n with h | h <;> rw [h] <;> simp only [dot_neg_right] <;> ring
  have hmn : facing d n = n ∨ facing d n = -n := facing_cases d n
  unfold snellOut at hout
  rw [← e'] at hc'
  have hkpos := Real.sqrt_pos.mpr (show 0 < 1 - (η₁ / η₂) ^ 2 * (1 - dot d (facing d n) ^ 2) by linarith)
  have hk2 := Real.sq_sqrt (show 0 ≤ 1 - (η₁ / η₂) ^ 2 * (1 - dot d (facing d n) ^ 2) by linarith)
  generalize Real.sqrt (1 - (η₁ / η₂) ^ 2 * (1 - dot d (facing d n) ^ 2)) = k at *
  have hr2 : η₂ / η₁ * (η₁ / η₂) = 1 := by field_simp
  have hr' : 0 < η₂ / η₁ := by positivity
  generalize facing d n = m at *
  have hdm : dot d' m = -k := by
    rw [hout, dot_add_left, dot_smul_left, dot_smul_left, hm]; ring
  -- the normal facing the returning ray is `-m`
  have hf : facing (-d') n = -m := by
    unfold facing
    rcases hmn with hh | hh
    · rw [hh] at hdm ⊢; rw [dot_neg_left, hdm, if_neg (by linarith)]
    · have hn' : n = -m := by rw [hh, neg_neg']
      rw [hn', dot_neg_left, dot_neg_right, hdm, if_pos (by linarith)]
  have hdn : dot (-d') n ^ 2 = k ^ 2 := by
    rcases hmn with hh | hh
    · rw [← hh, dot_neg_left, hdm]; ring
    · have hn' : n = -m := by rw [hh, neg_neg']
      rw [hn', dot_neg_left, dot_neg_right, hdm]; ring
  have hrr : (η₂ / η₁) ^ 2 * (1 - k ^ 2) = 1 - dot d m ^ 2 := by
    rw [hk2]
    linear_combination ((η₂ / η₁ * (η₁ / η₂) + 1) * (1 - dot d m ^ 2)) * hr2
  rw [snell_eq _ _ _ _ h1.ne', if_neg (by
    rintro ⟨_, hh⟩
    rw [hdn, hrr] at hh
    nlinarith [sq_nonneg (dot d m)])]
  congr 1
  rw [hf]
  unfold snellOut
  have hdm' : dot (-d') (-m) = -k := by rw [dot_neg_left, dot_neg_right, hdm]; ring
  rw [hdm', neg_sq, hrr, show (1 : ℝ) - (1 - dot d m ^ 2) = dot d m ^ 2 by ring, Real.sqrt_sq_eq_abs,
    abs_of_nonpos hle, hout]
  ext <;> simp only [add_x, add_y, add_z, smul_x, smul_y, smul_z, neg_x, neg_y, neg_z]
  · linear_combination (-d.x + dot d m * m.x) * hr2
  · linear_combination (-d.y + dot d m * m.y) * hr2
  · linear_combination (-d.z + dot d m * m.z) * hr2

/-- C33: reflection is reversible. -/
theorem C33_reflection_reversible (d n : V3 ℝ) (hd : ‖d.toE‖ = 1) (hn : n ≠ ⟨0, 0, 0⟩) :
    specular (-specular d n) n = -d := by
  have hdd : dot d d = 1 := by rwa [norm_toE, norm_eq_one_iff] at hd
  have h2 : dot (unitVector n) (unitVector n) = 1 := unit_dot hn
  have hd0 := ne_zero_of_dot_one hdd
  have e := specular_eq hd0 hn
  have hu : dot (-specular d n) (-specular d n) = 1 := by
    rw [dot_neg_left, dot_neg_right, neg_neg, e]; exact specular_unit hd0 hn
  rw [specular_eq (ne_zero_of_dot_one hu) hn, unitVector_of_unit hu, e, unitVector_of_unit hdd]
  generalize unitVector n = m at *
  simp only [dot_neg_left, dot_sub_left, dot_smul_left, h2]
  ext <;> simp only [sub_x, sub_y, sub_z, smul_x, smul_y, smul_z, neg_x, neg_y, neg_z] <;> ring

/-- C33 applies: air to glass at sine 3/5. -/
example : ∃ d', snellDirection (⟨3 / 5, 0, -4 / 5⟩ : V3 ℝ) ⟨0, 0, 1⟩ 1 (3 / 2) = .ok d' ∧
    snellDirection (-d') (⟨0, 0, 1⟩ : V3 ℝ) (3 / 2) 1 = .ok (-⟨3 / 5, 0, -4 / 5⟩) := by
  have hu : dot (⟨3 / 5, 0, -4 / 5⟩ : V3 ℝ) ⟨3 / 5, 0, -4 / 5⟩ = 1 := by norm_num [dot]
  have hn : dot (⟨0, 0, 1⟩ : V3 ℝ) ⟨0, 0, 1⟩ = 1 := by norm_num [dot]
  refine ⟨_, by rw [snell_eq _ _ _ _ (by norm_num), if_neg (by norm_num)], ?_⟩
  refine C33_refraction_reversible _ _ _ (by rw [norm_toE, norm_eq_one_iff]; exact hu)
    (by rw [norm_toE, norm_eq_one_iff]; exact hn) _ _ (by norm_num) (by norm_num) ?_ (by
      rw [snell_eq _ _ _ _ (by norm_num), if_neg (by norm_num)])
  have h1 : sinIncidence (⟨0, 0, 1⟩ : V3 ℝ).toE (⟨3 / 5, 0, -4 / 5⟩ : V3 ℝ).toE ≤ 1 := Real.sin_le_one _
  have h2 := sinIncidence_nonneg (⟨0, 0, 1⟩ : V3 ℝ).toE (⟨3 / 5, 0, -4 / 5⟩ : V3 ℝ).toE
  linarith

end Optics
