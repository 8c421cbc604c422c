import Verif.Props.RayOptics
import Verif.Spec.Geometry

/-!
# C34-C36: ideal lenses
-/

namespace Optics
open V3

theorem unitVector_smul {a : ℝ} (ha : 0 < a) (v : V3 ℝ) : unitVector (a * v) = unitVector v := by
  unfold unitVector
  rw [norm_smul, abs_of_pos ha]
  rw [div_eq_smul, div_eq_smul]
  ext <;> simp only [smul_x, smul_y, smul_z] <;> rw [one_div, one_div, mul_inv] <;> field_simp

theorem orientedNormal_cases (n d : V3 ℝ) : orientedNormal n d = n ∨ orientedNormal n d = -n := by
  unfold orientedNormal; split_ifs <;> simp

theorem orientedNormal_dot (n d : V3 ℝ) : dot d (orientedNormal n d) = |dot d n| := by
  unfold orientedNormal
  rw [lit0, dot_comm n d]
  split_ifs with h
  · rw [dot_neg_right, abs_of_neg h]
  · rw [abs_of_nonneg (not_lt.mp h)]

theorem orientedNormal_self (n d : V3 ℝ) : dot (orientedNormal n d) (orientedNormal n d) = dot n n := by
  rcases orientedNormal_cases n d with h | h <;> rw [h]
  rw [dot_neg_left, dot_neg_right, neg_neg]

theorem orientedNormal_perp {n d r : V3 ℝ} (h : dot r n = 0) : dot r (orientedNormal n d) = 0 := by
  rcases orientedNormal_cases n d with e | e <;> rw [e]
  · exact h
  · rw [dot_neg_right, h, neg_zero]

/-! ## C35 -/

/-- C35: an `ideal_collimate` lens sends every ray along its axis, to the side the ray was travelling to;
nothing but the direction changes, and it does not matter to which side the lens normal points. -/
theorem C35_collimate (l : Lens ℝ) (n : V3 ℝ) (hl : l.type = "ideal_collimate") (hn : l.normal = some n)
    (hn0 : n ≠ ⟨0, 0, 0⟩) (ray : Ray ℝ) (pt : V3 ℝ) (normal : Option (V3 ℝ)) (sfo : Sfo) :
    ∃ d', l.doIntersect ray pt normal sfo = .ok { ray with direction := d' } ∧
      ‖d'.toE‖ = 1 ∧ (∃ c : ℝ, d' = c * n) ∧
      0 ≤ inner ℝ d'.toE ray.direction.toE ∧
      (inner ℝ n.toE ray.direction.toE ≠ 0 → 0 < inner ℝ d'.toE ray.direction.toE ∧
        { l with normal := some (-n) }.doIntersect ray pt normal sfo = .ok { ray with direction := d' }) := by
  have hm0 : orientedNormal n ray.direction ≠ ⟨0, 0, 0⟩ := by
    intro h
    have := orientedNormal_self n ray.direction
    rw [h] at this
    exact (dot_self_pos hn0).ne' (by rw [← this]; simp [dot])
  have hN := norm_pos hm0
  have hdot : dot (unitVector (orientedNormal n ray.direction)) ray.direction
      = |dot ray.direction n| / norm (orientedNormal n ray.direction) := by
    rw [unitVector, dot_div_left, dot_comm, orientedNormal_dot]
  refine ⟨unitVector (orientedNormal n ray.direction), ?_, ?_, ?_, ?_, ?_⟩
  · unfold Lens.doIntersect
    rw [if_neg (by rw [hl]; decide), if_pos hl]
    simp only [hn]; rfl
  · rw [norm_toE]; exact unit_norm hm0
  · rw [unitVector_eq]
    rcases orientedNormal_cases n ray.direction with h | h
    · exact ⟨_, by rw [h]⟩
    · refine ⟨-(1 / norm (-n)), ?_⟩
      rw [h]; ext <;> simp
  · rw [inner_toE, hdot]; positivity
  · intro h
    rw [inner_toE, dot_comm] at h
    refine ⟨?_, ?_⟩
    · rw [inner_toE, hdot]; positivity
    · have : orientedNormal (-n) ray.direction = orientedNormal n ray.direction := by
        unfold orientedNormal
        rw [dot_neg_left, lit0, neg_neg', dot_comm n]
        rcases lt_or_gt_of_ne h with h | h
        · rw [if_neg (by linarith), if_pos h]
        · rw [if_pos (by linarith), if_neg (by linarith)]
      unfold Lens.doIntersect
      simp only
      rw [if_neg (by rw [hl]; decide), if_pos hl, ← this]
      rfl

/-- C35 applies from either side. -/
example : collimateDirection (⟨3 / 5, 0, -4 / 5⟩ : V3 ℝ) ⟨0, 0, 2⟩ = ⟨0, 0, -1⟩ := by
  have h : orientedNormal (⟨0, 0, 2⟩ : V3 ℝ) ⟨3 / 5, 0, -4 / 5⟩ = (2 : ℝ) * (⟨0, 0, -1⟩ : V3 ℝ) := by
    unfold orientedNormal
    rw [lit0, if_pos (by norm_num [dot])]
    ext <;> simp
  unfold collimateDirection
  rw [h, unitVector_smul (by norm_num)]
  exact unitVector_of_unit (by norm_num [dot])

/-! ## C36 -/

/-- C36: an `ideal_focus` lens with `f > 0` sends a ray that has arrived at a point of the lens plane through
the focal point, `f` behind the lens on the side the ray was travelling to. -/
theorem C36_focus (l : Lens ℝ) (n : V3 ℝ) (f : ℝ) (hl : l.type = "ideal_focus") (hn : l.normal = some n)
    (hf : l.f = some f) (hf0 : 0 < f) (hn1 : ‖n.toE‖ = 1) (ray : Ray ℝ)
    (hplane : inner ℝ (ray.position - l.position).toE n.toE = 0) (pt : V3 ℝ) (normal : Option (V3 ℝ)) (sfo : Sfo) :
    ∃ d' F : V3 ℝ, l.doIntersect ray pt normal sfo = .ok { ray with direction := d' } ∧
      ‖d'.toE‖ = 1 ∧ (∃ t, 0 < t ∧ lineAt ray.position d' t = F) ∧
      (F = l.position + f * n ∨ F = l.position + (-f) * n) ∧
      0 ≤ inner ℝ (F - l.position).toE ray.direction.toE := by
  have hnn : dot n n = 1 := by rwa [norm_toE, norm_eq_one_iff] at hn1
  rw [inner_toE] at hplane
  set m := orientedNormal n ray.direction with hm
  set F := l.position + f * m with hF
  have hv0 : F - ray.position ≠ ⟨0, 0, 0⟩ := by
    intro h
    have h1 : dot (F - ray.position) m = 0 := by rw [h]; simp [dot]
    have h2 : dot (F - ray.position) m = f * dot m m - dot (ray.position - l.position) m := by
      rw [hF]; simp only [dot, sub_x, sub_y, sub_z, add_x, add_y, add_z, smul_x, smul_y, smul_z]; ring
    rw [h2, orientedNormal_perp hplane, orientedNormal_self, hnn] at h1
    linarith
  refine ⟨unitVector (F - ray.position), F, ?_, ?_, ⟨norm (F - ray.position), norm_pos hv0, ?_⟩, ?_, ?_⟩
  · unfold Lens.doIntersect
    rw [if_neg (by rw [hl]; decide), if_neg (by rw [hl]; decide), if_pos hl]
    simp only [hn, hf]; rfl
  · rw [norm_toE]; exact unit_norm hv0
  · rw [lineAt, unit_smul_norm hv0]; ext <;> simp
  · rcases orientedNormal_cases n ray.direction with h | h
    · left; rw [hF, hm, h]
    · right; rw [hF, hm, h]; ext <;> simp
  · rw [inner_toE]
    have : dot (F - l.position) ray.direction = f * |dot ray.direction n| := by
      rw [hF, add_sub_cancel', dot_smul_left, dot_comm, orientedNormal_dot]
    rw [this]; positivity

/-- A ray that arrives anywhere but at the focal point itself is sent through it; at the focal point the
direction becomes NaN. -/
theorem C36_focus_at_focal_point (position direction : V3 ℝ) :
    focusDirection (position + orientedNormal ⟨0, 0, 1⟩ direction).lift direction.lift position.lift
      (V3.lift ⟨0, 0, 1⟩) (.fin 1) = V3.nan := by
  have hm : orientedNormal (V3.lift ⟨0, 0, 1⟩) direction.lift = (orientedNormal ⟨0, 0, 1⟩ direction).lift := by
    unfold orientedNormal
    simp only [lift_dot, xlit0, XR.fin_lt, lit0, lift_neg]
    split_ifs <;> rfl
  unfold focusDirection
  simp only [hm, lift_smul, lift_add, lift_sub, lift_norm, smul_one']
  have h0 : position + orientedNormal ⟨0, 0, 1⟩ direction - (position + orientedNormal ⟨0, 0, 1⟩ direction)
      = ⟨0, 0, 0⟩ := by ext <;> simp
  rw [h0, V3.norm_eq_zero.mpr rfl]
  ext <;> simp [V3.lift, V3.nan, XR.zero_div_zero]

/-- C36 applies: a tilted ray from the far side of the normal. -/
example : ∃ t, 0 < t ∧ lineAt ⟨1, 0, 0⟩ (focusDirection (⟨1, 0, 0⟩ : V3 ℝ) ⟨3 / 5, 0, -4 / 5⟩ ⟨0, 0, 0⟩ ⟨0, 0, 1⟩ 2) t
    = ⟨0, 0, -2⟩ := by
  have h : orientedNormal (⟨0, 0, 1⟩ : V3 ℝ) ⟨3 / 5, 0, -4 / 5⟩ = ⟨0, 0, -1⟩ := by
    unfold orientedNormal
    rw [lit0, if_pos (by norm_num [dot])]
    ext <;> simp
  have h0 : (⟨0, 0, 0⟩ : V3 ℝ) + (2 : ℝ) * (⟨0, 0, -1⟩ : V3 ℝ) - ⟨1, 0, 0⟩ ≠ ⟨0, 0, 0⟩ := by
    intro e; have := congrArg V3.x e; simp at this
  refine ⟨_, norm_pos h0, ?_⟩
  unfold focusDirection
  rw [h, lineAt]
  show _ + V3.norm _ * unitVector _ = _
  rw [unit_smul_norm h0]
  ext <;> simp

/-! ## C34 -/

theorem abs_comp_le {n : V3 ℝ} (h : dot n n = 1) : |n.x| ≤ 1 ∧ |n.y| ≤ 1 ∧ |n.z| ≤ 1 := by
  simp only [dot] at h
  refine ⟨abs_le_one_iff_mul_self_le_one.mpr ?_, abs_le_one_iff_mul_self_le_one.mpr ?_,
    abs_le_one_iff_mul_self_le_one.mpr ?_⟩ <;>
    nlinarith [mul_self_nonneg n.x, mul_self_nonneg n.y, mul_self_nonneg n.z]

/-- `np.allclose(d, n, rtol=1e-10)` of unit vectors bounds their distance. -/
theorem allclose_bound {d n : V3 ℝ} (hn : dot n n = 1) (h : allclose d n 1e-10 atolDefault = true) :
    dot (d - n) (d - n) ≤ 3.1e-16 := by
  obtain ⟨hx, hy, hz⟩ := abs_comp_le hn
  simp only [allclose, isclose, Bool.and_eq_true, real_abs, atolDefault] at h
  obtain ⟨⟨h1, h2⟩, h3⟩ := h
  have b : ∀ a c : ℝ, |c| ≤ 1 → |a - c| ≤ 1e-8 + 1e-10 * |c| → (a - c) * (a - c) ≤ 1.0201e-16 := by
    intro a c hc hac
    have : |a - c| ≤ 1.01e-8 := by norm_num at hac ⊢; linarith
    rw [← abs_mul_abs_self]
    nlinarith [abs_nonneg (a - c)]
  have e1 := b _ _ hx (of_decide_eq_true h1)
  have e2 := b _ _ hy (of_decide_eq_true h2)
  have e3 := b _ _ hz (of_decide_eq_true h3)
  simp only [dot, sub_x, sub_y, sub_z]
  norm_num at e1 e2 e3 ⊢
  linarith

/-- The thin lens computation: the outgoing vector before normalisation. -/
theorem thinLens_eq {x d P n : V3 ℝ} {f : ℝ} (hd : dot d d = 1) (hn : dot n n = 1)
    (hg : (1e-8 : ℝ) < |dot d n|) :
    thinLensDirection x d P n (some f) x =
      if allclose d (orientedNormal n d) 1e-10 atolDefault = true then
        .ok (unitVector (f * orientedNormal n d - (x - P)))
      else .ok (unitVector ((f / |dot d n|) * d - (x - P))) := by
  have hm : dot (orientedNormal n d) (orientedNormal n d) = 1 := by rw [orientedNormal_self, hn]
  have hdm := orientedNormal_dot n d
  unfold thinLensDirection
  simp only [need, bind, Except.bind, pure, Except.pure]
  rw [dot_comm (orientedNormal n d) d, hdm]
  have h1 : isclose |dot d n| 0.0 1e-10 atolDefault = false := by
    simp only [isclose, atolDefault, real_abs, lit0, decide_eq_false_iff_not, not_le]
    rw [sub_zero, abs_abs, abs_zero]; norm_num at hg ⊢; exact hg
  have h2 : allclose d (-orientedNormal n d) 1e-10 atolDefault = false := by
    by_contra h
    have hb := allclose_bound (by rw [dot_neg_left, dot_neg_right, neg_neg]; exact hm) (Bool.of_not_eq_false h)
    have : dot (d - -orientedNormal n d) (d - -orientedNormal n d) = 2 + 2 * |dot d n| := by
      rw [← hdm]
      have : d - -orientedNormal n d = d + orientedNormal n d := by ext <;> simp
      rw [this]
      simp only [dot_add_left, dot_add_right, hd, hm, dot_comm (orientedNormal n d) d]; ring
    rw [this] at hb
    norm_num at hb
    linarith [abs_nonneg (dot d n)]
  rw [h1, h2, Bool.or_false]
  simp only [Bool.false_eq_true, if_false]
  split_ifs with h3
  · have e : P + f * orientedNormal n d - x = f * orientedNormal n d - (x - P) := by
      ext <;> simp only [sub_x, sub_y, sub_z, add_x, add_y, add_z, smul_x, smul_y, smul_z] <;> ring
    rw [e]; rfl
  · have e : -(x - P + (2.0 * f / |dot d n|) * -d) - (x - P) = (2 : ℝ) * ((f / |dot d n|) * d - (x - P)) := by
      rw [lit2]
      ext <;> simp only [sub_x, sub_y, sub_z, add_x, add_y, add_z, smul_x, smul_y, smul_z, neg_x, neg_y, neg_z] <;>
        ring
    rw [e]
    show Except.ok (unitVector _) = _
    rw [unitVector_smul (by norm_num)]

theorem thin_forward {x d P m : V3 ℝ} {f : ℝ} (hf : f ≠ 0) (hm : dot m m = 1) (hr : dot (x - P) m = 0)
    (c : ℝ) (hc : c ≠ 0) (hdm : dot d m = c) :
    dot (f * m - (x - P)) m = f ∧ dot ((f / c) * d - (x - P)) m = f ∧
    f * m - (x - P) ≠ ⟨0, 0, 0⟩ ∧ (f / c) * d - (x - P) ≠ ⟨0, 0, 0⟩ := by
  have h1 : dot (f * m - (x - P)) m = f := by rw [dot_sub_left, dot_smul_left, hm, hr]; ring
  have h2 : dot ((f / c) * d - (x - P)) m = f := by rw [dot_sub_left, dot_smul_left, hdm, hr]; field_simp; ring
  refine ⟨h1, h2, ?_, ?_⟩
  · intro e; rw [e] at h1; simp [dot] at h1; exact hf h1.symm
  · intro e; rw [e] at h2; simp [dot] at h2; exact hf h2.symm

/-- A ray hits an ideal lens with normal `n` at focal length `f`: it has arrived at the point `pt` of the lens
plane, with a unit direction that is not within `1e-8` of the lens plane. -/
structure HitsIdealLens (l : Lens ℝ) (n : V3 ℝ) (f : ℝ) (ray : Ray ℝ) (pt : V3 ℝ) : Prop where
  type : l.type = "ideal"
  normal : l.normal = some n
  focal : l.f = some f
  unitNormal : ‖n.toE‖ = 1
  unitDirection : ‖ray.direction.toE‖ = 1
  arrived : ray.position = pt
  inPlane : inner ℝ (pt - l.position).toE n.toE = 0
  notGrazing : (1e-8 : ℝ) < |inner ℝ ray.direction.toE n.toE|

theorem ideal_doIntersect {l : Lens ℝ} {n : V3 ℝ} {f : ℝ} {ray : Ray ℝ} {pt : V3 ℝ} (h : HitsIdealLens l n f ray pt)
    (normal : Option (V3 ℝ)) (sfo : Sfo) {d' : V3 ℝ}
    (hd : thinLensDirection pt ray.direction l.position n (some f) pt = .ok d') :
    l.doIntersect ray pt normal sfo = .ok { ray with direction := d' } := by
  unfold Lens.doIntersect
  rw [if_pos h.type]
  simp only [h.normal, h.focal]
  show (do
    let d ← thinLensDirection ray.position ray.direction l.position n (some f) pt
    return { ray with direction := d }) = _
  rw [h.arrived, hd]; rfl

/-- C34 for all rays that are not nearly in the lens plane: parallel rays meet in one point of the focal
plane, up to `2e-8 f`, whatever point of the lens they hit. The code treats rays nearly parallel to the axis
as exactly parallel, hence the tolerance. -/
theorem C34_focal_plane (l : Lens ℝ) (n : V3 ℝ) (f : ℝ) (ray : Ray ℝ) (pt : V3 ℝ) (h : HitsIdealLens l n f ray pt)
    (hf : 0 < f) (normal : Option (V3 ℝ)) (sfo : Sfo) :
    ∃ d', l.doIntersect ray pt normal sfo = .ok { ray with direction := d' } ∧ ‖d'.toE‖ = 1 ∧
      0 < inner ℝ ray.direction.toE n.toE * inner ℝ d'.toE n.toE ∧
      ∃ t, 0 < t ∧ dist (lineAt pt d' t).toE
        (lineAt l.position ray.direction (f / |inner ℝ ray.direction.toE n.toE|)).toE ≤ 2e-8 * f := by
  have hd : dot ray.direction ray.direction = 1 := by have := h.unitDirection; rwa [norm_toE, norm_eq_one_iff] at this
  have hn : dot n n = 1 := by have := h.unitNormal; rwa [norm_toE, norm_eq_one_iff] at this
  have hg := h.notGrazing
  have hr := h.inPlane
  rw [inner_toE] at hg hr
  have hc : |dot ray.direction n| ≠ 0 := by
    intro e; rw [e] at hg; norm_num at hg
  have hm : dot (orientedNormal n ray.direction) (orientedNormal n ray.direction) = 1 := by
    rw [orientedNormal_self, hn]
  have hdm := orientedNormal_dot n ray.direction
  obtain ⟨f1, f2, z1, z2⟩ := thin_forward (d := ray.direction) hf.ne' hm (orientedNormal_perp hr) _ hc hdm
  have side : ∀ w : V3 ℝ, w ≠ ⟨0, 0, 0⟩ → dot w (orientedNormal n ray.direction) = f →
      0 < dot ray.direction n * dot (unitVector w) n := by
    intro w hw0 hw
    have hN := norm_pos hw0
    have h1 : dot (unitVector w) (orientedNormal n ray.direction) = f / norm w := by
      rw [unitVector, dot_div_left, hw]
    have h2 : 0 < |dot ray.direction n| * (f / norm w) := by positivity
    rw [← h1, ← hdm] at h2
    rcases orientedNormal_cases n ray.direction with e | e <;> rw [e] at h2
    · exact h2
    · rw [dot_neg_right, dot_neg_right] at h2; linarith
  have e := thinLens_eq (x := pt) (P := l.position) (f := f) hd hn hg
  split_ifs at e with hcl
  · refine ⟨_, ideal_doIntersect h normal sfo e, by rw [norm_toE]; exact unit_norm z1, ?_, _, norm_pos z1, ?_⟩
    · rw [inner_toE, inner_toE]; exact side _ z1 f1
    · rw [inner_toE, lineAt, unit_smul_norm z1, dist_eq_norm, ← toE_sub, norm_toE]
      have e2 : pt + (f * orientedNormal n ray.direction - (pt - l.position))
          - lineAt l.position ray.direction (f / |dot ray.direction n|)
          = f * (orientedNormal n ray.direction - (1 / |dot ray.direction n|) * ray.direction) := by
        unfold lineAt
        ext <;> simp only [sub_x, sub_y, sub_z, add_x, add_y, add_z, smul_x, smul_y, smul_z] <;> ring
      rw [e2, norm_smul, abs_of_pos hf, mul_comm]
      refine mul_le_mul_of_nonneg_right ?_ hf.le
      have hb := allclose_bound hm hcl
      have hb2 : dot (ray.direction - orientedNormal n ray.direction) (ray.direction - orientedNormal n ray.direction)
          = 2 - 2 * |dot ray.direction n| := by
        rw [← hdm]
        simp only [dot_sub_left, dot_sub_right, hd, hm, dot_comm (orientedNormal n ray.direction) ray.direction]; ring
      rw [hb2] at hb
      rw [norm_eq]
      apply Real.sqrt_le_iff.mpr
      refine ⟨by norm_num, ?_⟩
      simp only [dot_sub_left, dot_sub_right, dot_smul_left, dot_smul_right, hd, hm, hdm,
        dot_comm (orientedNormal n ray.direction) ray.direction]
      have hle : |dot ray.direction n| ≤ 1 := by
        have := abs_dot_le ray.direction n
        rwa [norm_eq_one_iff.mpr hd, norm_eq_one_iff.mpr hn, mul_one] at this
      generalize |dot ray.direction n| = c at *
      have hc1 : 1 - c ≤ 1.55e-16 := by norm_num at hb ⊢; linarith
      have hcpos : 0 < c := by norm_num at hc1; linarith
      have : 1 - 1 / c * c - 1 / c * (c - 1 / c * 1) = (1 - c) * (1 + c) / c ^ 2 := by
        field_simp; ring
      rw [this, div_le_iff₀ (by positivity)]
      norm_num at hc1 ⊢
      nlinarith
  · refine ⟨_, ideal_doIntersect h normal sfo e, by rw [norm_toE]; exact unit_norm z2, ?_, _, norm_pos z2, ?_⟩
    · rw [inner_toE, inner_toE]; exact side _ z2 f2
    · have e2 : lineAt pt (unitVector ((f / |dot ray.direction n|) * ray.direction - (pt - l.position)))
          (norm ((f / |dot ray.direction n|) * ray.direction - (pt - l.position)))
          = lineAt l.position ray.direction (f / |dot ray.direction n|) := by
        rw [lineAt, unit_smul_norm z2, lineAt]
        ext <;> simp only [sub_x, sub_y, sub_z, add_x, add_y, add_z, smul_x, smul_y, smul_z] <;> ring
      rw [inner_toE, e2, dist_self]; positivity

/-- C34: every ray from the object point `O` (off the focal plane) leaves the lens along a line through the
image of `O`, in front of the lens if `p > f` and behind it if `p < f`. Missing for the full claim: rays within
`2e-8` of the axis but not along it (for these see `C34_focal_plane` and `C34_counterexample`) and rays within
`1e-8` of the lens plane (`C34_grazing`). -/
theorem C34_imaging_partial (l : Lens ℝ) (n : V3 ℝ) (f : ℝ) (ray : Ray ℝ) (pt : V3 ℝ) (h : HitsIdealLens l n f ray pt)
    (hf : 0 < f) (normal : Option (V3 ℝ)) (sfo : Sfo)
    (hpar : ray.direction = n ∨ ray.direction = -n ∨
      2e-8 < ‖(ray.direction - n).toE‖ ∧ 2e-8 < ‖(ray.direction + n).toE‖)
    (O : V3 ℝ) (hO : ∃ s, 0 < s ∧ lineAt O ray.direction s = pt)
    (hp : |inner ℝ (O.toE - l.position.toE) n.toE| ≠ f) :
    ∃ I d', ImageOf f l.position.toE n.toE O.toE I.toE ∧
      l.doIntersect ray pt normal sfo = .ok { ray with direction := d' } ∧ ‖d'.toE‖ = 1 ∧
      ∃ t, lineAt pt d' t = I ∧ (0 < t ↔ f < |inner ℝ (O.toE - l.position.toE) n.toE|) := by
  have hd : dot ray.direction ray.direction = 1 := by have := h.unitDirection; rwa [norm_toE, norm_eq_one_iff] at this
  have hn : dot n n = 1 := by have := h.unitNormal; rwa [norm_toE, norm_eq_one_iff] at this
  have hg := h.notGrazing
  have hr := h.inPlane
  rw [inner_toE] at hg hr
  have hc : |dot ray.direction n| ≠ 0 := by
    intro e; rw [e] at hg; norm_num at hg
  have hm : dot (orientedNormal n ray.direction) (orientedNormal n ray.direction) = 1 := by
    rw [orientedNormal_self, hn]
  have hdm := orientedNormal_dot n ray.direction
  obtain ⟨-, -, -, z2⟩ := thin_forward (d := ray.direction) hf.ne' hm (orientedNormal_perp hr) _ hc hdm
  -- the code's vector is the exact one
  have e : thinLensDirection pt ray.direction l.position n (some f) pt
      = .ok (unitVector ((f / |dot ray.direction n|) * ray.direction - (pt - l.position))) := by
    rw [thinLens_eq (x := pt) (P := l.position) (f := f) hd hn hg]
    split_ifs with hcl
    · have hb := allclose_bound hm hcl
      have hdir : ray.direction = orientedNormal n ray.direction := by
        have aux : ∀ m : V3 ℝ, orientedNormal n ray.direction = m → 2e-8 < ‖(ray.direction - m).toE‖ → False := by
          intro m hmm hlt
          rw [hmm] at hb
          rw [norm_toE] at hlt
          have := norm_mul_self (ray.direction - m)
          norm_num at hb hlt
          nlinarith
        have s2 : ray.direction + n = ray.direction - -n := by ext <;> simp
        rw [s2] at hpar
        rcases hpar with hh | hh | ⟨hh1, hh2⟩
        · conv_rhs => rw [hh]
          unfold orientedNormal
          rw [if_neg (by rw [hn, lit0]; norm_num)]
          exact hh
        · have : orientedNormal n ray.direction = -n := by
            unfold orientedNormal
            rw [if_pos (by rw [hh, dot_neg_right, hn, lit0]; norm_num)]
          rw [this]; exact hh
        · rcases orientedNormal_cases n ray.direction with hh | hh
          · exact (aux _ hh hh1).elim
          · exact (aux _ hh hh2).elim
      have hc1 : |dot ray.direction n| = 1 := by
        rw [← hdm, ← hdir]; exact hd
      rw [← hdir, hc1, div_one]
    · rfl
  obtain ⟨s, hs, hOs⟩ := hO
  have hinner : inner ℝ (O.toE - l.position.toE) n.toE = -(s * dot ray.direction n) := by
    rw [← toE_sub, inner_toE]
    rw [← hOs, lineAt] at hr
    simp only [dot_sub_left, dot_add_left, dot_smul_left] at hr ⊢
    linarith
  have hpeq : |inner ℝ (O.toE - l.position.toE) n.toE| = s * |dot ray.direction n| := by
    rw [hinner, abs_neg, abs_mul, abs_of_pos hs]
  have hO0 : inner ℝ (O.toE - l.position.toE) n.toE ≠ 0 := by
    rw [← abs_ne_zero, hpeq]; positivity
  rw [hpeq] at hp ⊢
  generalize hce : |dot ray.direction n| = c at *
  have hcpos : 0 < c := lt_of_le_of_ne (by rw [← hce]; positivity) (Ne.symm hc)
  have hpf : s * c - f ≠ 0 := sub_ne_zero.mpr hp
  refine ⟨l.position + (-(f / (s * c - f))) * (O - l.position), _, ?_, ideal_doIntersect h normal sfo e,
    by rw [norm_toE]; exact unit_norm z2, ?_⟩
  · refine ⟨s * c * f / (s * c - f), by positivity, ?_, ?_⟩
    · rw [hpeq]; field_simp; ring
    · rw [hpeq, toE_add, toE_smul, toE_sub, add_sub_cancel_left]
      congr 2
      field_simp
  · refine ⟨s * c / (s * c - f) * norm ((f / c) * ray.direction - (pt - l.position)), ?_, ?_⟩
    · have : ∀ a b : ℝ, ∀ v w : V3 ℝ, lineAt v w (a * b) = v + a * (b * w) := by
        intro a b v w; unfold lineAt
        ext <;> simp only [add_x, add_y, add_z, smul_x, smul_y, smul_z] <;> ring
      rw [this, unit_smul_norm z2, ← hOs]
      unfold lineAt
      ext <;> simp only [sub_x, sub_y, sub_z, add_x, add_y, add_z, smul_x, smul_y, smul_z] <;> field_simp <;> ring
    · have hN := norm_pos z2
      constructor
      · intro ht
        by_contra hle
        have hneg : s * c - f < 0 := lt_of_le_of_ne (by linarith [not_lt.mp hle]) hpf
        have : s * c / (s * c - f) < 0 := div_neg_of_pos_of_neg (by positivity) hneg
        nlinarith
      · intro hlt
        have : 0 < s * c - f := by linarith
        positivity

/-- C34 fails for rays that are nearly but not exactly parallel to the axis: from the object point
`(0, 0, -2)` with `f = 1` (image `(0, 0, 2)`), a ray tilted by `2e-9` misses the image. -/
theorem C34_counterexample :
    let k : ℝ := 1 / 10 ^ 9
    let d : V3 ℝ := ⟨2 * k / (1 + k ^ 2), 0, (1 - k ^ 2) / (1 + k ^ 2)⟩
    let x : V3 ℝ := ⟨4 * k / (1 - k ^ 2), 0, 0⟩
    let n : V3 ℝ := ⟨0, 0, 1⟩
    dot d d = 1 ∧ (∃ s, 0 < s ∧ lineAt ⟨0, 0, -2⟩ d s = x) ∧
    ImageOf 1 (⟨0, 0, 0⟩ : V3 ℝ).toE n.toE (⟨0, 0, -2⟩ : V3 ℝ).toE (⟨0, 0, 2⟩ : V3 ℝ).toE ∧
    ∃ d', thinLensDirection x d ⟨0, 0, 0⟩ n (some 1) x = .ok d' ∧ ∀ t, lineAt x d' t ≠ ⟨0, 0, 2⟩ := by
  intro k d x n
  have hd : dot d d = 1 := by norm_num [dot, d, k]
  have hn : dot n n = 1 := by norm_num [dot, n]
  have hdn : |dot d n| = (1 - k ^ 2) / (1 + k ^ 2) := by
    rw [abs_of_nonneg] <;> norm_num [dot, d, n, k]
  refine ⟨hd, ⟨2 * (1 + k ^ 2) / (1 - k ^ 2), by norm_num [k], ?_⟩, ⟨2, two_ne_zero, ?_, ?_⟩, ?_⟩
  · ext <;> norm_num [lineAt, d, x, k]
  · rw [← toE_sub, inner_toE]; norm_num [dot, n]
  · rw [← toE_sub, ← toE_sub, inner_toE, ← toE_smul]
    congr 1
    ext <;> norm_num [dot, n]
  · have hor : orientedNormal n d = n := by
      unfold orientedNormal; rw [if_neg (by norm_num [dot, d, n, k])]
    have hcl : allclose d n 1e-10 atolDefault = true := by
      simp only [allclose, isclose, Bool.and_eq_true, real_abs, atolDefault, d, n, k]
      refine ⟨⟨decide_eq_true ?_, decide_eq_true ?_⟩, decide_eq_true ?_⟩
      · rw [abs_of_nonneg] <;> norm_num
      · norm_num
      · rw [abs_of_nonpos] <;> norm_num
    have e := thinLens_eq (x := x) (P := ⟨0, 0, 0⟩) (f := 1) hd hn (by rw [hdn]; norm_num [k])
    rw [hor, if_pos hcl] at e
    refine ⟨_, e, ?_⟩
    intro t ht
    have hx := congrArg V3.x ht
    have hz := congrArg V3.z ht
    rw [unitVector_eq] at hx hz
    simp only [lineAt, add_x, add_z, smul_x, smul_z, sub_x, sub_z, x, n] at hx hz
    have hz' : ∀ N : ℝ, (0 : ℝ) + t * (1 / N * (1 * 1 - (0 - 0))) = 2 → t * (1 / N) = 2 := by
      intro N hN; linear_combination hN
    have h2 := hz' _ hz
    have hx' : 4 * k / (1 - k ^ 2) = 0 := by linear_combination -hx - (4 * k / (1 - k ^ 2)) * h2
    norm_num [k] at hx'

/-- C34: a ray within `1e-8` of the lens plane is left alone. -/
theorem C34_grazing (position d P n pt : V3 ℝ) (f : Option ℝ) (h : |dot d n| ≤ 1e-8) :
    thinLensDirection position d P n f pt = .ok d := by
  unfold thinLensDirection
  have h1 : isclose (dot (orientedNormal n d) d) 0.0 1e-10 atolDefault = true := by
    simp only [isclose, atolDefault, real_abs, lit0, decide_eq_true_eq]
    rw [dot_comm, orientedNormal_dot, sub_zero, abs_abs, abs_zero]; norm_num at h ⊢; exact h
  simp only [h1, if_true]

/-- With `f < 0` (a diverging lens) the code sends every ray back to the side it came from. -/
theorem C34_negative_f_goes_back (l : Lens ℝ) (n : V3 ℝ) (f : ℝ) (ray : Ray ℝ) (pt : V3 ℝ)
    (h : HitsIdealLens l n f ray pt) (hf : f < 0) (normal : Option (V3 ℝ)) (sfo : Sfo) :
    ∃ d', l.doIntersect ray pt normal sfo = .ok { ray with direction := d' } ∧
      inner ℝ ray.direction.toE n.toE * inner ℝ d'.toE n.toE < 0 := by
  have hd : dot ray.direction ray.direction = 1 := by have := h.unitDirection; rwa [norm_toE, norm_eq_one_iff] at this
  have hn : dot n n = 1 := by have := h.unitNormal; rwa [norm_toE, norm_eq_one_iff] at this
  have hg := h.notGrazing
  have hr := h.inPlane
  rw [inner_toE] at hg hr
  have hc : |dot ray.direction n| ≠ 0 := by
    intro e; rw [e] at hg; norm_num at hg
  have hm : dot (orientedNormal n ray.direction) (orientedNormal n ray.direction) = 1 := by
    rw [orientedNormal_self, hn]
  have hdm := orientedNormal_dot n ray.direction
  obtain ⟨f1, f2, z1, z2⟩ := thin_forward (d := ray.direction) hf.ne hm (orientedNormal_perp hr) _ hc hdm
  have hcpos : 0 < |dot ray.direction n| := by positivity
  have side : ∀ w : V3 ℝ, w ≠ ⟨0, 0, 0⟩ → dot w (orientedNormal n ray.direction) = f →
      dot ray.direction n * dot (unitVector w) n < 0 := by
    intro w hw0 hw
    have hN := norm_pos hw0
    have h1 : dot (unitVector w) (orientedNormal n ray.direction) = f / norm w := by
      rw [unitVector, dot_div_left, hw]
    have h2 : |dot ray.direction n| * (f / norm w) < 0 :=
      mul_neg_of_pos_of_neg hcpos (div_neg_of_neg_of_pos hf hN)
    rw [← h1, ← hdm] at h2
    rcases orientedNormal_cases n ray.direction with e | e <;> rw [e] at h2
    · exact h2
    · rw [dot_neg_right, dot_neg_right] at h2; linarith
  have e := thinLens_eq (x := pt) (P := l.position) (f := f) hd hn hg
  split_ifs at e with hcl
  · exact ⟨_, ideal_doIntersect h normal sfo e, by rw [inner_toE, inner_toE]; exact side _ z1 f1⟩
  · exact ⟨_, ideal_doIntersect h normal sfo e, by rw [inner_toE, inner_toE]; exact side _ z2 f2⟩

/-- The hypotheses of C34 are met by a tilted ray off the lens centre, from the side the normal points to. -/
example : HitsIdealLens ⟨⟨0, 0, 0⟩, some ⟨0, 0, 1⟩, "spherical_biconvex", none, none, none, some 3, [], "ideal", 1⟩
    ⟨0, 0, 1⟩ 3 ⟨⟨1, 2, 0⟩, ⟨3 / 5, 0, -4 / 5⟩, 532, 0, [], false, "normal"⟩ ⟨1, 2, 0⟩ := by
  refine ⟨rfl, rfl, rfl, ?_, ?_, rfl, ?_, ?_⟩
  · rw [norm_toE, norm_eq_one_iff]; norm_num [dot]
  · rw [norm_toE, norm_eq_one_iff]; norm_num [dot]
  · rw [inner_toE]; norm_num [dot]
  · rw [inner_toE]; norm_num [dot, abs_of_pos]

end Optics
