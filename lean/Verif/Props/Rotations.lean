import Verif.Props.Vectors

/-! # C06-C09, C70: rotation and homogeneous matrices, drawn patches -/

namespace Optics
open V3

/-! ## C06 -/

/-- C06: `rotation_matrix_axis_angle(axis, θ)` is a proper rotation, fixes the axis, acts by
Rodrigues' formula (counterclockwise, right-hand rule), composes additively, is inverted by `-θ`,
and has period `2π`. -/
theorem C06_axis_angle (axis : V3 ℝ) (h : axis ≠ ⟨0, 0, 0⟩) (θ φ : ℝ) :
    IsRotation (rotationMatrixAxisAngle axis θ) ∧
    M3.mulVec (rotationMatrixAxisAngle axis θ) axis = axis ∧
    (∀ v, M3.mulVec (rotationMatrixAxisAngle axis θ) v = rodrigues (unitVector axis) θ v) ∧
    M3.mul (rotationMatrixAxisAngle axis θ) (rotationMatrixAxisAngle axis φ)
      = rotationMatrixAxisAngle axis (θ + φ) ∧
    M3.mul (rotationMatrixAxisAngle axis θ) (rotationMatrixAxisAngle axis (-θ)) = M3.eye ∧
    rotationMatrixAxisAngle axis (θ + 2 * Real.pi) = rotationMatrixAxisAngle axis θ := by
  have hk := unit_dot h
  have hn := (norm_pos h).ne'
  have add : ∀ θ φ : ℝ, M3.mul (rotationMatrixAxisAngle axis θ) (rotationMatrixAxisAngle axis φ)
      = rotationMatrixAxisAngle axis (θ + φ) := by
    intro θ φ
    simp only [axisAngle_eq_rodMat h, Real.cos_add, Real.sin_add]
    generalize unitVector axis = k at hk
    simp only [dot] at hk
    generalize Real.cos θ = c1
    generalize Real.cos φ = c2
    generalize Real.sin θ = s1
    generalize Real.sin φ = s2
    apply M3.ext_mulVec
    intro v
    rw [mulVec_mul]
    simp only [mulVec_rodMat]
    ext <;> simp only [dot, cross, add_x, add_y, add_z, smul_x, smul_y, smul_z]
    · linear_combination (-s1 * s2 * v.x + (1 - c1) * (1 - c2) * k.x * (k.x * v.x + k.y * v.y + k.z * v.z)) * hk
    · linear_combination (-s1 * s2 * v.y + (1 - c1) * (1 - c2) * k.y * (k.x * v.x + k.y * v.y + k.z * v.z)) * hk
    · linear_combination (-s1 * s2 * v.z + (1 - c1) * (1 - c2) * k.z * (k.x * v.x + k.y * v.y + k.z * v.z)) * hk
  refine ⟨axisAngle_isRotation h θ, ?_, fun v => axisAngle_rodrigues h θ v, add θ φ, ?_, ?_⟩
  · rw [axisAngle_rodrigues h]
    have e : axis = norm axis * unitVector axis := by
      rw [unitVector]
      ext <;> simp only [smul_x, smul_y, smul_z, sdiv_x, sdiv_y, sdiv_z] <;> field_simp
    generalize unitVector axis = k at hk e
    generalize norm axis = r at e
    subst e
    simp only [rodrigues, dot_smul_right, hk]
    ext <;> simp only [cross, add_x, add_y, add_z, smul_x, smul_y, smul_z] <;> ring
  · rw [add, add_neg_cancel, axisAngle_eq_rodMat h]
    simp only [Real.cos_zero, Real.sin_zero, rodMat, M3.eye]
    norm_num
  · rw [axisAngle_eq_rodMat h, axisAngle_eq_rodMat h, Real.cos_add_two_pi, Real.sin_add_two_pi]

/-- The quarter turn about z takes x to y (not -y): the orientation claim is not vacuous. -/
example : M3.mulVec (rotationMatrixAxisAngle ⟨0, 0, 1⟩ (Real.pi / 2)) ⟨1, 0, 0⟩
    = (⟨0, 1, 0⟩ : V3 ℝ) := by
  have h0 : (⟨0, 0, 1⟩ : V3 ℝ) ≠ ⟨0, 0, 0⟩ := by simp
  rw [axisAngle_rodrigues h0, unitVector_of_unit (by norm_num [dot])]
  ext <;> simp [rodrigues, cross, dot]

/-! ## C07 -/

/-- C07 (part): `rotation_matrix2(a, b)` is a proper rotation taking the direction of `a` to the
direction of `b`, for nonzero `a`, `b` that are not antiparallel; as a side effect the caller's
arrays become the unit vectors.
Missing from the full C07: antiparallel vectors, for which the property is false
(`C07_antiparallel_counterexample`). -/
theorem C07_rotation_matrix2_partial (a b : V3 ℝ) (ha : a ≠ ⟨0, 0, 0⟩) (hb : b ≠ ⟨0, 0, 0⟩)
    (hab : ¬ ∃ c : ℝ, c < 0 ∧ b = c * a) :
    IsRotation (rotationMatrix2 a b).1 ∧
    M3.mulVec (rotationMatrix2 a b).1 (unitVector a) = unitVector b ∧
    (rotationMatrix2 a b).2 = (unitVector a, unitVector b) := by
  have ua := unit_dot ha
  have ub := unit_dot hb
  have pa := norm_pos ha
  have pb := norm_pos hb
  refine ⟨?_, ?_, rfl⟩ <;> rw [rotationMatrix2_unit ha hb]
  · by_cases h : norm (cross (unitVector a) (unitVector b)) = 0
    · rw [rotationMatrix2_parallel ua ub h]
      rcases unit_parallel ua ub h with ⟨hd, _⟩ | ⟨_, he⟩
      · rw [hd, if_pos (by norm_num), isRotation_iff]
        norm_num [M3.eye, dot, cross]
      · exfalso
        apply hab
        refine ⟨-(norm b / norm a), by rw [neg_lt_zero]; positivity, ?_⟩
        have hx := congrArg V3.x he
        have hy := congrArg V3.y he
        have hz := congrArg V3.z he
        have := pa.ne'
        have := pb.ne'
        simp only [unitVector, sdiv_x, sdiv_y, sdiv_z, neg_x, neg_y, neg_z] at hx hy hz
        field_simp at hx hy hz
        ext <;> simp only [smul_x, smul_y, smul_z] <;> field_simp <;> linarith
    · rw [rotationMatrix2_eq_rodMat ua ub h]
      apply isRotation_rodMat
      · apply unit_dot; intro e; exact h (norm_eq_zero.mpr e)
      · rw [norm_sq, cross_dot_self, ua, ub]; ring
  · by_cases h : norm (cross (unitVector a) (unitVector b)) = 0
    · rw [rotationMatrix2_parallel ua ub h]
      rcases unit_parallel ua ub h with ⟨hd, he⟩ | ⟨hd, he⟩
      · rw [hd, if_pos (by norm_num), mulVec_eye, he]
      · rw [hd, if_neg (by norm_num), mulVec_neg_eye, he]
    · rw [rotationMatrix2_eq_rodMat ua ub h, rodMat_maps ua h]

/-- C07, every pair: the direction of `a` always goes to the direction of `b`, and lengths and
angles are always preserved (possibly with a reflection). -/
theorem C07_rotation_matrix2_maps (a b : V3 ℝ) (ha : a ≠ ⟨0, 0, 0⟩) (hb : b ≠ ⟨0, 0, 0⟩) :
    M3.mulVec (rotationMatrix2 a b).1 (unitVector a) = unitVector b ∧
    ∀ u v, dot (M3.mulVec (rotationMatrix2 a b).1 u) (M3.mulVec (rotationMatrix2 a b).1 v) = dot u v := by
  have ua := unit_dot ha
  have ub := unit_dot hb
  rw [rotationMatrix2_unit ha hb]
  by_cases h : norm (cross (unitVector a) (unitVector b)) = 0
  · rw [rotationMatrix2_parallel ua ub h]
    rcases unit_parallel ua ub h with ⟨hd, he⟩ | ⟨hd, he⟩
    · rw [hd, if_pos (by norm_num), mulVec_eye, he]
      exact ⟨rfl, fun u v => by rw [mulVec_eye, mulVec_eye]⟩
    · rw [hd, if_neg (by norm_num), mulVec_neg_eye, he]
      exact ⟨rfl, fun u v => by rw [mulVec_neg_eye, mulVec_neg_eye, dot_neg_left, dot_neg_right, neg_neg]⟩
  · rw [rotationMatrix2_eq_rodMat ua ub h, rodMat_maps ua h]
    refine ⟨rfl, IsRotation.dot_mulVec (isRotation_rodMat ?_ ?_)⟩
    · apply unit_dot; intro e; exact h (norm_eq_zero.mpr e)
    · rw [norm_sq, cross_dot_self, ua, ub]; ring

/-- C07 fails for *every* antiparallel pair: the matrix is `-I`, a point reflection, which is not a
rotation. -/
theorem C07_antiparallel_counterexample (a : V3 ℝ) (ha : a ≠ ⟨0, 0, 0⟩) (c : ℝ) (hc : c < 0) :
    (rotationMatrix2 a (c * a)).1 = -M3.eye ∧ ¬ IsRotation (rotationMatrix2 a (c * a)).1 := by
  have hb : c * a ≠ ⟨0, 0, 0⟩ := by
    intro e
    apply ha
    rw [← norm_eq_zero] at e ⊢
    rw [norm_smul] at e
    exact (mul_eq_zero.mp e).resolve_left (abs_pos.mpr hc.ne).ne'
  have ua := unit_dot ha
  have e : unitVector (c * a) = -unitVector a := by
    have := (norm_pos ha).ne'
    have := hc.ne
    rw [unitVector, norm_smul, abs_of_neg hc, unitVector]
    ext <;> simp only [smul_x, smul_y, smul_z, sdiv_x, sdiv_y, sdiv_z, neg_x, neg_y, neg_z] <;> field_simp
  have h0 : cross (unitVector a) (-unitVector a) = ⟨0, 0, 0⟩ := by
    ext <;> simp only [cross, neg_x, neg_y, neg_z] <;> ring
  have hM : (rotationMatrix2 a (c * a)).1 = -M3.eye := by
    have ub : dot (-unitVector a) (-unitVector a) = 1 := by rw [dot_neg_left, dot_neg_right, ua]; norm_num
    rw [rotationMatrix2_unit ha hb, e, rotationMatrix2_parallel ua ub (norm_eq_zero.mpr h0),
      dot_neg_right, ua, if_neg (by norm_num)]
  refine ⟨hM, ?_⟩
  rw [hM, isRotation_iff]
  rintro ⟨-, h⟩
  norm_num [M3.eye, dot, cross] at h

example : ¬ ∃ c : ℝ, c < 0 ∧ (⟨0, 1, 1⟩ : V3 ℝ) = c * (⟨1, 0, 0⟩ : V3 ℝ) := by
  rintro ⟨c, _, h⟩
  have := congrArg V3.y h
  simp at this

/-! ## C08 -/

/-- C08 is false: `rotation_matrix(v1, v2)` does not "change v1 into v2". -/
theorem C08_rotation_matrix_counterexample :
    ∃ v1 v2 : V3 ℝ, v1 ≠ ⟨0, 0, 0⟩ ∧ v2 ≠ ⟨0, 0, 0⟩ ∧
      M3.mulVec (rotationMatrix v1 v2).1 (unitVector v1) ≠ unitVector v2 ∧
      M3.mulVec (rotationMatrix v1 v2).1 (unitVector v1) = -unitVector v2 := by
  refine ⟨⟨1, 0, 0⟩, ⟨0, 1, 0⟩, by simp, by simp, ?_⟩
  have ua : dot (⟨1, 0, 0⟩ : V3 ℝ) ⟨1, 0, 0⟩ = 1 := by norm_num [dot]
  have ub : dot (⟨0, 1, 0⟩ : V3 ℝ) ⟨0, 1, 0⟩ = 1 := by norm_num [dot]
  have hc : cross (⟨1, 0, 0⟩ : V3 ℝ) ⟨0, 1, 0⟩ = ⟨0, 0, 1⟩ := by simp [cross]
  have hn : norm (⟨0, 0, 1⟩ : V3 ℝ) = 1 := norm_eq_one_iff.mpr (by norm_num [dot])
  have hm : M3.mulVec (rotationMatrix (⟨1, 0, 0⟩ : V3 ℝ) ⟨0, 1, 0⟩).1 (unitVector ⟨1, 0, 0⟩)
      = -unitVector ⟨0, 1, 0⟩ := by
    rw [rotationMatrix_eq_rodMat ua ub (by rw [hc, hn]; norm_num), unitVector_of_unit ua,
      unitVector_of_unit ub, hc, hn, unitVector_of_unit (by norm_num [dot]), mulVec_rodMat]
    ext <;> simp [dot, cross]
  refine ⟨?_, hm⟩
  rw [hm, unitVector_of_unit ub]
  intro h
  have := congrArg V3.y h
  norm_num at this

/-- C08 (part): what `rotation_matrix(v1, v2)` does do, for all nonzero arguments: it takes the
direction of `v2` to the direction of `v1`, preserving lengths and angles; it is a proper
rotation unless the arguments are antiparallel.
Missing: the docstring's "changes v1 into v2" is false (`C08_rotation_matrix_counterexample`). -/
theorem C08_rotation_matrix_partial (v1 v2 : V3 ℝ) (h1 : v1 ≠ ⟨0, 0, 0⟩) (h2 : v2 ≠ ⟨0, 0, 0⟩) :
    M3.mulVec (rotationMatrix v1 v2).1 (unitVector v2) = unitVector v1 ∧
    (∀ u v, dot (M3.mulVec (rotationMatrix v1 v2).1 u) (M3.mulVec (rotationMatrix v1 v2).1 v) = dot u v) ∧
    (dot (unitVector v1) (unitVector v2) ≠ -1 → IsRotation (rotationMatrix v1 v2).1) := by
  have ua := unit_dot h1
  have ub := unit_dot h2
  rw [rotationMatrix_unit h1 h2]
  by_cases h : norm (cross (unitVector v1) (unitVector v2)) = 0
  · rw [rotationMatrix_parallel ua ub h]
    rcases unit_parallel ua ub h with ⟨hd, he⟩ | ⟨hd, he⟩
    · rw [hd, if_pos (by norm_num), mulVec_eye, he]
      refine ⟨rfl, fun u v => by rw [mulVec_eye, mulVec_eye], fun _ => ?_⟩
      rw [isRotation_iff]; norm_num [M3.eye, dot, cross]
    · rw [hd, if_neg (by norm_num), mulVec_neg_eye, he]
      refine ⟨neg_neg' _, fun u v => ?_, fun hc => absurd rfl hc⟩
      rw [mulVec_neg_eye, mulVec_neg_eye, dot_neg_left, dot_neg_right, neg_neg]
  · have hr : IsRotation (rodMat (unitVector (cross (unitVector v1) (unitVector v2)))
        (dot (unitVector v1) (unitVector v2)) (-norm (cross (unitVector v1) (unitVector v2)))) := by
      apply isRotation_rodMat
      · apply unit_dot; intro e; exact h (norm_eq_zero.mpr e)
      · rw [neg_sq, norm_sq, cross_dot_self, ua, ub]; ring
    rw [rotationMatrix_eq_rodMat ua ub h, rodMat_inv_maps ub h]
    exact ⟨rfl, hr.dot_mulVec, fun _ => hr⟩

example : dot (unitVector (⟨1, 0, 0⟩ : V3 ℝ)) (unitVector ⟨0, 1, 0⟩) ≠ -1 := by
  rw [unitVector_of_unit (by norm_num [dot]), unitVector_of_unit (by norm_num [dot])]
  norm_num [dot]

/-! ## C09 -/

/-- C09: the homogeneous matrices act on points (`w = 1`) and directions (`w = 0`) as advertised. -/
theorem C09_homogeneous (p t s a b : V3 ℝ) :
    M4.mulVec (translationMatrix4 t) (p.hom 1) = (p + t).hom 1 ∧
    M4.mulVec (translationMatrix4 t) (p.hom 0) = p.hom 0 ∧
    (∀ w : ℝ, M4.mulVec (scalingMatrix4 s) (p.hom w)
      = (⟨s.x * p.x, s.y * p.y, s.z * p.z⟩ : V3 ℝ).hom w) ∧
    (∀ w : ℝ, M4.mulVec (rotationMatrix4 a b) (p.hom w) = (M3.mulVec (rotationMatrix2 a b).1 p).hom w) ∧
    (∀ u : V3 ℝ, M4.mulVec (translationMatrix4 u) (M4.mulVec (translationMatrix4 t) (p.hom 1))
      = M4.mulVec (translationMatrix4 (t + u)) (p.hom 1)) ∧
    M4.mulVec (translationMatrix4 (-t)) (M4.mulVec (translationMatrix4 t) (p.hom 1)) = p.hom 1 := by
  refine ⟨?_, ?_, fun w => ?_, fun w => ?_, fun u => ?_, ?_⟩ <;>
    ext <;> simp [M4.mulVec, translationMatrix4, scalingMatrix4, rotationMatrix4, V4.dot, V3.hom,
      M3.mulVec, dot, lit0, lit1] <;> ring

/-! ## C70 -/

/-- C70: an array normal, an offset `z` and a translation to `pos` put the 2D vertices into the plane through
`pos + (0, 0, z)` perpendicular to the normal (the offset is along the z axis, whatever the normal), one point per
vertex, the origin of the patch at `pos + (0, 0, z)`, with all mutual distances preserved. -/
theorem C70_patch_offset (verts : List (ℝ × ℝ)) (z : ℝ) (n pos : V3 ℝ) (hn : n ≠ ⟨0, 0, 0⟩) :
    ∃ seg : List (V3 ℝ), pathpatch2dTo3d verts z (.vec n) = .ok seg ∧
      (pathpatchTranslate seg pos).length = verts.length ∧
      (∀ q ∈ pathpatchTranslate seg pos, dot (q - (pos + ⟨0, 0, z⟩)) n = 0) ∧
      (∀ i j (hi : i < verts.length) (hj : j < verts.length) (p q : V3 ℝ),
        (pathpatchTranslate seg pos)[i]? = some p → (pathpatchTranslate seg pos)[j]? = some q →
        distanceBetween p q ^ 2
          = (verts[i].1 - verts[j].1) ^ 2 + (verts[i].2 - verts[j].2) ^ 2) ∧
      (∀ i (hi : i < verts.length) (p : V3 ℝ), (pathpatchTranslate seg pos)[i]? = some p →
        distanceBetween p (pos + ⟨0, 0, z⟩) ^ 2 = verts[i].1 ^ 2 + verts[i].2 ^ 2) := by
  have hz : (⟨0, 0, 1⟩ : V3 ℝ) ≠ ⟨0, 0, 0⟩ := by simp
  obtain ⟨hmap, hiso, -⟩ := C08_rotation_matrix_partial n ⟨0, 0, 1⟩ hn hz
  rw [unitVector_of_unit (by norm_num [dot])] at hmap
  have hlit : (⟨(0.0 : ℝ), 0.0, 1.0⟩ : V3 ℝ) = ⟨0, 0, 1⟩ := by rw [lit0, lit1]
  refine ⟨_, rfl, by simp [pathpatchTranslate], ?_, ?_, ?_⟩
  all_goals rw [hlit]
  all_goals generalize (rotationMatrix n ⟨0, 0, 1⟩).1 = M at *
  · intro q hq
    simp only [pathpatchTranslate, List.map_map, List.mem_map, Function.comp] at hq
    obtain ⟨⟨x, y⟩, -, rfl⟩ := hq
    have e : M3.mulVec M ⟨x, y, (0.0 : ℝ)⟩ + ⟨0.0, 0.0, z⟩ + pos - (pos + ⟨0, 0, z⟩) = M3.mulVec M ⟨x, y, 0⟩ := by
      rw [lit0]; ext <;> simp [← add_assoc] <;> ring
    have hp := (norm_pos hn).ne'
    have e2 : n = norm n * M3.mulVec M ⟨0, 0, 1⟩ := by
      rw [hmap, unitVector]
      ext <;> simp only [smul_x, smul_y, smul_z, sdiv_x, sdiv_y, sdiv_z] <;> field_simp
    rw [e]
    rw [e2, dot_smul_right, hiso]
    simp [dot]
  · intro i j hi hj p q hp hq
    simp only [pathpatchTranslate, List.map_map, List.getElem?_map, Function.comp,
      List.getElem?_eq_getElem hi, List.getElem?_eq_getElem hj, Option.map_some,
      Option.some.injEq] at hp hq
    subst hp hq
    have e : M3.mulVec M ⟨verts[i].1, verts[i].2, (0.0 : ℝ)⟩ + ⟨0.0, 0.0, z⟩ + pos
        - (M3.mulVec M ⟨verts[j].1, verts[j].2, (0.0 : ℝ)⟩ + ⟨0.0, 0.0, z⟩ + pos)
        = M3.mulVec M (⟨verts[i].1, verts[i].2, 0⟩ - ⟨verts[j].1, verts[j].2, 0⟩) := by
      rw [mulVec_sub, lit0]; ext <;> simp
    rw [distanceBetween, e, norm_sq, hiso]
    simp only [dot, sub_x, sub_y, sub_z]; ring
  · intro i hi p hp
    simp only [pathpatchTranslate, List.map_map, List.getElem?_map, Function.comp,
      List.getElem?_eq_getElem hi, Option.map_some, Option.some.injEq] at hp
    subst hp
    have e : M3.mulVec M ⟨verts[i].1, verts[i].2, (0.0 : ℝ)⟩ + ⟨0.0, 0.0, z⟩ + pos - (pos + ⟨0, 0, z⟩)
        = M3.mulVec M ⟨verts[i].1, verts[i].2, 0⟩ := by
      rw [lit0]; ext <;> simp [← add_assoc] <;> ring
    rw [distanceBetween, e, norm_sq, hiso]
    simp only [dot]; ring

/-- C70: what every `draw` method does (`z = 0`, then a translation to the optic's position): the patch lies in the
plane through `pos` perpendicular to the normal, centred at `pos`, congruent to the 2D patch. -/
theorem C70_patch_congruent (verts : List (ℝ × ℝ)) (n pos : V3 ℝ) (hn : n ≠ ⟨0, 0, 0⟩) :
    ∃ seg : List (V3 ℝ), pathpatch2dTo3d verts 0.0 (.vec n) = .ok seg ∧
      (pathpatchTranslate seg pos).length = verts.length ∧
      (∀ q ∈ pathpatchTranslate seg pos, dot (q - pos) n = 0) ∧
      (∀ i j (hi : i < verts.length) (hj : j < verts.length) (p q : V3 ℝ),
        (pathpatchTranslate seg pos)[i]? = some p → (pathpatchTranslate seg pos)[j]? = some q →
        distanceBetween p q ^ 2
          = (verts[i].1 - verts[j].1) ^ 2 + (verts[i].2 - verts[j].2) ^ 2) ∧
      (∀ i (hi : i < verts.length) (p : V3 ℝ), (pathpatchTranslate seg pos)[i]? = some p →
        distanceBetween p pos ^ 2 = verts[i].1 ^ 2 + verts[i].2 ^ 2) := by
  have h := C70_patch_offset verts 0.0 n pos hn
  have e : pos + ⟨0, 0, (0.0 : ℝ)⟩ = pos := by rw [lit0]; ext <;> simp
  rwa [e] at h

/-- C70: a string normal (the documented alternative, and the default `'z'`) always raises; the
three documented values raise `TypeError`. -/
theorem C70_string_normal_raises (verts : List (ℝ × ℝ)) (z : ℝ) (s : String) :
    ∃ e, pathpatch2dTo3d verts z (.str s) = .error e ∧
      (s = "x" ∨ s = "y" ∨ s = "z" → e = .typeError) := by
  by_cases h : s ∈ ["", "x", "y", "z", "xy", "yz", "xyz"]
  · exact ⟨.typeError, by simp only [pathpatch2dTo3d, if_pos h], fun _ => rfl⟩
  · refine ⟨.valueError, by simp only [pathpatch2dTo3d, if_neg h], ?_⟩
    rintro (rfl | rfl | rfl) <;> simp at h

end Optics
