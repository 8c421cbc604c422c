import Verif.Spec.Drawing
import Verif.Model.Draw
import Verif.Props.Rotations
import Verif.Props.FlatShapes
import Verif.Props.Mirrors
import Verif.Props.GlassBall

/-! # Lemmas on drawn patches and on the points at which optics can be hit -/

namespace Optics
open V3

/-- The frame in which `drawPatch` places a 2D patch depends on the normal alone. -/
theorem drawPatch_frame (n : V3 ℝ) (hn : n ≠ ⟨0, 0, 0⟩) : ∃ e₁ e₂ : V3 ℝ, PlaneFrame n e₁ e₂ ∧
    ∀ (verts : List (ℝ × ℝ)) (c : V3 ℝ),
      drawPatch verts (some (unitVector n)) c = .ok (.patch (verts.map (placed c e₁ e₂)), unitVector n) := by
  have hu := unit_dot hn
  have hun : unitVector n ≠ ⟨0, 0, 0⟩ := ne_zero_of_dot_one hu
  have huu : unitVector (unitVector n) = unitVector n := unitVector_of_unit hu
  have hz : (⟨0, 0, 1⟩ : V3 ℝ) ≠ ⟨0, 0, 0⟩ := by simp
  obtain ⟨hmap, hiso, -⟩ := C08_rotation_matrix_partial (unitVector n) ⟨0, 0, 1⟩ hun hz
  rw [unitVector_of_unit (show dot (⟨0, 0, 1⟩ : V3 ℝ) ⟨0, 0, 1⟩ = 1 by norm_num [dot]), huu] at hmap
  have hlit : (⟨(0.0 : ℝ), 0.0, 1.0⟩ : V3 ℝ) = ⟨0, 0, 1⟩ := by rw [lit0, lit1]
  have h2 : (rotationMatrix (unitVector n) (⟨0, 0, 1⟩ : V3 ℝ)).2.1 = unitVector n := huu
  have hnn : n = norm n * unitVector n := by
    have hp := (norm_pos hn).ne'
    rw [unitVector]; ext <;> simp only [smul_x, smul_y, smul_z, sdiv_x, sdiv_y, sdiv_z] <;> field_simp
  unfold drawPatch pathpatch2dTo3d
  simp only [need, bind, Except.bind, pure, Except.pure, hlit, h2]
  generalize (rotationMatrix (unitVector n) ⟨0, 0, 1⟩).1 = M at *
  have hperp : ∀ v : V3 ℝ, dot v ⟨0, 0, 1⟩ = 0 → dot (M3.mulVec M v) n = 0 := by
    intro v hv
    rw [hnn, ← hmap, dot_smul_right, hiso, hv, mul_zero]
  refine ⟨M3.mulVec M ⟨1, 0, 0⟩, M3.mulVec M ⟨0, 1, 0⟩, ⟨?_, ?_, ?_, ?_, ?_⟩, ?_⟩
  · rw [norm_toE, norm_eq_one_iff, hiso]; norm_num [dot]
  · rw [norm_toE, norm_eq_one_iff, hiso]; norm_num [dot]
  · rw [inner_toE, hiso]; norm_num [dot]
  · rw [inner_toE]; exact hperp _ (by norm_num [dot])
  · rw [inner_toE]; exact hperp _ (by norm_num [dot])
  · intro verts c
    simp only [pathpatchTranslate, List.map_map]
    congr 3
    apply List.map_congr_left
    rintro ⟨x, y⟩ -
    simp only [Function.comp, placed, M3.mulVec, dot, lit0]
    ext <;> simp only [add_x, add_y, add_z, smul_x, smul_y, smul_z] <;> ring

theorem triple_cross (a b c : V3 ℝ) : cross a (cross b c) = dot a c * b - dot a b * c := by
  ext <;> simp only [cross, dot, sub_x, sub_y, sub_z, smul_x, smul_y, smul_z] <;> ring

/-- A vector at right angles to the three vectors of a frame is zero. -/
theorem frame_zero {n e₁ e₂ z : V3 ℝ} (hn : n ≠ ⟨0, 0, 0⟩) (h : PlaneFrame n e₁ e₂) (z1 : dot z e₁ = 0)
    (z2 : dot z e₂ = 0) (zn : dot z n = 0) : z = ⟨0, 0, 0⟩ := by
  obtain ⟨h1, h2, h3, h4, h5⟩ := h
  simp only [norm_toE, norm_eq_one_iff, inner_toE] at h1 h2 h3 h4 h5
  have kk : dot (cross e₁ e₂) (cross e₁ e₂) = 1 := by rw [cross_dot_self, h1, h2, h3]; norm_num
  have perp : ∀ v : V3 ℝ, dot v e₁ = 0 → dot v e₂ = 0 → cross v (cross e₁ e₂) = ⟨0, 0, 0⟩ := by
    intro v v1 v2
    rw [triple_cross, v1, v2]; ext <;> simp
  have par : ∀ v : V3 ℝ, dot v e₁ = 0 → dot v e₂ = 0 → dot v v = dot v (cross e₁ e₂) ^ 2 := by
    intro v v1 v2
    have := cross_dot_self v (cross e₁ e₂)
    rw [perp v v1 v2, kk] at this
    simp only [dot] at this ⊢
    linarith
  have n1 : dot n e₁ = 0 := by rw [dot_comm]; exact h4
  have n2 : dot n e₂ = 0 := by rw [dot_comm]; exact h5
  have nk := par n n1 n2
  have hk : dot n (cross e₁ e₂) ≠ 0 := by
    intro e
    rw [e] at nk
    exact hn (dot_self_eq_zero.mp (by rw [nk]; norm_num))
  have lag : dot z n * dot (cross e₁ e₂) (cross e₁ e₂) - dot z (cross e₁ e₂) * dot n (cross e₁ e₂)
      = dot (cross z (cross e₁ e₂)) (cross n (cross e₁ e₂)) := by
    simp only [cross, dot]; ring
  rw [zn, perp z z1 z2, perp n n1 n2] at lag
  have zk : dot z (cross e₁ e₂) = 0 := by
    have : dot z (cross e₁ e₂) * dot n (cross e₁ e₂) = 0 := by
      simp only [dot] at lag ⊢; linarith
    rcases mul_eq_zero.mp this with h | h
    · exact h
    · exact absurd h hk
  exact dot_self_eq_zero.mp (by rw [par z z1 z2, zk]; norm_num)

/-- A point of the plane in the coordinates of a frame. -/
theorem frame_coords {n e₁ e₂ : V3 ℝ} (hn : n ≠ ⟨0, 0, 0⟩) (h : PlaneFrame n e₁ e₂) (c x : V3 ℝ) :
    OnPlane c n x ↔ ∃ q, x = placed c e₁ e₂ q := by
  obtain ⟨h1, h2, h3, h4, h5⟩ := id h
  simp only [norm_toE, norm_eq_one_iff, inner_toE] at h1 h2 h3 h4 h5
  rw [onPlane_iff]
  constructor
  · intro hx
    refine ⟨(dot (x - c) e₁, dot (x - c) e₂), ?_⟩
    have : x - c - (dot (x - c) e₁ * e₁ + dot (x - c) e₂ * e₂) = ⟨0, 0, 0⟩ := by
      apply frame_zero hn h
      · simp only [dot, sub_x, sub_y, sub_z, add_x, add_y, add_z, smul_x, smul_y, smul_z] at *
        linear_combination (-(x.x - c.x) * e₁.x - (x.y - c.y) * e₁.y - (x.z - c.z) * e₁.z) * h1
          - ((x.x - c.x) * e₂.x + (x.y - c.y) * e₂.y + (x.z - c.z) * e₂.z) * h3
      · simp only [dot, sub_x, sub_y, sub_z, add_x, add_y, add_z, smul_x, smul_y, smul_z] at *
        linear_combination (-(x.x - c.x) * e₁.x - (x.y - c.y) * e₁.y - (x.z - c.z) * e₁.z) * h3
          - ((x.x - c.x) * e₂.x + (x.y - c.y) * e₂.y + (x.z - c.z) * e₂.z) * h2
      · simp only [dot, sub_x, sub_y, sub_z, add_x, add_y, add_z, smul_x, smul_y, smul_z] at *
        linear_combination hx - ((x.x - c.x) * e₁.x + (x.y - c.y) * e₁.y + (x.z - c.z) * e₁.z) * h4
          - ((x.x - c.x) * e₂.x + (x.y - c.y) * e₂.y + (x.z - c.z) * e₂.z) * h5
    have hx' := congrArg V3.x this
    have hy' := congrArg V3.y this
    have hz' := congrArg V3.z this
    unfold placed
    ext <;> simp only [sub_x, sub_y, sub_z, add_x, add_y, add_z, smul_x, smul_y, smul_z] at hx' hy' hz' ⊢ <;> linarith
  · rintro ⟨⟨a, b⟩, rfl⟩
    simp only [placed, dot, sub_x, sub_y, sub_z, add_x, add_y, add_z, smul_x, smul_y, smul_z] at *
    linear_combination a * h4 + b * h5

/-- Distances in the coordinates of a frame. -/
theorem frame_dist {n e₁ e₂ : V3 ℝ} (h : PlaneFrame n e₁ e₂) (c : V3 ℝ) (q : ℝ × ℝ) :
    dist (placed c e₁ e₂ q).toE c.toE = Real.sqrt (q.1 ^ 2 + q.2 ^ 2) := by
  obtain ⟨h1, h2, h3, -, -⟩ := h
  simp only [norm_toE, norm_eq_one_iff, inner_toE] at h1 h2 h3
  rw [dist_toE_eq, norm_eq]
  congr 1
  simp only [placed, dot, sub_x, sub_y, sub_z, add_x, add_y, add_z, smul_x, smul_y, smul_z] at *
  linear_combination q.1 ^ 2 * h1 + q.2 ^ 2 * h2 + 2 * q.1 * q.2 * h3

theorem unitVector_smul_dot {n : V3 ℝ} (hn : n ≠ ⟨0, 0, 0⟩) (d : V3 ℝ) :
    dot n d = norm n * dot (unitVector n) d := by
  have := (norm_pos hn).ne'
  rw [unitVector, dot_div_left]; field_simp

/-! ## Where flat optics can be hit -/

/-- What the test of an optic with one flat surface, the part `Q` of a plane, reports. -/
structure FlatTest (o : Optic ℝ) (c n : V3 ℝ) (Q : V3 ℝ → Prop) (ray : Ray ℝ) (r : Hit4 ℝ) : Prop where
  test : o.testIntersect ray = .ok r
  hit : r.hit = true ↔ 1e-9 * ‖n.toE‖ < |inner ℝ n.toE ray.direction.toE| ∧
    ∃ t, 1e-9 < t ∧ OnPlane c n (lineAt ray.position ray.direction t) ∧ Q (lineAt ray.position ray.direction t)
  pt : r.hit = true → ∃ t, 1e-9 < t ∧ r.pt = some (lineAt ray.position ray.direction t) ∧
    OnPlane c n (lineAt ray.position ray.direction t)

/-- The points at which an optic with one flat surface can be hit are those of its surface. -/
theorem canBeHit_flat {o : Optic ℝ} {c n : V3 ℝ} (hn : n ≠ ⟨0, 0, 0⟩) {Q : V3 ℝ → Prop}
    (H : ∀ ray : Ray ℝ, ‖ray.direction.toE‖ = 1 → ∃ r, FlatTest o c n Q ray r) (x : V3 ℝ) :
    o.CanBeHit x ↔ OnPlane c n x ∧ Q x := by
  have huniq : ∀ p d : V3 ℝ, 1e-9 * ‖n.toE‖ < |inner ℝ n.toE d.toE| → ∀ s t, OnPlane c n (lineAt p d s) →
      OnPlane c n (lineAt p d t) → s = t := by
    intro p d h s t hs ht
    rw [onPlane_line hn] at hs ht
    have hne : dot (unitVector n) d ≠ 0 := by
      intro e
      rw [inner_toE, unitVector_smul_dot hn, e, mul_zero, abs_zero] at h
      have := _root_.norm_nonneg n.toE
      nlinarith
    exact mul_right_cancel₀ hne (hs.trans ht.symm)
  constructor
  · rintro ⟨ray, hd, r, hr, hh, hp⟩
    obtain ⟨r', h1, h2, h3⟩ := H ray hd
    obtain rfl : r = r' := Except.ok.inj (hr.symm.trans h1)
    obtain ⟨ha, t, ht, ho, hq⟩ := h2.mp hh
    obtain ⟨s, hs, es, hs'⟩ := h3 hh
    obtain rfl : x = _ := Option.some.inj (hp.symm.trans es)
    rw [huniq _ _ ha s t hs' ho]
    exact ⟨ho, hq⟩
  · rintro ⟨ho, hq⟩
    have hu := unit_dot hn
    let ray : Ray ℝ := ⟨x - unitVector n, unitVector n, 0, 0, [], false, ""⟩
    have hd : ‖ray.direction.toE‖ = 1 := by rw [norm_toE, norm_eq_one_iff]; exact hu
    have hx : lineAt ray.position ray.direction 1 = x := by
      ext <;> simp only [lineAt, ray, add_x, add_y, add_z, sub_x, sub_y, sub_z, smul_x, smul_y, smul_z] <;> ring
    have ha : 1e-9 * ‖n.toE‖ < |inner ℝ n.toE ray.direction.toE| := by
      rw [inner_toE, unitVector_smul_dot hn, hu, mul_one, ← norm_toE, abs_of_nonneg (_root_.norm_nonneg _)]
      have : 0 < ‖n.toE‖ := by rw [norm_toE]; exact norm_pos hn
      linarith
    obtain ⟨r, h1, h2, h3⟩ := H ray hd
    have hh : r.hit = true := h2.mpr ⟨ha, 1, by norm_num, by rw [hx]; exact ho, by rw [hx]; exact hq⟩
    obtain ⟨s, hs, es, hs'⟩ := h3 hh
    refine ⟨ray, hd, r, h1, hh, ?_⟩
    rw [es, huniq _ _ ha s 1 hs' (by rw [hx]; exact ho), hx]

theorem discMirror_flat {position n : V3 ℝ} (hn : n ≠ ⟨0, 0, 0⟩) {D : ℝ} {w h f : Option ℝ} {t : Option (V3 ℝ)}
    {type : String} {dmd : V3 ℝ} {m : Mirror ℝ}
    (hm : Mirror.new position "circular_flat" (some n) (some D) w h f t type (some dmd) = .ok m)
    (hdmd : dmd ≠ ⟨0, 0, 0⟩) (ray : Ray ℝ) (hd : ‖ray.direction.toE‖ = 1) :
    ∃ r, FlatTest (.mirror m) position n (fun x => dist x.toE position.toE < D / 2) ray r := by
  obtain ⟨r, h1, h2, h3⟩ := C55_flat_disc position n hn D w h f t type dmd hdmd m hm ray hd
  exact ⟨r, h1, h2, fun hh => by obtain ⟨t, a, b, c, -⟩ := h3 hh; exact ⟨t, a, b, c⟩⟩

theorem rectMirror_flat {position n tan : V3 ℝ} (hn : n ≠ ⟨0, 0, 0⟩) (htan : tan ≠ ⟨0, 0, 0⟩) {D f : Option ℝ}
    {w h : ℝ} (hw : 0 < w) (hh : 0 < h) {type : String} {dmd : V3 ℝ} (hdmd : dmd ≠ ⟨0, 0, 0⟩) {m : Mirror ℝ}
    (hm : Mirror.new position "rectangular_flat" (some n) D (some w) (some h) f (some tan) type (some dmd) = .ok m)
    (ray : Ray ℝ) (hd : ‖ray.direction.toE‖ = 1) :
    ∃ r, FlatTest (.mirror m) position n (fun x => |inner ℝ (x - position).toE (unitVector tan).toE| ≤ h / 2 ∧
      |inner ℝ (x - position).toE (cross (unitVector n) (unitVector tan)).toE| ≤
        w / 2 * ‖(cross (unitVector n) (unitVector tan)).toE‖ ^ 2) ray r := by
  obtain ⟨t1, t2, rfl, rfl, r, h1, h2, h3⟩ :=
    C55_flat_rectangle position n tan hn htan D f w h hw hh type dmd hdmd m hm ray hd
  exact ⟨r, h1, h2, fun hh => by obtain ⟨t, a, b, c, -⟩ := h3 hh; exact ⟨t, a, b, c⟩⟩

theorem discLens_flat {position n : V3 ℝ} (hn : n ≠ ⟨0, 0, 0⟩) {D : ℝ} {w h f : Option ℝ} {type : String} {index : ℝ}
    {l : Lens ℝ} (hl : Lens.new position (some n) "spherical_biconvex" (some D) w h f type index = .ok l)
    (ray : Ray ℝ) (hd : ‖ray.direction.toE‖ = 1) :
    ∃ r, FlatTest (.lens l) position n (fun x => dist x.toE position.toE < D / 2) ray r := by
  simp only [Lens.new, bind, Except.bind, pure, Except.pure, if_true] at hl
  cases hC : Circle.new position (some n) none (some D) with
  | error e => rw [hC] at hl; cases hl
  | ok C =>
  rw [hC] at hl
  obtain rfl := Except.ok.inj hl
  have hR : C.R = D / 2 := by
    obtain ⟨-, -, -, h4⟩ := circle_new_ok hC
    simp only [checkRAndD, lit2] at h4
    exact (Prod.mk.inj (Except.ok.inj h4)).1.symm
  obtain ⟨r, hr, h1, h2, h3⟩ := C13_circle position n hn none (some D) C hC ray hd
  obtain ⟨b, e⟩ := flat_single false ray (.circle C) r (some none)
    (by show (do return IntersectResult.three (← C.testIntersect ray)) = _; rw [hr]; rfl)
    (fun hh => by obtain ⟨t, -, e, -⟩ := h3 hh; exact ⟨_, e, rfl⟩) (fun hh => (h2 hh).1) (fun h => by cases h)
  refine ⟨⟨r.hit, r.pt, r.normal, .bool true⟩, ?_, ?_, fun hh => ?_⟩
  · show Lens.testIntersect _ ray = _
    unfold Lens.testIntersect
    simp only [if_true, e]
    rfl
  · rw [← hR]; exact h1
  · obtain ⟨t, a, b, c, -⟩ := h3 hh; exact ⟨t, a, b, c⟩

theorem rectGrating_flat {position n tan : V3 ℝ} (hn : n ≠ ⟨0, 0, 0⟩) (htan : tan ≠ ⟨0, 0, 0⟩) {w h : ℝ} {G : Option ℝ}
    (hw : 0 < w) (hh : 0 < h) {g : Grating ℝ}
    (hg : Grating.new position n tan "rectangular_flat" (some w) (some h) G = .ok g) (ray : Ray ℝ)
    (hd : ‖ray.direction.toE‖ = 1) :
    ∃ r, FlatTest (.grating g) position n (fun x => |inner ℝ (x - position).toE (unitVector tan).toE| ≤ h / 2 ∧
      |inner ℝ (x - position).toE (cross (unitVector n) (unitVector tan)).toE| ≤
        w / 2 * ‖(cross (unitVector n) (unitVector tan)).toE‖ ^ 2) ray r := by
  simp only [Grating.new, bind, Except.bind, pure, Except.pure, if_true] at hg
  cases hC : Rectangle.new position n tan (some h) (some w) with
  | error e => rw [hC] at hg; cases hg
  | ok C =>
  rw [hC] at hg
  obtain rfl := Except.ok.inj hg
  obtain ⟨-, -, -, -, -, -, -, htt, ht2, -⟩ := rectangle_new_ok hC
  obtain ⟨-, -, -, -, -, h1, h2, h3⟩ := C14_rectangle position n tan hn htan h w hh hw C hC ray hd
  rw [htt, ht2] at h1
  obtain ⟨b, e⟩ := flat_single false ray (.rectangle C) (C.testIntersect ray) none rfl
    (fun hh => by obtain ⟨t, -, e, -⟩ := h3 hh; exact ⟨_, e, rfl⟩) (fun hh => (h2 hh).1) (fun h => by cases h)
  refine ⟨⟨(C.testIntersect ray).hit, (C.testIntersect ray).pt, (C.testIntersect ray).normal, .none⟩, ?_, h1,
    fun hh => by obtain ⟨t, a, b, c, -⟩ := h3 hh; exact ⟨t, a, b, c⟩⟩
  show Grating.testIntersect _ ray = _
  unfold Grating.testIntersect
  simp only [or_true, if_true, e]
  rfl

theorem rectDetector_flat {id : Nat} {position n tan : V3 ℝ} (hn : n ≠ ⟨0, 0, 0⟩) (htan : tan ≠ ⟨0, 0, 0⟩) {w h : ℝ}
    (hw : 0 < w) (hh : 0 < h) {d : Detector ℝ}
    (hg : Detector.new id position n tan "rectangular_flat" (some w) (some h) = .ok d) (ray : Ray ℝ)
    (hd : ‖ray.direction.toE‖ = 1) :
    ∃ r, FlatTest (.detector d) position n (fun x => |inner ℝ (x - position).toE (unitVector tan).toE| ≤ h / 2 ∧
      |inner ℝ (x - position).toE (cross (unitVector n) (unitVector tan)).toE| ≤
        w / 2 * ‖(cross (unitVector n) (unitVector tan)).toE‖ ^ 2) ray r := by
  simp only [Detector.new, bind, Except.bind, pure, Except.pure, if_true] at hg
  cases hC : Rectangle.new position n tan (some h) (some w) with
  | error e => rw [hC] at hg; cases hg
  | ok C =>
  rw [hC] at hg
  obtain rfl := Except.ok.inj hg
  obtain ⟨-, -, -, -, -, -, -, htt, ht2, -⟩ := rectangle_new_ok hC
  obtain ⟨-, -, -, -, -, h1, h2, h3⟩ := C14_rectangle position n tan hn htan h w hh hw C hC ray hd
  rw [htt, ht2] at h1
  obtain ⟨b, e⟩ := flat_single false ray (.rectangle C) (C.testIntersect ray) none rfl
    (fun hh => by obtain ⟨t, -, e, -⟩ := h3 hh; exact ⟨_, e, rfl⟩) (fun hh => (h2 hh).1) (fun h => by cases h)
  refine ⟨⟨(C.testIntersect ray).hit, (C.testIntersect ray).pt, (C.testIntersect ray).normal, .none⟩, ?_, h1,
    fun hh => by obtain ⟨t, a, b, c, -⟩ := h3 hh; exact ⟨t, a, b, c⟩⟩
  show Detector.testIntersect _ ray = _
  unfold Detector.testIntersect
  simp only [or_true, if_true, e]
  rfl

/-! ## Two rectangles in one plane -/

/-- The rectangles of sides `w`, `h` along two orthonormal pairs of axes are the same iff the pairs are the same up to
order and sign (and the sides are the same if the order is not). -/
theorem rect_agree {a b p q w h : ℝ} (hab : a ^ 2 + b ^ 2 = 1) (hpq : p ^ 2 + q ^ 2 = 1) (ho : a * p + b * q = 0)
    (hw : 0 < w) (hh : 0 < h) :
    (∀ u v, (|a * u + b * v| ≤ h / 2 ∧ |p * u + q * v| ≤ w / 2) ↔ (|u| ≤ w / 2 ∧ |v| ≤ h / 2)) ↔
      (a = 0 ∨ (w = h ∧ b = 0)) := by
  have hp : p = (p * b - q * a) * b := by linear_combination -p * hab + a * ho
  have hq : q = -(p * b - q * a) * a := by linear_combination -q * hab + b * ho
  have hk : (p * b - q * a) ^ 2 = 1 := by
    linear_combination (p ^ 2 + q ^ 2) * hab + hpq - (a * p + b * q) * ho
  set k := p * b - q * a with hkdef
  have ak : |k| = 1 := by
    rw [← sq_eq_sq₀ (abs_nonneg _) (by norm_num), sq_abs, hk]; norm_num
  have hpb : |p| = |b| := by rw [hp, abs_mul, ak, one_mul]
  have hqa : |q| = |a| := by rw [hq, abs_mul, abs_neg, ak, one_mul]
  constructor
  · intro H
    have hw2 : |w / 2| = w / 2 := abs_of_pos (by linarith)
    have hh2 : |h / 2| = h / 2 := abs_of_pos (by linarith)
    obtain ⟨h1, h2⟩ := (H (w / 2) (h / 2)).mpr ⟨hw2.le, hh2.le⟩
    obtain ⟨h3, h4⟩ := (H (-(w / 2)) (h / 2)).mpr ⟨by rw [abs_neg]; exact hw2.le, hh2.le⟩
    have s1 : |a| * w + |b| * h ≤ h := by
      rw [abs_le] at h1 h3
      rcases abs_cases a with ⟨e, -⟩ | ⟨e, -⟩ <;> rcases abs_cases b with ⟨e', -⟩ | ⟨e', -⟩ <;> rw [e, e'] <;> linarith
    have s2 : |b| * w + |a| * h ≤ w := by
      rw [abs_le] at h2 h4
      rw [← hpb, ← hqa]
      rcases abs_cases p with ⟨e, -⟩ | ⟨e, -⟩ <;> rcases abs_cases q with ⟨e', -⟩ | ⟨e', -⟩ <;> rw [e, e'] <;> linarith
    have s3 : |a| + |b| ≤ 1 := by
      by_contra hc
      have := mul_lt_mul_of_pos_right (not_le.mp hc) (add_pos hw hh)
      linarith
    have hab' : |a| ^ 2 + |b| ^ 2 = 1 := by rw [sq_abs, sq_abs]; exact hab
    have pz : |a| * |b| = 0 := by
      have h0 := mul_nonneg (abs_nonneg a) (abs_nonneg b)
      have h1 : (|a| + |b|) ^ 2 ≤ 1 := by
        rw [sq_le_one_iff₀ (add_nonneg (abs_nonneg _) (abs_nonneg _))]; exact s3
      linarith
    rcases mul_eq_zero.mp pz with e | e
    · exact .inl (abs_eq_zero.mp e)
    · rw [e] at s1 s2 hab'
      have ha1 : |a| = 1 := by
        rw [← sq_eq_sq₀ (abs_nonneg _) (by norm_num)]; linarith
      rw [ha1] at s1 s2
      exact .inr ⟨by linarith, abs_eq_zero.mp e⟩
  · rintro (rfl | ⟨rfl, rfl⟩) u v
    · have hb1 : |b| = 1 := by
        rw [← sq_eq_sq₀ (abs_nonneg _) (by norm_num), sq_abs]; linarith
      have hq0 : q = 0 := by rw [hq, mul_zero]
      rw [hq0, zero_mul, zero_mul, zero_add, add_zero, abs_mul, abs_mul, hpb, hb1, one_mul, one_mul]
      exact and_comm
    · have ha1 : |a| = 1 := by
        rw [← sq_eq_sq₀ (abs_nonneg _) (by norm_num), sq_abs]; linarith
      have hp0 : p = 0 := by rw [hp, mul_zero]
      rw [hp0, zero_mul, zero_mul, zero_add, add_zero, abs_mul, abs_mul, hqa, ha1, one_mul, one_mul]

/-! ## Where balls can be hit -/

/-- A ray aimed at a point of a sphere from outside, along the radius. -/
theorem aimed {c x : V3 ℝ} {R : ℝ} (hR : R ≠ 0) (hx : OnSphere c R x) : ∃ ray : Ray ℝ,
    ‖ray.direction.toE‖ = 1 ∧ ¬ Tangent c R ray.position ray.direction ∧
    OnSphere c R (lineAt ray.position ray.direction 1) ∧
    ∀ t, FirstOnSphere c R ray.position ray.direction t → lineAt ray.position ray.direction t = x := by
  rw [onSphere_iff] at hx
  have hr : 0 < |R| := abs_pos.mpr hR
  have hR2 : |R| ^ 2 = R ^ 2 := sq_abs R
  let d : V3 ℝ := (-(1 / |R|)) * (x - c)
  let ray : Ray ℝ := ⟨x - d, d, 0, 0, [], false, ""⟩
  have hd : dot d d = 1 := by
    have : dot d d = (1 / |R|) ^ 2 * dot (x - c) (x - c) := by
      simp only [d, dot, smul_x, smul_y, smul_z]; ring
    rw [this, hx, ← hR2]; field_simp
  have hxc : x - c = (-|R|) * d := by
    ext <;> simp only [d, smul_x, smul_y, smul_z, sub_x, sub_y, sub_z] <;> field_simp
  have hon : ∀ t, OnSphere c R (lineAt ray.position ray.direction t) ↔ (t - 1 - |R|) ^ 2 = |R| ^ 2 := by
    intro t
    rw [onSphere_iff, hR2]
    have : lineAt ray.position ray.direction t - c = (t - 1 - |R|) * d := by
      have hX := congrArg V3.x hxc
      have hY := congrArg V3.y hxc
      have hZ := congrArg V3.z hxc
      ext <;> simp only [lineAt, ray, smul_x, smul_y, smul_z, sub_x, sub_y, sub_z, add_x, add_y, add_z] at hX hY hZ ⊢ <;>
        linarith
    rw [this, dot_smul_left, dot_smul_right, hd, mul_one, sq (t - 1 - |R|)]
  have h1 : lineAt ray.position ray.direction 1 = x := by
    ext <;> simp only [lineAt, ray, smul_x, smul_y, smul_z, sub_x, sub_y, sub_z, add_x, add_y, add_z] <;> ring
  have o1 : OnSphere c R (lineAt ray.position ray.direction 1) := (hon 1).mpr (by ring)
  refine ⟨ray, by rw [norm_toE, norm_eq_one_iff]; exact hd, ?_, o1, ?_⟩
  · rintro ⟨t, ht, hp⟩
    have : lineAt ray.position ray.direction t - c = (t - 1 - |R|) * d := by
      have hX := congrArg V3.x hxc
      have hY := congrArg V3.y hxc
      have hZ := congrArg V3.z hxc
      ext <;> simp only [lineAt, ray, smul_x, smul_y, smul_z, sub_x, sub_y, sub_z, add_x, add_y, add_z] at hX hY hZ ⊢ <;>
        linarith
    rw [inner_toE, this, dot_smul_left, hd, mul_one] at hp
    have := (hon t).mp ht
    rw [hp] at this
    nlinarith
  · intro t ht
    have h2 := ht.first 1 (by norm_num) o1
    have h3 := (hon t).mp ht.on
    have : (t - 1) * (t - 1 - 2 * |R|) = 0 := by linear_combination h3
    rcases mul_eq_zero.mp this with e | e
    · rw [sub_eq_zero.mp e, h1]
    · linarith

theorem canBeHit_ballMirror {position : V3 ℝ} {n : Option (V3 ℝ)} {D : ℝ} (hD : D ≠ 0) {w h f : Option ℝ}
    {t : Option (V3 ℝ)} {type : String} {dmd : V3 ℝ} (hdmd : dmd ≠ ⟨0, 0, 0⟩) {m : Mirror ℝ}
    (hm : Mirror.new position "circular_convex_spherical" n (some D) w h f t type (some dmd) = .ok m) (x : V3 ℝ) :
    (Optic.mirror m).CanBeHit x ↔ OnSphere position (D / 2) x := by
  constructor
  · rintro ⟨ray, hd, r, hr, hh, hp⟩
    have hd' : dot ray.direction ray.direction = 1 := by rwa [norm_toE, norm_eq_one_iff] at hd
    simp only [Mirror.new, need, bind, Except.bind, pure, Except.pure, Sphere.new, checkRAndD, lit2] at hm
    rw [if_neg (by decide), if_neg (by decide), if_neg (by decide), if_pos trivial] at hm
    obtain rfl := Except.ok.inj hm
    have hS := sphere_sat ⟨position, D / 2, D⟩ (by simp [hD]) ray hd'
    have e : ∀ v, [Shape.sphere (⟨position, D / 2, D⟩ : Sphere ℝ)].foldlM (sphereStep ray) v
        = sphereStep ray v (.sphere ⟨position, D / 2, D⟩) := by
      intro v
      rw [List.foldlM_cons]
      cases sphereStep ray v (.sphere ⟨position, D / 2, D⟩) <;> rfl
    change Mirror.testIntersect _ ray = _ at hr
    unfold Mirror.testIntersect at hr
    rw [if_neg (show ¬ ("circular_convex_spherical" = "circular_flat" ∨
        "circular_convex_spherical" = "rectangular_flat") by decide),
      if_neg (show ¬ "circular_convex_spherical" = "circular_concave_spherical" by decide),
      if_pos (show "circular_convex_spherical" = "circular_convex_spherical" from rfl)] at hr
    simp only [e, sphereStep, bind, Except.bind, pure, Except.pure, bound] at hr
    by_cases hit : ((⟨position, D / 2, D⟩ : Sphere ℝ).testIntersect ray).hit = true
    · obtain ⟨y, k, mm, hy, hq⟩ := sphereUpdate_sat ray _ hS hit (fun _ _ _ => rfl)
      rw [if_pos hit, hy] at hr
      obtain rfl := Except.ok.inj hr
      obtain rfl := Option.some.inj hp
      exact hq.2.1
    · rw [if_neg hit] at hr
      obtain rfl := Except.ok.inj hr
      cases hh
  · intro hx
    obtain ⟨ray, hd, hT, h1, hu⟩ := aimed (by simp [hD]) hx
    obtain ⟨r, e1, e2, e3⟩ := C55_convex position n D hD w h f t type dmd hdmd m hm ray hd hT
    have hh := e2.mpr ⟨1, by norm_num, h1⟩
    obtain ⟨s, hs, es, -⟩ := e3 hh
    exact ⟨ray, hd, r, e1, hh, by rw [es, hu s hs]⟩

theorem canBeHit_ballLens {c : V3 ℝ} {n : Option (V3 ℝ)} {D : ℝ} (hD : D ≠ 0) {w h f : Option ℝ} {type : String}
    {index : ℝ} {l : Lens ℝ} (hl : Lens.new c n "spherical" (some D) w h f type index = .ok l) (x : V3 ℝ) :
    (Optic.lens l).CanBeHit x ↔ OnSphere c (D / 2) x := by
  obtain ⟨-, hb⟩ := ballLens_new hl
  constructor
  · rintro ⟨ray, hd, r, hr, hh, hp⟩
    have hd' : dot ray.direction ray.direction = 1 := by rwa [norm_toE, norm_eq_one_iff] at hd
    have hS := sphere_sat ⟨c, D / 2, D⟩ (by simp [hD]) ray hd'
    have e : ∀ v, [Shape.sphere (⟨c, D / 2, D⟩ : Sphere ℝ)].foldlM (lensSphereStep ray) v
        = lensSphereStep ray v (.sphere ⟨c, D / 2, D⟩) := by
      intro v
      rw [List.foldlM_cons]
      cases lensSphereStep ray v (.sphere ⟨c, D / 2, D⟩) <;> rfl
    have h0 : ¬ l.shape = "spherical_biconvex" := by rw [hb.shape]; decide
    change Lens.testIntersect l ray = _ at hr
    unfold Lens.testIntersect at hr
    rw [if_neg h0, if_pos hb.shape, hb.surfaces] at hr
    simp only [e, lensSphereStep, bind, Except.bind, pure, Except.pure, bound] at hr
    by_cases hit : ((⟨c, D / 2, D⟩ : Sphere ℝ).testIntersect ray).hit = true
    · obtain ⟨y, k, mm, hy, hq⟩ := sphereUpdate_sat ray _ hS hit (fun _ _ _ => rfl)
      rw [if_pos hit, hy] at hr
      obtain rfl := Except.ok.inj hr
      obtain rfl := Option.some.inj hp
      exact hq.2.1
    · rw [if_neg hit] at hr
      obtain rfl := Except.ok.inj hr
      cases hh
  · intro hx
    obtain ⟨ray, hd, hT, h1, hu⟩ := aimed (by simp [hD]) hx
    have hd' : dot ray.direction ray.direction = 1 := by rwa [norm_toE, norm_eq_one_iff] at hd
    rcases ballLens_test hb ray hd' hT with ⟨hno, -⟩ | ⟨t, ht, b, e, -⟩
    · exact absurd h1 (hno 1 (by norm_num))
    · exact ⟨ray, hd, _, e, rfl, by rw [hu t ht]⟩

end Optics
