import Verif.Lemmas.Routes
import Verif.Lemmas.LightPaths

/-!
# Tools to show that a polyline is a route
-/

namespace Optics
open V3

/-- A heading is a positive multiple of the difference of the points. -/
theorem heading_smul (v w : Vertex) (h : v.point ≠ w.point) :
    ∃ k : ℝ, 0 < k ∧ heading v w = (k * (w.point - v.point)).toE ∧ k * norm (w.point - v.point) = 1 := by
  have hd : 0 < dist v.point.toE w.point.toE := dist_pos.mpr fun e => h (toE_injective e)
  refine ⟨(dist v.point.toE w.point.toE)⁻¹, inv_pos.mpr hd, ?_, ?_⟩
  · rw [heading, toE_smul, toE_sub]
  · rw [← norm_toE, toE_sub, dist_comm, dist_eq_norm, inv_mul_cancel₀]
    rw [dist_comm, dist_eq_norm] at hd
    exact hd.ne'

/-- A leg on which every optic is either missed, or met at one of the ends. -/
theorem leg_of {optics : List (Optic ℝ)} {v w : Vertex} (hl : 1e-9 < dist v.point.toE w.point.toE)
    (h : ∀ o ∈ optics, ∀ t : ℝ, 0 ≤ t → t ≤ 1 → o.CanBeHit (v.point + t * (w.point - v.point)) →
      t = 0 ∧ v.mirror = some o ∨ t = 1 ∧ w.mirror = some o) : Leg optics v w where
  long := hl
  clear o ho x hx hc := by
    rw [segment_eq_image'] at hx
    obtain ⟨t, ⟨h0, h1⟩, e⟩ := hx
    have e' : v.point + t * (w.point - v.point) = x := by
      apply toE_injective
      rw [toE_add, toE_smul, toE_sub]; exact e
    subst e'
    rcases h o ho t h0 h1 hc with ⟨rfl, hm⟩ | ⟨rfl, hm⟩
    · exact .inl ⟨by ext <;> simp, hm⟩
    · exact .inr ⟨by ext <;> simp, hm⟩

/-- A flat optic can be hit on its plane only. -/
theorem Optic.IsFlat.onPlane {o : Optic ℝ} {c n : V3 ℝ} (hn : n ≠ ⟨0, 0, 0⟩) (h : o.IsFlat c n) {x : V3 ℝ} (hx : o.CanBeHit x) :
    dot (x - c) n = 0 := by
  obtain ⟨Q, hQ⟩ := h.flat hn
  have := ((hQ.canBeHit_iff hn x).mp hx).1
  rw [unitVector, dot_div_right, div_eq_zero_iff] at this
  exact this.resolve_right (norm_pos hn).ne'

theorem offset_along (v w c n : V3 ℝ) (t : ℝ) :
    dot (v + t * (w - v) - c) n = (1 - t) * dot (v - c) n + t * dot (w - c) n := by
  simp only [dot, sub_x, sub_y, sub_z, add_x, add_y, add_z, smul_x, smul_y, smul_z]; ring

/-- A plane that is behind, or ahead, of both ends is not met. -/
theorem Optic.IsFlat.missed {o : Optic ℝ} {c n : V3 ℝ} (hn : n ≠ ⟨0, 0, 0⟩) (h : o.IsFlat c n) {v w : V3 ℝ}
    (hvw : 0 < dot (v - c) n ∧ 0 < dot (w - c) n ∨ dot (v - c) n < 0 ∧ dot (w - c) n < 0) {t : ℝ} (h0 : 0 ≤ t) (h1 : t ≤ 1) :
    ¬ o.CanBeHit (v + t * (w - v)) := by
  intro hx
  have := h.onPlane hn hx
  rw [offset_along] at this
  rcases hvw with ⟨a, b⟩ | ⟨a, b⟩
  · rcases eq_or_lt_of_le h0 with rfl | h0
    · linarith
    · have := mul_pos h0 b
      have := mul_nonneg (sub_nonneg.mpr h1) a.le
      linarith
  · rcases eq_or_lt_of_le h0 with rfl | h0
    · linarith
    · have := mul_neg_of_pos_of_neg h0 b
      have := mul_nonpos_of_nonneg_of_nonpos (sub_nonneg.mpr h1) a.le
      linarith

/-- A plane through the end of a leg is met there only. -/
theorem Optic.IsFlat.atEnd {o : Optic ℝ} {c n : V3 ℝ} (hn : n ≠ ⟨0, 0, 0⟩) (h : o.IsFlat c n) {v w : V3 ℝ}
    (hv : dot (v - c) n ≠ 0) (hw : dot (w - c) n = 0) {t : ℝ} (hx : o.CanBeHit (v + t * (w - v))) : t = 1 := by
  have := h.onPlane hn hx
  rw [offset_along, hw, mul_zero, add_zero] at this
  have := (mul_eq_zero.mp this).resolve_right hv
  linarith

/-- A plane through the start of a leg is met there only. -/
theorem Optic.IsFlat.atStart {o : Optic ℝ} {c n : V3 ℝ} (hn : n ≠ ⟨0, 0, 0⟩) (h : o.IsFlat c n) {v w : V3 ℝ}
    (hv : dot (v - c) n = 0) (hw : dot (w - c) n ≠ 0) {t : ℝ} (hx : o.CanBeHit (v + t * (w - v))) : t = 0 := by
  have := h.onPlane hn hx
  rw [offset_along, hv, mul_zero, zero_add] at this
  exact (mul_eq_zero.mp this).resolve_right hw

/-- The angle of incidence from the offsets of the ends from the plane. -/
theorem steep_of {v w : Vertex} {c n : V3 ℝ} {A B : ℝ} (hw : dot (w.point - c) n = 0) (hv : A ≤ |dot (v.point - c) n|)
    (hl : dist v.point.toE w.point.toE ≤ B) (hA : 0 < A) (hAB : 1e-9 * ‖n.toE‖ * B < A) :
    1e-9 * ‖n.toE‖ < |inner ℝ n.toE (heading v w)| := by
  have hne : v.point ≠ w.point := by
    intro e
    rw [e, hw, abs_zero] at hv
    linarith
  obtain ⟨k, hk, e, hk1⟩ := heading_smul v w hne
  have hkB : 1 ≤ k * B := by
    rw [← hk1]
    refine mul_le_mul_of_nonneg_left ?_ hk.le
    rwa [← norm_toE, toE_sub, ← dist_eq_norm, dist_comm]
  have : dot n (k * (w.point - v.point)) = -(k * dot (v.point - c) n) := by
    have e2 : dot n (w.point - v.point) = dot (w.point - c) n - dot (v.point - c) n := by
      simp only [dot, sub_x, sub_y, sub_z]; ring
    rw [dot_smul_right, e2, hw]; ring
  rw [e, inner_toE, this, abs_neg, abs_mul, abs_of_pos hk]
  have h1 : k * A ≤ k * |dot (v.point - c) n| := mul_le_mul_of_nonneg_left hv hk.le
  have h2 : k * (1e-9 * ‖n.toE‖ * B) < k * A := mul_lt_mul_of_pos_left hAB hk
  have h3 : 0 ≤ 1e-9 * ‖n.toE‖ := by positivity
  have h4 := mul_le_mul_of_nonneg_left hkB h3
  nlinarith

/-- The thin-lens law from the points of a route. -/
theorem lensTurn_of {u v w : Vertex} {f A A' : ℝ} {c a : V3 ℝ} (hA : 0 < A) (hA' : 0 < A')
    (h1 : dot (v.point - u.point) a = A) (h2 : dot (w.point - v.point) a = A')
    (h : A * (w.point - v.point) = A' * (v.point - u.point) - (A * A' / f) * (v.point - c)) :
    LensTurn f c.toE a.toE v.point.toE (heading u v) (heading v w) := by
  have n1 : u.point ≠ v.point := by
    intro e
    rw [e] at h1
    simp [dot] at h1
    linarith
  have n2 : v.point ≠ w.point := by
    intro e
    rw [e] at h2
    simp [dot] at h2
    linarith
  obtain ⟨k, hk, e, -⟩ := heading_smul u v n1
  obtain ⟨k', hk', e', -⟩ := heading_smul v w n2
  refine ⟨norm_heading (dist_pos.mpr fun e => n2 (toE_injective e)), ?_, ?_⟩
  · rw [e', inner_toE, dot_smul_left, h2]; positivity
  · rw [e, e', inner_toE, inner_toE, dot_smul_left, dot_smul_left, h1, h2, ← toE_smul, ← toE_smul, ← toE_sub, ← toE_smul, ← toE_sub]
    congr 1
    have hx := congrArg V3.x h
    have hy := congrArg V3.y h
    have hz := congrArg V3.z h
    simp only [sub_x, sub_y, sub_z, smul_x, smul_y, smul_z] at hx hy hz
    have key : ∀ p q r : ℝ, A * p = A' * q - A * A' / f * r → (k' * A')⁻¹ * (k' * p) = (k * A)⁻¹ * (k * q) - f⁻¹ * r := by
      intro p q r h
      have e1 : (k' * A')⁻¹ * (k' * p) = (A * A')⁻¹ * (A * p) := by field_simp
      have e2 : (k * A)⁻¹ * (k * q) = (A * A')⁻¹ * (A' * q) := by field_simp
      have e3 : f⁻¹ * r = (A * A')⁻¹ * (A * A' / f * r) := by
        rw [div_eq_mul_inv]; field_simp
      rw [e1, e2, e3, h]; ring
    ext <;> simp only [sub_x, sub_y, sub_z, smul_x, smul_y, smul_z]
    · exact key _ _ _ hx
    · exact key _ _ _ hy
    · exact key _ _ _ hz

/-- The axis of a lens from the points of a leg. -/
theorem axisAlong_of {u v : Vertex} {n a : V3 ℝ} {A k : ℝ} (hA : 0 < A) (h1 : dot (v.point - u.point) a = A) (ha : dot a a = 1)
    (hk : a = k * n) : AxisAlong n.toE (heading u v) a.toE := by
  have n1 : u.point ≠ v.point := by
    intro e
    rw [e] at h1
    simp [dot] at h1
    linarith
  obtain ⟨l, hl, e, -⟩ := heading_smul u v n1
  refine ⟨by rw [norm_toE, norm_eq_one_iff, ha], ⟨k, by rw [hk, toE_smul]⟩, ?_⟩
  rw [e, inner_toE, dot_smul_left, h1]; positivity

/-- The slope against the axis from the points of a leg. -/
theorem axis_steep {u v : Vertex} {a : V3 ℝ} {A B : ℝ} (hA : 0 < A) (h1 : dot (v.point - u.point) a = A)
    (hl : dist u.point.toE v.point.toE ≤ B) (hAB : 1e-8 * B < A) : 1e-8 < inner ℝ (heading u v) a.toE := by
  have n1 : u.point ≠ v.point := by
    intro e
    rw [e] at h1
    simp [dot] at h1
    linarith
  obtain ⟨k, hk, e, hk1⟩ := heading_smul u v n1
  have hkB : 1 ≤ k * B := by
    rw [← hk1]
    refine mul_le_mul_of_nonneg_left ?_ hk.le
    rwa [← norm_toE, toE_sub, ← dist_eq_norm, dist_comm]
  rw [e, inner_toE, dot_smul_left, h1]
  nlinarith

/-- The tolerance of the lens does not matter to a leg that is parallel to the axis, or leaves it by more than a millionth in
some coordinate across. -/
theorem clear_of {u v : Vertex} {a b : V3 ℝ} {B : ℝ} (ha : dot a a = 1) (hb : dot b b = 1) (hab : dot a b = 0)
    (hl : dist u.point.toE v.point.toE ≤ B) (hb' : 4e-8 * B < |dot (v.point - u.point) b|) (hne : u.point ≠ v.point) :
    ¬ WithinTolerance (heading u v) a.toE := by
  intro h
  obtain ⟨k, hk, e, hk1⟩ := heading_smul u v hne
  have hkB : 1 ≤ k * B := by
    rw [← hk1]
    refine mul_le_mul_of_nonneg_left ?_ hk.le
    rwa [← norm_toE, toE_sub, ← dist_eq_norm, dist_comm]
  set d : V3 ℝ := k * (v.point - u.point) with hd
  rw [e] at h
  have hx := h 0
  have hy := h 1
  have hz := h 2
  change |d.x - a.x| ≤ 1e-8 + 1e-10 * |a.x| at hx
  change |d.y - a.y| ≤ 1e-8 + 1e-10 * |a.y| at hy
  change |d.z - a.z| ≤ 1e-8 + 1e-10 * |a.z| at hz
  have one : ∀ {p : V3 ℝ}, dot p p = 1 → |p.x| ≤ 1 ∧ |p.y| ≤ 1 ∧ |p.z| ≤ 1 := by
    intro p hp
    simp only [dot] at hp
    refine ⟨abs_le_one_iff_mul_self_le_one.mpr ?_, abs_le_one_iff_mul_self_le_one.mpr ?_, abs_le_one_iff_mul_self_le_one.mpr ?_⟩ <;>
      nlinarith [mul_self_nonneg p.x, mul_self_nonneg p.y, mul_self_nonneg p.z]
  obtain ⟨a1, a2, a3⟩ := one ha
  obtain ⟨b1, b2, b3⟩ := one hb
  have sm : ∀ p q r : ℝ, |p - q| ≤ 1e-8 + 1e-10 * |q| → |q| ≤ 1 → |r| ≤ 1 → |(p - q) * r| ≤ 11/10 * (1/100000000) := by
    intro p q r h1 h2 h3
    rw [abs_mul]
    have : |p - q| ≤ 11/10 * (1/100000000) := by norm_num at h1 ⊢; linarith
    nlinarith [abs_nonneg (p - q), abs_nonneg r]
  have s1 := sm _ _ _ hx a1 b1
  have s2 := sm _ _ _ hy a2 b2
  have s3 := sm _ _ _ hz a3 b3
  have e1 : dot d b = (d.x - a.x) * b.x + (d.y - a.y) * b.y + (d.z - a.z) * b.z := by
    simp only [dot] at hab ⊢; linarith
  have e2 : |dot d b| ≤ 33/10 * (1/100000000) := by
    rw [e1]
    refine (abs_add_three _ _ _).trans ?_
    linarith
  have e3 : |dot d b| = k * |dot (v.point - u.point) b| := by
    rw [hd, dot_smul_left, abs_mul, abs_of_pos hk]
  have e4 := mul_lt_mul_of_pos_left hb' hk
  rw [e3] at e2
  norm_num at e4
  nlinarith

/-- A leg along the axis. -/
theorem heading_eq_axis {u v : Vertex} {a : V3 ℝ} {A : ℝ} (hA : 0 < A) (ha : dot a a = 1) (h : v.point - u.point = A * a) :
    heading u v = a.toE := by
  have n1 : u.point ≠ v.point := by
    intro e
    rw [e] at h
    have h2 : dot (A * a) (A * a) = 0 := by rw [← h]; simp [dot]
    rw [dot_smul_left, dot_smul_right, ha] at h2
    nlinarith
  obtain ⟨k, hk, e, hk1⟩ := heading_smul u v n1
  rw [h] at e hk1
  have : norm (A * a) = A := norm_eq_of_sq hA.le (by rw [dot_smul_left, dot_smul_right, ha]; ring)
  rw [this] at hk1
  rw [e]
  congr 1
  ext <;> simp only [smul_x, smul_y, smul_z] <;> rw [← mul_assoc, hk1, one_mul]

/-- The law of reflection from the points of a route. -/
theorem reflected_of {u v w : Vertex} {n : V3 ℝ} {k : ℝ} (hk : 0 < k) (hn : dot n n ≠ 0) (hne : u.point ≠ v.point)
    (h : w.point - v.point = k * ((v.point - u.point) - (2 * dot (v.point - u.point) n / dot n n) * n)) :
    Reflected n.toE (heading u v) (heading v w) := by
  obtain ⟨δ, hδ⟩ : ∃ δ, δ = v.point - u.point := ⟨_, rfl⟩
  rw [← hδ] at h
  have hnorm : dot (w.point - v.point) (w.point - v.point) = k ^ 2 * dot δ δ := by
    rw [h]
    have : dot (δ - (2 * dot δ n / dot n n) * n) (δ - (2 * dot δ n / dot n n) * n)
        = dot δ δ - 4 * dot δ n / dot n n * dot δ n + (2 * dot δ n / dot n n) ^ 2 * dot n n := by
      rw [dot_sub_left, dot_sub_right, dot_sub_right, dot_smul_left, dot_smul_right, dot_smul_left, dot_smul_right, dot_comm n δ]
      ring
    rw [dot_smul_left, dot_smul_right, this]
    field_simp
    ring
  have hδ0 : δ ≠ ⟨0, 0, 0⟩ := by
    intro e
    apply hne
    have hx := congrArg V3.x e
    have hy := congrArg V3.y e
    have hz := congrArg V3.z e
    simp only [hδ, sub_x, sub_y, sub_z] at hx hy hz
    ext <;> linarith
  have hN : norm (w.point - v.point) = k * norm δ :=
    norm_eq_of_sq (by have := norm_pos hδ0; positivity) (by rw [hnorm, mul_pow, norm_sq])
  have hδp := norm_pos hδ0
  have n2 : v.point ≠ w.point := by
    intro e
    rw [e] at hN
    have : norm (w.point - w.point) = 0 := norm_eq_of_sq le_rfl (by simp [dot])
    rw [this] at hN
    have := mul_pos hk hδp
    linarith
  obtain ⟨l, hl, e, hl1⟩ := heading_smul u v hne
  obtain ⟨l', hl', e', hl1'⟩ := heading_smul v w n2
  rw [hN] at hl1'
  rw [← hδ] at e hl1
  have hll : l' * k = l := by
    have : (l' * k) * norm δ = l * norm δ := by rw [hl1]; linarith
    exact mul_right_cancel₀ hδp.ne' this
  have hu1 : ‖heading u v‖ = 1 := norm_heading (dist_pos.mpr fun e => hne (toE_injective e))
  refine ⟨norm_heading (dist_pos.mpr fun e => n2 (toE_injective e)), ?_, fun x hx => ?_⟩
  · rw [hu1, one_mul, e, e', inner_toE, inner_toE, dot_smul_left, dot_smul_left, h, dot_smul_left, dot_sub_left, dot_smul_left,
      ← hll]
    field_simp
    ring
  · obtain ⟨y, rfl⟩ := toE_surjective x
    rw [inner_toE] at hx
    rw [hu1, one_mul, e, e', inner_toE, inner_toE, dot_smul_left, dot_smul_left, h, dot_smul_left, dot_sub_left, dot_smul_left,
      dot_comm n y, hx, ← hll]
    ring

/-- A route of one leg. -/
theorem Route.single {optics : List (Optic ℝ)} {wl m : ℝ} {v w : Vertex} (h : Leg optics v w) : Route optics wl m [v, w] where
  leg a b hi := by
    have := hi.eq_of_length rfl
    simp only [List.cons.injEq, and_true] at this
    obtain ⟨rfl, rfl⟩ := this
    exact h
  turn a b c hi := by
    have := hi.length_le
    simp at this

/-- One more leg in front. -/
theorem Route.cons {optics : List (Optic ℝ)} {wl m : ℝ} {u v w : Vertex} {l : List Vertex} {o : Optic ℝ} {n : V3 ℝ} (h : Leg optics u v)
    (hM : Meets optics u v o n) (hT : Turns n wl m v.point (heading u v) (heading v w) o) (hR : Route optics wl m (v :: w :: l)) :
    Route optics wl m (u :: v :: w :: l) where
  leg a b hi := by
    rcases List.infix_cons_iff.mp hi with hp | hi
    · obtain ⟨t, ht⟩ := hp
      simp only [List.cons_append, List.nil_append, List.cons.injEq] at ht
      obtain ⟨rfl, rfl, -⟩ := ht
      exact h
    · exact hR.leg a b hi
  turn a b c hi := by
    rcases List.infix_cons_iff.mp hi with hp | hi
    · obtain ⟨t, ht⟩ := hp
      simp only [List.cons_append, List.nil_append, List.cons.injEq] at ht
      obtain ⟨rfl, rfl, rfl, -⟩ := ht
      exact ⟨o, n, hM, hT⟩
    · exact hR.turn a b c hi

/-- The length of a vector from its components. -/
theorem frame_norm {n t : V3 ℝ} (hn : dot n n = 1) (ht : dot t t = 1) (hp : dot n t = 0) (y : V3 ℝ) :
    dot y y = dot y n ^ 2 + dot y t ^ 2 + dot y (cross n t) ^ 2 := by
  have g : dot y (cross n t) ^ 2 = dot y y * (dot n n * dot t t - dot n t ^ 2) - dot y n * (dot y n * dot t t - dot n t * dot y t)
      + dot y t * (dot y n * dot n t - dot n n * dot y t) := by
    simp only [dot, cross]; ring
  rw [g, hn, ht, hp]; ring

/-- Points near the centre are in the window of a rectangle. -/
theorem rectangle_near {c n t x : V3 ℝ} {w h : ℝ} (hn : n ≠ ⟨0, 0, 0⟩) (ht : t ≠ ⟨0, 0, 0⟩) (hp : dot n t = 0) (h1 : dist x.toE c.toE ≤ h / 2)
    (h2 : dist x.toE c.toE ≤ w / 2) : |inner ℝ (x - c).toE (unitVector t).toE| ≤ h / 2 ∧
      |inner ℝ (x - c).toE (cross (unitVector n) (unitVector t)).toE| ≤ w / 2 * ‖(cross (unitVector n) (unitVector t)).toE‖ ^ 2 := by
  have hu := unit_dot hn
  have hv := unit_dot ht
  have hperp : dot (unitVector n) (unitVector t) = 0 := by
    rw [unitVector_eq, unitVector_eq, dot_smul_left, dot_smul_right, hp]; ring
  have e1 : ‖(cross (unitVector n) (unitVector t)).toE‖ = 1 := by
    rw [norm_toE, norm_eq_one_iff, cross_dot_self, hu, hv, hperp]; norm_num
  have e2 : ‖(unitVector t).toE‖ = 1 := by rw [norm_toE, norm_eq_one_iff, hv]
  rw [dist_eq_norm, ← toE_sub] at h1 h2
  have a1 := abs_real_inner_le_norm (x - c).toE (unitVector t).toE
  have a2 := abs_real_inner_le_norm (x - c).toE (cross (unitVector n) (unitVector t)).toE
  rw [e2, mul_one] at a1
  rw [e1, mul_one] at a2
  rw [e1]
  constructor <;> linarith

/-- Points in the window of a rectangle are near its centre. -/
theorem rectangle_far {c n t x : V3 ℝ} {w h : ℝ} (hn : n ≠ ⟨0, 0, 0⟩) (ht : t ≠ ⟨0, 0, 0⟩) (hp : dot n t = 0)
    (hx : dot (x - c) (unitVector n) = 0)
    (hq : |inner ℝ (x - c).toE (unitVector t).toE| ≤ h / 2 ∧
      |inner ℝ (x - c).toE (cross (unitVector n) (unitVector t)).toE| ≤ w / 2 * ‖(cross (unitVector n) (unitVector t)).toE‖ ^ 2) :
    dot (x - c) (x - c) ≤ (h / 2) ^ 2 + (w / 2) ^ 2 := by
  have hu := unit_dot hn
  have hv := unit_dot ht
  have hperp : dot (unitVector n) (unitVector t) = 0 := by
    rw [unitVector_eq, unitVector_eq, dot_smul_left, dot_smul_right, hp]; ring
  have e1 : ‖(cross (unitVector n) (unitVector t)).toE‖ = 1 := by
    rw [norm_toE, norm_eq_one_iff, cross_dot_self, hu, hv, hperp]; norm_num
  rw [e1, inner_toE, inner_toE] at hq
  have key : dot (x - c) (x - c) = dot (x - c) (unitVector n) ^ 2 + dot (x - c) (unitVector t) ^ 2
      + dot (x - c) (cross (unitVector n) (unitVector t)) ^ 2 := frame_norm hu hv hperp _
  rw [key, hx]
  have a1 := sq_le_sq' (abs_le.mp hq.1).1 (abs_le.mp hq.1).2
  have a2 := sq_le_sq' (abs_le.mp hq.2).1 (abs_le.mp hq.2).2
  norm_num at a1 a2 ⊢
  linarith

end Optics
