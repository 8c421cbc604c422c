import Verif.Props.LightPaths
import Verif.Props.CornerMirrors

/-!
# C80, C82, C83 in a corner of three mirrors

The scene of the examples: three discs of radius 10 at the origin, at right angles to the axes, and a ray that meets all of
them.
-/

namespace Optics
open V3

/-- The mirror at right angles to a unit vector `n`. -/
noncomputable def cornerDisc (n : V3 ℝ) : Optic ℝ := .mirror (discMirror ⟨0, 0, 0⟩ n 10)

noncomputable def cornerX : Optic ℝ := cornerDisc ⟨1, 0, 0⟩
noncomputable def cornerY : Optic ℝ := cornerDisc ⟨0, 1, 0⟩
noncomputable def cornerZ : Optic ℝ := cornerDisc ⟨0, 0, 1⟩

noncomputable def cornerScene : List (Optic ℝ) := [cornerX, cornerY, cornerZ]

theorem cornerDisc_plane {n : V3 ℝ} (hn : dot n n = 1) : (cornerDisc n).PlaneMirror ⟨0, 0, 0⟩ n :=
  have h0 := ne_zero_of_dot_one hn
  .mk (.inl rfl) h0 (by simp [NonZeroVec]) h0 (D := some (2 * 10)) (f := none) (by simp [NonZero]) (by simp [NonZero])
    (discMirror_new ⟨0, 0, 0⟩ hn 10)

theorem cornerDisc_hit {n : V3 ℝ} (hn : dot n n = 1) (x : V3 ℝ) :
    (cornerDisc n).CanBeHit x ↔ dot x n = 0 ∧ dot x x < 100 := by
  have h0 := ne_zero_of_dot_one hn
  rw [cornerDisc, canBeHit_flat h0 (discMirror_flat h0 (discMirror_new ⟨0, 0, 0⟩ hn 10) h0) x, onPlane_iff, dist_toE_eq]
  have e : x - ⟨0, 0, 0⟩ = x := by ext <;> simp
  unfold V3.norm
  rw [e, mul_div_cancel_left₀ _ two_ne_zero, real_sqrt, Real.sqrt_lt' (by norm_num)]
  norm_num

theorem cornerScene_plane : ∀ o ∈ cornerScene, ∃ c n, o.PlaneMirror c n := by
  intro o ho
  simp only [cornerScene, List.mem_cons, List.not_mem_nil, or_false] at ho
  rcases ho with rfl | rfl | rfl <;> exact ⟨_, _, cornerDisc_plane (by norm_num [dot])⟩

theorem segment_coords {a b x : V3 ℝ} (h : x.toE ∈ segment ℝ a.toE b.toE) : ∃ θ : ℝ, 0 ≤ θ ∧ θ ≤ 1 ∧ x = a + θ * (b - a) := by
  rw [segment_eq_image'] at h
  obtain ⟨θ, ⟨h0, h1⟩, e⟩ := h
  refine ⟨θ, h0, h1, toE_injective ?_⟩
  rw [← e, toE_add, toE_smul, toE_sub]

/-- Legs in the first octant that begin and end at the mirrors. -/
theorem corner_leg {v w : Vertex} (h : dot (v.point - w.point) (v.point - w.point) = 3 * 3)
    (hx : 0 < v.point.x ∧ 0 < w.point.x ∨ 0 < v.point.x ∧ w.point.x = 0 ∧ w.mirror = some cornerX ∨
      v.point.x = 0 ∧ v.mirror = some cornerX ∧ 0 < w.point.x)
    (hy : 0 < v.point.y ∧ 0 < w.point.y ∨ 0 < v.point.y ∧ w.point.y = 0 ∧ w.mirror = some cornerY ∨
      v.point.y = 0 ∧ v.mirror = some cornerY ∧ 0 < w.point.y)
    (hz : 0 < v.point.z ∧ 0 < w.point.z ∨ 0 < v.point.z ∧ w.point.z = 0 ∧ w.mirror = some cornerZ ∨
      v.point.z = 0 ∧ v.mirror = some cornerZ ∧ 0 < w.point.z) : Leg cornerScene v w := by
  have key : ∀ p q θ : ℝ, 0 ≤ θ → θ ≤ 1 → p + θ * (q - p) = 0 →
      (0 < p ∧ 0 < q → False) ∧ (0 < p ∧ q = 0 → θ = 1) ∧ (p = 0 ∧ 0 < q → θ = 0) := by
    intro p q θ h0 h1 h
    refine ⟨fun ⟨hp, hq⟩ => ?_, fun ⟨hp, hq⟩ => ?_, fun ⟨hp, hq⟩ => ?_⟩
    · rcases h0.eq_or_lt with rfl | h0
      · linarith
      · nlinarith [mul_pos h0 hq, mul_nonneg (sub_nonneg.mpr h1) hp.le]
    · subst hq
      have : p * (1 - θ) = 0 := by linarith
      rcases mul_eq_zero.mp this with h | h <;> linarith
    · subst hp
      have : q * θ = 0 := by linarith
      rcases mul_eq_zero.mp this with h | h <;> linarith
  constructor
  · rw [dist_toE_eq]
    change 1e-9 < distanceBetween _ _
    rw [distance_of_sq (by norm_num) h]; norm_num
  · intro o ho x hx' hc
    obtain ⟨θ, h0, h1, rfl⟩ := segment_coords hx'
    have one : θ = 1 → v.point + θ * (w.point - v.point) = w.point := by
      rintro rfl; ext <;> simp
    have zero : θ = 0 → v.point + θ * (w.point - v.point) = v.point := by
      rintro rfl; ext <;> simp
    simp only [cornerScene, List.mem_cons, List.not_mem_nil, or_false] at ho
    rcases ho with rfl | rfl | rfl
    · have e := ((cornerDisc_hit (by norm_num [dot]) _).mp hc).1
      simp only [dot, add_x, add_y, add_z, smul_x, smul_y, smul_z, sub_x, sub_y, sub_z, mul_one, mul_zero, add_zero] at e
      obtain ⟨k1, k2, k3⟩ := key _ _ θ h0 h1 e
      rcases hx with hx | ⟨a, b, c⟩ | ⟨a, b, c⟩
      · exact absurd hx k1
      · exact .inr ⟨one (k2 ⟨a, b⟩), c⟩
      · exact .inl ⟨zero (k3 ⟨a, c⟩), b⟩
    · have e := ((cornerDisc_hit (by norm_num [dot]) _).mp hc).1
      simp only [dot, add_x, add_y, add_z, smul_x, smul_y, smul_z, sub_x, sub_y, sub_z, mul_one, mul_zero, add_zero,
        zero_add] at e
      obtain ⟨k1, k2, k3⟩ := key _ _ θ h0 h1 e
      rcases hy with hx | ⟨a, b, c⟩ | ⟨a, b, c⟩
      · exact absurd hx k1
      · exact .inr ⟨one (k2 ⟨a, b⟩), c⟩
      · exact .inl ⟨zero (k3 ⟨a, c⟩), b⟩
    · have e := ((cornerDisc_hit (by norm_num [dot]) _).mp hc).1
      simp only [dot, add_x, add_y, add_z, smul_x, smul_y, smul_z, sub_x, sub_y, sub_z, mul_one, mul_zero, add_zero,
        zero_add] at e
      obtain ⟨k1, k2, k3⟩ := key _ _ θ h0 h1 e
      rcases hz with hx | ⟨a, b, c⟩ | ⟨a, b, c⟩
      · exact absurd hx k1
      · exact .inr ⟨one (k2 ⟨a, b⟩), c⟩
      · exact .inl ⟨zero (k3 ⟨a, c⟩), b⟩

noncomputable def cornerStart : Vertex := ⟨⟨4, 3, 2⟩, none⟩
noncomputable def corner1 : Vertex := ⟨⟨2, 2, 0⟩, some cornerZ⟩
noncomputable def corner2 : Vertex := ⟨⟨0, 1, 2⟩, some cornerX⟩
noncomputable def corner3 : Vertex := ⟨⟨2, 0, 4⟩, some cornerY⟩
noncomputable def cornerEnd : Vertex := ⟨⟨4, 1, 6⟩, none⟩

theorem corner_heading {v w : Vertex} {d : V3 ℝ} (h : dot (v.point - w.point) (v.point - w.point) = 3 * 3)
    (hd : (3 : ℝ) * d = w.point - v.point) : heading v w = d.toE := by
  rw [heading_toE, distance_of_sq (by norm_num) h, ← hd]
  congr 1
  ext <;> simp

theorem corner_bend {u v w : Vertex} {d d' n : V3 ℝ} (h : dot (u.point - v.point) (u.point - v.point) = 3 * 3)
    (hd : (3 : ℝ) * d = v.point - u.point) (h' : dot (v.point - w.point) (v.point - w.point) = 3 * 3)
    (hd' : (3 : ℝ) * d' = w.point - v.point) (hn : dot n n = 1) (hm : v.mirror = some (cornerDisc n))
    (ho : cornerDisc n ∈ cornerScene) (hv : dot v.point n = 0 ∧ dot v.point v.point < 100) (hs : 1e-9 < |dot n d|)
    (hu : dot d d = 1) (hr : d' = d - (2 * dot d n) * n) : Bend cornerScene u v w := by
  have h0 := ne_zero_of_dot_one hn
  refine ⟨cornerDisc n, _, n, hm, ho, cornerDisc_plane hn, (cornerDisc_hit hn _).mpr hv, ?_, ?_⟩
  · rw [corner_heading h hd, inner_toE, norm_toE, norm_eq_one_iff.mpr hn, mul_one]; exact hs
  · rw [corner_heading h hd, corner_heading h' hd', hr, ← specular_eq_unit hu hn]
    exact specular_reflected (ne_zero_of_dot_one hu) h0

theorem infix_two {v w a b : Vertex} {l : List Vertex} (h : [v, w] <:+: a :: b :: l) :
    v = a ∧ w = b ∨ [v, w] <:+: b :: l := by
  rcases List.infix_cons_iff.mp h with h | h
  · rw [List.cons_prefix_cons, List.cons_prefix_cons] at h
    exact .inl ⟨h.1, h.2.1⟩
  · exact .inr h

theorem infix_three {u v w a b c : Vertex} {l : List Vertex} (h : [u, v, w] <:+: a :: b :: c :: l) :
    u = a ∧ v = b ∧ w = c ∨ [u, v, w] <:+: b :: c :: l := by
  rcases List.infix_cons_iff.mp h with h | h
  · rw [List.cons_prefix_cons, List.cons_prefix_cons, List.cons_prefix_cons] at h
    exact .inl ⟨h.1, h.2.1, h.2.2.1⟩
  · exact .inr h

theorem infix_short {v : Vertex} {l m : List Vertex} (h : v :: l <:+: m) (hl : m.length < l.length + 1) : False := by
  have := h.length_le
  rw [List.length_cons] at this
  omega

/-- There is a light path over the three mirrors. -/
theorem corner_path : LightPath cornerScene [cornerStart, corner1, corner2, corner3, cornerEnd] := by
  constructor
  · intro v w h
    rcases infix_two h with ⟨rfl, rfl⟩ | h
    · exact corner_leg (by norm_num [dot, cornerStart, corner1]) (.inl (by norm_num [cornerStart, corner1]))
        (.inl (by norm_num [cornerStart, corner1])) (.inr (.inl ⟨by norm_num [cornerStart], rfl, rfl⟩))
    rcases infix_two h with ⟨rfl, rfl⟩ | h
    · exact corner_leg (by norm_num [dot, corner2, corner1]) (.inr (.inl ⟨by norm_num [corner1], rfl, rfl⟩))
        (.inl (by norm_num [corner2, corner1])) (.inr (.inr ⟨rfl, rfl, by norm_num [corner2]⟩))
    rcases infix_two h with ⟨rfl, rfl⟩ | h
    · exact corner_leg (by norm_num [dot, corner2, corner3]) (.inr (.inr ⟨rfl, rfl, by norm_num [corner3]⟩))
        (.inr (.inl ⟨by norm_num [corner2], rfl, rfl⟩)) (.inl (by norm_num [corner2, corner3]))
    rcases infix_two h with ⟨rfl, rfl⟩ | h
    · exact corner_leg (by norm_num [dot, cornerEnd, corner3]) (.inl (by norm_num [cornerEnd, corner3]))
        (.inr (.inr ⟨rfl, rfl, by norm_num [cornerEnd]⟩)) (.inl (by norm_num [cornerEnd, corner3]))
    exact (infix_short h (by simp)).elim
  · intro u v w h
    rcases infix_three h with ⟨rfl, rfl, rfl⟩ | h
    · refine corner_bend (d := ⟨-2/3, -1/3, -2/3⟩) (d' := ⟨-2/3, -1/3, 2/3⟩) (n := ⟨0, 0, 1⟩) ?_ ?_ ?_ ?_ ?_ rfl
        (by simp [cornerScene, cornerZ]) ?_ ?_ ?_ ?_ <;> try ext
      all_goals norm_num [dot, cornerStart, corner1, corner2]
    rcases infix_three h with ⟨rfl, rfl, rfl⟩ | h
    · refine corner_bend (d := ⟨-2/3, -1/3, 2/3⟩) (d' := ⟨2/3, -1/3, 2/3⟩) (n := ⟨1, 0, 0⟩) ?_ ?_ ?_ ?_ ?_ rfl
        (by simp [cornerScene, cornerX]) ?_ ?_ ?_ ?_ <;> try ext
      all_goals norm_num [dot, corner1, corner2, corner3]
    rcases infix_three h with ⟨rfl, rfl, rfl⟩ | h
    · refine corner_bend (d := ⟨2/3, -1/3, 2/3⟩) (d' := ⟨2/3, 1/3, 2/3⟩) (n := ⟨0, 1, 0⟩) ?_ ?_ ?_ ?_ ?_ rfl
        (by simp [cornerScene, cornerY]) ?_ ?_ ?_ ?_ <;> try ext
      all_goals norm_num [dot, corner3, corner2, cornerEnd]
    exact (infix_short h (by simp)).elim

/-- The ray that meets the three mirrors. -/
noncomputable def cornerRay : Ray ℝ :=
  { position := ⟨4, 3, 2⟩, direction := ⟨-2/3, -1/3, -2/3⟩, wavelength := 532, order := 0, pointHistory := [⟨4, 3, 2⟩],
    blocked := false, type := "normal" }

theorem corner_length : pathLength ([cornerStart, corner1, corner2, corner3, cornerEnd].map Vertex.point) = 12 := by
  have h : ∀ p q : V3 ℝ, dot (p - q) (p - q) = 3 * 3 → dist p.toE q.toE = 3 := by
    intro p q h
    rw [dist_toE_eq]
    exact distance_of_sq (by norm_num) h
  simp only [List.map_cons, List.map_nil, pathLength, cornerStart, corner1, corner2, corner3, cornerEnd]
  rw [h _ _ (by norm_num [dot]), h _ _ (by norm_num [dot]), h _ _ (by norm_num [dot]), h _ _ (by norm_num [dot])]
  norm_num

/-- C80, C82, C83 apply: the ray meets the three mirrors, ends at (4, 1, 6), and points back. -/
theorem corner_run : ∃ (s : RunState XR) (r : Ray ℝ),
    cornerRay.lift.run (.fin 12) (cornerScene.map Optic.lift) none 6 = .finished s ∧ s.ray = r.lift ∧
      r.pointHistory = [⟨4, 3, 2⟩, ⟨2, 2, 0⟩, ⟨0, 1, 2⟩, ⟨2, 0, 4⟩, ⟨4, 1, 6⟩] ∧ s.interactions = 3 := by
  obtain ⟨s, r, a, h1, h2, h3, -, -, -, -, -, h4⟩ := C83_followed cornerScene_plane cornerStart corner1
    [corner2, corner3, cornerEnd] cornerEnd corner_path rfl rfl cornerRay rfl
    (by rw [corner_heading (d := ⟨-2/3, -1/3, -2/3⟩)]
        · rfl
        · norm_num [dot, cornerStart, corner1]
        · ext <;> norm_num [cornerStart, corner1]) (by decide) rfl 6 (by simp)
  rw [corner_length] at h1
  exact ⟨s, r, h1, h2, h3, h4⟩

/-- The planes of the corner. -/
def CornerPlane (m : MirrorPlane) : Prop :=
  m.point = ⟨0, 0, 0⟩ ∧ (m.normal = ⟨1, 0, 0⟩ ∨ m.normal = ⟨0, 1, 0⟩ ∨ m.normal = ⟨0, 0, 1⟩)

/-- The hypotheses of `C82_each_once` and `C82_retroreflector` hold for this scene and this ray. -/
example : Perpendicular CornerPlane ∧ (∀ o ∈ cornerScene, ∃ m, CornerPlane m ∧ o.PlaneMirror m.point m.normal) ∧
    (∀ m, CornerPlane m → OnPlane m.point m.normal ⟨0, 0, 0⟩) ∧ ‖cornerRay.direction.toE‖ = 1 ∧
    (cornerRay.lift.run (.fin 12) (cornerScene.map Optic.lift) none 6).state.interactions = 3 := by
  refine ⟨?_, ?_, ?_, ?_, ?_⟩
  · rintro ⟨c, n⟩ ⟨c', n'⟩ ⟨h1, h2⟩ ⟨h3, h4⟩ hne
    simp only at h1 h2 h3 h4
    subst h1 h3
    rw [inner_toE]
    rcases h2 with rfl | rfl | rfl <;> rcases h4 with rfl | rfl | rfl <;>
      first | exact absurd rfl hne | norm_num [dot]
  · intro o ho
    simp only [cornerScene, List.mem_cons, List.not_mem_nil, or_false] at ho
    rcases ho with rfl | rfl | rfl
    · exact ⟨⟨⟨0, 0, 0⟩, ⟨1, 0, 0⟩⟩, ⟨rfl, by simp⟩, cornerDisc_plane (by norm_num [dot])⟩
    · exact ⟨⟨⟨0, 0, 0⟩, ⟨0, 1, 0⟩⟩, ⟨rfl, by simp⟩, cornerDisc_plane (by norm_num [dot])⟩
    · exact ⟨⟨⟨0, 0, 0⟩, ⟨0, 0, 1⟩⟩, ⟨rfl, by simp⟩, cornerDisc_plane (by norm_num [dot])⟩
  · rintro ⟨c, n⟩ ⟨h1, -⟩
    simp only at h1
    subst h1
    rw [onPlane_iff]; simp [dot]
  · rw [norm_toE, norm_eq_one_iff]; norm_num [dot, cornerRay]
  · obtain ⟨s, r, h, -, -, hi⟩ := corner_run
    rw [h]; exact hi

end Optics
