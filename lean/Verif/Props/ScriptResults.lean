import Verif.Props.Scripts
import Verif.Props.Routes
import Verif.Props.Examples
import Verif.Lemmas.DmdTurns
import Verif.Spec.ScriptResults

/-!
# C96: what the thin-lens, telescope and grating scripts show
-/

namespace Optics
open V3

/-- The direction of a ray made with a multiple of the first leg. -/
theorem heading_of_multiple {v w : Vertex} {d : V3 ℝ} {k : ℝ} (hk : 0 < k) (h : w.point - v.point = k * d) : (unitVector d).toE = heading v w := by
  rw [← unitVector_smul hk, ← h, unitVector_toE, heading, dist_comm, dist_eq_norm, ← toE_sub]

/-! ## Thin lens -/

section
variable {l : Lens ℝ} (hl : Lens.new (⟨0, 50, 0⟩ : V3 ℝ) (some ⟨0, -1, 0⟩) "spherical_biconvex" (some 50) none none (some 100) "ideal" 1.5 = .ok l)
include hl

theorem thinlens_run {x z wl D : ℝ} (hr : x ^ 2 + z ^ 2 < 625) (hD : 1e-9 < D) {fuel : ℕ} (hfuel : 3 ≤ fuel) :
    ∃ (s : RunState XR) (r : Ray ℝ),
      (Ray.new (⟨x, 0, z⟩ : V3 ℝ) ⟨0, 1, 0⟩ wl 0 "normal").lift.run (.fin (50 + D)) ([Optic.lens l].map Optic.lift) none fuel = .finished s ∧
      s.ray = r.lift ∧ r.pointHistory = [⟨x, 0, z⟩, ⟨x, 50, z⟩, towards ⟨x, 50, z⟩ ⟨0, 150, 0⟩ D] := by
  obtain ⟨ql, a1, a2, a3, a4⟩ := benchLens_flat nLens1 (by norm_num) (by norm_num) (by norm_num) hl
  have fl : (Optic.lens l).IsFlat ⟨0, 50, 0⟩ ⟨0, -1, 0⟩ := .lens (by norm_num) (by norm_num) (by norm_num) hl
  have hD0 : 0 < D := lt_trans (by norm_num) hD
  obtain ⟨L, hL⟩ : ∃ L, L = dist (⟨x, 50, z⟩ : V3 ℝ).toE (⟨0, 150, 0⟩ : V3 ℝ).toE := ⟨_, rfl⟩
  have hLpos : 0 < L := by
    rw [hL]
    refine lt_of_le_of_lt (by norm_num : (0 : ℝ) ≤ 1) (lt_dist_of ?_)
    simp only [dot, sub_x, sub_y, sub_z]
    nlinarith [sq_nonneg x, sq_nonneg z]
  obtain ⟨v0, h0⟩ : ∃ v : Vertex, v = ⟨⟨x, 0, z⟩, none⟩ := ⟨_, rfl⟩
  obtain ⟨v1, h1⟩ : ∃ v : Vertex, v = ⟨⟨x, 50, z⟩, some (.lens l)⟩ := ⟨_, rfl⟩
  obtain ⟨v2, h2⟩ : ∃ v : Vertex, v = ⟨towards ⟨x, 50, z⟩ ⟨0, 150, 0⟩ D, none⟩ := ⟨_, rfl⟩
  have e2 : v2.point - v1.point = (D / L) * (⟨-x, 100, -z⟩ : V3 ℝ) := by
    rw [h2, h1]
    simp only [towards, ← hL]
    ext <;> simp <;> norm_num
  have d1 : dist v0.point.toE v1.point.toE = 50 := by
    rw [dist_comm, dist_eq_norm, ← toE_sub, norm_toE, norm_eq, h0, h1]
    norm_num [dot]
    rw [show (2500 : ℝ) = 50 ^ 2 by norm_num, Real.sqrt_sq (by norm_num)]
  have d2 : dist v1.point.toE v2.point.toE = D := by
    rw [dist_comm, dist_eq_norm, ← toE_sub, norm_toE, norm_eq, e2, dot_smul_left, dot_smul_right]
    have : L ^ 2 = dot (⟨-x, 100, -z⟩ : V3 ℝ) ⟨-x, 100, -z⟩ := by
      rw [hL, dist_comm, dist_eq_norm, ← toE_sub, norm_toE, norm_sq]
      simp only [dot, sub_x, sub_y, sub_z]
      ring
    rw [← this]
    have : D / L * (D / L * L ^ 2) = D ^ 2 := by field_simp
    rw [this, Real.sqrt_sq hD0.le]
  have hA : dot (v1.point - v0.point) ⟨0, 1, 0⟩ = 50 := by rw [h0, h1]; norm_num [dot]
  have hA' : dot (v2.point - v1.point) ⟨0, 1, 0⟩ = D / L * 100 := by rw [e2]; simp [dot]
  have hside : dot (v2.point - ⟨0, 50, 0⟩) ⟨0, -1, 0⟩ < 0 := by
    have : dot (v2.point - ⟨0, 50, 0⟩) ⟨0, -1, 0⟩ = -(dot (v2.point - v1.point) ⟨0, 1, 0⟩) := by
      rw [h1]; simp [dot]
    rw [this, hA']
    have := div_pos hD0 hLpos
    linarith
  have ho : dot (⟨0, 1, 0⟩ : V3 ℝ) ⟨0, 1, 0⟩ = 1 := by norm_num [dot]
  have hhead : heading v0 v1 = (⟨0, 1, 0⟩ : V3 ℝ).toE := heading_eq_axis (A := 50) (by norm_num) ho (by rw [h0, h1]; ext <;> simp)
  have hleg1 : Leg [.lens l] v0 v1 := by
    refine leg_of (by rw [d1]; norm_num) ?_
    simp only [List.mem_cons, List.not_mem_nil, or_false]
    rintro o rfl t t0 t1 hc
    exact .inr ⟨fl.atEnd nLens1 (by rw [h0]; norm_num [dot]) (by rw [h1]; norm_num [dot]) hc, by rw [h1]⟩
  have hleg2 : Leg [.lens l] v1 v2 := by
    refine leg_of (by rw [d2]; exact hD) ?_
    simp only [List.mem_cons, List.not_mem_nil, or_false]
    rintro o rfl t t0 t1 hc
    exact .inl ⟨fl.atStart nLens1 (by rw [h1]; norm_num [dot]) hside.ne hc, by rw [h1]⟩
  have hmeets : Meets [.lens l] v0 v1 (.lens l) ⟨0, -1, 0⟩ := by
    refine ⟨by rw [h1], by simp, ⟨_, fl⟩, (ql.canBeHit_iff nLens1 _).mpr ⟨?_, ?_⟩,
      steep_of (c := ⟨0, 50, 0⟩) (A := 50) (B := 50) ?_ ?_ d1.le (by norm_num) ?_⟩
    · rw [dot_unitVector_zero nLens1, h1]; norm_num [dot]
    · rw [h1, dist_eq_norm, ← toE_sub, norm_toE, norm_eq, Real.sqrt_lt' (by norm_num)]
      simp only [dot, sub_x, sub_y, sub_z]
      norm_num
      linarith
    · rw [h1]; norm_num [dot]
    · rw [h0]; norm_num [dot]
    · rw [norm_toE, norm_eq]; norm_num [dot]
  have hturn : Turns ⟨0, -1, 0⟩ wl 0 v1.point (heading v0 v1) (heading v1 v2) (.lens l) := by
    refine .lens (a := (⟨0, 1, 0⟩ : V3 ℝ).toE) a4 a3 (by norm_num) (axisAlong_of (A := 50) (k := -1) (by norm_num) hA ho (by ext <;> norm_num))
      (axis_steep (A := 50) (by norm_num) hA d1.le (by norm_num)) (fun _ => hhead) ?_
    rw [a1]
    refine lensTurn_of (A := 50) (A' := D / L * 100) (by norm_num) (by positivity) hA hA' ?_
    rw [e2, h0, h1]
    ext <;> simp <;> ring
  have hdir : (Ray.new (⟨x, 0, z⟩ : V3 ℝ) ⟨0, 1, 0⟩ wl 0 "normal").direction.toE = heading v0 v1 :=
    heading_of_multiple (k := 50) (by norm_num) (by rw [h0, h1]; ext <;> simp)
  have hpath : pathLength ([v0, v1, v2].map Vertex.point) = 50 + D := by
    simp only [List.map_cons, List.map_nil, pathLength, d1, d2]
    ring
  obtain ⟨s, r, a, g1, g2, g3, -⟩ := C94_followed (optics := [.lens l]) (by
      simp only [List.mem_cons, List.not_mem_nil, or_false]
      rintro o rfl
      exact ⟨_, _, nLens1, fl⟩) (Ray.new (⟨x, 0, z⟩ : V3 ℝ) ⟨0, 1, 0⟩ wl 0 "normal") v0 v1 [v2] v2
    (.cons hleg1 hmeets hturn (.single hleg2)) rfl (by rw [h2]) (by rw [h0]; rfl) hdir (show "normal" ≠ "faerie_fire" by decide) rfl fuel hfuel
  rw [hpath] at g1
  refine ⟨s, r, g1, g2, ?_⟩
  rw [g3, h1, h2]
  rfl

end

/-- Parallel light in the thin-lens script is sent to the focal point, 100 mm behind the lens: after `D` more millimetres the ray
is `D` millimetres on the way from the lens to the focal point, wherever it met the lens. -/
theorem C96_thinlens : ∃ optics, thinlensScene (α := ℝ) = .ok optics ∧ ∀ x z wl D : ℝ, x ^ 2 + z ^ 2 < 25 ^ 2 → 1e-9 < D → ∀ fuel, 3 ≤ fuel →
    ∃ (s : RunState XR) (r : Ray ℝ),
      (Ray.new (⟨x, 0, z⟩ : V3 ℝ) ⟨0, 1, 0⟩ wl 0 "normal").lift.run (.fin (50 + D)) (optics.map Optic.lift) none fuel = .finished s ∧
      s.ray = r.lift ∧ r.pointHistory = [⟨x, 0, z⟩, ⟨x, 50, z⟩, towards ⟨x, 50, z⟩ ⟨0, 150, 0⟩ D] := by
  obtain ⟨l, hl, -⟩ := lens_builds (c := ⟨0, 50, 0⟩) (n := ⟨0, -1, 0⟩) (D := 50) (f := 100) (index := 1.5) (type := "ideal")
    (e_ne (by norm_num)) (by norm_num) (by norm_num) (by norm_num)
  refine ⟨[.lens l], ?_, fun x z wl D hr hD fuel hfuel => thinlens_run hl (by norm_num at hr; exact hr) hD hfuel⟩
  unfold thinlensScene
  have e : Lens.new ⟨(0.0 : ℝ), 50.0, 0.0⟩ (some ⟨0.0, -1.0, 0.0⟩) "spherical_biconvex" (some 50.0) none none (some 100.0) "ideal" 1.5 = .ok l := by
    rw [← hl]; norm_num
  rw [e]
  rfl

/-- The nine rays of the script, over its 150 mm. -/
theorem C96_thinlens_script : ∃ optics, thinlensScene (α := ℝ) = .ok optics ∧ ∀ r ∈ thinlensRays (α := ℝ), ∀ fuel, 3 ≤ fuel →
    ∃ (s : RunState XR) (r' : Ray ℝ), r.lift.run (.fin 150) (optics.map Optic.lift) none fuel = .finished s ∧ s.ray = r'.lift ∧
      r'.pointHistory = [r.position, ⟨r.position.x, 50, r.position.z⟩, towards ⟨r.position.x, 50, r.position.z⟩ ⟨0, 150, 0⟩ 100] := by
  obtain ⟨optics, hs, H⟩ := C96_thinlens
  refine ⟨optics, hs, fun r hr fuel hfuel => ?_⟩
  obtain ⟨x, hx, hr⟩ := List.mem_flatMap.mp hr
  obtain ⟨z, hz, rfl⟩ := List.mem_map.mp hr
  have sq : ∀ y ∈ ([-15.0, 0.0, 15.0] : List ℝ), y ^ 2 ≤ 225 := by
    intro y hy
    simp only [List.mem_cons, List.not_mem_nil, or_false] at hy
    rcases hy with rfl | rfl | rfl <;> norm_num
  obtain ⟨s, r', h1, h2, h3⟩ := H x z 532.0 100 (by have := sq x hx; have := sq z hz; norm_num; linarith) (by norm_num) fuel hfuel
  have e : (Ray.new (⟨x, 0.0, z⟩ : V3 ℝ) ⟨0.0, 1.0, 0.0⟩ 532.0 0.0 "normal") = Ray.new (⟨x, 0, z⟩ : V3 ℝ) ⟨0, 1, 0⟩ 532.0 0 "normal" := by
    rw [lit0, lit1]
  rw [e]
  refine ⟨s, r', ?_, h2, h3⟩
  rw [← h1]
  norm_num

/-! ## Telescope -/

section
variable {l1 l2 : Lens ℝ} {d : Detector ℝ}
  (hl1 : Lens.new (⟨0, 50, 0⟩ : V3 ℝ) (some ⟨0, -1, 0⟩) "spherical_biconvex" (some 50) none none (some 50) "ideal_collimate" 1.5 = .ok l1)
  (hl2 : Lens.new (⟨0, 75, 0⟩ : V3 ℝ) (some ⟨0, -1, 0⟩) "spherical_biconvex" (some 50) none none (some 25) "ideal_focus" 1.5 = .ok l2)
  (hd : Detector.new 0 (⟨0, 125, 0⟩ : V3 ℝ) ⟨0, -1, 0⟩ ⟨0, 0, 1⟩ "rectangular_flat" (some 30) (some 30) = .ok d)
include hl1 hl2 hd

theorem telescope_run {x z p q wl k : ℝ} (hx : |x| ≤ 5) (hz : |z| ≤ 5) (hp : |p| ≤ 8) (hq : |q| ≤ 8) (hk : 0 < k) {fuel : ℕ} (hfuel : 4 ≤ fuel) :
    ∃ (s : RunState XR) (r : Ray ℝ),
      (Ray.new (⟨x, 0, z⟩ : V3 ℝ) (k * (⟨p - x, 50, q - z⟩ : V3 ℝ)) wl 0 "normal").lift.run (.fin 150)
        ([Optic.lens l1, .lens l2, .detector d].map Optic.lift) none fuel = .finished s ∧
      s.ray = r.lift ∧ r.pointHistory = [⟨x, 0, z⟩, ⟨p, 50, q⟩, ⟨p, 75, q⟩, ⟨-p, 125, -q⟩] ∧ r.blocked = true ∧
      s.log = [⟨0, (⟨-p, 125, -q⟩ : V3 ℝ).lift, .fin wl⟩] := by
  obtain ⟨q1, a1, a2, a3, a4⟩ := benchLens_flat nLens1 (by norm_num) (by norm_num) (by norm_num) hl1
  obtain ⟨q2, b1, b2, b3, b4⟩ := benchLens_flat nLens1 (by norm_num) (by norm_num) (by norm_num) hl2
  obtain ⟨qd, c1⟩ := detector_flat nLens1 nTangent (by norm_num) (by norm_num) hd
  have f1 : (Optic.lens l1).IsFlat ⟨0, 50, 0⟩ ⟨0, -1, 0⟩ := .lens (by norm_num) (by norm_num) (by norm_num) hl1
  have f2 : (Optic.lens l2).IsFlat ⟨0, 75, 0⟩ ⟨0, -1, 0⟩ := .lens (by norm_num) (by norm_num) (by norm_num) hl2
  have fd : (Optic.detector d).IsFlat ⟨0, 125, 0⟩ ⟨0, -1, 0⟩ := .detector nTangent (by norm_num) (by norm_num) hd
  obtain ⟨x1, x2⟩ := abs_le.mp hx
  obtain ⟨z1, z2⟩ := abs_le.mp hz
  obtain ⟨p1, p2⟩ := abs_le.mp hp
  obtain ⟨u1, u2⟩ := abs_le.mp hq
  have sp : p ^ 2 ≤ 64 := by nlinarith
  have sq : q ^ 2 ≤ 64 := by nlinarith
  obtain ⟨v0, h0⟩ : ∃ v : Vertex, v = ⟨⟨x, 0, z⟩, none⟩ := ⟨_, rfl⟩
  obtain ⟨v1, h1⟩ : ∃ v : Vertex, v = ⟨⟨p, 50, q⟩, some (.lens l1)⟩ := ⟨_, rfl⟩
  obtain ⟨v2, h2⟩ : ∃ v : Vertex, v = ⟨⟨p, 75, q⟩, some (.lens l2)⟩ := ⟨_, rfl⟩
  obtain ⟨v3, h3⟩ : ∃ v : Vertex, v = ⟨⟨-p, 125, -q⟩, some (.detector d)⟩ := ⟨_, rfl⟩
  have m0 : 1 < dist v0.point.toE v1.point.toE := by
    refine lt_dist_of ?_
    rw [h0, h1]
    simp only [dot, sub_x, sub_y, sub_z]
    nlinarith [sq_nonneg (p - x), sq_nonneg (q - z)]
  have m1 : 1 < dist v1.point.toE v2.point.toE := by
    refine lt_dist_of ?_
    rw [h1, h2]
    norm_num [dot]
  have m2 : 1 < dist v2.point.toE v3.point.toE := by
    refine lt_dist_of ?_
    rw [h2, h3]
    simp only [dot, sub_x, sub_y, sub_z]
    nlinarith [sq_nonneg p, sq_nonneg q]
  have d0 : dist v0.point.toE v1.point.toE ≤ 54 := by
    refine dist_le_of (by norm_num) ?_
    rw [h0, h1]
    simp only [dot, sub_x, sub_y, sub_z]
    have : (p - x) ^ 2 ≤ 169 := by nlinarith
    have : (q - z) ^ 2 ≤ 169 := by nlinarith
    linarith
  have d1 : dist v1.point.toE v2.point.toE ≤ 26 := by
    refine dist_le_of (by norm_num) ?_
    rw [h1, h2]
    norm_num [dot]
  have d2 : dist v2.point.toE v3.point.toE ≤ 56 := by
    refine dist_le_of (by norm_num) ?_
    rw [h2, h3]
    simp only [dot, sub_x, sub_y, sub_z]
    linarith
  have ho : dot (⟨0, 1, 0⟩ : V3 ℝ) ⟨0, 1, 0⟩ = 1 := by norm_num [dot]
  have hn : ‖(⟨0, -1, 0⟩ : V3 ℝ).toE‖ = 1 := by rw [norm_toE, norm_eq]; norm_num [dot]
  have hhead : heading v1 v2 = (⟨0, 1, 0⟩ : V3 ℝ).toE := heading_eq_axis (A := 25) (by norm_num) ho (by rw [h1, h2]; ext <;> norm_num)
  have leg0 : Leg [.lens l1, .lens l2, .detector d] v0 v1 := by
    refine leg_of (lt_trans (by norm_num) m0) ?_
    simp only [List.mem_cons, List.not_mem_nil, or_false]
    rintro o (rfl | rfl | rfl) t t0 t1 hc
    · exact .inr ⟨f1.atEnd nLens1 (by rw [h0]; norm_num [dot]) (by rw [h1]; norm_num [dot]) hc, by rw [h1]⟩
    · exact absurd hc (f2.missed nLens1 (by rw [h0, h1]; norm_num [dot]) t0 t1)
    · exact absurd hc (fd.missed nLens1 (by rw [h0, h1]; norm_num [dot]) t0 t1)
  have leg1 : Leg [.lens l1, .lens l2, .detector d] v1 v2 := by
    refine leg_of (lt_trans (by norm_num) m1) ?_
    simp only [List.mem_cons, List.not_mem_nil, or_false]
    rintro o (rfl | rfl | rfl) t t0 t1 hc
    · exact .inl ⟨f1.atStart nLens1 (by rw [h1]; norm_num [dot]) (by rw [h2]; norm_num [dot]) hc, by rw [h1]⟩
    · exact .inr ⟨f2.atEnd nLens1 (by rw [h1]; norm_num [dot]) (by rw [h2]; norm_num [dot]) hc, by rw [h2]⟩
    · exact absurd hc (fd.missed nLens1 (by rw [h1, h2]; norm_num [dot]) t0 t1)
  have leg2 : Leg [.lens l1, .lens l2, .detector d] v2 v3 := by
    refine leg_of (lt_trans (by norm_num) m2) ?_
    simp only [List.mem_cons, List.not_mem_nil, or_false]
    rintro o (rfl | rfl | rfl) t t0 t1 hc
    · exact absurd hc (f1.missed nLens1 (by rw [h2, h3]; norm_num [dot]) t0 t1)
    · exact .inl ⟨f2.atStart nLens1 (by rw [h2]; norm_num [dot]) (by rw [h3]; norm_num [dot]) hc, by rw [h2]⟩
    · exact .inr ⟨fd.atEnd nLens1 (by rw [h2]; norm_num [dot]) (by rw [h3]; norm_num [dot]) hc, by rw [h3]⟩
  have disc : ∀ {y : ℝ}, dist (⟨p, y, q⟩ : V3 ℝ).toE (⟨0, y, 0⟩ : V3 ℝ).toE < 50 / 2 := by
    intro y
    rw [dist_eq_norm, ← toE_sub, norm_toE, norm_eq, Real.sqrt_lt' (by norm_num)]
    simp only [dot, sub_x, sub_y, sub_z]
    norm_num
    linarith
  have meets1 : Meets [.lens l1, .lens l2, .detector d] v0 v1 (.lens l1) ⟨0, -1, 0⟩ := by
    refine ⟨by rw [h1], by simp, ⟨_, f1⟩, (q1.canBeHit_iff nLens1 _).mpr ⟨?_, by rw [h1]; exact disc⟩,
      steep_of (c := ⟨0, 50, 0⟩) (A := 50) ?_ ?_ d0 (by norm_num) (by rw [hn]; norm_num)⟩
    · rw [dot_unitVector_zero nLens1, h1]; norm_num [dot]
    · rw [h1]; norm_num [dot]
    · rw [h0]; norm_num [dot]
  have meets2 : Meets [.lens l1, .lens l2, .detector d] v1 v2 (.lens l2) ⟨0, -1, 0⟩ := by
    refine ⟨by rw [h2], by simp, ⟨_, f2⟩, (q2.canBeHit_iff nLens1 _).mpr ⟨?_, by rw [h2]; exact disc⟩,
      steep_of (c := ⟨0, 75, 0⟩) (A := 25) ?_ ?_ d1 (by norm_num) (by rw [hn]; norm_num)⟩
    · rw [dot_unitVector_zero nLens1, h2]; norm_num [dot]
    · rw [h2]; norm_num [dot]
    · rw [h1]; norm_num [dot]
  have meets3 : Meets [.lens l1, .lens l2, .detector d] v2 v3 (.detector d) ⟨0, -1, 0⟩ := by
    have near : dist v3.point.toE (⟨0, 125, 0⟩ : V3 ℝ).toE ≤ 15 := by
      refine dist_le_of (by norm_num) ?_
      rw [h3]
      simp only [dot, sub_x, sub_y, sub_z]
      linarith
    refine ⟨by rw [h3], by simp, ⟨_, fd⟩, (qd.canBeHit_iff nLens1 _).mpr ⟨?_, rectangle_near nLens1 nTangent (by norm_num [dot]) (by linarith) (by linarith)⟩,
      steep_of (c := ⟨0, 125, 0⟩) (A := 50) ?_ ?_ d2 (by norm_num) (by rw [hn]; norm_num)⟩
    · rw [dot_unitVector_zero nLens1, h3]; norm_num [dot]
    · rw [h3]; norm_num [dot]
    · rw [h2]; norm_num [dot]
  have hflip : (⟨0, 1, 0⟩ : V3 ℝ) = (-1 : ℝ) * (⟨0, -1, 0⟩ : V3 ℝ) := by ext <;> norm_num
  have turn1 : Turns ⟨0, -1, 0⟩ wl 0 v1.point (heading v0 v1) (heading v1 v2) (.lens l1) := by
    refine .collimator a4 ?_
    rw [hhead]
    exact axisAlong_of (A := 50) (k := -1) (by norm_num) (by rw [h0, h1]; norm_num [dot]) ho hflip
  have ne23 : v2.point ≠ v3.point := by
    intro e
    have := congrArg V3.y e
    rw [h2, h3] at this
    norm_num at this
  have turn2 : Turns ⟨0, -1, 0⟩ wl 0 v2.point (heading v1 v2) (heading v2 v3) (.lens l2) := by
    obtain ⟨j, hj, ej, -⟩ := heading_smul v2 v3 ne23
    refine .focuser (a := (⟨0, 1, 0⟩ : V3 ℝ).toE) (s := 1 / (2 * j)) b4 b3 (by norm_num)
      (axisAlong_of (A := 25) (k := -1) (by norm_num) (by rw [h1, h2]; norm_num [dot]) ho hflip) (norm_heading (lt_trans (by norm_num) m2)) (by positivity) ?_
    rw [ej, b1, ← toE_smul, ← toE_smul, ← toE_add, ← toE_add, h2, h3]
    congr 1
    ext <;> simp <;> field_simp <;> norm_num
  have hdir : (Ray.new (⟨x, 0, z⟩ : V3 ℝ) (k * (⟨p - x, 50, q - z⟩ : V3 ℝ)) wl 0 "normal").direction.toE = heading v0 v1 :=
    heading_of_multiple (k := 1 / k) (by positivity) (by rw [h0, h1]; ext <;> simp <;> field_simp)
  obtain ⟨s, r, g1, g2, g3, -, -, g4, g5, -⟩ := C94_detected (optics := [.lens l1, .lens l2, .detector d]) (by
      simp only [List.mem_cons, List.not_mem_nil, or_false]
      rintro o (rfl | rfl | rfl)
      · exact ⟨_, _, nLens1, f1⟩
      · exact ⟨_, _, nLens1, f2⟩
      · exact ⟨_, _, nLens1, fd⟩) (Ray.new (⟨x, 0, z⟩ : V3 ℝ) (k * (⟨p - x, 50, q - z⟩ : V3 ℝ)) wl 0 "normal") v0 v1 [v2, v3] v2 v3
    (.cons leg0 meets1 turn1 (.cons leg1 meets2 turn2 (.single leg2))) ⟨[_, _], rfl⟩ d _ meets3 (by rw [h0]; rfl) hdir
    (show "normal" ≠ "faerie_fire" by decide) rfl 150 (by simp only [List.map_cons, List.map_nil, pathLength]; linarith) fuel hfuel
  refine ⟨s, r, g1, g2, ?_, g4, ?_⟩
  · rw [g3, h1, h2, h3]
    rfl
  · rw [g5, c1, h3]
    rfl

end

/-- In the telescope script a ray from any point of a 10 mm object to any point `(p, q)` of the first lens within 8 mm of the axis goes
on parallel to the axis to the same point of the second lens, crosses the focal point at `y = 100` and is recorded at `(-p, -q)`. -/
theorem C96_telescope : ∃ optics, telescopeScene (α := ℝ) = .ok optics ∧ ∀ x z p q wl k : ℝ, |x| ≤ 5 → |z| ≤ 5 → |p| ≤ 8 → |q| ≤ 8 → 0 < k →
    ∀ fuel, 4 ≤ fuel → ∃ (s : RunState XR) (r : Ray ℝ),
      (Ray.new (⟨x, 0, z⟩ : V3 ℝ) (k * (⟨p - x, 50, q - z⟩ : V3 ℝ)) wl 0 "normal").lift.run (.fin 150) (optics.map Optic.lift) none fuel
        = .finished s ∧
      s.ray = r.lift ∧ r.pointHistory = [⟨x, 0, z⟩, ⟨p, 50, q⟩, ⟨p, 75, q⟩, ⟨-p, 125, -q⟩] ∧ r.blocked = true ∧
      s.log = [⟨0, (⟨-p, 125, -q⟩ : V3 ℝ).lift, .fin wl⟩] := by
  obtain ⟨l1, hl1, -⟩ := lens_builds (c := ⟨0, 50, 0⟩) (n := ⟨0, -1, 0⟩) (D := 50) (f := 50) (index := 1.5) (type := "ideal_collimate")
    (e_ne (by norm_num)) (by norm_num) (by norm_num) (by norm_num)
  obtain ⟨l2, hl2, -⟩ := lens_builds (c := ⟨0, 75, 0⟩) (n := ⟨0, -1, 0⟩) (D := 50) (f := 25) (index := 1.5) (type := "ideal_focus")
    (e_ne (by norm_num)) (by norm_num) (by norm_num) (by norm_num)
  obtain ⟨d, hd, -⟩ := detector_builds (id := 0) (c := ⟨0, 125, 0⟩) (n := ⟨0, -1, 0⟩) (t := ⟨0, 0, 1⟩) (w := 30) (h := 30)
    (by norm_num [dot]) (by norm_num) (by norm_num) (e_ne (by norm_num)) (e_ne (by norm_num))
  refine ⟨[.lens l1, .lens l2, .detector d], ?_, fun x z p q wl k hx hz hp hq hk fuel hfuel => telescope_run hl1 hl2 hd hx hz hp hq hk hfuel⟩
  unfold telescopeScene
  have e1 : Lens.new ⟨(0.0 : ℝ), 50.0, 0.0⟩ (some ⟨0.0, -1.0, 0.0⟩) "spherical_biconvex" (some 50.0) none none (some 50.0) "ideal_collimate" 1.5
      = .ok l1 := by rw [← hl1]; norm_num
  have e2 : Lens.new ⟨(0.0 : ℝ), 75.0, 0.0⟩ (some ⟨0.0, -1.0, 0.0⟩) "spherical_biconvex" (some 50.0) none none (some 25.0) "ideal_focus" 1.5
      = .ok l2 := by rw [← hl2]; norm_num
  have e3 : Detector.new 0 ⟨(0.0 : ℝ), 75.0 + 2.0 * 25.0, 0.0⟩ ⟨0.0, -1.0, 0.0⟩ ⟨0.0, 0.0, 1.0⟩ "rectangular_flat" (some 30.0) (some 30.0)
      = .ok d := by rw [← hd]; norm_num
  simp only [e1, e2, e3]
  rfl

/-- The five rays of the script start on the axis; each is recorded as far from the axis as it met the first lens, on the other side. -/
theorem C96_telescope_script : ∃ (optics : List (Optic ℝ)) (rays : List (Ray ℝ)), telescopeScene = .ok optics ∧
    objectRays 10.0 1 1 5 = .ok rays ∧ rays.length = 5 ∧ ∀ r ∈ rays, r.position = ⟨0, 0, 0⟩ ∧ 0 < r.direction.y ∧ ∀ fuel, 4 ≤ fuel →
      ∃ s : RunState XR, r.lift.run (.fin 150) (optics.map Optic.lift) none fuel = .finished s ∧
        s.log = [⟨0, (⟨0, 125, -(50 * (r.direction.z / r.direction.y))⟩ : V3 ℝ).lift, .fin r.wavelength⟩] := by
  obtain ⟨optics, hs, H⟩ := C96_telescope
  obtain ⟨rays, h1, h2, h3⟩ := objectRays_spec (S := 10) (by norm_num) 1 1 5 (by norm_num) (by norm_num) (by norm_num)
  refine ⟨optics, rays, hs, ?_, h2, fun r hr => ?_⟩
  · rw [← h1]
    norm_num
  obtain ⟨x, z, a, wl, rfl, -, -, -, hcos, htan, -, hx, hz⟩ := h3 r hr
  obtain rfl := hx rfl
  obtain rfl := hz rfl
  have hu : dot (⟨0, Real.cos a, Real.sin a⟩ : V3 ℝ) ⟨0, Real.cos a, Real.sin a⟩ = 1 := by
    simp only [dot]
    nlinarith [Real.sin_sq_add_cos_sq a]
  have hdir : (Ray.new (⟨0, 0, 0⟩ : V3 ℝ) ⟨0, Real.cos a, Real.sin a⟩ wl 0 "normal").direction = ⟨0, Real.cos a, Real.sin a⟩ :=
    unitVector_of_unit hu
  refine ⟨rfl, by rw [hdir]; exact hcos, fun fuel hfuel => ?_⟩
  rw [hdir]
  dsimp only
  rw [← Real.tan_eq_sin_div_cos]
  obtain ⟨s, r, g1, -, -, -, g2⟩ := H 0 0 0 (50 * Real.tan a) wl (Real.cos a / 50) (by norm_num) (by norm_num) (by norm_num)
    (by rw [abs_mul, abs_of_pos (by norm_num : (0 : ℝ) < 50)]; linarith) (by positivity) fuel hfuel
  refine ⟨s, ?_, by rw [neg_zero] at g2; exact g2⟩
  have e : Real.cos a / 50 * (⟨0 - 0, 50, 50 * Real.tan a - 0⟩ : V3 ℝ) = ⟨0, Real.cos a, Real.sin a⟩ := by
    rw [Real.tan_eq_sin_div_cos]
    ext <;> simp <;> field_simp
  rw [← e]
  exact g1

/-! ## Grating -/

section
variable {g : Grating ℝ}
  (hg : Grating.new (⟨0, 100, 0⟩ : V3 ℝ) ⟨littrowSine, -√(1 - littrowSine ^ 2), 0⟩ ⟨0, 0, 1⟩ "rectangular_flat" (some 50) (some 50) (some 600) = .ok g)
include hg

theorem grating_run {wl m D : ℝ} (hb : |exitSine wl m| < 1) (hD : 1e-9 < D) {fuel : ℕ} (hfuel : 3 ≤ fuel) :
    ∃ (s : RunState XR) (r : Ray ℝ),
      (Ray.new (⟨0, 0, 0⟩ : V3 ℝ) ⟨0, 1, 0⟩ wl m "normal").lift.run (.fin (100 + D)) ([Optic.grating g].map Optic.lift) none fuel = .finished s ∧
      s.ray = r.lift ∧ r.pointHistory = [⟨0, 0, 0⟩, ⟨0, 100, 0⟩, ⟨0, 100, 0⟩ + D * littrowExit (exitSine wl m)] := by
  obtain ⟨S, hS⟩ : ∃ S, S = littrowSine := ⟨_, rfl⟩
  obtain ⟨C, hC⟩ : ∃ C, C = √(1 - littrowSine ^ 2) := ⟨_, rfl⟩
  obtain ⟨b, hbe⟩ : ∃ b, b = exitSine wl m := ⟨_, rfl⟩
  obtain ⟨B, hB⟩ : ∃ B, B = √(1 - b ^ 2) := ⟨_, rfl⟩
  have S1 : S = 21 / 100 := hS
  have C1 : S ^ 2 + C ^ 2 = 1 := by
    rw [hC, ← hS, Real.sq_sqrt (by rw [S1]; norm_num)]
    ring
  have C0 : 0 < C := by
    rw [hC, ← hS]
    exact Real.sqrt_pos.mpr (by rw [S1]; norm_num)
  rw [← hbe] at hb
  have hb2 := abs_lt.mp hb
  have hpos : 0 < 1 - b ^ 2 := by nlinarith
  have B1 : b ^ 2 + B ^ 2 = 1 := by
    rw [hB, Real.sq_sqrt hpos.le]
    ring
  have B0 : 0 < B := by
    rw [hB]
    exact Real.sqrt_pos.mpr hpos
  have hexit : littrowExit (exitSine wl m) = ⟨B * S - b * C, -(B * C) - b * S, 0⟩ := by
    rw [littrowExit, ← hbe, ← hB, ← hC, ← hS]
    ext <;> simp
  rw [hexit]
  rw [← hC, ← hS] at hg
  have hD0 : 0 < D := lt_trans (by norm_num) hD
  have hn : (⟨S, -C, 0⟩ : V3 ℝ) ≠ ⟨0, 0, 0⟩ := e_ne (by simp [S1])
  have hnn : dot (⟨S, -C, 0⟩ : V3 ℝ) ⟨S, -C, 0⟩ = 1 := by
    simp only [dot]
    linear_combination C1
  have htt : dot (⟨0, 0, 1⟩ : V3 ℝ) ⟨0, 0, 1⟩ = 1 := by norm_num [dot]
  obtain ⟨q, a1, a2, a3⟩ := grating_flat hn nTangent (by norm_num) (by norm_num) hg
  rw [unitVector_of_unit hnn] at a1
  rw [unitVector_of_unit htt] at a2
  have f : (Optic.grating g).IsFlat ⟨0, 100, 0⟩ ⟨S, -C, 0⟩ := .grating nTangent (by norm_num) (by norm_num) hg
  obtain ⟨v0, h0⟩ : ∃ v : Vertex, v = ⟨⟨0, 0, 0⟩, none⟩ := ⟨_, rfl⟩
  obtain ⟨v1, h1⟩ : ∃ v : Vertex, v = ⟨⟨0, 100, 0⟩, some (.grating g)⟩ := ⟨_, rfl⟩
  obtain ⟨v2, h2⟩ : ∃ v : Vertex, v = ⟨⟨0, 100, 0⟩ + D * (⟨B * S - b * C, -(B * C) - b * S, 0⟩ : V3 ℝ), none⟩ := ⟨_, rfl⟩
  have hex : dot (⟨B * S - b * C, -(B * C) - b * S, 0⟩ : V3 ℝ) ⟨B * S - b * C, -(B * C) - b * S, 0⟩ = 1 := by
    simp only [dot]
    linear_combination (B ^ 2 + b ^ 2) * C1 + B1
  have e2 : v2.point - v1.point = D * (⟨B * S - b * C, -(B * C) - b * S, 0⟩ : V3 ℝ) := by
    rw [h1, h2]
    ext <;> simp
  have hh1 : heading v0 v1 = (⟨0, 1, 0⟩ : V3 ℝ).toE := heading_eq_axis (A := 100) (by norm_num) (by norm_num [dot]) (by rw [h0, h1]; ext <;> norm_num)
  have hh2 : heading v1 v2 = (⟨B * S - b * C, -(B * C) - b * S, 0⟩ : V3 ℝ).toE := heading_eq_axis hD0 hex e2
  have d1 : dist v0.point.toE v1.point.toE = 100 := by
    rw [dist_comm, dist_eq_norm, ← toE_sub, norm_toE, norm_eq, h0, h1]
    norm_num [dot]
    rw [show (10000 : ℝ) = 100 ^ 2 by norm_num, Real.sqrt_sq (by norm_num)]
  have d2 : dist v1.point.toE v2.point.toE = D := by
    rw [dist_comm, dist_eq_norm, ← toE_sub, norm_toE, norm_eq, e2, dot_smul_left, dot_smul_right, hex, mul_one, Real.sqrt_mul_self hD0.le]
  have leg1 : Leg [.grating g] v0 v1 := by
    refine leg_of (by rw [d1]; norm_num) ?_
    simp only [List.mem_cons, List.not_mem_nil, or_false]
    rintro o rfl t t0 t1 hc
    exact .inr ⟨f.atEnd hn (by rw [h0]; simp [dot, C0.ne']) (by rw [h1]; norm_num [dot]) hc, by rw [h1]⟩
  have leg2 : Leg [.grating g] v1 v2 := by
    refine leg_of (by rw [d2]; exact hD) ?_
    simp only [List.mem_cons, List.not_mem_nil, or_false]
    rintro o rfl t t0 t1 hc
    refine .inl ⟨f.atStart hn (by rw [h1]; norm_num [dot]) ?_ hc, by rw [h1]⟩
    have : dot (v2.point - ⟨0, 100, 0⟩) ⟨S, -C, 0⟩ = D * B := by
      rw [h2]
      simp only [dot, sub_x, sub_y, sub_z, add_x, add_y, add_z, smul_x, smul_y, smul_z]
      linear_combination D * B * C1
    rw [this]
    exact (mul_pos hD0 B0).ne'
  have meets : Meets [.grating g] v0 v1 (.grating g) ⟨S, -C, 0⟩ := by
    have hC' : 97 / 100 ≤ C := by
      rw [S1] at C1
      nlinarith
    refine ⟨by rw [h1], by simp, ⟨_, f⟩, (q.canBeHit_iff hn _).mpr ⟨?_, rectangle_near hn nTangent (by norm_num [dot]) ?_ ?_⟩,
      steep_of (c := ⟨0, 100, 0⟩) (A := 97) ?_ ?_ d1.le (by norm_num) ?_⟩
    · rw [dot_unitVector_zero hn, h1]; norm_num [dot]
    · rw [h1, dist_self]; norm_num
    · rw [h1, dist_self]; norm_num
    · rw [h1]; norm_num [dot]
    · rw [h0, le_abs]
      left
      simp [dot]
      linarith
    · rw [norm_toE, norm_eq, hnn]; norm_num
  have hturn : Turns ⟨S, -C, 0⟩ wl m v1.point (heading v0 v1) (heading v1 v2) (.grating g) := by
    have eb : b = 6e-4 * m * wl - S := by rw [hbe, exitSine, hS]
    by_cases hm : m = 0
    · refine .zeroOrder hm (reflected_of (k := D / 100) (by positivity) (by rw [hnn]; norm_num) ?_ ?_)
      · rw [h0, h1]
        intro e
        have := congrArg V3.y e
        norm_num at this
      · have e1 : b = -S := by rw [eb, hm]; ring
        have e3 : B = C := by
          rw [hB, hC, ← hS, e1]
          ring_nf
        rw [e2, hnn, h0, h1, e1, e3]
        ext <;> simp [dot]
        · field_simp
          ring
        · field_simp
          linear_combination C1
    · have sarc : Real.sin (Real.arcsin S) = S := Real.sin_arcsin (by rw [S1]; norm_num) (by rw [S1]; norm_num)
      have carc : Real.cos (Real.arcsin S) = C := by rw [Real.cos_arcsin, hC, hS]
      have sarb : Real.sin (Real.arcsin b) = b := Real.sin_arcsin hb2.1.le hb2.2.le
      have carb : Real.cos (Real.arcsin b) = B := by rw [Real.cos_arcsin, hB]
      have hcross : cross (⟨0, 0, 1⟩ : V3 ℝ) ⟨S, -C, 0⟩ = ⟨C, S, 0⟩ := by ext <;> simp [cross]
      refine .grating (e := ⟨0, 1, 0⟩) (e' := ⟨B * S - b * C, -(B * C) - b * S, 0⟩) (θ := -Real.arcsin S) (θ' := -Real.arcsin b) hh1 hh2 hm a3 ?_
        (by rw [hh2, norm_toE, norm_eq_one_iff, hex]) ?_ ?_ ?_ ⟨0, 1, one_pos, ?_⟩ ⟨0, 1, one_pos, ?_⟩ ?_ ?_
      · rw [a1, a2, inner_toE]; norm_num [dot]
      · rw [hh1, hh2, a2, inner_toE, inner_toE]; simp [dot]
      · rw [hh1, a1, inner_toE]; simp [dot, C0]
      · rw [hh1, a1, a2, hcross, inner_toE]; norm_num [dot, S1]
      · rw [a1, a2, polar, hcross, Real.cos_neg, Real.sin_neg, carc, sarc]
        ext <;> simp
        · ring
        · linear_combination C1
      · rw [a1, a2, polar, hcross, Real.cos_neg, Real.sin_neg, carb, sarb]
        ext <;> simp
        · ring
        · ring
      · rw [abs_neg]
        exact abs_le.mpr ⟨Real.neg_pi_div_two_le_arcsin b, Real.arcsin_le_pi_div_two b⟩
      · rw [neg_neg, neg_neg, sarc, sarb, eb]
        norm_num
  have hdir : (Ray.new (⟨0, 0, 0⟩ : V3 ℝ) ⟨0, 1, 0⟩ wl m "normal").direction.toE = heading v0 v1 :=
    heading_of_multiple (k := 100) (by norm_num) (by rw [h0, h1]; ext <;> simp)
  have hpath : pathLength ([v0, v1, v2].map Vertex.point) = 100 + D := by
    simp only [List.map_cons, List.map_nil, pathLength, d1, d2]
    ring
  obtain ⟨s, r, a, g1, g2, g3, -⟩ := C94_followed (optics := [.grating g]) (by
      simp only [List.mem_cons, List.not_mem_nil, or_false]
      rintro o rfl
      exact ⟨_, _, hn, f⟩) (Ray.new (⟨0, 0, 0⟩ : V3 ℝ) ⟨0, 1, 0⟩ wl m "normal") v0 v1 [v2] v2
    (.cons leg1 meets hturn (.single leg2)) rfl (by rw [h2]) (by rw [h0]; rfl) hdir (show "normal" ≠ "faerie_fire" by decide) rfl fuel hfuel
  rw [hpath] at g1
  refine ⟨s, r, g1, g2, ?_⟩
  rw [g3, h1, h2]
  rfl

end

/-- In the grating script light of any wavelength and order that has an exit angle leaves the grating in the direction the grating
equation gives, in the plane of the script. -/
theorem C96_grating : ∃ optics, gratingScene (α := ℝ) = .ok optics ∧ ∀ wl m D : ℝ, |exitSine wl m| < 1 → 1e-9 < D → ∀ fuel, 3 ≤ fuel →
    ∃ (s : RunState XR) (r : Ray ℝ),
      (Ray.new (⟨0, 0, 0⟩ : V3 ℝ) ⟨0, 1, 0⟩ wl m "normal").lift.run (.fin (100 + D)) (optics.map Optic.lift) none fuel = .finished s ∧
      s.ray = r.lift ∧ r.pointHistory = [⟨0, 0, 0⟩, ⟨0, 100, 0⟩, ⟨0, 100, 0⟩ + D * littrowExit (exitSine wl m)] := by
  have hS : 0 < littrowSine := by norm_num [littrowSine]
  obtain ⟨g, hg, -⟩ := grating_builds (c := ⟨0, 100, 0⟩) (n := ⟨littrowSine, -√(1 - littrowSine ^ 2), 0⟩) (t := ⟨0, 0, 1⟩) (w := 50) (h := 50)
    (G := 600) (by norm_num [dot]) (by norm_num) (by norm_num) (e_ne (.inl hS.ne')) (e_ne (by norm_num))
  refine ⟨[.grating g], ?_, fun wl m D hb hD fuel hfuel => grating_run hg hb hD hfuel⟩
  unfold gratingScene
  simp only [littrow_normal]
  have e : (600.0 : ℝ) / 1e6 * 1.0 * 700.0 / 2.0 = littrowSine := by norm_num [littrowSine]
  have e1 : Real.sin (PyNum.arcsin littrowSine) = littrowSine :=
    Real.sin_arcsin (by norm_num [littrowSine]) (by norm_num [littrowSine])
  have e2 : Real.cos (PyNum.arcsin littrowSine) = √(1 - littrowSine ^ 2) := Real.cos_arcsin _
  have e3 : Grating.new (⟨0.0, 100.0, 0.0⟩ : V3 ℝ) ⟨littrowSine, -√(1 - littrowSine ^ 2), 0⟩ ⟨0.0, 0.0, 1.0⟩ "rectangular_flat" (some 50.0)
      (some 50.0) (some 600.0) = .ok g := by
    rw [← hg]
    have n0 : (0.0 : ℝ) = 0 := by norm_num
    have n1 : (1.0 : ℝ) = 1 := by norm_num
    have n50 : (50.0 : ℝ) = 50 := by norm_num
    have n100 : (100.0 : ℝ) = 100 := by norm_num
    have n600 : (600.0 : ℝ) = 600 := by norm_num
    rw [n0, n1, n50, n100, n600]
  simp only [e, e1, e2, e3]
  rfl

/-- All fifteen rays of the script have an exit angle. -/
theorem C96_grating_script : ∃ optics, gratingScene (α := ℝ) = .ok optics ∧ ∀ r ∈ gratingRays (α := ℝ), ∀ fuel, 3 ≤ fuel →
    ∃ (s : RunState XR) (r' : Ray ℝ), r.lift.run (.fin 300) (optics.map Optic.lift) none fuel = .finished s ∧ s.ray = r'.lift ∧
      r'.pointHistory = [⟨0, 0, 0⟩, ⟨0, 100, 0⟩, ⟨0, 100, 0⟩ + (200 : ℝ) * littrowExit (exitSine r.wavelength r.order)] := by
  obtain ⟨optics, hs, H⟩ := C96_grating
  refine ⟨optics, hs, fun r hr fuel hfuel => ?_⟩
  obtain ⟨⟨wl, m⟩, hp, rfl⟩ := List.mem_map.mp hr
  have hb : |exitSine wl m| < 1 := by
    simp only [List.mem_cons, List.not_mem_nil, or_false, Prod.mk.injEq] at hp
    rw [exitSine, littrowSine, abs_lt]
    rcases hp with ⟨rfl, rfl⟩ | ⟨rfl, rfl⟩ | ⟨rfl, rfl⟩ | ⟨rfl, rfl⟩ | ⟨rfl, rfl⟩ | ⟨rfl, rfl⟩ | ⟨rfl, rfl⟩ | ⟨rfl, rfl⟩ | ⟨rfl, rfl⟩ |
      ⟨rfl, rfl⟩ | ⟨rfl, rfl⟩ | ⟨rfl, rfl⟩ | ⟨rfl, rfl⟩ | ⟨rfl, rfl⟩ | ⟨rfl, rfl⟩ <;> norm_num
  obtain ⟨s, r', h1, h2, h3⟩ := H wl m 200 hb (by norm_num) fuel hfuel
  have e : (Ray.new (⟨0.0, 0.0, 0.0⟩ : V3 ℝ) ⟨0.0, 1.0, 0.0⟩ wl m "normal") = Ray.new (⟨0, 0, 0⟩ : V3 ℝ) ⟨0, 1, 0⟩ wl m "normal" := by
    rw [lit0, lit1]
  rw [e]
  refine ⟨s, r', ?_, h2, h3⟩
  rw [← h1]
  norm_num

/-- The exit direction is a unit vector, and the light of 700 nm in first order returns on its own path, as the script's name for its
angle promises. -/
theorem C96_littrow : littrowExit (exitSine 700 1) = ⟨0, -1, 0⟩ ∧ ∀ b, |b| < 1 → ‖(littrowExit b).toE‖ = 1 := by
  have hS : (0 : ℝ) ≤ 1 - littrowSine ^ 2 := by norm_num [littrowSine]
  have hs := Real.mul_self_sqrt hS
  constructor
  · have e : exitSine 700 1 = littrowSine := by norm_num [exitSine, littrowSine]
    rw [e, littrowExit]
    ext <;> simp
    · ring
    · linarith
  · intro b hb
    have hb2 := abs_lt.mp hb
    have h2 := Real.mul_self_sqrt (by nlinarith : 0 ≤ 1 - b ^ 2)
    rw [norm_toE, norm_eq_one_iff, littrowExit]
    simp only [dot, sub_x, sub_y, sub_z, smul_x, smul_y, smul_z]
    obtain ⟨C, hC⟩ : ∃ C, C = √(1 - littrowSine ^ 2) := ⟨_, rfl⟩
    obtain ⟨B, hB⟩ : ∃ B, B = √(1 - b ^ 2) := ⟨_, rfl⟩
    rw [← hC] at hs ⊢
    rw [← hB] at h2 ⊢
    linear_combination (B ^ 2 + b ^ 2) * hs + h2

/-- The exit angle tells the wavelengths of one order apart. -/
theorem C96_dispersion {wl wl' m : ℝ} (hm : m ≠ 0) (h : littrowExit (exitSine wl m) = littrowExit (exitSine wl' m)) : wl = wl' := by
  have hS : (0 : ℝ) ≤ 1 - littrowSine ^ 2 := by norm_num [littrowSine]
  have hs := Real.mul_self_sqrt hS
  have key : ∀ b, dot (littrowExit b) ⟨√(1 - littrowSine ^ 2), littrowSine, 0⟩ = -b := by
    intro b
    rw [littrowExit]
    simp only [dot, sub_x, sub_y, sub_z, smul_x, smul_y, smul_z]
    linear_combination -b * hs
  have := congrArg (fun v => dot v ⟨√(1 - littrowSine ^ 2), littrowSine, 0⟩) h
  simp only [key, exitSine, neg_inj, sub_left_inj] at this
  have h2 : (6e-4 : ℝ) * m ≠ 0 := mul_ne_zero (by norm_num) hm
  exact mul_left_cancel₀ h2 this

end Optics
