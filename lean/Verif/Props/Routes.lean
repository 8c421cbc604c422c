import Verif.Lemmas.Routes
import Verif.Props.LightPaths
import Verif.Lemmas.RouteTools
import Verif.Props.Examples

/-!
# C94: rays follow routes through flat optics
-/

namespace Optics
open V3

theorem Route.tail {optics : List (Optic ℝ)} {wl m : ℝ} {v : Vertex} {path : List Vertex} (h : Route optics wl m (v :: path)) :
    Route optics wl m path where
  leg a b hi := h.leg a b (hi.trans (List.suffix_cons v path).isInfix)
  turn a b c hi := h.turn a b c (hi.trans (List.suffix_cons v path).isInfix)

theorem flatScene_of {optics : List (Optic ℝ)} (hw : ∀ o ∈ optics, ∃ c n, n ≠ ⟨0, 0, 0⟩ ∧ o.IsFlat c n) : FlatScene optics := by
  intro o ho
  obtain ⟨c, n, hn, h⟩ := hw o ho
  obtain ⟨Q, hQ⟩ := h.flat hn
  exact ⟨c, n, Q, hn, hQ⟩

theorem Meets.normal_ne {optics : List (Optic ℝ)} {v w : Vertex} {o : Optic ℝ} {n : V3 ℝ} (h : Meets optics v w o n) : n ≠ ⟨0, 0, 0⟩ := by
  rintro rfl
  have := h.steep
  rw [show (⟨0, 0, 0⟩ : V3 ℝ).toE = 0 by ext i; fin_cases i <;> rfl] at this
  simp at this

/-- The last leg is no longer than the whole path. -/
theorem dist_le_pathLength (a z : V3 ℝ) : ∀ pre : List (V3 ℝ), dist a.toE z.toE ≤ pathLength (pre ++ [a, z])
  | [] => by simp [pathLength]
  | [x] => by
    show _ ≤ dist x.toE a.toE + pathLength [a, z]
    have := dist_nonneg (x := x.toE) (y := a.toE)
    have := dist_le_pathLength a z []
    simp only [List.nil_append] at this
    linarith
  | x :: y :: pre => by
    show _ ≤ dist x.toE y.toE + pathLength (y :: pre ++ [a, z])
    have := dist_nonneg (x := x.toE) (y := y.toE)
    have := dist_le_pathLength a z (y :: pre)
    linarith

/-- The angle of incidence as the hit test measures it. -/
theorem Meets.incidence {optics : List (Optic ℝ)} {v w : Vertex} {o : Optic ℝ} {n : V3 ℝ} (h : Meets optics v w o n) {r : Ray ℝ}
    (hd : r.direction.toE = heading v w) : 1e-9 < |dot (unitVector n) r.direction| := by
  have hn := h.normal_ne
  have hst := h.steep
  rw [← hd, inner_toE, ← unit_smul_norm hn, dot_smul_left, abs_mul, unit_smul_norm hn, abs_of_pos (norm_pos hn),
    norm_toE, mul_comm (1e-9 : ℝ)] at hst
  exact lt_of_mul_lt_mul_left hst (norm_pos hn).le

/-- A leg that ends at an inner corner. -/
theorem route_step {md : ℝ} {optics : List (Optic ℝ)} (hw : FlatScene optics) {u v w : Vertex} (h : Leg optics u v)
    {o : Optic ℝ} {n : V3 ℝ} (hM : Meets optics u v o n) {r : Ray ℝ}
    (hT : Turns n r.wavelength r.order v.point (heading u v) (heading v w) o) (hp : r.position = u.point)
    (hd : r.direction.toE = heading u v) (hty : r.type ≠ "faerie_fire") {ρ : ℝ} (hρ : dist u.point.toE v.point.toE ≤ ρ)
    {log : List (DetHit ℝ)} {s : RunState XR} (hs : Sane r ρ log s) :
    ∃ s' d', runStep (.fin md) (optics.map Optic.lift) s = .next s' ∧
      Sane { r.movedTo v.point with direction := d' } (ρ - dist u.point.toE v.point.toE) log s' ∧ d'.toE = heading v w ∧
      s'.interactions = s.interactions + 1 := by
  have hn := hM.normal_ne
  obtain ⟨c, hc⟩ := hM.flat
  obtain ⟨Q, hF⟩ := hc.flat hn
  obtain ⟨s', sfo, hits, e, e1, e2, hr, e3, e4⟩ := flat_hit (md := md) hw h hM.mem hM.mirror hn hF hM.hit hp hd (hM.incidence hd) hty hρ hs
  obtain ⟨d', k1, k2, k3⟩ := turn_acts hM hn hs.unit hd hT hr sfo
  rw [k3] at e3
  simp only [Except.ok.injEq, Prod.mk.injEq] at e3
  refine ⟨s', d', e, ⟨e3.1.symm, e1, ?_, k2⟩, k1, e2⟩
  rw [e4, ← e3.2, hs.log, List.append_nil]

/-- Whether the loop goes on. -/
theorem sane_goes_on {r : Ray ℝ} {ρ : ℝ} {log : List (DetHit ℝ)} {s : RunState XR} (hs : Sane r ρ log s) (hρ : 0 < ρ)
    (hb : r.blocked = false) : s.continues none = true := sane_continues hs hρ hb

/-- The run along all legs but the last. -/
theorem route_run {md : ℝ} {optics : List (Optic ℝ)} (hw : FlatScene optics) {wl m : ℝ} {log : List (DetHit ℝ)} :
    ∀ (l : List Vertex) (v w : Vertex) (r : Ray ℝ) (s : RunState XR) (ρ : ℝ) (fuel : Nat),
      Route optics wl m (v :: w :: l) → r.position = v.point → r.direction.toE = heading v w → r.type ≠ "faerie_fire" →
      r.blocked = false → r.wavelength = wl → r.order = m → Sane r ρ log s →
      pathLength ((v :: w :: l).map Vertex.point) ≤ ρ →
      ∃ (s' : RunState XR) (r' : Ray ℝ) (a z : Vertex) (pre : List Vertex), v :: w :: l = pre ++ [a, z] ∧
        runLoop (.fin md) (optics.map Optic.lift) none (fuel + l.length) s = runLoop (.fin md) (optics.map Optic.lift) none fuel s' ∧
        r'.position = a.point ∧ r'.direction.toE = heading a z ∧ r'.type = r.type ∧ r'.blocked = false ∧ r'.wavelength = wl ∧
        r'.pointHistory ++ [z.point] = r.pointHistory ++ (w :: l).map Vertex.point ∧
        Sane r' (ρ - pathLength ((v :: w :: l).map Vertex.point) + dist a.point.toE z.point.toE) log s' ∧
        s'.interactions = s.interactions + l.length
  | [], v, w, r, s, ρ, fuel, hR, h1, h2, h3, h4, h5, h6, hs, hρ => by
    refine ⟨s, r, v, w, [], rfl, rfl, h1, h2, rfl, h4, h5, rfl, ?_, rfl⟩
    have : ρ - pathLength ([v, w].map Vertex.point) + dist v.point.toE w.point.toE = ρ := by simp [pathLength]
    rw [this]; exact hs
  | w' :: l, v, w, r, s, ρ, fuel, hR, h1, h2, h3, h4, h5, h6, hs, hρ => by
    have hleg := hR.leg v w ⟨[], w' :: l, rfl⟩
    obtain ⟨o, n, hM, hT⟩ := hR.turn v w w' ⟨[], l, rfl⟩
    have hpl : pathLength ((v :: w :: w' :: l).map Vertex.point)
        = dist v.point.toE w.point.toE + pathLength ((w :: w' :: l).map Vertex.point) := rfl
    have hnn := pathLength_nonneg ((w :: w' :: l).map Vertex.point)
    rw [hpl] at hρ
    have hpos := hleg.pos
    rw [← h5, ← h6] at hT
    obtain ⟨s1, d', e, hs1, hd', hi⟩ := route_step (md := md) hw hleg hM hT h1 h2 h3 (by linarith) hs
    obtain ⟨s', r', a, z, pre, g0, g1, g2, g3, g4, g5, g6, g7, g8, g9⟩ := route_run (md := md) hw l w w'
      { r.movedTo w.point with direction := d' } s1 (ρ - dist v.point.toE w.point.toE) fuel hR.tail rfl hd' h3 h4 h5 h6 hs1
      (by linarith)
    refine ⟨s', r', a, z, v :: pre, by rw [g0]; rfl, ?_, g2, g3, g4, g5, g6, ?_, ?_, ?_⟩
    · rw [← g1]
      exact runLoop_next (fuel + l.length) (sane_continues hs (by linarith) h4) e
    · rw [g7]
      show (r.pointHistory ++ [w.point]) ++ _ = _
      simp
    · rw [hpl]
      have : ρ - (dist v.point.toE w.point.toE + pathLength ((w :: w' :: l).map Vertex.point))
          = ρ - dist v.point.toE w.point.toE - pathLength ((w :: w' :: l).map Vertex.point) := by ring
      rw [this]; exact g8
    · rw [g9, hi, List.length_cons]; omega

/-- C94: if there is a route through a scene of flat optics that ends in free space, then a ray of its wavelength and order
sent along its first leg, with the length of the route as `max_distance`, follows it: `run` returns, having appended the
corners of the route to the history, with one interaction for each optic, and the ray is at the end of the route, along the
last leg. -/
theorem C94_followed {optics : List (Optic ℝ)} (hw : ∀ o ∈ optics, ∃ c n, n ≠ ⟨0, 0, 0⟩ ∧ o.IsFlat c n) (ray : Ray ℝ) (v w : Vertex)
    (l : List Vertex) (z : Vertex) (hR : Route optics ray.wavelength ray.order (v :: w :: l)) (hl : (v :: w :: l).getLast? = some z)
    (hz : z.mirror = none) (h1 : ray.position = v.point) (h2 : ray.direction.toE = heading v w) (h3 : ray.type ≠ "faerie_fire")
    (h4 : ray.blocked = false) (fuel : Nat) (hf : l.length + 2 ≤ fuel) :
    ∃ (s : RunState XR) (r : Ray ℝ) (a : Vertex),
      ray.lift.run (.fin (pathLength ((v :: w :: l).map Vertex.point))) (optics.map Optic.lift) none fuel = .finished s ∧
      s.ray = r.lift ∧ r.pointHistory = ray.pointHistory ++ (w :: l).map Vertex.point ∧ r.position = z.point ∧
      [a, z] <:+ (v :: w :: l) ∧ r.direction.toE = heading a z ∧ r.blocked = false ∧ s.log = [] ∧
      s.interactions = l.length := by
  have hF := flatScene_of hw
  have hd : dot ray.direction ray.direction = 1 := by
    rw [← norm_eq_one_iff, ← norm_toE, h2]
    exact norm_heading (hR.leg v w ⟨[], l, rfl⟩).pos
  obtain ⟨f, rfl⟩ : ∃ f, fuel = f + 2 + l.length := ⟨fuel - l.length - 2, by omega⟩
  obtain ⟨s', r', a, z', pre, g0, g1, g2, g3, g4, g5, g6, g7, g8, g9⟩ := route_run (md := pathLength ((v :: w :: l).map Vertex.point)) hF l v w ray
    (RunState.init ray.lift (.fin (pathLength ((v :: w :: l).map Vertex.point)))) _ (f + 2) hR h1 h2 h3 h4 rfl rfl
    (log := []) ⟨rfl, rfl, rfl, hd⟩ le_rfl
  obtain rfl : z = z' := by
    rw [g0] at hl
    simpa using hl.symm
  have hleg := hR.leg a z (by rw [g0]; exact ⟨pre, [], by simp⟩)
  rw [sub_self, zero_add] at g8
  obtain ⟨s'', e, e1, e2, e3, e4⟩ := flat_free (md := pathLength ((v :: w :: l).map Vertex.point)) hF hleg hz g2 g3 g8
  refine ⟨s'', r'.movedTo z.point, a, ?_, e1, g7, rfl, ⟨pre, g0.symm⟩, g3, g5, ?_, ?_⟩
  · unfold Ray.run
    rw [g1, runLoop_next (f + 1) (sane_continues g8 hleg.pos g5) e, runLoop_stop f]
    unfold RunState.continues
    rw [e2, xlit0, decide_eq_false]
    · rfl
    · show ¬ (0 : ℝ) < _
      have : dist a.point.toE z.point.toE ≤ pathLength ((v :: w :: l).map Vertex.point) := by
        rw [g0, List.map_append]
        exact dist_le_pathLength _ _ _
      linarith
  · rw [e3, g8.log]; rfl
  · rw [e4, g9]; exact Nat.zero_add _

/-- C94: if the route ends on a detector of the scene, then the ray follows it, for every `max_distance` that is long enough:
`run` returns with the ray blocked at the end of the route, and the detector has recorded that point and the wavelength. -/
theorem C94_detected {optics : List (Optic ℝ)} (hw : ∀ o ∈ optics, ∃ c n, n ≠ ⟨0, 0, 0⟩ ∧ o.IsFlat c n) (ray : Ray ℝ) (v w : Vertex)
    (l : List Vertex) (a z : Vertex) (hR : Route optics ray.wavelength ray.order (v :: w :: l)) (hl : [a, z] <:+ (v :: w :: l))
    (D : Detector ℝ) (n : V3 ℝ) (hz : Meets optics a z (.detector D) n) (h1 : ray.position = v.point)
    (h2 : ray.direction.toE = heading v w) (h3 : ray.type ≠ "faerie_fire") (h4 : ray.blocked = false) (md : ℝ)
    (hmd : pathLength ((v :: w :: l).map Vertex.point) ≤ md) (fuel : Nat) (hf : l.length + 2 ≤ fuel) :
    ∃ (s : RunState XR) (r : Ray ℝ), ray.lift.run (.fin md) (optics.map Optic.lift) none fuel = .finished s ∧
      s.ray = r.lift ∧ r.pointHistory = ray.pointHistory ++ (w :: l).map Vertex.point ∧ r.position = z.point ∧
      r.direction.toE = heading a z ∧ r.blocked = true ∧ s.log = [⟨D.id, z.point.lift, .fin ray.wavelength⟩] ∧
      s.interactions = l.length + 1 := by
  have hF := flatScene_of hw
  have hd : dot ray.direction ray.direction = 1 := by
    rw [← norm_eq_one_iff, ← norm_toE, h2]
    exact norm_heading (hR.leg v w ⟨[], l, rfl⟩).pos
  obtain ⟨f, rfl⟩ : ∃ f, fuel = f + 2 + l.length := ⟨fuel - l.length - 2, by omega⟩
  obtain ⟨s', r', a', z', pre, g0, g1, g2, g3, g4, g5, g6, g7, g8, g9⟩ := route_run (md := md) hF l v w ray
    (RunState.init ray.lift (.fin md)) _ (f + 2) hR h1 h2 h3 h4 rfl rfl (log := []) ⟨rfl, rfl, rfl, hd⟩ hmd
  obtain ⟨pre', hpre⟩ := hl
  have hend : pre ++ [a', z'] = pre' ++ [a, z] := by rw [← g0, hpre]
  obtain ⟨-, he⟩ := List.append_inj' hend rfl
  simp only [List.cons.injEq, and_true] at he
  obtain ⟨rfl, rfl⟩ := he
  have hleg := hR.leg a' z' (by rw [g0]; exact ⟨pre, [], by simp⟩)
  have hn := hz.normal_ne
  obtain ⟨c, hc⟩ := hz.flat
  obtain ⟨Q, hQ⟩ := hc.flat hn
  obtain ⟨s'', sfo, hits, e, e1, e2, -, e3, e4⟩ := flat_hit (md := md) hF hleg hz.mem hz.mirror hn hQ hz.hit g2 g3 (hz.incidence g3)
    (by rw [g4]; exact h3) (by linarith) g8
  have e3' : ({ r'.movedTo z'.point with blocked := true }.lift, [(⟨D.id, z'.point.lift, .fin r'.wavelength⟩ : DetHit XR)]) = (s''.ray, hits) :=
    Except.ok.inj e3
  simp only [Prod.mk.injEq] at e3'
  refine ⟨s'', { r'.movedTo z'.point with blocked := true }, ?_, e3'.1.symm, g7, rfl, g3, rfl, ?_, ?_⟩
  · unfold Ray.run
    have := hleg.pos
    rw [g1, runLoop_next (f + 1) (sane_continues g8 (by linarith) g5) e, runLoop_stop f]
    unfold RunState.continues
    rw [← e3'.1]
    simp [Ray.lift]
  · rw [e4, g8.log, ← e3'.2, g6]; rfl
  · rw [e2, g9]
    show 0 + _ + 1 = _
    omega

/-! ## An example: an image folded by a mirror

A lens of focal length 50 images the origin, 100 in front of it, to 100 behind it.  A mirror at 45° folds the light onto a
detector. -/

/-- The corners of one ray. -/
noncomputable def foldStart : Vertex := ⟨⟨0, 0, 0⟩, none⟩
noncomputable def foldLens (l : Lens ℝ) : Vertex := ⟨⟨3, 100, 4⟩, some (.lens l)⟩
noncomputable def foldMirror (m : Mirror ℝ) : Vertex := ⟨⟨150 / 103, 15600 / 103, 200 / 103⟩, some (.mirror m)⟩
noncomputable def foldEnd (d : Detector ℝ) : Vertex := ⟨⟨50, 150, 0⟩, some (.detector d)⟩

theorem fold_dist {p q : V3 ℝ} {A B : ℝ} (hA : 0 ≤ A) (hB : 0 ≤ B) (h1 : A ^ 2 < dot (q - p) (q - p)) (h2 : dot (q - p) (q - p) ≤ B ^ 2) :
    A < dist p.toE q.toE ∧ dist p.toE q.toE ≤ B := by
  rw [dist_comm, dist_eq_norm, ← toE_sub, norm_toE, norm_eq]
  exact ⟨Real.lt_sqrt_of_sq_lt h1, Real.sqrt_le_iff.mpr ⟨hB, h2⟩⟩

/-- The rays of the example, for any optics made so. -/
theorem fold_route {l : Lens ℝ} {m : Mirror ℝ} {d : Detector ℝ}
    (hl : Lens.new (⟨0, 100, 0⟩ : V3 ℝ) (some ⟨0, -1, 0⟩) "spherical_biconvex" (some 25) none none (some 50) "ideal" 1.5 = .ok l)
    (hm : Mirror.new (⟨0, 150, 0⟩ : V3 ℝ) "rectangular_flat" (some ⟨1, -1, 0⟩) none (some 20) (some 20) none (some ⟨0, 0, 1⟩) "normal"
      (some ⟨0, 0, 1⟩) = .ok m)
    (hd : Detector.new 0 (⟨50, 150, 0⟩ : V3 ℝ) ⟨-1, 0, 0⟩ ⟨0, 0, 1⟩ "rectangular_flat" (some 30) (some 30) = .ok d) :
    (∀ o ∈ [Optic.lens l, .mirror m, .detector d], ∃ c n, n ≠ ⟨0, 0, 0⟩ ∧ o.IsFlat c n) ∧
    (∀ wl, Route [.lens l, .mirror m, .detector d] wl 0 [foldStart, foldLens l, foldMirror m, foldEnd d]) ∧
    Meets [.lens l, .mirror m, .detector d] (foldMirror m) (foldEnd d) (.detector d) ⟨-1, 0, 0⟩ := by
  have nl : (⟨0, -1, 0⟩ : V3 ℝ) ≠ ⟨0, 0, 0⟩ := e_ne (by norm_num)
  have nm : (⟨1, -1, 0⟩ : V3 ℝ) ≠ ⟨0, 0, 0⟩ := e_ne (by norm_num)
  have nd : (⟨-1, 0, 0⟩ : V3 ℝ) ≠ ⟨0, 0, 0⟩ := e_ne (by norm_num)
  have nt : (⟨0, 0, 1⟩ : V3 ℝ) ≠ ⟨0, 0, 0⟩ := e_ne (by norm_num)
  have fl : (Optic.lens l).IsFlat ⟨0, 100, 0⟩ ⟨0, -1, 0⟩ := .lens (by norm_num) (by norm_num) (by norm_num) hl
  have fm : (Optic.mirror m).IsFlat ⟨0, 150, 0⟩ ⟨1, -1, 0⟩ := .rectangleMirror (D := none) (f := none) nt (w := 20) (h := 20) (by norm_num) (by norm_num) nofun nofun nt hm
  have fd : (Optic.detector d).IsFlat ⟨50, 150, 0⟩ ⟨-1, 0, 0⟩ := .detector nt (by norm_num) (by norm_num) hd
  obtain ⟨ql, l1, l2, l3, l4⟩ := benchLens_flat nl (by norm_num) (by norm_num) (by norm_num) hl
  have qm := mirror_flat (D := none) (f := none) nm nt (w := 20) (h := 20) (by norm_num) (by norm_num) nofun nofun nt hm
  obtain ⟨qd, d1⟩ := detector_flat nd nt (by norm_num) (by norm_num) hd
  have mt : m.type = "normal" := (mirror_new_facts hm).1
  obtain ⟨a1, b1⟩ := fold_dist (p := (⟨0, 0, 0⟩ : V3 ℝ)) (q := ⟨3, 100, 4⟩) (A := 1) (B := 101) (by norm_num) (by norm_num)
    (by norm_num [dot]) (by norm_num [dot])
  obtain ⟨a2, b2⟩ := fold_dist (p := (⟨3, 100, 4⟩ : V3 ℝ)) (q := ⟨150 / 103, 15600 / 103, 200 / 103⟩) (A := 1) (B := 101) (by norm_num)
    (by norm_num) (by norm_num [dot]) (by norm_num [dot])
  obtain ⟨a3, b3⟩ := fold_dist (p := (⟨150 / 103, 15600 / 103, 200 / 103⟩ : V3 ℝ)) (q := ⟨50, 150, 0⟩) (A := 1) (B := 101) (by norm_num)
    (by norm_num) (by norm_num [dot]) (by norm_num [dot])
  have L1 : Leg [.lens l, .mirror m, .detector d] foldStart (foldLens l) := by
    refine leg_of (lt_trans (by norm_num) a1) ?_
    simp only [List.mem_cons, List.not_mem_nil, or_false]
    rintro o (rfl | rfl | rfl) t h0 h1 hc
    · exact .inr ⟨fl.atEnd nl (by norm_num [dot, foldStart]) (by norm_num [dot, foldLens]) hc, rfl⟩
    · exact absurd hc (fm.missed nm (by norm_num [dot, foldStart, foldLens]) h0 h1)
    · exact absurd hc (fd.missed nd (by norm_num [dot, foldStart, foldLens]) h0 h1)
  have L2 : Leg [.lens l, .mirror m, .detector d] (foldLens l) (foldMirror m) := by
    refine leg_of (lt_trans (by norm_num) a2) ?_
    simp only [List.mem_cons, List.not_mem_nil, or_false]
    rintro o (rfl | rfl | rfl) t h0 h1 hc
    · exact .inl ⟨fl.atStart nl (by norm_num [dot, foldLens]) (by norm_num [dot, foldMirror]) hc, rfl⟩
    · exact .inr ⟨fm.atEnd nm (by norm_num [dot, foldLens]) (by norm_num [dot, foldMirror]) hc, rfl⟩
    · exact absurd hc (fd.missed nd (by norm_num [dot, foldMirror, foldLens]) h0 h1)
  have L3 : Leg [.lens l, .mirror m, .detector d] (foldMirror m) (foldEnd d) := by
    refine leg_of (lt_trans (by norm_num) a3) ?_
    simp only [List.mem_cons, List.not_mem_nil, or_false]
    rintro o (rfl | rfl | rfl) t h0 h1 hc
    · exact absurd hc (fl.missed nl (by norm_num [dot, foldMirror, foldEnd]) h0 h1)
    · exact .inl ⟨fm.atStart nm (by norm_num [dot, foldMirror]) (by norm_num [dot, foldEnd]) hc, rfl⟩
    · exact .inr ⟨fd.atEnd nd (by norm_num [dot, foldMirror]) (by norm_num [dot, foldEnd]) hc, rfl⟩
  have M1 : Meets [.lens l, .mirror m, .detector d] foldStart (foldLens l) (.lens l) ⟨0, -1, 0⟩ := by
    refine ⟨rfl, by simp, ⟨_, fl⟩, (ql.canBeHit_iff nl _).mpr ⟨?_, ?_⟩, steep_of (c := ⟨0, 100, 0⟩) (A := 100) (B := 101) ?_ ?_ b1 (by norm_num) ?_⟩
    · rw [unitVector, dot_div_right]; norm_num [dot, foldLens]
    · exact (lt_of_le_of_lt (fold_dist (A := 0) (B := 6) le_rfl (by norm_num) (by norm_num [dot, foldLens]) (by norm_num [dot, foldLens])).2 (by norm_num))
    · norm_num [dot, foldLens]
    · norm_num [dot, foldStart]
    · rw [norm_toE, norm_eq]; norm_num [dot]
  have M2 : Meets [.lens l, .mirror m, .detector d] (foldLens l) (foldMirror m) (.mirror m) ⟨1, -1, 0⟩ := by
    have hN : norm (⟨1, -1, 0⟩ : V3 ℝ) ≤ 2 := by
      rw [norm_eq]; exact Real.sqrt_le_iff.mpr (by norm_num [dot])
    refine ⟨rfl, by simp, ⟨_, fm⟩, (qm.canBeHit_iff nm _).mpr ⟨?_, ?_⟩, steep_of (c := ⟨0, 150, 0⟩) (A := 50) (B := 101) ?_ ?_ b2 (by norm_num) ?_⟩
    · rw [unitVector, dot_div_right]; norm_num [dot, foldMirror]
    · refine rectangle_near nm nt (by norm_num [dot]) ?_ ?_ <;>
        exact (fold_dist (A := 0) (B := 10) le_rfl (by norm_num) (by norm_num [dot, foldMirror]) (by norm_num [dot, foldMirror])).2.trans (by norm_num)
    · norm_num [dot, foldMirror]
    · norm_num [dot, foldLens]
    · rw [norm_toE]; norm_num; linarith
  have M3 : Meets [.lens l, .mirror m, .detector d] (foldMirror m) (foldEnd d) (.detector d) ⟨-1, 0, 0⟩ := by
    refine ⟨rfl, by simp, ⟨_, fd⟩, (qd.canBeHit_iff nd _).mpr ⟨?_, ?_⟩, steep_of (c := ⟨50, 150, 0⟩) (A := 40) (B := 101) ?_ ?_ b3 (by norm_num) ?_⟩
    · rw [unitVector, dot_div_right]; norm_num [dot, foldEnd]
    · refine rectangle_near nd nt (by norm_num [dot]) ?_ ?_ <;> norm_num [foldEnd]
    · norm_num [dot, foldEnd]
    · norm_num [dot, foldMirror]
    · rw [norm_toE, norm_eq]; norm_num [dot]
  refine ⟨?_, fun wl => ?_, M3⟩
  · simp only [List.mem_cons, List.not_mem_nil, or_false]
    rintro o (rfl | rfl | rfl)
    · exact ⟨_, _, nl, fl⟩
    · exact ⟨_, _, nm, fm⟩
    · exact ⟨_, _, nd, fd⟩
  · refine .cons L1 M1 (.lens (a := (⟨0, 1, 0⟩ : V3 ℝ).toE) l4 l3 (by norm_num) (axisAlong_of (A := 100) (k := -1) (by norm_num) ?_ ?_ ?_)
      (axis_steep (A := 100) (by norm_num) ?_ b1 (by norm_num)) (fun h => absurd h ?_) ?_) (.cons L2 M2 (.mirror mt ?_) (.single L3))
    · norm_num [dot, foldStart, foldLens]
    · norm_num [dot]
    · ext <;> norm_num
    · norm_num [dot, foldStart, foldLens]
    · refine clear_of (b := ⟨1, 0, 0⟩) (B := 101) (by norm_num [dot]) (by norm_num [dot]) (by norm_num [dot]) b1 ?_ ?_
      · norm_num [dot, foldStart, foldLens]
      · exact (e_ne (by norm_num)).symm
    · rw [l1]
      refine lensTurn_of (A := 100) (A' := 5300 / 103) (by norm_num) (by norm_num) ?_ ?_ ?_
      · norm_num [dot, foldStart, foldLens]
      · norm_num [dot, foldMirror, foldLens]
      · ext <;> norm_num [foldStart, foldLens, foldMirror]
    · refine reflected_of (k := 50 / 53) (by norm_num) (by norm_num [dot]) ?_ ?_
      · intro e
        have := congrArg V3.x e
        norm_num [foldLens, foldMirror] at this
      · ext <;> norm_num [dot, foldLens, foldMirror, foldEnd]

/-- Optics of these kinds can be made, and the detector records the image of the origin, at the corner of the folded axis. -/
example : ∃ (l : Lens ℝ) (m : Mirror ℝ) (d : Detector ℝ) (s : RunState XR) (r : Ray ℝ),
    (Ray.new (⟨0, 0, 0⟩ : V3 ℝ) ⟨3, 100, 4⟩ 532 0 "normal").lift.run (.fin 500) ([.lens l, .mirror m, .detector d].map Optic.lift) none 4
      = .finished s ∧ s.ray = r.lift ∧ r.pointHistory = [⟨0, 0, 0⟩, ⟨3, 100, 4⟩, ⟨150 / 103, 15600 / 103, 200 / 103⟩, ⟨50, 150, 0⟩] ∧
      s.log = [⟨0, (⟨50, 150, 0⟩ : V3 ℝ).lift, .fin 532⟩] := by
  obtain ⟨l, hl, -⟩ := lens_builds (c := ⟨0, 100, 0⟩) (n := ⟨0, -1, 0⟩) (D := 25) (f := 50) (index := 1.5) (type := "ideal")
    (e_ne (by norm_num)) (by norm_num) (by norm_num) (by norm_num)
  obtain ⟨m, hm, -⟩ := dmd_builds (c := ⟨0, 150, 0⟩) (n := ⟨1, -1, 0⟩) (t := ⟨0, 0, 1⟩) (m := ⟨0, 0, 1⟩) (w := 20) (h := 20)
    (type := "normal") (by norm_num [dot]) (by norm_num) (by norm_num) (e_ne (by norm_num)) (e_ne (by norm_num)) (e_ne (by norm_num))
  obtain ⟨d, hd, -⟩ := detector_builds (id := 0) (c := ⟨50, 150, 0⟩) (n := ⟨-1, 0, 0⟩) (t := ⟨0, 0, 1⟩) (w := 30) (h := 30)
    (by norm_num [dot]) (by norm_num) (by norm_num) (e_ne (by norm_num)) (e_ne (by norm_num))
  obtain ⟨h1, h2, h3⟩ := fold_route hl hm hd
  have hdir : (Ray.new (⟨0, 0, 0⟩ : V3 ℝ) ⟨3, 100, 4⟩ 532 0 "normal").direction.toE = heading foldStart (foldLens l) := by
    show (unitVector (⟨3, 100, 4⟩ : V3 ℝ)).toE = _
    rw [unitVector_toE, heading, dist_comm, dist_eq_norm, ← toE_sub]
    have : (foldLens l).point - foldStart.point = ⟨3, 100, 4⟩ := by ext <;> simp [foldLens, foldStart]
    rw [this]
  have hlen : pathLength ([foldStart, foldLens l, foldMirror m, foldEnd d].map Vertex.point) ≤ 500 := by
    have b1 := (fold_dist (p := foldStart.point) (q := (foldLens l).point) (A := 0) (B := 101) le_rfl (by norm_num)
      (by norm_num [dot, foldStart, foldLens]) (by norm_num [dot, foldStart, foldLens])).2
    have b2 := (fold_dist (p := (foldLens l).point) (q := (foldMirror m).point) (A := 0) (B := 101) le_rfl (by norm_num)
      (by norm_num [dot, foldMirror, foldLens]) (by norm_num [dot, foldMirror, foldLens])).2
    have b3 := (fold_dist (p := (foldMirror m).point) (q := (foldEnd d).point) (A := 0) (B := 101) le_rfl (by norm_num)
      (by norm_num [dot, foldMirror, foldEnd]) (by norm_num [dot, foldMirror, foldEnd])).2
    simp only [List.map_cons, List.map_nil, pathLength]
    linarith
  obtain ⟨s, r, e1, e2, e3, -, -, -, e4, -⟩ := C94_detected h1 (Ray.new ⟨0, 0, 0⟩ ⟨3, 100, 4⟩ 532 0 "normal") foldStart (foldLens l)
    [foldMirror m, foldEnd d] (foldMirror m) (foldEnd d) (h2 532) ⟨[foldStart, foldLens l], rfl⟩ d ⟨-1, 0, 0⟩ h3 rfl hdir (by simp [Ray.new]) rfl
    500 hlen 4 (by simp)
  refine ⟨l, m, d, s, r, e1, e2, e3, ?_⟩
  rw [e4, (detector_flat (e_ne (by norm_num)) (e_ne (by norm_num)) (by norm_num) (by norm_num) hd).2]
  rfl

end Optics
