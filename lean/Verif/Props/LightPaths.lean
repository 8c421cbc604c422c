import Verif.Lemmas.LightPaths
import Verif.Lemmas.Concrete

/-!
# C83: light paths are followed, and can be traversed in both directions
-/

namespace Optics
open V3

theorem pathLength_cons {p q : V3 ℝ} {l : List (V3 ℝ)} :
    pathLength (p :: q :: l) = dist p.toE q.toE + pathLength (q :: l) := rfl

theorem pathLength_reverse (l : List (V3 ℝ)) : pathLength l.reverse = pathLength l := by
  induction l with
  | nil => rfl
  | cons p l ih =>
    cases l with
    | nil => rfl
    | cons q l =>
      obtain ⟨a, m, hm⟩ : ∃ a m, (q :: l).reverse = a :: m := List.exists_cons_of_ne_nil (by simp)
      have hlast : (a :: m).getLast? = some q := by rw [← hm, List.getLast?_reverse]; rfl
      rw [List.reverse_cons, hm, List.cons_append, pathLength_concat p m a q hlast, ← hm, ih, pathLength_cons, dist_comm,
        add_comm]

/-- The run from any vertex on. -/
theorem follow {md : ℝ} {optics : List (Optic ℝ)} (hw : ∀ o ∈ optics, ∃ c n, o.PlaneMirror c n) :
    ∀ (l : List Vertex) (v w z : Vertex) (r : Ray ℝ) (s : RunState XR) (fuel : Nat),
      LightPath optics (v :: w :: l) → (v :: w :: l).getLast? = some z → z.mirror = none →
      r.position = v.point → r.direction.toE = heading v w → r.type ≠ "faerie_fire" → r.blocked = false →
      Sane r (pathLength ((v :: w :: l).map Vertex.point)) [] s →
      pathLength ((v :: w :: l).map Vertex.point) ≤ md → l.length + 2 ≤ fuel →
      ∃ (s' : RunState XR) (r' : Ray ℝ) (a : Vertex), runLoop (.fin md) (optics.map Optic.lift) none fuel s = .finished s' ∧ s'.ray = r'.lift ∧
        r'.pointHistory = r.pointHistory ++ (w :: l).map Vertex.point ∧ r'.position = z.point ∧
        [a, z] <:+ (v :: w :: l) ∧ r'.direction.toE = heading a z ∧ r'.blocked = false ∧ s'.log = [] ∧
        s'.interactions = s.interactions + l.length
  | [], v, w, z, r, s, fuel, hp, hl, hz, h1, h2, h3, h4, hs, hmd, hf => by
    obtain rfl : w = z := by simpa using hl
    have hleg := hp.leg v w List.infix_rfl
    have hpl : pathLength ([v, w].map Vertex.point) = dist v.point.toE w.point.toE := by simp [pathLength]
    rw [hpl] at hs hmd
    obtain ⟨s', e, e1, e2, e3, e4⟩ := leg_free (md := md) hw hleg hz h1 h2 hs
    obtain ⟨f, rfl⟩ : ∃ f, fuel = f + 2 := ⟨fuel - 2, by simp at hf; omega⟩
    refine ⟨s', r.movedTo w.point, v, ?_, e1, rfl, rfl, List.suffix_rfl, h2, h4, e3, by rw [e4]; rfl⟩
    rw [runLoop_next (f + 1) _ e, runLoop_stop f]
    · unfold RunState.continues
      rw [e2, xlit0, decide_eq_false]
      · rfl
      · show ¬ (0 : ℝ) < _
        linarith
    · unfold RunState.continues
      rw [hs.remaining, xlit0, decide_eq_true (show XR.fin _ > XR.fin 0 from ?_), hs.ray]
      · show (true && true && !r.blocked) = true
        rw [h4]; rfl
      · exact hleg.pos
  | w' :: l, v, w, z, r, s, fuel, hp, hl, hz, h1, h2, h3, h4, hs, hmd, hf => by
    have hleg := hp.leg v w ⟨[], w' :: l, rfl⟩
    have hb := hp.bend v w w' ⟨[], l, rfl⟩
    have hpl : pathLength ((v :: w :: w' :: l).map Vertex.point)
        = dist v.point.toE w.point.toE + pathLength ((w :: w' :: l).map Vertex.point) := rfl
    have hnn := pathLength_nonneg ((w :: w' :: l).map Vertex.point)
    rw [hpl] at hs hmd
    obtain ⟨s1, d', e, hs1, hd', hi⟩ := leg_bend (md := md) hw hleg hb h1 h2 h3 (by linarith) hs
    rw [add_sub_cancel_left] at hs1
    obtain ⟨f, rfl⟩ : ∃ f, fuel = f + 1 := ⟨fuel - 1, by simp at hf; omega⟩
    obtain ⟨s', r', a, g1, g2, g3, g4, g5, g6, g7, g8, g9⟩ := follow (md := md) hw l w w' z { r.movedTo w.point with direction := d' } s1 f hp.tail
      (by rw [List.getLast?_cons_cons] at hl; exact hl) hz rfl hd' h3 h4 hs1 (by have := hleg.pos; linarith)
      (by simp at hf; omega)
    refine ⟨s', r', a, ?_, g2, ?_, g4, g5.trans (List.suffix_cons _ _), g6, g7, g8, ?_⟩
    · rw [runLoop_next f _ e, g1]
      unfold RunState.continues
      rw [hs.remaining, xlit0, decide_eq_true (show XR.fin _ > XR.fin 0 from ?_), hs.ray]
      · show (true && true && !r.blocked) = true
        rw [h4]; rfl
      · have := hleg.pos
        show (0 : ℝ) < _
        linarith
    · rw [g3]
      show (r.pointHistory ++ [w.point]) ++ _ = _
      simp
    · rw [g9, hi, List.length_cons]; omega

/-- C83: if there is a light path through a scene of plane mirrors, then a ray started at its beginning, along its first
leg, with the length of the path as `max_distance`, follows it: `run` returns, having appended the vertices of the path to
the history, one interaction for each mirror, and the ray is at the end of the path, pointing along the last leg. -/
theorem C83_followed {optics : List (Optic ℝ)} (hw : ∀ o ∈ optics, ∃ c n, o.PlaneMirror c n) (v w : Vertex) (l : List Vertex)
    (z : Vertex) (hp : LightPath optics (v :: w :: l)) (hl : (v :: w :: l).getLast? = some z) (hz : z.mirror = none)
    (ray : Ray ℝ) (h1 : ray.position = v.point) (h2 : ray.direction.toE = heading v w) (h3 : ray.type ≠ "faerie_fire")
    (h4 : ray.blocked = false) (fuel : Nat) (hf : l.length + 2 ≤ fuel) :
    ∃ (s : RunState XR) (r : Ray ℝ) (a : Vertex), ray.lift.run (.fin (pathLength ((v :: w :: l).map Vertex.point))) (optics.map Optic.lift) none fuel = .finished s ∧
      s.ray = r.lift ∧ r.pointHistory = ray.pointHistory ++ (w :: l).map Vertex.point ∧ r.position = z.point ∧
      [a, z] <:+ (v :: w :: l) ∧ r.direction.toE = heading a z ∧ r.blocked = false ∧ s.log = [] ∧
      s.interactions = l.length := by
  have hd : dot ray.direction ray.direction = 1 := by
    rw [← norm_eq_one_iff, ← norm_toE, h2]
    exact norm_heading (hp.leg v w ⟨[], l, rfl⟩).pos
  obtain ⟨s, r, a, g1, g2, g3, g4, g5, g6, g7, g8, g9⟩ := follow hw l v w z ray (RunState.init ray.lift (.fin _)) fuel hp hl hz
    h1 h2 h3 h4 ⟨rfl, rfl, rfl, hd⟩ le_rfl hf
  exact ⟨s, r, a, g1, g2, g3, g4, g5, g6, g7, g8, by rw [g9]; exact Nat.zero_add _⟩

/-- C83: light paths are reversible.  If a ray sent along a light path ends at `z` with the direction `d`, then a ray sent
from `z` in the opposite direction, as far, retraces it: it passes the same points in the opposite order, ends where the
first one began, and points against the first one's initial direction. -/
theorem C83_reversible {optics : List (Optic ℝ)} (hw : ∀ o ∈ optics, ∃ c n, o.PlaneMirror c n) (v w : Vertex) (l : List Vertex)
    (z : Vertex) (hp : LightPath optics (v :: w :: l)) (hl : (v :: w :: l).getLast? = some z) (hz : z.mirror = none)
    (hv : v.mirror = none)
    (ray : Ray ℝ) (h1 : ray.position = v.point) (h2 : ray.direction.toE = heading v w) (h3 : ray.type ≠ "faerie_fire")
    (h4 : ray.blocked = false) (h5 : ray.pointHistory = [ray.position]) (fuel : Nat) (hf : l.length + 2 ≤ fuel) :
    ∃ (s : RunState XR) (r : Ray ℝ), ray.lift.run (.fin (pathLength ((v :: w :: l).map Vertex.point))) (optics.map Optic.lift) none fuel = .finished s ∧
      s.ray = r.lift ∧ ∀ back : Ray ℝ, back.position = r.position → back.direction = -r.direction →
        back.type ≠ "faerie_fire" → back.blocked = false → back.pointHistory = [back.position] →
        ∃ (s' : RunState XR) (r' : Ray ℝ), back.lift.run (.fin (pathLength ((v :: w :: l).map Vertex.point))) (optics.map Optic.lift) none fuel
            = .finished s' ∧ s'.ray = r'.lift ∧ r'.pointHistory = r.pointHistory.reverse ∧ r'.position = ray.position ∧
          r'.direction = -ray.direction ∧ s'.interactions = s.interactions := by
  obtain ⟨s, r, a, g1, g2, g3, g4, g5, g6, g7, g8, g9⟩ := C83_followed hw v w l z hp hl hz ray h1 h2 h3 h4 fuel hf
  refine ⟨s, r, g1, g2, fun back b1 b2 b3 b4 b5 => ?_⟩
  obtain ⟨m, hm⟩ := g5
  -- the reversed path
  have hrev : (v :: w :: l).reverse = z :: a :: m.reverse := by rw [← hm]; simp
  have hpr := hp.reverse
  rw [hrev] at hpr
  have hlen : m.reverse.length = l.length := by
    have := congrArg List.length hm
    simp only [List.length_append, List.length_cons, List.length_nil, List.length_reverse] at this ⊢
    omega
  have hlast : (z :: a :: m.reverse).getLast? = some v := by
    rw [← hrev, List.getLast?_reverse]
    rfl
  have hpl : pathLength ((z :: a :: m.reverse).map Vertex.point) = pathLength ((v :: w :: l).map Vertex.point) := by
    rw [← hrev, List.map_reverse, pathLength_reverse]
  have hb2 : back.direction.toE = heading z a := by
    rw [b2, toE_neg, g6, ← heading_comm]
  obtain ⟨s', r', a', k1, k2, k3, k4, k5, k6, k7, k8, k9⟩ := C83_followed hw z a m.reverse v hpr hlast hv back
    (by rw [b1, g4]) hb2 b3 b4 fuel (by rw [hlen]; exact hf)
  rw [hpl] at k1
  refine ⟨s', r', k1, k2, ?_, by rw [k4, h1], ?_, by rw [k9, g9, hlen]⟩
  · rw [k3, g3, b5, h5, b1, g4, h1]
    have e1 : [z.point] ++ (a :: m.reverse).map Vertex.point = (z :: a :: m.reverse).map Vertex.point := rfl
    have e2 : [v.point] ++ (w :: l).map Vertex.point = (v :: w :: l).map Vertex.point := rfl
    rw [e1, e2, ← hrev, List.map_reverse]
  · have : a' = w := by
      rw [← hrev] at k5
      have k5' : [v, a'] <+: v :: w :: l := List.reverse_suffix.mp k5
      rw [List.cons_prefix_cons, List.cons_prefix_cons] at k5'
      exact k5'.2.1
    apply toE_injective
    rw [k6, this, heading_comm, toE_neg, h2]

end Optics
