import Verif.Lemmas.PlaneMirrors
import Verif.Props.Soundness

/-!
# C80: paths over plane mirrors unfold to straight lines
-/

namespace Optics
open V3

theorem imageThrough_append (a b : List MirrorPlane) (x : E3) :
    imageThrough (a ++ b) x = imageThrough b (imageThrough a x) := by
  induction a generalizing x with
  | nil => rfl
  | cons m a ih => exact ih _

/-- What is known after some passes over plane mirrors: the reflections undone, everything lies on one line. -/
structure Unfolded (Q : MirrorPlane → Prop) (optics : List (Optic ℝ)) (ray : Ray ℝ) (md : ℝ) (s : RunState XR) (r : Ray ℝ) (ρ : ℝ)
    (P : List (V3 ℝ)) (ms : List MirrorPlane) : Prop where
  sane : Sane r ρ [] s
  type : r.type = ray.type
  blocked : r.blocked = ray.blocked
  history : r.pointHistory = ray.pointHistory ++ P
  last : (ray.position :: P).getLast? = some r.position
  count : ms.length = s.interactions
  mirrors : ∀ m ∈ ms, Q m ∧ ∃ o ∈ optics, o.PlaneMirror m.point m.normal
  length : pathLength (ray.position :: P) + ρ = md ∧ P.length = ms.length ∧ (0 ≤ md → 0 ≤ ρ) ∨
    pathLength (ray.position :: P) = md ∧ P.length = ms.length + 1 ∧ ρ ≤ 0
  onPlane : ∀ k (h : k < ms.length) (h' : k < P.length), OnPlane ms[k].point ms[k].normal P[k]
  points : ∀ k (h : k < P.length),
    P[k].toE = imageThrough (ms.take k) (ray.at (pathLength (ray.position :: P.take (k + 1)))).toE
  line : ∀ t, (r.at t).toE = imageThrough ms (ray.at (pathLength (ray.position :: P) + t)).toE

theorem unfolded_init {Q : MirrorPlane → Prop} {optics : List (Optic ℝ)} {ray : Ray ℝ}
    (hd : dot ray.direction ray.direction = 1) {md : ℝ} :
    Unfolded Q optics ray md (RunState.init ray.lift (.fin md)) ray md [] [] := by
  refine ⟨⟨rfl, rfl, rfl, hd⟩, rfl, rfl, by simp, rfl, rfl, by simp, .inl ⟨by simp [pathLength], rfl, id⟩,
    by simp, by simp, fun t => ?_⟩
  simp [imageThrough, pathLength]

/-- One more pass. -/
theorem unfolded_step {Q : MirrorPlane → Prop} {optics : List (Optic ℝ)}
    (hw : ∀ o ∈ optics, ∃ m, Q m ∧ o.PlaneMirror m.point m.normal) {ray : Ray ℝ} (hty : ray.type ≠ "faerie_fire") {md : ℝ}
    {mi : Option Int} {s s' : RunState XR} {r : Ray ℝ} {ρ : ℝ} {P : List (V3 ℝ)} {ms : List MirrorPlane}
    (ih : Unfolded Q optics ray md s r ρ P ms) (hc : s.continues mi = true)
    (hs : runStep (.fin md) (optics.map Optic.lift) s = .next s') :
    Unfolded Q optics ray md s' (r.movedTo (r.at ρ)) (ρ - md) (P ++ [r.at ρ]) ms ∨
    ∃ o c n t, o ∈ optics ∧ Q ⟨c, n⟩ ∧ o.PlaneMirror c n ∧ 1e-9 < t ∧ t ≤ ρ ∧ dot (r.at t - c) (unitVector n) = 0 ∧
      1e-9 < |dot (unitVector n) r.direction| ∧ o.Reports r (r.at t) (unitVector n) ∧
      Unfolded Q optics ray md s' (r.bounced n t) (ρ - t) (P ++ [r.at t]) (ms ++ [⟨c, n⟩]) := by
  have hpos := continues_pos hc ih.sane.remaining
  obtain ⟨hlen, hP⟩ : pathLength (ray.position :: P) + ρ = md ∧ P.length = ms.length := by
    rcases ih.length with ⟨h, h', -⟩ | ⟨-, -, h⟩
    · exact ⟨h, h'⟩
    · exact absurd hpos (not_lt.mpr h)
  have hcat : ∀ t, 0 ≤ t → pathLength (ray.position :: (P ++ [r.at t])) = pathLength (ray.position :: P) + t := by
    intro t ht
    rw [pathLength_concat _ _ _ _ ih.last, dist_toE_eq]
    have := dist_at r ih.sane.unit t
    rw [abs_of_nonneg ht] at this
    exact congrArg _ this
  have hlast : ∀ t, (ray.position :: (P ++ [r.at t])).getLast? = some (r.at t) := by
    intro t
    rw [← List.cons_append, List.getLast?_concat]
  have hhist : ∀ t, (r.movedTo (r.at t)).pointHistory = ray.pointHistory ++ (P ++ [r.at t]) := by
    intro t
    show r.pointHistory ++ _ = _
    rw [ih.history, List.append_assoc]
  have hpts : ∀ t, 0 ≤ t → ∀ ms', ∀ k (h : k < (P ++ [r.at t]).length), ((P ++ [r.at t])[k]).toE
      = imageThrough ((ms ++ ms').take k) (ray.at (pathLength (ray.position :: (P ++ [r.at t]).take (k + 1)))).toE := by
    intro t ht ms' k hk
    rw [List.length_append, List.length_singleton] at hk
    rcases Nat.lt_succ_iff_lt_or_eq.mp hk with hk' | hk'
    · rw [List.getElem_append_left hk', ih.points k hk', List.take_append_of_le_length (by omega),
        List.take_append_of_le_length (by omega)]
    · subst hk'
      rw [List.getElem_append_right le_rfl]
      simp only [Nat.sub_self, List.getElem_singleton]
      rw [List.take_of_length_le (l := P ++ [r.at t]) (by simp), List.take_append_of_le_length (by omega),
        List.take_of_length_le (by omega), hcat t ht]
      exact ih.line t
  rcases plane_step hw ih.sane (by rw [ih.type]; exact hty) hs with ⟨h1, hi⟩ | ⟨o, c, n, t, ho, hq, hpm, ht, ht', hon, hsl, hrep, h1, hi⟩
  · refine .inl ⟨h1, ih.type, ih.blocked, hhist ρ, hlast ρ, by rw [ih.count, hi], ih.mirrors,
      .inr ⟨?_, by simp [hP], ?_⟩, ?_, ?_, fun t => ?_⟩
    · rw [hcat ρ hpos.le, hlen]
    · have := pathLength_nonneg (ray.position :: P)
      linarith
    · intro k h h'
      rw [List.getElem_append_left (by omega)]
      exact ih.onPlane k h (by omega)
    · have := hpts ρ hpos.le []
      simpa only [List.append_nil] using this
    · rw [hcat ρ hpos.le, add_assoc, ← ih.line (ρ + t)]
      congr 1
      show r.at ρ + t * r.direction = _
      simp only [at_eq]
      ext <;> simp only [add_x, add_y, add_z, smul_x, smul_y, smul_z] <;> ring
  · have ht0 : 0 ≤ t := by norm_num at ht; linarith
    refine .inr ⟨o, c, n, t, ho, hq, hpm, ht, ht', hon, hsl, hrep, h1, ih.type, ih.blocked, hhist t, hlast t, by simp [ih.count, hi], ?_,
      .inl ⟨?_, by simp [hP], fun _ => by linarith⟩, ?_, hpts t ht0 _, fun u => ?_⟩
    · intro m hm
      rcases List.mem_append.mp hm with hm | hm
      · exact ih.mirrors m hm
      · obtain rfl := List.mem_singleton.mp hm
        exact ⟨hq, o, ho, hpm⟩
    · rw [hcat t ht0]; linarith
    · intro k h h'
      rw [List.length_append, List.length_singleton] at h h'
      rcases Nat.lt_succ_iff_lt_or_eq.mp h with hk' | hk'
      · rw [List.getElem_append_left (by omega), List.getElem_append_left (by omega)]
        exact ih.onPlane k hk' (by omega)
      · subst hk'
        rw [List.getElem_append_right (by omega), List.getElem_append_right (by omega)]
        simp only [hP, Nat.sub_self, List.getElem_singleton]
        rw [onPlane_iff, ← unit_smul_norm hpm.normal_ne, dot_smul_right, hon, mul_zero]
    · rw [hcat t ht0, imageThrough_append, add_assoc, ← ih.line (t + u)]
      exact (planeImage_line hpm.normal_ne r ih.sane.unit hon u).symm

theorem unfolded_passes {Q : MirrorPlane → Prop} {optics : List (Optic ℝ)}
    (hw : ∀ o ∈ optics, ∃ m, Q m ∧ o.PlaneMirror m.point m.normal) {ray : Ray ℝ}
    (hd : dot ray.direction ray.direction = 1) (hty : ray.type ≠ "faerie_fire") {md : ℝ} {mi : Option Int}
    {k : Nat} {s : RunState XR}
    (h : Passes (.fin md) (optics.map Optic.lift) mi k (RunState.init ray.lift (.fin md)) s) :
    ∃ r ρ P ms, Unfolded Q optics ray md s r ρ P ms := by
  generalize h0 : RunState.init ray.lift (.fin md) = s0 at h
  induction h with
  | zero s =>
    subst h0
    exact ⟨ray, md, [], [], unfolded_init hd⟩
  | succ hp hc hs ih =>
    subst h0
    obtain ⟨r, ρ, P, ms, ih⟩ := ih rfl
    rcases unfolded_step hw hty ih hc hs with h | ⟨o, c, n, t, -, -, -, -, -, -, -, -, h⟩
    · exact ⟨_, _, _, _, h⟩
    · exact ⟨_, _, _, _, h⟩

/-- C80: in a scene of plane mirrors (any number, anywhere, of any size) a run of any length, however it ends, has
followed a straight line folded at the mirrors: there are planes `ms` of mirrors of the scene, one for each interaction,
such that the `k`-th new point of the history lies on the `k`-th plane and is the composed mirror image, in the planes met
before it, of the point the free ray reaches after the same path length; and the ray's present line is the image of the
free ray's in all of them. -/
theorem C80_unfolding {optics : List (Optic ℝ)} (hw : ∀ o ∈ optics, ∃ c n, o.PlaneMirror c n) (ray : Ray ℝ)
    (hd : ‖ray.direction.toE‖ = 1) (hty : ray.type ≠ "faerie_fire") (md : ℝ) (mi : Option Int) (fuel : Nat) :
    let s := (ray.lift.run (.fin md) (optics.map Optic.lift) mi fuel).state
    ∃ (r : Ray ℝ) (P : List (V3 ℝ)) (ms : List MirrorPlane),
      s.ray = r.lift ∧ r.pointHistory = ray.pointHistory ++ P ∧ ms.length = s.interactions ∧
      (P.length = ms.length ∨ P.length = ms.length + 1) ∧
      (∀ m ∈ ms, ∃ o ∈ optics, o.PlaneMirror m.point m.normal) ∧
      (∀ k (h : k < ms.length) (h' : k < P.length), OnPlane ms[k].point ms[k].normal P[k]) ∧
      (∀ k (h : k < P.length),
        P[k].toE = imageThrough (ms.take k) (ray.at (pathLength (ray.position :: P.take (k + 1)))).toE) ∧
      ∀ t, (r.at t).toE = imageThrough ms (ray.at (pathLength (ray.position :: P) + t)).toE := by
  rw [norm_toE, norm_eq_one_iff] at hd
  intro s
  obtain ⟨k, hp, -⟩ := fate_run (fun o ho => by
    obtain ⟨c, n, h⟩ := hw o ho
    exact h.wellFormed) ray hd (md := md) (mi := mi) fuel
  obtain ⟨r, ρ, P, ms, h⟩ := unfolded_passes (Q := fun _ => True) (fun o ho => by
    obtain ⟨c, n, h⟩ := hw o ho
    exact ⟨⟨c, n⟩, trivial, h⟩) hd hty hp
  refine ⟨r, P, ms, h.sane.ray, h.history, h.count, ?_, fun m hm => (h.mirrors m hm).2, h.onPlane, h.points, h.line⟩
  rcases h.length with ⟨-, h, -⟩ | ⟨-, h, -⟩
  · exact .inl h
  · exact .inr h

/-- C80: a run that uses up its distance over plane mirrors ends at the image of the point the free ray would have
reached. -/
theorem C80_end_point {optics : List (Optic ℝ)} (hw : ∀ o ∈ optics, ∃ c n, o.PlaneMirror c n) (ray : Ray ℝ)
    (hd : ‖ray.direction.toE‖ = 1) (hty : ray.type ≠ "faerie_fire") (hb : ray.blocked = false) (md : ℝ) (hmd : 0 ≤ md)
    (fuel : Nat) (hf : md / 1e-12 + 1 ≤ fuel) :
    ∃ (s : RunState XR) (ms : List MirrorPlane), ray.lift.run (.fin md) (optics.map Optic.lift) none fuel = .finished s ∧
      ms.length = s.interactions ∧ (∀ m ∈ ms, ∃ o ∈ optics, o.PlaneMirror m.point m.normal) ∧
      ∃ x : V3 ℝ, s.ray.position = x.lift ∧ x.toE = imageThrough ms (ray.at md).toE := by
  have hwf : ∀ o ∈ optics, o.WellFormed := fun o ho => by
    obtain ⟨c, n, h⟩ := hw o ho
    exact h.wellFormed
  obtain ⟨s, hs⟩ := C71_no_exception hwf (fun o ho => by
    obtain ⟨c, n, h⟩ := hw o ho
    rintro c ⟨⟩
    cases h) ray hd md none fuel (by rwa [max_eq_left hmd])
  rw [norm_toE, norm_eq_one_iff] at hd
  obtain ⟨k, hp, -, he⟩ := fate_run hwf ray hd (md := md) (mi := none) fuel
  rw [hs] at hp he
  obtain ⟨r, ρ, P, ms, h⟩ := unfolded_passes (Q := fun _ => True) (fun o ho => by
    obtain ⟨c, n, h⟩ := hw o ho
    exact ⟨⟨c, n⟩, trivial, h⟩) hd hty hp
  change Unfolded (fun _ => True) optics ray md s r ρ P ms at h
  refine ⟨s, ms, hs, h.count, fun m hm => (h.mirrors m hm).2, r.position, congrArg Ray.position h.sane.ray, ?_⟩
  have hρ : ρ ≤ 0 := by
    simp only [RunState.continues, Bool.and_true, Bool.and_eq_false_iff, decide_eq_false_iff_not, Bool.not_eq_false',
      h.sane.ray] at he
    rcases he with he | he
    · rw [h.sane.remaining, xlit0] at he
      exact not_lt.mp he
    · have : r.blocked = true := he
      rw [h.blocked, hb] at this
      cases this
  have hl : pathLength (ray.position :: P) = md := by
    rcases h.length with ⟨h1, -, h2⟩ | ⟨h1, -⟩
    · linarith [h2 hmd]
    · exact h1
  have := h.line 0
  rw [hl, add_zero] at this
  rw [← this]
  congr 1
  rw [at_eq]; ext <;> simp

end Optics
