import Verif.Spec.Faerie
import Verif.Spec.Geometry
import Verif.Props.Soundness

/-!
# C53: generation of faerie-fire rays
-/

namespace Optics
open V3

/-- The ray made from one usable triple. -/
noncomputable def faerieRay (R : ℝ) (c v : V3 ℝ) : Ray ℝ :=
  let u := v / norm v
  { position := c + R * u, direction := -u, wavelength := 532, order := 0, pointHistory := [c + R * u],
    blocked := false, type := "faerie_fire" }

theorem triples_cons (x y z : ℝ) (rest : List ℝ) : triples (x :: y :: z :: rest) = ⟨x, y, z⟩ :: triples rest := rfl

/-- What one drawing of a vector does to the stream. -/
theorem drawVector_spec : ∀ samples : List ℝ,
    (drawVector samples = none ∧ usableTriples samples = []) ∨
    ∃ v rest, drawVector samples = some (v, rest) ∧ usableTriples samples = v :: usableTriples rest
  | [] => .inl ⟨rfl, rfl⟩
  | [_] => .inl ⟨rfl, rfl⟩
  | [_, _] => .inl ⟨rfl, rfl⟩
  | x :: y :: z :: rest => by
    have e : (0.000001 : ℝ) = 1e-6 := by norm_num
    unfold drawVector usableTriples
    rw [triples_cons]
    by_cases h : norm (⟨x, y, z⟩ : V3 ℝ) < 1e-6
    · rw [List.filter_cons_of_neg (by rw [norm_toE]; simpa using h)]
      simp only [e, if_pos h]
      exact drawVector_spec rest
    · refine .inr ⟨_, rest, ?_, List.filter_cons_of_pos (by rw [norm_toE]; simpa using h)⟩
      simp only [e, if_neg h]

theorem usable_ne_zero {samples : List ℝ} {v : V3 ℝ} (h : v ∈ usableTriples samples) : v ≠ ⟨0, 0, 0⟩ := by
  unfold usableTriples at h
  have := (List.mem_filter.mp h).2
  intro e
  rw [e, norm_toE, decide_eq_true_eq, V3.norm_eq_zero.mpr rfl] at this
  norm_num at this

theorem faerieRay_new (R : ℝ) (c : V3 ℝ) {v : V3 ℝ} (h : v ≠ ⟨0, 0, 0⟩) :
    Ray.new (c + R * (v / norm v)) (-(v / norm v)) 532.0 0.0 "faerie_fire" = faerieRay R c v := by
  have hv : dot (v / norm v) (v / norm v) = 1 := unit_dot h
  unfold Ray.new faerieRay
  rw [unitVector_of_unit (by rw [dot_neg_left, dot_neg_right, neg_neg]; exact hv), lit0]
  norm_num

/-- C53, as an equation: the call reads the random numbers three at a time, passes over triples shorter than
`1e-6`, and appends to the list one ray for each of the first `N` triples that are left; it returns if and only if
there are that many. -/
theorem C53_equation (R : ℝ) (c : V3 ℝ) (N : Nat) (rays : List (Ray ℝ)) (samples : List ℝ) :
    addFaerieFireRays rays R c N samples =
      if N ≤ (usableTriples samples).length
      then some (rays ++ ((usableTriples samples).take N).map (faerieRay R c)) else none := by
  induction N generalizing rays samples with
  | zero => simp [addFaerieFireRays]
  | succ n ih =>
    rcases drawVector_spec samples with ⟨h1, h2⟩ | ⟨v, rest, h1, h2⟩
    · simp [addFaerieFireRays, h1, h2]
    · have h0 : v ≠ ⟨0, 0, 0⟩ := usable_ne_zero (samples := samples) (by rw [h2]; exact List.mem_cons_self)
      unfold addFaerieFireRays
      simp only [h1, Option.bind_eq_bind, Option.bind_some, faerieRay_new R c h0, ih, h2, List.length_cons,
        Nat.add_le_add_iff_right, List.take_succ_cons, List.map_cons, List.append_assoc, List.singleton_append]

/-- C53: whatever the random generator returns, a call that returns has appended exactly `N` rays and left the
others alone; each new ray starts on the sphere of radius `|R|` about `c`, has a direction of length 1, reaches the
centre after the signed distance `R` (so for `R > 0` it points at the centre), and is an unblocked faerie-fire ray
of wavelength 532 and order 0 with only its start in its history. -/
theorem C53_faerie_fire (rays : List (Ray ℝ)) (R : ℝ) (c : V3 ℝ) (N : Nat) (samples : List ℝ) (rays' : List (Ray ℝ))
    (h : addFaerieFireRays rays R c N samples = some rays') :
    ∃ new, rays' = rays ++ new ∧ new.length = N ∧ ∀ r ∈ new, OnSphere c R r.position ∧ ‖r.direction.toE‖ = 1 ∧
      lineAt r.position r.direction R = c ∧ r.pointHistory = [r.position] ∧ r.wavelength = 532 ∧ r.order = 0 ∧
      r.blocked = false ∧ r.type = "faerie_fire" := by
  rw [C53_equation] at h
  split_ifs at h with hN
  refine ⟨_, (Option.some.inj h).symm, by rw [List.length_map, List.length_take, min_eq_left hN], ?_⟩
  intro r hr
  obtain ⟨v, hv, rfl⟩ := List.mem_map.mp hr
  have h0 := usable_ne_zero (List.mem_of_mem_take hv)
  have hu : dot (v / norm v) (v / norm v) = 1 := unit_dot h0
  refine ⟨?_, ?_, ?_, rfl, rfl, rfl, rfl, rfl⟩
  · show dist (V3.toE (c + R * (v / norm v))) c.toE = |R|
    rw [dist_toE_eq]
    rw [show c + R * (v / norm v) - c = R * (v / norm v) from add_sub_cancel' _ _, V3.norm_smul,
      norm_eq_one_iff.mpr hu, mul_one]
  · rw [norm_toE, norm_eq_one_iff]
    show dot (-(v / norm v)) (-(v / norm v)) = 1
    rw [dot_neg_left, dot_neg_right, neg_neg, hu]
  · show c + R * (v / norm v) + R * (-(v / norm v)) = c
    ext <;> simp

/-- C53: the rays of a call are a prefix of the rays of a call with the same random numbers that asks for more. -/
theorem C53_prefix (rays : List (Ray ℝ)) (R : ℝ) (c : V3 ℝ) (N M : Nat) (hNM : N ≤ M) (samples : List ℝ)
    (rays' : List (Ray ℝ)) (h : addFaerieFireRays rays R c M samples = some rays') :
    ∃ rays'', addFaerieFireRays rays R c N samples = some rays'' ∧ rays'' <+: rays' := by
  rw [C53_equation] at h
  split_ifs at h with hM
  refine ⟨_, by rw [C53_equation, if_pos (le_trans hNM hM)], ?_⟩
  rw [← Option.some.inj h]
  refine List.prefix_append_right_inj _ |>.mpr ?_
  exact (List.take_prefix_take_left (by omega)).map _

/-! ## In numpy floats -/

theorem lift_drawVector : ∀ samples : List ℝ,
    drawVector (samples.map XR.fin) = (drawVector samples).map fun p => (p.1.lift, p.2.map XR.fin)
  | [] => rfl
  | [_] => rfl
  | [_, _] => rfl
  | x :: y :: z :: rest => by
    have e : norm (⟨XR.fin x, XR.fin y, XR.fin z⟩ : V3 XR) = .fin (norm (⟨x, y, z⟩ : V3 ℝ)) := lift_norm ⟨x, y, z⟩
    simp only [List.map_cons]
    unfold drawVector
    by_cases h : norm (⟨x, y, z⟩ : V3 ℝ) < 0.000001
    · have h' : norm (⟨XR.fin x, XR.fin y, XR.fin z⟩ : V3 XR) < 0.000001 := by rw [e]; exact h
      simp only [if_pos h, if_pos h']
      exact lift_drawVector rest
    · have h' : ¬ norm (⟨XR.fin x, XR.fin y, XR.fin z⟩ : V3 XR) < 0.000001 := by rw [e]; exact h
      simp only [if_neg h, if_neg h']
      rfl

/-- C53 in numpy floats: from finite random numbers, centre and radius the same finite rays are made, without
`nan` or infinities. -/
theorem C53_finite (rays : List (Ray ℝ)) (R : ℝ) (c : V3 ℝ) (N : Nat) (samples : List ℝ) :
    addFaerieFireRays (rays.map Ray.lift) (.fin R) c.lift N (samples.map XR.fin)
      = (addFaerieFireRays rays R c N samples).map (List.map Ray.lift) := by
  induction N generalizing rays samples with
  | zero => rfl
  | succ n ih =>
    unfold addFaerieFireRays
    rw [lift_drawVector]
    rcases drawVector_spec samples with ⟨h1, h2⟩ | ⟨v, rest, h1, h2⟩
    · simp [h1]
    · have h0 : v ≠ ⟨0, 0, 0⟩ := usable_ne_zero (samples := samples) (by rw [h2]; exact List.mem_cons_self)
      have hu : dot (v / norm v) (v / norm v) = 1 := unit_dot h0
      have hl : v.lift / norm v.lift = (v / norm v).lift := lift_unitVector h0
      have hd : -(v / norm v) ≠ ⟨0, 0, 0⟩ :=
        ne_zero_of_dot_one (by rw [dot_neg_left, dot_neg_right, neg_neg, hu])
      have hr : Ray.new (c.lift + XR.fin R * (v.lift / norm v.lift)) (-(v.lift / norm v.lift)) 532.0 0.0 "faerie_fire"
          = (faerieRay R c v).lift := by
        rw [hl, lift_smul, lift_add, lift_neg, ← faerieRay_new R c h0]
        unfold Ray.new Ray.lift
        simp only [lift_unitVector hd, List.map_cons, List.map_nil]
        rfl
      simp only [h1, Option.map_some, Option.bind_eq_bind, Option.bind_some, hr, faerieRay_new R c h0, ← ih,
        List.map_append, List.map_cons, List.map_nil]

/-- Two rays about `(1, 2, 3)` with radius 5; the first triple is too short and is passed over. -/
example : ∃ r1 r2 : Ray ℝ, addFaerieFireRays [] 5 ⟨1, 2, 3⟩ 2 [0, 0, 0, 0, 0, 2, 3, 4, 0] = some [r1, r2] ∧
    r1.position = ⟨1, 2, 8⟩ ∧ r1.direction = ⟨0, 0, -1⟩ ∧ r2.position = ⟨4, 6, 3⟩ ∧ r2.direction = ⟨-3/5, -4/5, 0⟩ := by
  have n0 : norm (⟨0, 0, 0⟩ : V3 ℝ) = 0 := V3.norm_eq_zero.mpr rfl
  have n1 : norm (⟨0, 0, 2⟩ : V3 ℝ) = 2 := norm_eq_of_sq (by norm_num) (by norm_num [dot])
  have n2 : norm (⟨3, 4, 0⟩ : V3 ℝ) = 5 := norm_eq_of_sq (by norm_num) (by norm_num [dot])
  have hu : usableTriples [0, 0, 0, 0, 0, 2, 3, 4, 0] = [⟨0, 0, 2⟩, ⟨3, 4, 0⟩] := by
    unfold usableTriples
    rw [triples_cons, triples_cons, triples_cons]
    simp only [List.filter_cons, n0, norm_toE, n1, n2]
    norm_num [triples]
  refine ⟨faerieRay 5 ⟨1, 2, 3⟩ ⟨0, 0, 2⟩, faerieRay 5 ⟨1, 2, 3⟩ ⟨3, 4, 0⟩, ?_, ?_, ?_, ?_, ?_⟩
  · rw [C53_equation, hu]; rfl
  all_goals
    simp only [faerieRay, n1, n2]
    ext <;> norm_num

end Optics
