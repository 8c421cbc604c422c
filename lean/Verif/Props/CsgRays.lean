import Verif.Lemmas.CsgRay

/-!
# C25, C26, C27: the first surface of a CSG solid that a ray meets
-/

namespace Optics
open V3

theorem normalAt_inward (p : Prim ℝ) (hp : p.Solid) (x : V3 ℝ) (hx : x ∈ p.surface) :
    p.InwardNormal x (p.normalAt x) := by
  cases p with
  | sphere s =>
    have hR : 0 < s.R := hp
    obtain ⟨h1, h2⟩ := sphere_normal_spec s hR.ne' x hx
    refine ⟨h1, ?_⟩
    rw [abs_of_pos hR] at h2
    show x + s.R * s.normal x = s.center
    rw [← h2]
    ext <;> simp only [add_x, add_y, add_z, sub_x, sub_y, sub_z] <;> ring
  | cylinder c =>
    obtain ⟨hR, ha⟩ := hp
    rw [norm_toE, norm_eq_one_iff] at ha
    obtain ⟨h1, h2, h3⟩ := cylinder_normal_spec c ha hR x hx
    exact ⟨h1, h2, _, h3⟩

/-! ## C25: union -/

/-- What a union of primitives reports to a ray that starts outside all of them. -/
def UnionReport (e : Csg (Prim ℝ)) (ray : Ray ℝ) (r : Hit6 ℝ) : Prop :=
  r.count % 2 = 0 ∧
  ((r.hit = false ∧ ∀ t, 0 ≤ t → ray.at t ∉ e.den Prim.solid) ∨
   (r.hit = true ∧ ∃ t0 t1 p k, e.Mem p ∧ ray.at t0 ∈ p.surface ∧
      helperFindIntersects r ray .nearest
        = .ok ⟨some (ray.at t0), some (p.normalAt (ray.at t0)), some t0, k⟩ ∧
      1e-12 < t0 ∧ t0 < t1 ∧ (∀ t, 0 ≤ t → t < t0 → ray.at t ∉ e.den Prim.solid) ∧
      (∀ t, t0 < t → t < t1 → ray.at t ∈ e.den Prim.solid)))

theorem union_report (e : Csg (Prim ℝ)) (he : e.OnlyUnions) (hs : e.All Prim.Solid) (ray : Ray ℝ)
    (hd : dot ray.direction ray.direction = 1) (hg : e.All (fun p => p.General ray))
    (hout : e.All (fun p => ray.position ∉ p.solid)) :
    ∃ r, testTreeIntersect e.tree ray = .ok (.six r) ∧ UnionReport e ray r ∧
      ((∃ o a b, e = .op o a b) → r.hit = true → r.pt2 = none) := by
  induction e with
  | prim p =>
    obtain ⟨r, h1, h2⟩ := prim_reports p hs ray hd hg
    refine ⟨r, h1, ?_, by rintro ⟨_, _, _, h⟩; cases h⟩
    have h0 : ray.at 0 ∉ p.solid := by
      have : ray.at 0 = ray.position := by ext <;> simp [Ray.at, lineAt]
      rw [this]; exact hout
    cases h2 with
    | miss h => exact ⟨rfl, Or.inl ⟨rfl, h⟩⟩
    | through t0 t1 a b s0 s1 h _ hr =>
      refine ⟨by rcases hr with rfl | rfl <;> simp [Hit6.two], Or.inr ⟨by rcases hr with rfl | rfl <;> rfl, t0, t1, p, 2, rfl, s0,
        (helper_through hd a b hr).1, a, b, ?_, ?_⟩⟩
      · intro t ht ht' hm
        exact absurd ((h t ht).mp hm).1 (by linarith)
      · intro t ht ht'
        exact (h t (by linarith)).mpr ⟨ht, ht'⟩
    | leave t1 a s1 h => exact absurd ((h 0 le_rfl).mpr (by linarith)) h0
  | op o a b iha ihb =>
    obtain ⟨rfl, hua, hub⟩ := he
    obtain ⟨ra, a1, ⟨ac, a2⟩, -⟩ := iha hua hs.1 hg.1 hout.1
    obtain ⟨rb, b1, ⟨bc, b2⟩, -⟩ := ihb hub hs.2 hg.2 hout.2
    have heq := tree_op_eq .union a b ray ra rb a1 b1
    have hc : (ra.count + rb.count) % 2 = 0 := by omega
    rcases a2 with ⟨ah, a2⟩ | ⟨ah, t0, t1, p, k, pm, ps, ha, a3, a4, a5, a6⟩ <;>
    rcases b2 with ⟨bh, b2⟩ | ⟨bh, u0, u1, q, l, qm, qs, hb, b3, b4, b5, b6⟩
    · refine ⟨_, heq.trans (by simp only [operCsgUnion, ah, bh]; rfl), ⟨hc, Or.inl ⟨rfl, ?_⟩⟩, by
        intro _ h; cases h⟩
      intro t ht
      exact fun h => h.elim (a2 t ht) (b2 t ht)
    · refine ⟨_, heq.trans (by simp only [operCsgUnion, ah, bh, hb]; rfl), ⟨hc, Or.inr ⟨rfl, u0, u1, q, 1, Or.inr qm, qs,
        helper_one hd b3 _ rfl rfl _, b3, b4, ?_, ?_⟩⟩, fun _ _ => rfl⟩
      · exact fun t ht ht' h => h.elim (a2 t ht) (b5 t ht ht')
      · exact fun t ht ht' => Or.inr (b6 t ht ht')
    · refine ⟨_, heq.trans (by simp only [operCsgUnion, ah, bh, ha]; rfl), ⟨hc, Or.inr ⟨rfl, t0, t1, p, 1, Or.inl pm, ps,
        helper_one hd a3 _ rfl rfl _, a3, a4, ?_, ?_⟩⟩, fun _ _ => rfl⟩
      · exact fun t ht ht' h => h.elim (a5 t ht ht') (b2 t ht)
      · exact fun t ht ht' => Or.inl (a6 t ht ht')
    · by_cases hlt : t0 < u0
      · refine ⟨_, heq.trans (by
          simp only [operCsgUnion, ah, bh, ha, hb, bind, Except.bind, pyLt, hlt, Bool.and_self, if_true, decide_true]
          rfl), ⟨hc, Or.inr ⟨rfl, t0, t1, p, 1, Or.inl pm, ps,
          helper_one hd a3 _ rfl rfl _, a3, a4, ?_, ?_⟩⟩, fun _ _ => rfl⟩
        · exact fun t ht ht' h => h.elim (a5 t ht ht') (b5 t ht (by linarith))
        · exact fun t ht ht' => Or.inl (a6 t ht ht')
      · refine ⟨_, heq.trans (by
          simp only [operCsgUnion, ah, bh, ha, hb, bind, Except.bind, pyLt, hlt, Bool.and_self, if_true, decide_false,
            Bool.false_eq_true, if_false]
          rfl), ⟨hc, Or.inr ⟨rfl, u0, u1, q, 1, Or.inr qm, qs,
          helper_one hd b3 _ rfl rfl _, b3, b4, ?_, ?_⟩⟩, fun _ _ => rfl⟩
        · exact fun t ht ht' h => h.elim (a5 t ht (by linarith)) (b5 t ht ht')
        · exact fun t ht ht' => Or.inr (b6 t ht ht')


theorem at_zero (ray : Ray ℝ) : ray.at 0 = ray.position := by ext <;> simp [Ray.at, lineAt]

theorem csg_all_mem {ι : Type} {P : ι → Prop} {p : ι} : ∀ {e : Csg ι}, e.All P → e.Mem p → P p
  | .prim _, h, rfl => h
  | .op _ _ _, h, .inl hm => csg_all_mem h.1 hm
  | .op _ _ _, h, .inr hm => csg_all_mem h.2 hm

/-- C25: a union tree of any depth, for a ray in general position that starts outside all primitives: it
is hit iff the ray gets into the union, at the first point where it enters it, which is on the surface of
one of the primitives, with that primitive's inward normal; the count is even. -/
theorem C25_union (o : CsgOp) (a b : Csg (Prim ℝ)) (he : (Csg.op o a b).OnlyUnions)
    (hs : (Csg.op o a b).All Prim.Solid) (ray : Ray ℝ) (hd : ‖ray.direction.toE‖ = 1)
    (hg : (Csg.op o a b).All (fun p => p.General ray))
    (hout : ray.position ∉ (Csg.op o a b).den Prim.solid) :
    ∃ r, testTreeIntersect (Csg.op o a b).tree ray = .ok (.six r) ∧
      (r.hit = true ↔ ∃ t, 0 ≤ t ∧ ray.at t ∈ (Csg.op o a b).den Prim.solid) ∧
      Describes ray ((Csg.op o a b).den Prim.solid) r ∧ OnPrimitive (Csg.op o a b) r ∧ r.count % 2 = 0 := by
  rw [norm_toE, norm_eq_one_iff] at hd
  have hout' : ∀ e : Csg (Prim ℝ), e.OnlyUnions → ray.position ∉ e.den Prim.solid →
      e.All (fun p => ray.position ∉ p.solid) := by
    intro e
    induction e with
    | prim p => exact fun _ h => h
    | op o a b iha ihb =>
      rintro ⟨rfl, ha, hb⟩ h
      exact ⟨iha ha (fun h' => h (Or.inl h')), ihb hb (fun h' => h (Or.inr h'))⟩
  obtain ⟨r, h1, ⟨h2, h3⟩, h4⟩ := union_report _ he hs ray hd hg (hout' _ he hout)
  generalize hE : Csg.op o a b = e at *
  refine ⟨r, h1, ?_⟩
  rcases h3 with ⟨hh, h3⟩ | ⟨hh, t0, t1, p, k, pm, ps, hf, a3, a4, a5, a6⟩
  · refine ⟨?_, Or.inl ⟨hh, fun s hs => ?_⟩, ?_, h2⟩
    · rw [hh]; constructor
      · intro h; cases h
      · rintro ⟨t, ht, hm⟩; exact absurd hm (h3 t ht)
    · exact iff_of_false (h3 s hs.le) (h3 0 le_rfl)
    · intro h; rw [hh] at h; cases h
  · have hp2 := h4 ⟨o, a, b, hE.symm⟩ hh
    have hp : r.pt1 = some (ray.at t0) ∧ r.n1 = some (p.normalAt (ray.at t0)) := by
      rcases r with ⟨h, p1, p2, n1, n2, c⟩
      simp only at hp2
      subst hp2
      cases p1 with
      | none => simp [helperFindIntersects] at hf
      | some p1 => simp [helperFindIntersects] at hf; exact ⟨by rw [hf.1], hf.2.1⟩
    have ht0 : 0 < t0 := by linarith
    refine ⟨?_, Or.inr ⟨hh, t0, hp.1, firstCrossing_entry ht0 a4 a5 a6⟩, ?_, h2⟩
    · rw [hh]
      exact iff_of_true rfl ⟨(t0 + t1) / 2, by linarith, a6 _ (by linarith) (by linarith)⟩
    · intro _
      exact ⟨_, _, p, hp.1, hp.2, pm, ps, normalAt_inward p (csg_all_mem hs pm) _ ps⟩

/-! ## Two primitives, any start -/

/-- The time intervals in which a ray is inside a primitive, and what the primitive reports. -/
inductive Crosses (p : Prim ℝ) (ray : Ray ℝ) : Hit6 ℝ → Prop where
  | never (h : ∀ t, 0 ≤ t → ray.at t ∉ p.solid) : Crosses p ray (Hit6.miss 0)
  | through (t0 t1 : ℝ) (h0 : 1e-12 < t0) (h1 : t0 < t1)
      (s0 : ray.at t0 ∈ p.surface) (s1 : ray.at t1 ∈ p.surface)
      (h : ∀ t, 0 ≤ t → (ray.at t ∈ p.solid ↔ t0 < t ∧ t < t1)) (r : Hit6 ℝ) (hit : r.hit = true)
      (near : helperFindIntersects r ray .nearest
        = .ok ⟨some (ray.at t0), some (p.normalAt (ray.at t0)), some t0, 2⟩)
      (far : helperFindIntersects r ray .farthest
        = .ok ⟨some (ray.at t1), some (p.normalAt (ray.at t1)), some t1, 2⟩) : Crosses p ray r
  | leave (t1 : ℝ) (h1 : 1e-12 < t1) (s1 : ray.at t1 ∈ p.surface)
      (h : ∀ t, 0 ≤ t → (ray.at t ∈ p.solid ↔ t < t1)) (r : Hit6 ℝ) (hit : r.hit = true)
      (both : ∀ m, helperFindIntersects r ray m
        = .ok ⟨some (ray.at t1), some (p.normalAt (ray.at t1)), some t1, 1⟩) : Crosses p ray r

theorem prim_passes (p : Prim ℝ) (hp : p.Solid) (ray : Ray ℝ) (hd : dot ray.direction ray.direction = 1)
    (hg : p.General ray) :
    ∃ r, testTreeIntersect (Csg.prim p).tree ray = .ok (.six r) ∧ Crosses p ray r := by
  obtain ⟨r, h1, h2⟩ := prim_reports p hp ray hd hg
  refine ⟨r, h1, ?_⟩
  cases h2 with
  | miss h => exact .never h
  | through t0 t1 a b s0 s1 h _ hr =>
    exact .through t0 t1 a b s0 s1 h _ (by rcases hr with rfl | rfl <;> rfl) (helper_through hd a b hr).1
      (helper_through hd a b hr).2
  | leave t1 a s1 h => exact .leave t1 a s1 h _ rfl (fun m => helper_one hd a _ rfl rfl m)

theorem describes_at {ray : Ray ℝ} (hd : dot ray.direction ray.direction = 1) {S : Set (V3 ℝ)} {t u : ℝ}
    {n : Option (V3 ℝ)} {k : ℕ} (hu : FirstCrossing ray S u) (ht : 0 < t) :
    Describes ray S ⟨true, some (ray.at t), none, n, none, k⟩ ↔ t = u := by
  constructor
  · rintro (⟨h, _⟩ | ⟨_, s, hs, hf⟩)
    · cases h
    · have h0 := hf.1
      have e : ray.at t = ray.at s := Option.some.inj hs
      have := congrArg (distanceBetween ray.position) e
      rw [distance_at ray hd, distance_at ray hd, abs_of_pos ht, abs_of_pos h0] at this
      rw [this]; exact firstCrossing_unique hf hu
  · rintro rfl
    exact Or.inr ⟨rfl, t, rfl, hu⟩

theorem describes_miss {ray : Ray ℝ} {S : Set (V3 ℝ)} {k : ℕ} :
    Describes ray S (Hit6.miss k) ↔ NeverCrosses ray S := by
  constructor
  · rintro (⟨_, h⟩ | ⟨h, _⟩)
    · exact h
    · cases h
  · exact fun h => Or.inl ⟨rfl, h⟩

theorem not_never_of_first {ray : Ray ℝ} {S : Set (V3 ℝ)} {u : ℝ} (hu : FirstCrossing ray S u) :
    ¬ NeverCrosses ray S := by
  intro h
  obtain ⟨s, h1, h2, h3⟩ := hu.2.2 1 one_pos
  exact h3 (h s (by linarith [hu.1]))

theorem not_describes_of_never {ray : Ray ℝ} {S : Set (V3 ℝ)} (h : NeverCrosses ray S) {r : Hit6 ℝ}
    (hr : r.hit = true) : ¬ Describes ray S r := by
  rintro (⟨h', _⟩ | ⟨_, t, _, hf⟩)
  · rw [hr] at h'; cases h'
  · exact not_never_of_first hf h

/-- C26 for two primitives: the ray may start anywhere.  The result is the first boundary point of the
common part along the ray, on the surface of one of the primitives with its inward normal, and a miss iff
the ray never crosses the boundary of the common part.  What is missing: it fails when the ray meets both
surfaces at the same point (`C26_counterexample`), and for nested intersections
(`C26_nested_counterexample`). -/
theorem C26_intersect_partial (A B : Prim ℝ) (hA : A.Solid) (hB : B.Solid) (ray : Ray ℝ)
    (hd : ‖ray.direction.toE‖ = 1) (gA : A.General ray) (gB : B.General ray) (htie : NoTie ray A B) :
    ∃ r, testTreeIntersect (Csg.op .intersect (.prim A) (.prim B)).tree ray = .ok (.six r) ∧
      Describes ray (A.solid ∩ B.solid) r ∧ OnPrimitive (Csg.op .intersect (.prim A) (.prim B)) r := by
  rw [norm_toE, norm_eq_one_iff] at hd
  obtain ⟨ra, ea, pa⟩ := prim_passes A hA ray hd gA
  obtain ⟨rb, eb, pb⟩ := prim_passes B hB ray hd gB
  have heq := tree_op_eq .intersect _ _ ray ra rb ea eb
  simp only at heq
  have never : (∀ t, 0 ≤ t → ray.at t ∉ A.solid ∩ B.solid) → NeverCrosses ray (A.solid ∩ B.solid) :=
    fun h s hs => iff_of_false (h s hs.le) (h 0 le_rfl)
  have miss : ∀ k, (∀ t, 0 ≤ t → ray.at t ∉ A.solid ∩ B.solid) →
      operCsgIntersect ra rb ray = .ok (Hit6.miss k) →
      ∃ r, testTreeIntersect (Csg.op .intersect (.prim A) (.prim B)).tree ray = .ok (.six r) ∧
      Describes ray (A.solid ∩ B.solid) r ∧ OnPrimitive (Csg.op .intersect (.prim A) (.prim B)) r := by
    intro k h e
    refine ⟨_, heq.trans (by rw [e]; rfl), describes_miss.mpr (never h), fun h => by cases h⟩
  have hitA : ∀ t k, ray.at t ∈ A.surface → FirstCrossing ray (A.solid ∩ B.solid) t →
      operCsgIntersect ra rb ray = .ok ⟨true, some (ray.at t), none, some (A.normalAt (ray.at t)), none, k⟩ →
      ∃ r, testTreeIntersect (Csg.op .intersect (.prim A) (.prim B)).tree ray = .ok (.six r) ∧
      Describes ray (A.solid ∩ B.solid) r ∧ OnPrimitive (Csg.op .intersect (.prim A) (.prim B)) r := by
    intro t k hs h e
    exact ⟨_, heq.trans (by rw [e]; rfl), (describes_at hd h h.1).mpr rfl,
      fun _ => ⟨_, _, A, rfl, rfl, Or.inl rfl, hs, normalAt_inward A hA _ hs⟩⟩
  have hitB : ∀ t k, ray.at t ∈ B.surface → FirstCrossing ray (A.solid ∩ B.solid) t →
      operCsgIntersect ra rb ray = .ok ⟨true, some (ray.at t), none, some (B.normalAt (ray.at t)), none, k⟩ →
      ∃ r, testTreeIntersect (Csg.op .intersect (.prim A) (.prim B)).tree ray = .ok (.six r) ∧
      Describes ray (A.solid ∩ B.solid) r ∧ OnPrimitive (Csg.op .intersect (.prim A) (.prim B)) r := by
    intro t k hs h e
    exact ⟨_, heq.trans (by rw [e]; rfl), (describes_at hd h h.1).mpr rfl,
      fun _ => ⟨_, _, B, rfl, rfl, Or.inr rfl, hs, normalAt_inward B hB _ hs⟩⟩
  have ne : ∀ s t, 0 ≤ s → ray.at s ∈ A.surface → ray.at t ∈ B.surface → s ≠ t := by
    rintro s _ hs h1 h2 rfl; exact htie s hs h1 h2
  cases pa with
  | never h =>
    refine miss rb.count (fun t ht hm => h t ht hm.1) ?_
    cases hh : rb.hit <;> simp [operCsgIntersect, Hit6.miss, hh]
  | through a0 a1 ha0 ha01 sa0 sa1 hain _ hita near far =>
    cases pb with
    | never h =>
      refine miss ra.count (fun t ht hm => h t ht hm.2) ?_
      simp [operCsgIntersect, Hit6.miss, hita]
    | through b0 b1 hb0 hb01 sb0 sb1 hbin _ hitb nearb farb =>
      by_cases c1 : a0 < b0 ∧ b0 < a1
      · refine hitB b0 (ra.count + rb.count) sb0 (firstCrossing_entry (t1 := min a1 b1) (by linarith)
          (lt_min c1.2 hb01) ?_ ?_) ?_
        · intro t ht ht' hm
          exact absurd ((hbin t ht).mp hm.2).1 (by linarith)
        · intro t ht ht'
          have := lt_min_iff.mp ht'
          exact ⟨(hain t (by linarith)).mpr ⟨by linarith, this.1⟩, (hbin t (by linarith)).mpr ⟨ht, this.2⟩⟩
        · simp [operCsgIntersect, hita, hitb, near, far, nearb, farb, bind, Except.bind, pyLt, c1.1, c1.2, pure,
            Except.pure]
      by_cases c2 : b0 < a0 ∧ a0 < b1
      · refine hitA a0 (ra.count + rb.count) sa0 (firstCrossing_entry (t1 := min a1 b1) (by linarith)
          (lt_min ha01 c2.2) ?_ ?_) ?_
        · intro t ht ht' hm
          exact absurd ((hain t ht).mp hm.1).1 (by linarith)
        · intro t ht ht'
          have := lt_min_iff.mp ht'
          exact ⟨(hain t (by linarith)).mpr ⟨by linarith, this.1⟩, (hbin t (by linarith)).mpr ⟨by linarith, this.2⟩⟩
        · simp [operCsgIntersect, hita, hitb, near, far, nearb, farb, bind, Except.bind, pyLt, c2.1, c2.2,
            not_lt.mpr c2.1.le, pure, Except.pure]
      · refine miss (ra.count + rb.count) ?_ ?_
        · intro t ht hm
          have h1 := (hain t ht).mp hm.1
          have h2 := (hbin t ht).mp hm.2
          rcases lt_or_gt_of_ne (ne a0 b0 (by linarith) sa0 sb0) with h | h
          · exact c1 ⟨h, by linarith⟩
          · exact c2 ⟨h, by linarith⟩
        · have e1 : (decide (a0 < b0) && decide (b0 < a1)) = false := by simpa using c1
          have e2 : (decide (b0 < a0) && decide (a0 < b1)) = false := by simpa using c2
          simp [operCsgIntersect, hita, hitb, near, far, nearb, farb, bind, Except.bind, pyLt, e1, e2, pure,
            Except.pure]
    | leave b1 hb1 sb1 hbin _ hitb bothb =>
      by_cases c : b1 < a0
      · refine miss (ra.count + rb.count) ?_ ?_
        · intro t ht hm
          have h1 := (hain t ht).mp hm.1
          have h2 := (hbin t ht).mp hm.2
          linarith
        · simp [operCsgIntersect, hita, hitb, near, far, bothb, bind, Except.bind, pyLt, c, c.trans ha01, pure,
            Except.pure]
      · have c' : a0 < b1 := lt_of_le_of_ne (not_lt.mp c) (ne a0 b1 (by linarith) sa0 sb1)
        refine hitA a0 (ra.count + rb.count) sa0 (firstCrossing_entry (t1 := min a1 b1) (by linarith)
          (lt_min ha01 c') ?_ ?_) ?_
        · intro t ht ht' hm
          exact absurd ((hain t ht).mp hm.1).1 (by linarith)
        · intro t ht ht'
          have := lt_min_iff.mp ht'
          exact ⟨(hain t (by linarith)).mpr ⟨by linarith, this.1⟩, (hbin t (by linarith)).mpr this.2⟩
        · simp [operCsgIntersect, hita, hitb, near, far, bothb, bind, Except.bind, pyLt, c, pure,
            Except.pure]
  | leave a1 ha1 sa1 hain _ hita botha =>
    cases pb with
    | never h =>
      refine miss ra.count (fun t ht hm => h t ht hm.2) ?_
      simp [operCsgIntersect, Hit6.miss, hita]
    | through b0 b1 hb0 hb01 sb0 sb1 hbin _ hitb nearb farb =>
      by_cases c : a1 < b0
      · refine miss (ra.count + rb.count) ?_ ?_
        · intro t ht hm
          have h1 := (hain t ht).mp hm.1
          have h2 := (hbin t ht).mp hm.2
          linarith
        · simp [operCsgIntersect, hita, hitb, nearb, farb, botha, bind, Except.bind, pyLt, c, c.trans hb01, pure,
            Except.pure]
      · have c' : b0 < a1 := lt_of_le_of_ne (not_lt.mp c) (ne a1 b0 (by linarith) sa1 sb0).symm
        refine hitB b0 (ra.count + rb.count) sb0 (firstCrossing_entry (t1 := min a1 b1) (by linarith)
          (lt_min c' hb01) ?_ ?_) ?_
        · intro t ht ht' hm
          exact absurd ((hbin t ht).mp hm.2).1 (by linarith)
        · intro t ht ht'
          have := lt_min_iff.mp ht'
          exact ⟨(hain t (by linarith)).mpr this.1, (hbin t (by linarith)).mpr ⟨by linarith, this.2⟩⟩
        · simp [operCsgIntersect, hita, hitb, nearb, farb, botha, bind, Except.bind, pyLt, c, pure,
            Except.pure]
    | leave b1 hb1 sb1 hbin _ hitb bothb =>
      by_cases c : a1 < b1
      · refine hitA a1 (ra.count + rb.count + 1) sa1 (firstCrossing_exit (t1 := a1 + 1) (by linarith)
          (by linarith) ?_ ?_) ?_
        · intro t ht ht'
          exact ⟨(hain t ht).mpr ht', (hbin t ht).mpr (by linarith)⟩
        · intro t ht _ hm
          exact absurd ((hain t (by linarith)).mp hm.1) (by linarith)
        · simp [operCsgIntersect, hita, hitb, botha, bothb, bind, Except.bind, pyLt, c, pure, Except.pure]
      · refine hitB b1 (ra.count + rb.count + 1) sb1 (firstCrossing_exit (t1 := b1 + 1) (by linarith)
          (by linarith) ?_ ?_) ?_
        · intro t ht ht'
          exact ⟨(hain t ht).mpr (by linarith), (hbin t ht).mpr ht'⟩
        · intro t ht _ hm
          exact absurd ((hbin t (by linarith)).mp hm.2) (by linarith)
        · simp [operCsgIntersect, hita, hitb, botha, bothb, bind, Except.bind, pyLt, c, pure, Except.pure]

/-! ## When union and difference of two primitives are right -/

/-- The starts for which a union of two primitives is reported correctly: outside both, or inside exactly
one with the ray never in both at once. -/
def UnionGood (ray : Ray ℝ) (A B : Set (V3 ℝ)) : Prop :=
  (ray.position ∉ A ∧ ray.position ∉ B) ∨
  (¬ (ray.position ∈ A ↔ ray.position ∈ B) ∧ ∀ t, 0 ≤ t → ray.at t ∉ A ∩ B)

theorem never_of_out {ray : Ray ℝ} {S : Set (V3 ℝ)} (h : ∀ t, 0 ≤ t → ray.at t ∉ S) : NeverCrosses ray S :=
  fun s hs => iff_of_false (h s hs.le) (h 0 le_rfl)

theorem correct_ok {ray : Ray ℝ} {S : Set (V3 ℝ)} {r : Hit6 ℝ} :
    Correct ray S (.ok (.six r)) ↔ Describes ray S r := by
  constructor
  · rintro ⟨r', h, hd⟩; cases h; exact hd
  · exact fun h => ⟨r, rfl, h⟩

/-- C25 for two primitives and a ray starting anywhere in general position: the union node is right
exactly for the starts of `UnionGood`. -/
theorem C25_union_correct_iff (A B : Prim ℝ) (hA : A.Solid) (hB : B.Solid) (ray : Ray ℝ)
    (hd : ‖ray.direction.toE‖ = 1) (gA : A.General ray) (gB : B.General ray) (htie : NoTie ray A B) :
    Correct ray (A.solid ∪ B.solid) (testTreeIntersect (Csg.op .union (.prim A) (.prim B)).tree ray) ↔
      UnionGood ray A.solid B.solid := by
  rw [norm_toE, norm_eq_one_iff] at hd
  obtain ⟨ra, ea, pa⟩ := prim_passes A hA ray hd gA
  obtain ⟨rb, eb, pb⟩ := prim_passes B hB ray hd gB
  rw [tree_op_eq .union _ _ ray ra rb ea eb]
  simp only
  have ne : ∀ s t, 0 ≤ s → ray.at s ∈ A.surface → ray.at t ∈ B.surface → s ≠ t := by
    rintro s _ hs h1 h2 rfl; exact htie s hs h1 h2
  have fin : ∀ t u n k, 0 < t → FirstCrossing ray (A.solid ∪ B.solid) u →
      operCsgUnion ra rb ray = .ok ⟨true, some (ray.at t), none, n, none, k⟩ →
      (Correct ray (A.solid ∪ B.solid) ((operCsgUnion ra rb ray).map IntersectResult.six) ↔ t = u) := by
    intro t u n k ht hu e
    rw [e]; exact correct_ok.trans (describes_at hd hu ht)
  unfold UnionGood
  rw [← at_zero ray]
  cases pa with
  | never h =>
    have h0 : ray.at 0 ∉ A.solid := h 0 le_rfl
    cases pb with
    | never h' =>
      have h0' : ray.at 0 ∉ B.solid := h' 0 le_rfl
      refine iff_of_true ?_ (Or.inl ⟨h0, h0'⟩)
      simp only [operCsgUnion, Hit6.miss, Bool.and_self, Bool.false_eq_true, if_false]
      exact correct_ok.mpr (describes_miss.mpr (never_of_out fun t ht hm => hm.elim (h t ht) (h' t ht)))
    | through b0 b1 hb0 hb01 sb0 sb1 hbin _ hitb nearb farb =>
      refine iff_of_true ((fin b0 b0 (some (B.normalAt (ray.at b0))) (rb.count) (by linarith) (firstCrossing_entry (t1 := b1) (by linarith)
        hb01 ?_ ?_) ?_).mpr rfl) (Or.inl ⟨h0, ?_⟩)
      · intro t ht ht' hm
        exact hm.elim (h t ht) (fun hm => absurd ((hbin t ht).mp hm).1 (by linarith))
      · intro t ht ht'
        exact Or.inr ((hbin t (by linarith)).mpr ⟨ht, ht'⟩)
      · simp [operCsgUnion, hitb, nearb, bind, Except.bind, Hit6.miss, pure, Except.pure]
      · intro hm; exact absurd ((hbin 0 le_rfl).mp hm).1 (by linarith)
    | leave b1 hb1 sb1 hbin _ hitb bothb =>
      have h0' : ray.at 0 ∈ B.solid := (hbin 0 le_rfl).mpr (by linarith)
      refine iff_of_true ((fin b1 b1 (some (B.normalAt (ray.at b1))) (rb.count) (by linarith) (firstCrossing_exit (t1 := b1 + 1) (by linarith)
        (by linarith) ?_ ?_) ?_).mpr rfl) (Or.inr ⟨?_, fun t ht hm => h t ht hm.1⟩)
      · intro t ht ht'; exact Or.inr ((hbin t ht).mpr ht')
      · intro t ht _ hm
        exact hm.elim (h t (by linarith)) (fun hm => absurd ((hbin t (by linarith)).mp hm) (by linarith))
      · simp [operCsgUnion, hitb, bothb, bind, Except.bind, Hit6.miss, pure, Except.pure]
      · simp [h0, h0']
  | through a0 a1 ha0 ha01 sa0 sa1 hain _ hita near far =>
    have h0 : ray.at 0 ∉ A.solid := fun hm => absurd ((hain 0 le_rfl).mp hm).1 (by linarith)
    cases pb with
    | never h' =>
      have h0' : ray.at 0 ∉ B.solid := h' 0 le_rfl
      refine iff_of_true ((fin a0 a0 (some (A.normalAt (ray.at a0))) (ra.count) (by linarith) (firstCrossing_entry (t1 := a1) (by linarith)
        ha01 ?_ ?_) ?_).mpr rfl) (Or.inl ⟨h0, h0'⟩)
      · intro t ht ht' hm
        exact hm.elim (fun hm => absurd ((hain t ht).mp hm).1 (by linarith)) (h' t ht)
      · intro t ht ht'
        exact Or.inl ((hain t (by linarith)).mpr ⟨ht, ht'⟩)
      · simp [operCsgUnion, hita, near, bind, Except.bind, Hit6.miss, pure, Except.pure]
    | through b0 b1 hb0 hb01 sb0 sb1 hbin _ hitb nearb farb =>
      have h0' : ray.at 0 ∉ B.solid := fun hm => absurd ((hbin 0 le_rfl).mp hm).1 (by linarith)
      refine iff_of_true ?_ (Or.inl ⟨h0, h0'⟩)
      by_cases c : a0 < b0
      · refine (fin a0 a0 (some (A.normalAt (ray.at a0))) (ra.count + rb.count) (by linarith) (firstCrossing_entry (t1 := a1) (by linarith)
          ha01 ?_ ?_) ?_).mpr rfl
        · intro t ht ht' hm
          exact hm.elim (fun hm => absurd ((hain t ht).mp hm).1 (by linarith))
            (fun hm => absurd ((hbin t ht).mp hm).1 (by linarith))
        · intro t ht ht'
          exact Or.inl ((hain t (by linarith)).mpr ⟨ht, ht'⟩)
        · simp [operCsgUnion, hita, hitb, near, nearb, bind, Except.bind, pyLt, c, pure, Except.pure]
      · refine (fin b0 b0 (some (B.normalAt (ray.at b0))) (ra.count + rb.count) (by linarith) (firstCrossing_entry (t1 := b1) (by linarith)
          hb01 ?_ ?_) ?_).mpr rfl
        · intro t ht ht' hm
          exact hm.elim (fun hm => absurd ((hain t ht).mp hm).1 (by linarith))
            (fun hm => absurd ((hbin t ht).mp hm).1 (by linarith))
        · intro t ht ht'
          exact Or.inr ((hbin t (by linarith)).mpr ⟨ht, ht'⟩)
        · simp [operCsgUnion, hita, hitb, near, nearb, bind, Except.bind, pyLt, c, pure, Except.pure]
    | leave b1 hb1 sb1 hbin _ hitb bothb =>
      have h0' : ray.at 0 ∈ B.solid := (hbin 0 le_rfl).mpr (by linarith)
      by_cases c : a0 < b1
      · -- an interior point is reported
        refine iff_of_false ?_ ?_
        · rintro ⟨r, hr, hdesc⟩
          have e : operCsgUnion ra rb ray
              = .ok ⟨true, some (ray.at a0), none, some (A.normalAt (ray.at a0)), none, ra.count + rb.count⟩ := by
            simp [operCsgUnion, hita, hitb, near, bothb, bind, Except.bind, pyLt, c, pure, Except.pure]
          rw [e] at hr
          cases hr
          rcases hdesc with ⟨h, _⟩ | ⟨_, t, ht, hf⟩
          · cases h
          · have e' := congrArg (distanceBetween ray.position) (Option.some.inj ht)
            rw [distance_at ray hd, distance_at ray hd, abs_of_pos hf.1, abs_of_pos (by linarith)] at e'
            subst e'
            obtain ⟨s, s1, s2, s3⟩ := hf.2.2 (b1 - a0) (by linarith)
            exact s3 (iff_of_true (Or.inr ((hbin s (by linarith)).mpr (by linarith))) (Or.inr h0'))
        · rintro (⟨_, h⟩ | ⟨_, h⟩)
          · exact h h0'
          · refine h ((a0 + min a1 b1) / 2) ?_ ⟨(hain _ ?_).mpr ⟨?_, ?_⟩, (hbin _ ?_).mpr ?_⟩ <;>
            linarith [min_le_left a1 b1, min_le_right a1 b1, lt_min ha01 c]
      · have c' : b1 < a0 := lt_of_le_of_ne (not_lt.mp c) (ne a0 b1 (by linarith) sa0 sb1).symm
        refine iff_of_true ((fin b1 b1 (some (B.normalAt (ray.at b1))) (ra.count + rb.count) (by linarith) (firstCrossing_exit (t1 := a0) (by linarith)
          c' ?_ ?_) ?_).mpr rfl) (Or.inr ⟨by simp [h0, h0'], ?_⟩)
        · intro t ht ht'; exact Or.inr ((hbin t ht).mpr ht')
        · intro t ht ht' hm
          exact hm.elim (fun hm => absurd ((hain t (by linarith)).mp hm).1 (by linarith))
            (fun hm => absurd ((hbin t (by linarith)).mp hm) (by linarith))
        · simp [operCsgUnion, hita, hitb, near, bothb, bind, Except.bind, pyLt, c, pure, Except.pure]
        · intro t ht hm
          have := (hain t ht).mp hm.1
          have := (hbin t ht).mp hm.2
          linarith
  | leave a1 ha1 sa1 hain _ hita botha =>
    have h0 : ray.at 0 ∈ A.solid := (hain 0 le_rfl).mpr (by linarith)
    cases pb with
    | never h' =>
      have h0' : ray.at 0 ∉ B.solid := h' 0 le_rfl
      refine iff_of_true ((fin a1 a1 (some (A.normalAt (ray.at a1))) (ra.count) (by linarith) (firstCrossing_exit (t1 := a1 + 1) (by linarith)
        (by linarith) ?_ ?_) ?_).mpr rfl) (Or.inr ⟨?_, fun t ht hm => h' t ht hm.2⟩)
      · intro t ht ht'; exact Or.inl ((hain t ht).mpr ht')
      · intro t ht _ hm
        exact hm.elim (fun hm => absurd ((hain t (by linarith)).mp hm) (by linarith)) (h' t (by linarith))
      · simp [operCsgUnion, hita, botha, bind, Except.bind, Hit6.miss, pure, Except.pure]
      · simp [h0, h0']
    | through b0 b1 hb0 hb01 sb0 sb1 hbin _ hitb nearb farb =>
      have h0' : ray.at 0 ∉ B.solid := fun hm => absurd ((hbin 0 le_rfl).mp hm).1 (by linarith)
      by_cases c : a1 < b0
      · refine iff_of_true ((fin a1 a1 (some (A.normalAt (ray.at a1))) (ra.count + rb.count) (by linarith) (firstCrossing_exit (t1 := b0) (by linarith)
          c ?_ ?_) ?_).mpr rfl) (Or.inr ⟨by simp [h0, h0'], ?_⟩)
        · intro t ht ht'; exact Or.inl ((hain t ht).mpr ht')
        · intro t ht ht' hm
          exact hm.elim (fun hm => absurd ((hain t (by linarith)).mp hm) (by linarith))
            (fun hm => absurd ((hbin t (by linarith)).mp hm).1 (by linarith))
        · simp [operCsgUnion, hita, hitb, nearb, botha, bind, Except.bind, pyLt, c, pure, Except.pure]
        · intro t ht hm
          have := (hain t ht).mp hm.1
          have := (hbin t ht).mp hm.2
          linarith
      · have c' : b0 < a1 := lt_of_le_of_ne (not_lt.mp c) (ne a1 b0 (by linarith) sa1 sb0).symm
        refine iff_of_false ?_ ?_
        · rintro ⟨r, hr, hdesc⟩
          have e : operCsgUnion ra rb ray
              = .ok ⟨true, some (ray.at b0), none, some (B.normalAt (ray.at b0)), none, ra.count + rb.count⟩ := by
            simp [operCsgUnion, hita, hitb, nearb, botha, bind, Except.bind, pyLt, c, pure, Except.pure]
          rw [e] at hr
          cases hr
          rcases hdesc with ⟨h, _⟩ | ⟨_, t, ht, hf⟩
          · cases h
          · have e' := congrArg (distanceBetween ray.position) (Option.some.inj ht)
            rw [distance_at ray hd, distance_at ray hd, abs_of_pos hf.1, abs_of_pos (by linarith)] at e'
            subst e'
            obtain ⟨s, s1, s2, s3⟩ := hf.2.2 (a1 - b0) (by linarith)
            exact s3 (iff_of_true (Or.inl ((hain s (by linarith)).mpr (by linarith))) (Or.inl h0))
        · rintro (⟨h, _⟩ | ⟨_, h⟩)
          · exact h h0
          · refine h ((b0 + min a1 b1) / 2) ?_ ⟨(hain _ ?_).mpr ?_, (hbin _ ?_).mpr ⟨?_, ?_⟩⟩ <;>
            linarith [min_le_left a1 b1, min_le_right a1 b1, lt_min c' hb01]
    | leave b1 hb1 sb1 hbin _ hitb bothb =>
      have h0' : ray.at 0 ∈ B.solid := (hbin 0 le_rfl).mpr (by linarith)
      have hne := ne a1 b1 (by linarith) sa1 sb1
      have hu : FirstCrossing ray (A.solid ∪ B.solid) (max a1 b1) := by
        refine firstCrossing_exit (t1 := max a1 b1 + 1) (by linarith [le_max_left a1 b1]) (by linarith) ?_ ?_
        · intro t ht ht'
          rcases lt_max_iff.mp ht' with h | h
          · exact Or.inl ((hain t ht).mpr h)
          · exact Or.inr ((hbin t ht).mpr h)
        · intro t ht _ hm
          have := max_lt_iff.mp ht
          exact hm.elim (fun hm => absurd ((hain t (by linarith)).mp hm) (by linarith))
            (fun hm => absurd ((hbin t (by linarith)).mp hm) (by linarith))
      refine iff_of_false ?_ ?_
      · by_cases c : a1 < b1
        · rw [fin a1 _ (some (A.normalAt (ray.at a1))) (ra.count + rb.count) (by linarith) hu (by
            simp [operCsgUnion, hita, hitb, bothb, botha, bind, Except.bind, pyLt, c, pure, Except.pure])]
          rw [max_eq_right c.le]; exact hne
        · rw [fin b1 _ (some (B.normalAt (ray.at b1))) (ra.count + rb.count) (by linarith) hu (by
            simp [operCsgUnion, hita, hitb, bothb, botha, bind, Except.bind, pyLt, c, pure, Except.pure])]
          rw [max_eq_left (not_lt.mp c)]; exact hne.symm
      · rintro (⟨h, _⟩ | ⟨h, _⟩)
        · exact h h0
        · exact h (by simp [h0, h0'])

/-- The configurations in which a difference of two primitives is reported correctly. -/
def DifferenceGood (ray : Ray ℝ) (A B : Set (V3 ℝ)) : Prop :=
  -- the ray misses A
  (∀ t, 0 ≤ t → ray.at t ∉ A) ∨
  -- it starts outside both, meets both, and B is not wholly in front of A
  (ray.position ∉ A ∧ ray.position ∉ B ∧ ∃ t s, 0 ≤ t ∧ t ≤ s ∧ ray.at t ∈ A ∧ ray.at s ∈ B) ∨
  -- it starts inside both and leaves B first
  (ray.position ∈ A ∧ ray.position ∈ B ∧ ∃ t, 0 ≤ t ∧ ray.at t ∈ A \ B) ∨
  -- it starts inside A, and meets B only after leaving A
  (ray.position ∈ A ∧ ray.position ∉ B ∧ (∃ s, 0 ≤ s ∧ ray.at s ∈ B) ∧
    ∀ t, 0 ≤ t → ray.at t ∉ A ∩ B)

/-- C27 for two primitives and a ray starting anywhere in general position: the difference node is right
exactly in the configurations of `DifferenceGood`.  The full statement (always right) is false; see the
counterexamples below. -/
theorem C27_difference_correct_iff_partial (A B : Prim ℝ) (hA : A.Solid) (hB : B.Solid) (ray : Ray ℝ)
    (hd : ‖ray.direction.toE‖ = 1) (gA : A.General ray) (gB : B.General ray) (htie : NoTie ray A B) :
    Correct ray (A.solid \ B.solid) (testTreeIntersect (Csg.op .difference (.prim A) (.prim B)).tree ray) ↔
      DifferenceGood ray A.solid B.solid := by
  rw [norm_toE, norm_eq_one_iff] at hd
  obtain ⟨ra, ea, pa⟩ := prim_passes A hA ray hd gA
  obtain ⟨rb, eb, pb⟩ := prim_passes B hB ray hd gB
  rw [tree_op_eq .difference _ _ ray ra rb ea eb]
  simp only
  have ne : ∀ s t, 0 ≤ s → ray.at s ∈ A.surface → ray.at t ∈ B.surface → s ≠ t := by
    rintro s _ hs h1 h2 rfl; exact htie s hs h1 h2
  have fin : ∀ t u n k, 0 < t → FirstCrossing ray (A.solid \ B.solid) u →
      operCsgDifference ra rb ray = .ok ⟨true, some (ray.at t), none, n, none, k⟩ →
      (Correct ray (A.solid \ B.solid) ((operCsgDifference ra rb ray).map IntersectResult.six) ↔ t = u) := by
    intro t u n k ht hu e
    rw [e]; exact correct_ok.trans (describes_at hd hu ht)
  have finm : ∀ k, operCsgDifference ra rb ray = .ok (Hit6.miss k) →
      (Correct ray (A.solid \ B.solid) ((operCsgDifference ra rb ray).map IntersectResult.six) ↔
        NeverCrosses ray (A.solid \ B.solid)) := by
    intro k e
    rw [e]; exact correct_ok.trans describes_miss
  unfold DifferenceGood
  rw [← at_zero ray]
  cases pa with
  | never h =>
    refine iff_of_true ((finm rb.count ?_).mpr (never_of_out fun t ht hm => h t ht hm.1)) (Or.inl h)
    cases hh : rb.hit <;> simp [operCsgDifference, Hit6.miss, hh]
  | through a0 a1 ha0 ha01 sa0 sa1 hain _ hita near far =>
    have h0 : ray.at 0 ∉ A.solid := fun hm => absurd ((hain 0 le_rfl).mp hm).1 (by linarith)
    have hmid : ray.at ((a0 + a1) / 2) ∈ A.solid := (hain _ (by linarith)).mpr ⟨by linarith, by linarith⟩
    cases pb with
    | never h' =>
      refine iff_of_false ?_ ?_
      · have e : operCsgDifference ra (Hit6.miss 0) ray = .error .valueError := by
          simp [operCsgDifference, hita, near, bind, Except.bind, Hit6.miss]
        rw [e]
        rintro ⟨r, hr, _⟩
        cases hr
      · rintro (h | ⟨_, _, t, s, ht, hs, _, h⟩ | ⟨h, _⟩ | ⟨h, _⟩)
        · exact h _ (by linarith) hmid
        · exact h' s (by linarith) h
        · exact h0 h
        · exact h0 h
    | through b0 b1 hb0 hb01 sb0 sb1 hbin _ hitb nearb farb =>
      have h0' : ray.at 0 ∉ B.solid := fun hm => absurd ((hbin 0 le_rfl).mp hm).1 (by linarith)
      by_cases c : a0 < b0
      · refine iff_of_true ((fin a0 a0 (some (A.normalAt (ray.at a0))) (ra.count + rb.count) (by linarith)
          (firstCrossing_entry (t1 := min a1 b0) (by linarith) (lt_min ha01 c) ?_ ?_) ?_).mpr rfl)
          (Or.inr (Or.inl ⟨h0, h0', (a0 + min a1 b1) / 2, (b0 + b1) / 2, ?_, ?_, ?_, ?_⟩))
        · intro t ht ht' hm
          exact absurd ((hain t ht).mp hm.1).1 (by linarith)
        · intro t ht ht'
          have := lt_min_iff.mp ht'
          exact ⟨(hain t (by linarith)).mpr ⟨ht, this.1⟩,
            fun hm => absurd ((hbin t (by linarith)).mp hm).1 (by linarith)⟩
        · simp [operCsgDifference, hita, hitb, near, nearb, far, farb, bind, Except.bind, pyLt, c, pure,
            Except.pure]
        · linarith [lt_min ha01 (c.trans hb01)]
        · linarith [min_le_right a1 b1]
        · exact (hain _ (by linarith [lt_min ha01 (c.trans hb01)])).mpr
            ⟨by linarith [lt_min ha01 (c.trans hb01)], by linarith [min_le_left a1 b1]⟩
        · exact (hbin _ (by linarith)).mpr ⟨by linarith, by linarith⟩
      · have c' : b0 < a0 := lt_of_le_of_ne (not_lt.mp c) (ne a0 b0 (by linarith) sa0 sb0).symm
        by_cases c1 : b1 < a1
        · have e : operCsgDifference ra rb ray
              = .ok ⟨true, some (ray.at b1), none, some (B.normalAt (ray.at b1)), none, ra.count + rb.count⟩ := by
            simp [operCsgDifference, hita, hitb, near, nearb, far, farb, bind, Except.bind, pyLt, c, c1, pure,
              Except.pure]
          by_cases c2 : b1 < a0
          · -- B wholly in front of A
            refine iff_of_false ?_ ?_
            · rw [fin b1 a0 _ _ (by linarith) (firstCrossing_entry (t1 := a1) (by linarith) ha01 ?_ ?_) e]
              · exact c2.ne
              · intro t ht ht' hm
                exact absurd ((hain t ht).mp hm.1).1 (by linarith)
              · intro t ht ht'
                exact ⟨(hain t (by linarith)).mpr ⟨ht, ht'⟩,
                  fun hm => absurd ((hbin t (by linarith)).mp hm).2 (by linarith)⟩
            · rintro (h | ⟨_, _, t, s, ht, hs, h1, h2⟩ | ⟨h, _⟩ | ⟨h, _⟩)
              · exact h _ (by linarith) hmid
              · have := (hain t ht).mp h1
                have := (hbin s (by linarith)).mp h2
                linarith
              · exact h0 h
              · exact h0 h
          · have c3 : a0 < b1 := lt_of_le_of_ne (not_lt.mp c2) (ne a0 b1 (by linarith) sa0 sb1)
            refine iff_of_true ((fin b1 b1 _ _ (by linarith) (firstCrossing_entry (t1 := a1) (by linarith)
              c1 ?_ ?_) e).mpr rfl) (Or.inr (Or.inl ⟨h0, h0', (a0 + b1) / 2, (a0 + b1) / 2, ?_, le_rfl, ?_, ?_⟩))
            · intro t ht ht' hm
              have := (hain t ht).mp hm.1
              exact hm.2 ((hbin t ht).mpr ⟨by linarith, ht'⟩)
            · intro t ht ht'
              exact ⟨(hain t (by linarith)).mpr ⟨by linarith, ht'⟩,
                fun hm => absurd ((hbin t (by linarith)).mp hm).2 (by linarith)⟩
            · linarith
            · exact (hain _ (by linarith)).mpr ⟨by linarith, by linarith⟩
            · exact (hbin _ (by linarith)).mpr ⟨by linarith, by linarith⟩
        · refine iff_of_true ((finm (ra.count + rb.count) ?_).mpr (never_of_out fun t ht hm => ?_))
            (Or.inr (Or.inl ⟨h0, h0', (a0 + a1) / 2, (a0 + a1) / 2, by linarith, le_rfl, hmid,
              (hbin _ (by linarith)).mpr ⟨by linarith, by linarith⟩⟩))
          · simp [operCsgDifference, hita, hitb, near, nearb, far, farb, bind, Except.bind, pyLt, c, c1, pure,
              Except.pure]
          · have := (hain t ht).mp hm.1
            exact hm.2 ((hbin t ht).mpr ⟨by linarith, by linarith⟩)
    | leave b1 hb1 sb1 hbin _ hitb bothb =>
      have h0' : ray.at 0 ∈ B.solid := (hbin 0 le_rfl).mpr (by linarith)
      refine iff_of_false ?_ ?_
      · by_cases c : a0 < b1
        · -- entry into A inside B is reported
          have e : operCsgDifference ra rb ray
              = .ok ⟨true, some (ray.at a0), none, some (A.normalAt (ray.at a0)), none, ra.count + rb.count⟩ := by
            simp [operCsgDifference, hita, hitb, near, far, bothb, bind, Except.bind, pyLt, c, pure, Except.pure]
          by_cases c1 : b1 < a1
          · rw [fin a0 b1 _ _ (by linarith) (firstCrossing_entry (t1 := a1) (by linarith) c1 ?_ ?_) e]
            · exact c.ne
            · intro t ht ht' hm
              exact hm.2 ((hbin t ht).mpr ht')
            · intro t ht ht'
              exact ⟨(hain t (by linarith)).mpr ⟨by linarith, ht'⟩,
                fun hm => absurd ((hbin t (by linarith)).mp hm) (by linarith)⟩
          · rw [e]
            intro hc
            refine not_describes_of_never (never_of_out fun t ht hm => ?_) rfl (correct_ok.mp hc)
            have := (hain t ht).mp hm.1
            exact hm.2 ((hbin t ht).mpr (by linarith))
        · have c' : b1 < a0 := lt_of_le_of_ne (not_lt.mp c) (ne a0 b1 (by linarith) sa0 sb1).symm
          have e : operCsgDifference ra rb ray
              = .ok ⟨true, some (ray.at b1), none, some (B.normalAt (ray.at b1)), none, ra.count + rb.count⟩ := by
            simp [operCsgDifference, hita, hitb, near, far, bothb, bind, Except.bind, pyLt, c, c'.trans ha01,
              pure, Except.pure]
          rw [fin b1 a0 _ _ (by linarith) (firstCrossing_entry (t1 := a1) (by linarith) ha01 ?_ ?_) e]
          · exact c'.ne
          · intro t ht ht' hm
            exact absurd ((hain t ht).mp hm.1).1 (by linarith)
          · intro t ht ht'
            exact ⟨(hain t (by linarith)).mpr ⟨ht, ht'⟩,
              fun hm => absurd ((hbin t (by linarith)).mp hm) (by linarith)⟩
      · rintro (h | ⟨_, h, _⟩ | ⟨h, _⟩ | ⟨h, _⟩)
        · exact h _ (by linarith) hmid
        · exact h h0'
        · exact h0 h
        · exact h0 h
  | leave a1 ha1 sa1 hain _ hita botha =>
    have h0 : ray.at 0 ∈ A.solid := (hain 0 le_rfl).mpr (by linarith)
    cases pb with
    | never h' =>
      have h0' : ray.at 0 ∉ B.solid := h' 0 le_rfl
      refine iff_of_false ?_ ?_
      · have e : operCsgDifference ra (Hit6.miss 0) ray = .error .valueError := by
          simp [operCsgDifference, hita, botha, bind, Except.bind, Hit6.miss]
        rw [e]
        rintro ⟨r, hr, _⟩
        cases hr
      · rintro (h | ⟨h, _⟩ | ⟨_, h, _⟩ | ⟨_, _, ⟨s, hs, h⟩, _⟩)
        · exact h 0 le_rfl h0
        · exact h h0
        · exact h0' h
        · exact h' s hs h
    | through b0 b1 hb0 hb01 sb0 sb1 hbin _ hitb nearb farb =>
      have h0' : ray.at 0 ∉ B.solid := fun hm => absurd ((hbin 0 le_rfl).mp hm).1 (by linarith)
      by_cases c : a1 < b0
      · refine iff_of_true ((fin a1 a1 (some (A.normalAt (ray.at a1))) (ra.count + rb.count) (by linarith)
          (firstCrossing_exit (t1 := a1 + 1) (by linarith) (by linarith) ?_ ?_) ?_).mpr rfl)
          (Or.inr (Or.inr (Or.inr ⟨h0, h0', ⟨(b0 + b1) / 2, by linarith,
            (hbin _ (by linarith)).mpr ⟨by linarith, by linarith⟩⟩, ?_⟩)))
        · intro t ht ht'
          exact ⟨(hain t ht).mpr ht', fun hm => absurd ((hbin t ht).mp hm).1 (by linarith)⟩
        · intro t ht _ hm
          exact absurd ((hain t (by linarith)).mp hm.1) (by linarith)
        · simp [operCsgDifference, hita, hitb, nearb, farb, botha, bind, Except.bind, pyLt, c, pure, Except.pure]
        · intro t ht hm
          have := (hain t ht).mp hm.1
          have := (hbin t ht).mp hm.2
          linarith
      · have c' : b0 < a1 := lt_of_le_of_ne (not_lt.mp c) (ne a1 b0 (by linarith) sa1 sb0).symm
        have hf : FirstCrossing ray (A.solid \ B.solid) b0 := by
          refine firstCrossing_exit (t1 := b1) (by linarith) hb01 ?_ ?_
          · intro t ht ht'
            exact ⟨(hain t ht).mpr (by linarith), fun hm => absurd ((hbin t ht).mp hm).1 (by linarith)⟩
          · intro t ht ht' hm
            exact hm.2 ((hbin t (by linarith)).mpr ⟨ht, ht'⟩)
        refine iff_of_false ?_ ?_
        · by_cases c1 : b1 < a1
          · rw [fin b1 b0 (some (B.normalAt (ray.at b1))) (ra.count + rb.count) (by linarith) hf (by
              simp [operCsgDifference, hita, hitb, nearb, farb, botha, bind, Except.bind, pyLt, c, c1, pure,
                Except.pure])]
            exact hb01.ne'
          · rw [finm (ra.count + rb.count) (by
              simp [operCsgDifference, hita, hitb, nearb, farb, botha, bind, Except.bind, pyLt, c, c1, pure,
                Except.pure])]
            exact not_never_of_first hf
        · rintro (h | ⟨h, _⟩ | ⟨_, h, _⟩ | ⟨_, _, _, h⟩)
          · exact h 0 le_rfl h0
          · exact h h0
          · exact h0' h
          · refine h ((b0 + min a1 b1) / 2) ?_ ⟨(hain _ ?_).mpr ?_, (hbin _ ?_).mpr ⟨?_, ?_⟩⟩ <;>
            linarith [min_le_left a1 b1, min_le_right a1 b1, lt_min c' hb01]
    | leave b1 hb1 sb1 hbin _ hitb bothb =>
      have h0' : ray.at 0 ∈ B.solid := (hbin 0 le_rfl).mpr (by linarith)
      have hne := ne a1 b1 (by linarith) sa1 sb1
      by_cases c : a1 < b1
      · refine iff_of_false ?_ ?_
        · have e : operCsgDifference ra rb ray
              = .ok ⟨true, some (ray.at a1), none, some (A.normalAt (ray.at a1)), none, ra.count + rb.count⟩ := by
            simp [operCsgDifference, hita, hitb, botha, bothb, bind, Except.bind, pyLt, c, pure, Except.pure]
          rw [e]
          intro hc
          refine not_describes_of_never (never_of_out fun t ht hm => ?_) rfl (correct_ok.mp hc)
          have := (hain t ht).mp hm.1
          exact hm.2 ((hbin t ht).mpr (by linarith))
        · rintro (h | ⟨h, _⟩ | ⟨_, _, t, ht, hm⟩ | ⟨_, h, _⟩)
          · exact h 0 le_rfl h0
          · exact h h0
          · have := (hain t ht).mp hm.1
            exact hm.2 ((hbin t ht).mpr (by linarith))
          · exact h h0'
      · have c' : b1 < a1 := lt_of_le_of_ne (not_lt.mp c) hne.symm
        refine iff_of_true ((fin b1 b1 (some (B.normalAt (ray.at b1))) (ra.count + rb.count) (by linarith)
          (firstCrossing_entry (t1 := a1) (by linarith) c' ?_ ?_) ?_).mpr rfl)
          (Or.inr (Or.inr (Or.inl ⟨h0, h0', (a1 + b1) / 2, by linarith, (hain _ (by linarith)).mpr (by linarith),
            fun hm => absurd ((hbin _ (by linarith)).mp hm) (by linarith)⟩)))
        · intro t ht ht' hm
          exact hm.2 ((hbin t ht).mpr ht')
        · intro t ht ht'
          exact ⟨(hain t (by linarith)).mpr (by linarith),
            fun hm => absurd ((hbin t (by linarith)).mp hm) (by linarith)⟩
        · simp [operCsgDifference, hita, hitb, botha, bothb, bind, Except.bind, pyLt, c, c', pure, Except.pure]

end Optics
