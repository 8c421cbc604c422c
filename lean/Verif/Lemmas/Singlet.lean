import Verif.Lemmas.BallLens
import Verif.Props.CompoundGlass
import Verif.Props.CsgRays

/-!
# Lemmas for C91: light through a lens ground from two spheres
-/

namespace Optics
open V3

/-! ## A sphere and a chord of it -/

/-- The line from `x` along `d` runs through the ball about `c` exactly between the parameters `t0 < t1`. -/
structure Chord (c : V3 ℝ) (R : ℝ) (x d : V3 ℝ) (t0 t1 : ℝ) : Prop where
  lt : t0 < t1
  on : ∀ t, OnSphere c R (lineAt x d t) ↔ t = t0 ∨ t = t1
  inside : ∀ t, InBall c R (lineAt x d t) ↔ t0 < t ∧ t < t1

theorem inBall_line {c x d : V3 ℝ} {R : ℝ} (hR : 0 < R) (hd : dot d d = 1) (t : ℝ) :
    InBall c R (lineAt x d t) ↔ (t - dot d (c - x)) ^ 2 < sphDisc c x d R := by
  have := sphere_quadratic c x d R t hd
  rw [InBall, dist_toE_eq, norm_eq, Real.sqrt_lt' hR]
  unfold sphDisc
  constructor <;> intro h <;> linarith

theorem chord_of_disc {c x d : V3 ℝ} {R : ℝ} (hR : 0 < R) (hd : dot d d = 1) (hD : 0 < sphDisc c x d R) :
    Chord c R x d (dot d (c - x) - Real.sqrt (sphDisc c x d R)) (dot d (c - x) + Real.sqrt (sphDisc c x d R)) := by
  have hp := Real.sqrt_pos.mpr hD
  refine ⟨by linarith, fun t => onSphere_roots c x d R t hd hD, fun t => ?_⟩
  rw [inBall_line hR hd, ← sq_abs, ← Real.lt_sqrt (abs_nonneg _), abs_lt]
  constructor <;> rintro ⟨h1, h2⟩ <;> constructor <;> linarith

theorem Chord.unique {c x d : V3 ℝ} {R t0 t1 u0 u1 : ℝ} (h : Chord c R x d t0 t1) (h' : Chord c R x d u0 u1) :
    t0 = u0 ∧ t1 = u1 := by
  have a := (h'.on t0).mp ((h.on t0).mpr (.inl rfl))
  have b := (h'.on t1).mp ((h.on t1).mpr (.inr rfl))
  have e := h.lt
  have e' := h'.lt
  rcases a with a | a <;> rcases b with b | b <;> first | exact ⟨a, b⟩ | linarith

/-- The line of a point inside the ball. -/
theorem chord_of_in {c x d : V3 ℝ} {R : ℝ} (hR : 0 < R) (hd : dot d d = 1) {t : ℝ} (h : InBall c R (lineAt x d t)) :
    ∃ t0 t1, Chord c R x d t0 t1 :=
  ⟨_, _, chord_of_disc hR hd (lt_of_le_of_lt (sq_nonneg _) ((inBall_line hR hd t).mp h))⟩

/-- The line from a point of the sphere that is not tangent. -/
theorem chord_inward {c x d : V3 ℝ} {R : ℝ} (hR : 0 < R) (hd : dot d d = 1) (hx : OnSphere c R x) (hq : 0 < dot d (c - x)) :
    Chord c R x d 0 (2 * dot d (c - x)) := by
  have h0 : lineAt x d 0 = x := by ext <;> simp [lineAt]
  have hx' := hx
  rw [← h0, onSphere_line _ _ _ _ _ hd] at hx'
  have hD : sphDisc c x d R = dot d (c - x) ^ 2 := by rw [← hx']; ring
  have h := chord_of_disc hR hd (by rw [hD]; positivity)
  rw [hD, Real.sqrt_sq hq.le, sub_self, ← two_mul] at h
  exact h

theorem chord_outward {c x d : V3 ℝ} {R : ℝ} (hR : 0 < R) (hd : dot d d = 1) (hx : OnSphere c R x) (hq : dot d (c - x) < 0) :
    Chord c R x d (2 * dot d (c - x)) 0 := by
  have h0 : lineAt x d 0 = x := by ext <;> simp [lineAt]
  have hx' := hx
  rw [← h0, onSphere_line _ _ _ _ _ hd] at hx'
  have hD : sphDisc c x d R = dot d (c - x) ^ 2 := by rw [← hx']; ring
  have h := chord_of_disc hR hd (by rw [hD]; exact sq_pos_of_neg hq)
  rw [hD, Real.sqrt_sq_eq_abs, abs_of_neg hq] at h
  ring_nf at h ⊢
  exact h

/-- Shifting the start. -/
theorem Chord.shift {c x d : V3 ℝ} {R t0 t1 : ℝ} (h : Chord c R x d t0 t1) (s : ℝ) :
    Chord c R (lineAt x d s) d (t0 - s) (t1 - s) := by
  have e : ∀ t, lineAt (lineAt x d s) d t = lineAt x d (s + t) := by
    intro t; unfold lineAt
    ext <;> simp only [add_x, add_y, add_z, smul_x, smul_y, smul_z] <;> ring
  refine ⟨by linarith [h.lt], fun t => ?_, fun t => ?_⟩
  · rw [e, h.on]
    constructor <;> rintro (a | a)
    · left; linarith
    · right; linarith
    · left; linarith
    · right; linarith
  · rw [e, h.inside]
    constructor <;> rintro ⟨a, b⟩ <;> constructor <;> linarith

/-- What `Sphere.test_intersect` reports. -/
theorem Chord.report {s : Sphere ℝ} {ray : Ray ℝ} (hR : 0 < s.R) (hd : dot ray.direction ray.direction = 1) {t0 t1 : ℝ}
    (h : Chord s.center s.R ray.position ray.direction t0 t1) :
    s.testIntersect ray =
      if 1e-12 < t0 then Hit6.two (ray.at t1) (ray.at t0) (s.normal (ray.at t1)) (s.normal (ray.at t0)) 2
      else if 1e-12 < t1 then Hit6.one (ray.at t1) (s.normal (ray.at t1)) 1
      else Hit6.miss 0 := by
  have hD : 0 < sphDisc s.center ray.position ray.direction s.R :=
    lt_of_le_of_lt (sq_nonneg _) ((inBall_line hR hd ((t0 + t1) / 2)).mp ((h.inside _).mpr ⟨by linarith [h.lt], by linarith [h.lt]⟩))
  obtain ⟨rfl, rfl⟩ := h.unique (chord_of_disc hR hd hD)
  rw [sphere_eq]
  simp only [if_pos hD]
  rfl

/-! ## The intersection of two spheres -/

/-- The lens: the two spheres in either order. -/
def IsSinglet (P Q : Sphere ℝ) (e : Csg (Prim ℝ)) : Prop :=
  e = .op .intersect (.prim (.sphere P)) (.prim (.sphere Q)) ∨ e = .op .intersect (.prim (.sphere Q)) (.prim (.sphere P))

theorem sphere_leaf (s : Sphere ℝ) (ray : Ray ℝ) :
    testTreeIntersect (Csg.prim (Prim.sphere s)).tree ray = .ok (.six (s.testIntersect ray)) := rfl

/-- The report of a lens. -/
theorem singlet_report {P Q : Sphere ℝ} {e : Csg (Prim ℝ)} (he : IsSinglet P Q e) (ray : Ray ℝ) (Φ : Hit6 ℝ → Prop)
    (h1 : ∃ r, operCsgIntersect (P.testIntersect ray) (Q.testIntersect ray) ray = .ok r ∧ Φ r)
    (h2 : ∃ r, operCsgIntersect (Q.testIntersect ray) (P.testIntersect ray) ray = .ok r ∧ Φ r) :
    ∃ r, testTreeIntersect e.tree ray = .ok (.six r) ∧ Φ r := by
  rcases he with rfl | rfl
  · obtain ⟨r, h, hΦ⟩ := h1
    refine ⟨r, ?_, hΦ⟩
    rw [tree_op_eq .intersect _ _ ray _ _ (sphere_leaf P ray) (sphere_leaf Q ray)]
    simp only [h]; rfl
  · obtain ⟨r, h, hΦ⟩ := h2
    refine ⟨r, ?_, hΦ⟩
    rw [tree_op_eq .intersect _ _ ray _ _ (sphere_leaf Q ray) (sphere_leaf P ray)]
    simp only [h]; rfl

variable {P Q : Sphere ℝ} {e : Csg (Prim ℝ)} {ray : Ray ℝ}

/-- The report is a hit at `x` with the normal `n`. -/
def HitAt (x n : V3 ℝ) (r : Hit6 ℝ) : Prop := r.hit = true ∧ r.pt1 = some x ∧ r.n1 = some n

/-- A ray that meets `P` where it is already inside `Q`. -/
theorem singlet_enter (he : IsSinglet P Q e) (hP : 0 < P.R) (hQ : 0 < Q.R) (hd : dot ray.direction ray.direction = 1) {p0 p1 q0 q1 : ℝ}
    (cp : Chord P.center P.R ray.position ray.direction p0 p1) (cq : Chord Q.center Q.R ray.position ray.direction q0 q1)
    (h0 : 1e-12 < p0) (h1 : q0 < p0) (h2 : p0 < q1) :
    ∃ r, testTreeIntersect e.tree ray = .ok (.six r) ∧ HitAt (ray.at p0) (P.normal (ray.at p0)) r := by
  have rp := cp.report hP hd
  rw [if_pos h0] at rp
  have hp := helper_through hd h0 cp.lt (.inr rp)
  have hph : (P.testIntersect ray).hit = true := by rw [rp]; rfl
  have n1 := not_lt.mpr h1.le
  have n2 := not_lt.mpr h2.le
  by_cases hq0 : 1e-12 < q0
  · have rq := cq.report hQ hd
    rw [if_pos hq0] at rq
    have hq := helper_through hd hq0 cq.lt (.inr rq)
    have hqh : (Q.testIntersect ray).hit = true := by rw [rq]; rfl
    refine singlet_report he ray _ ?_ ?_
    · simp [operCsgIntersect, hph, hqh, hp.1, hp.2, hq.1, hq.2, bind, Except.bind, pyLt, HitAt, pure, Except.pure, n1, h1, h2]
    · simp [operCsgIntersect, hph, hqh, hp.1, hp.2, hq.1, hq.2, bind, Except.bind, pyLt, HitAt, pure, Except.pure, n1, h1, h2]
  · have rq := cq.report hQ hd
    rw [if_neg hq0, if_pos (h0.trans h2)] at rq
    have hq := fun m => helper_one hd (h0.trans h2) (Q.testIntersect ray) (by rw [rq]; rfl) (by rw [rq]; rfl) m
    have hqh : (Q.testIntersect ray).hit = true := by rw [rq]; rfl
    refine singlet_report he ray _ ?_ ?_
    · simp [operCsgIntersect, hph, hqh, hp.1, hp.2, hq, bind, Except.bind, pyLt, HitAt, pure, Except.pure, n2]
    · simp [operCsgIntersect, hph, hqh, hp.1, hp.2, hq, bind, Except.bind, pyLt, HitAt, pure, Except.pure, n2]

/-- A ray inside both. -/
theorem singlet_leave (he : IsSinglet P Q e) (hP : 0 < P.R) (hQ : 0 < Q.R) (hd : dot ray.direction ray.direction = 1) {p0 p1 q0 q1 : ℝ}
    (cp : Chord P.center P.R ray.position ray.direction p0 p1) (cq : Chord Q.center Q.R ray.position ray.direction q0 q1)
    (hp0 : p0 ≤ 1e-12) (hq0 : q0 ≤ 1e-12) (h1 : 1e-12 < q1) (h2 : q1 < p1) :
    ∃ r, testTreeIntersect e.tree ray = .ok (.six r) ∧ HitAt (ray.at q1) (Q.normal (ray.at q1)) r := by
  have rp := cp.report hP hd
  rw [if_neg (not_lt.mpr hp0), if_pos (h1.trans h2)] at rp
  have hp := fun m => helper_one hd (h1.trans h2) (P.testIntersect ray) (by rw [rp]; rfl) (by rw [rp]; rfl) m
  have rq := cq.report hQ hd
  rw [if_neg (not_lt.mpr hq0), if_pos h1] at rq
  have hq := fun m => helper_one hd h1 (Q.testIntersect ray) (by rw [rq]; rfl) (by rw [rq]; rfl) m
  have hph : (P.testIntersect ray).hit = true := by rw [rp]; rfl
  have hqh : (Q.testIntersect ray).hit = true := by rw [rq]; rfl
  have hqn : (Q.testIntersect ray).n1 = some (Q.normal (ray.at q1)) := by rw [rq]; rfl
  have n2 := not_lt.mpr h2.le
  refine singlet_report he ray _ ?_ ?_
  · simp [operCsgIntersect, hph, hqh, hp, hq, bind, Except.bind, pyLt, HitAt, pure, Except.pure, n2, hqn]
  · simp [operCsgIntersect, hph, hqh, hp, hq, bind, Except.bind, pyLt, HitAt, pure, Except.pure, h2, hqn]

/-- A ray that has left `Q` behind. -/
theorem singlet_gone (he : IsSinglet P Q e) (hQ : 0 < Q.R) (hd : dot ray.direction ray.direction = 1) {q0 q1 : ℝ}
    (cq : Chord Q.center Q.R ray.position ray.direction q0 q1) (h1 : q1 ≤ 1e-12) :
    ∃ r, testTreeIntersect e.tree ray = .ok (.six r) ∧ r.hit = false := by
  have rq := cq.report hQ hd
  rw [if_neg (not_lt.mpr (by linarith [cq.lt])), if_neg (not_lt.mpr h1)] at rq
  refine singlet_report he ray (fun r => r.hit = false) ?_ ?_ <;> rw [rq] <;>
  cases hh : (P.testIntersect ray).hit <;> simp [operCsgIntersect, Hit6.miss, hh]

/-! ## One pass of `run` -/

theorem singlet_wellFormed (he : IsSinglet P Q e) (hP : 0 < P.R) (hQ : 0 < Q.R) : e.All Prim.WellFormed := by
  rcases he with rfl | rfl
  · exact ⟨hP.ne', hQ.ne'⟩
  · exact ⟨hQ.ne', hP.ne'⟩

theorem singlet_den (he : IsSinglet P Q e) (x : V3 ℝ) :
    x ∈ e.den Prim.solid ↔ InBall P.center P.R x ∧ InBall Q.center Q.R x := by
  rcases he with rfl | rfl
  · exact Iff.rfl
  · exact and_comm

/-- A pass in which the compound is hit. -/
theorem compound_pass {index : ℝ} (hi : 0 < index) (hw : e.All Prim.WellFormed) {md : ℝ} {s : RunState ℝ} (hd : dot s.ray.direction s.ray.direction = 1)
    (hf : s.ray.type ≠ "faerie_fire") {t : ℝ} (ht : 1e-12 < t) (hrem : t ≤ s.remaining) {n : V3 ℝ} (hn : dot n n = 1)
    (h : ∃ r, testTreeIntersect e.tree s.ray = .ok (.six r) ∧ HitAt (s.ray.at t) n r)
    (hs : Steady (e.den Prim.solid) (s.ray.at t) s.ray.direction 1e-8) :
    ∃ s', runStep md [.compound ⟨e.tree, "refract", index⟩] s = .next s' ∧
      s'.remaining = s.remaining - t ∧ s'.interactions = s.interactions + 1 ∧ s'.log = s.log ∧
      s'.ray = { s.ray.movedTo (s.ray.at t) with direction := s'.ray.direction } ∧
      (GoesInto (e.den Prim.solid) (s.ray.at t) s.ray.direction → GlassLaw 1 index n.toE s.ray.direction.toE s'.ray.direction.toE) ∧
      (GoesOut (e.den Prim.solid) (s.ray.at t) s.ray.direction → GlassLaw index 1 n.toE s.ray.direction.toE s'.ray.direction.toE) := by
  obtain ⟨r, hr, hh, hp, hn1⟩ := h
  have hdist : distanceBetween s.ray.position (s.ray.at t) = t := distance_lineAt hd (by norm_num at ht; linarith)
  have htest : (Optic.compound ⟨e.tree, "refract", index⟩).testIntersect s.ray
      = .ok ⟨r.hit, r.pt1, r.n1, .bool (decide (r.count % 2 = 0))⟩ := by
    show Compound.testIntersect _ _ = _
    unfold Compound.testIntersect
    simp only [hr, bind, Except.bind]; rfl
  have hscan : scan [.compound ⟨e.tree, "refract", index⟩] s = .ok ⟨true, some (distanceBetween s.ray.position (s.ray.at t)),
      some ⟨.compound ⟨e.tree, "refract", index⟩, s.ray.at t, some n⟩, some (.bool (decide (r.count % 2 = 0)))⟩ := by
    rw [scan_one, ← hn1]
    exact scanStep_new (o := .compound ⟨e.tree, "refract", index⟩) rfl htest hh hp (by rw [hdist]; exact not_lt.mpr hrem)
      (by rw [hdist, clippingFloor_eq]; exact ht) (ltMin_none _)
  have hfl : s.flown (s.ray.at t) = s.ray.movedTo (s.ray.at t) := by
    unfold RunState.flown
    rw [hdist]; rfl
  have hdE : ‖s.ray.direction.toE‖ = 1 := by rw [norm_toE, norm_eq_one_iff]; exact hd
  obtain ⟨d', hd', g1, g2⟩ := C57_indices_partial e hw index hi (s.ray.movedTo (s.ray.at t)) hdE (s.ray.at t) n
    (by rw [norm_toE, norm_eq_one_iff]; exact hn) hs
  have hstep := runStep_act (md := md) (ray' := { s.ray.movedTo (s.ray.at t) with direction := d' }) (hits := []) hscan rfl rfl rfl
    hf (by
      rw [hfl]
      show (do return (← Compound.doIntersect _ _ _ _, [])) = _
      rw [hd']; rfl)
  exact ⟨_, hstep, by rw [hdist], rfl, List.append_nil _, rfl, g1, g2⟩

/-- A pass in which it is not. -/
theorem compound_free {index : ℝ} {md : ℝ} {s : RunState ℝ}
    (h : ∃ r, testTreeIntersect e.tree s.ray = .ok (.six r) ∧ r.hit = false) :
    ∃ s', runStep md [.compound ⟨e.tree, "refract", index⟩] s = .next s' ∧
      s'.ray = s.ray.movedTo (s.ray.at s.remaining) ∧
      s'.remaining = s.remaining - md ∧ s'.interactions = s.interactions ∧ s'.log = s.log := by
  obtain ⟨r, hr, hh⟩ := h
  have htest : (Optic.compound ⟨e.tree, "refract", index⟩).testIntersect s.ray
      = .ok ⟨r.hit, r.pt1, r.n1, .bool (decide (r.count % 2 = 0))⟩ := by
    show Compound.testIntersect _ _ = _
    unfold Compound.testIntersect
    simp only [hr, bind, Except.bind]; rfl
  obtain ⟨v, hv, hi⟩ : ∃ v, scan [.compound ⟨e.tree, "refract", index⟩] s = .ok v ∧ v.intersected = false := by
    rw [scan_one]
    exact ⟨_, scanStep_miss (o := .compound ⟨e.tree, "refract", index⟩) rfl htest hh, rfl⟩
  exact ⟨_, runStep_free hv hi, rfl, rfl, rfl, rfl⟩

/-- Snell's law determines the direction. -/
theorem glass_unique {n d d₁ d' : V3 ℝ} {η₁ η₂ : ℝ} (h1 : 0 < η₁) (h2 : 0 < η₂) (hn : dot n n = 1) (hd : dot d d = 1)
    (hr : Refracted η₁ η₂ n.toE d.toE d₁.toE) (hdn : dot d n ≠ 0) (hdn' : dot d₁ n ≠ 0)
    (h : GlassLaw η₁ η₂ n.toE d.toE d'.toE) : d' = d₁ := by
  have hnE : ‖n.toE‖ = 1 := by rw [norm_toE, norm_eq_one_iff]; exact hn
  have hu : dot d₁ d₁ = 1 := by have := hr.unit; rwa [norm_toE, norm_eq_one_iff] at this
  have hr' : Refracted η₁ η₂ (‖n.toE‖⁻¹ • n.toE) d.toE d₁.toE := by rw [hnE, inv_one, one_smul]; exact hr
  have hform := refracted_radius (R := 1) one_pos (by rw [hn]; ring) h2 hr'
  have hfar := hr.farSide
  rw [inner_toE, inner_toE] at hfar
  have hsq : dot d₁ n ^ 2 = 1 ^ 2 - (η₁ / η₂) ^ 2 * (1 ^ 2 - dot d n ^ 2) := by
    have h3 : dot d₁ d₁ = dot ((η₁ / η₂) * d + ((dot d₁ n - η₁ / η₂ * dot d n) / 1 ^ 2) * n)
        ((η₁ / η₂) * d + ((dot d₁ n - η₁ / η₂ * dot d n) / 1 ^ 2) * n) := by rw [← hform]
    rw [hu] at h3
    generalize dot d₁ n = q at *
    simp only [dot_add_left, dot_add_right, dot_smul_left, dot_smul_right, hd, hn, dot_comm n d] at h3
    field_simp at h3 ⊢
    linarith
  obtain ⟨-, -, -, hf⟩ := glass_radius (R := 1) (Q := dot d₁ n) one_pos (by rw [hn]; ring) hd h1 h2 h hsq
    (lt_of_le_of_ne hfar (mul_ne_zero hdn hdn').symm)
  rw [hf, ← hform]

end Optics
