import Verif.Lemmas.SceneTree
import Verif.Props.FlatShapes

/-!
# What well-formed optics report in numpy
-/

namespace Optics
open V3

section generic
variable {α : Type} [PyNum α]

/-- The loop over the surfaces of an optic with one flat surface. -/
theorem flat_single (b : Bool) (ray : Ray α) (surface : Shape α) (h : Hit3 α) (n0 : Option (Option (V3 α)))
    (hs : surface.testIntersect ray = .ok (.three h))
    (hp : h.hit = true → ∃ x, h.pt = some x ∧ PyNum.ltInf (distanceBetween ray.position x) = true)
    (hm : h.hit = false → h.pt = none)
    (hb : b = true → h.hit = true → surface.normalAttr = .ok h.normal) :
    ∃ m, [surface].foldlM (flatStep b ray) ⟨false, none, none, n0⟩ = .ok ⟨h.hit, h.pt, m, some h.normal⟩ := by
  obtain ⟨hit, pt, n⟩ := h
  simp only at hp hm hb
  have e : ∀ v, [surface].foldlM (flatStep b ray) v = flatStep b ray v surface := by
    intro v
    rw [List.foldlM_cons]
    cases flatStep b ray v surface <;> rfl
  rw [e]
  unfold flatStep
  simp only [hs, asHit3, bind, Except.bind, pure, Except.pure]
  cases hit with
  | false => rw [hm rfl]; exact ⟨none, rfl⟩
  | true =>
    obtain ⟨x, rfl, hx⟩ := hp rfl
    simp only [if_true, need, ltMin, hx]
    cases b with
    | false => exact ⟨_, rfl⟩
    | true => rw [hb rfl rfl]; exact ⟨_, rfl⟩

/-- What both loops over spheres do with the hit of a single sphere: the nearer point, with the normal turned
around. -/
theorem sphereUpdate_sat {Q : V3 α → V3 α → Prop} (ray : Ray α) (r : Hit6 α) (hr : r.Sat Q) (hh : r.hit = true)
    (hfin : ∀ x n, Q x n → PyNum.ltInf (distanceBetween ray.position x) = true) :
    ∃ x n m, sphereUpdate ray ⟨false, none, none, some none⟩ r = .ok ⟨true, some x, m, some (some (-n))⟩ ∧ Q x n := by
  obtain ⟨hit, p1, p2, n1, n2, k⟩ := r
  unfold sphereUpdate
  cases p1 with
  | none => exact absurd rfl (hr.hit hh)
  | some x =>
    obtain ⟨n, hn, hq⟩ := hr.fst x rfl
    simp only at hn
    subst hn
    simp only [need, bind, Except.bind, pure, Except.pure, ltMin, hfin x n hq, if_true]
    cases p2 with
    | none => exact ⟨x, n, _, rfl, hq⟩
    | some y =>
      obtain ⟨-, m, hm, hq'⟩ := hr.snd y rfl
      simp only at hm
      subst hm
      simp only
      by_cases hlt : distanceBetween ray.position y < distanceBetween ray.position x
      · refine ⟨y, m, some (distanceBetween ray.position y), ?_, hq'⟩; simp [hlt]
      · refine ⟨x, n, some (distanceBetween ray.position x), ?_, hq⟩; simp [hlt]

end generic

/-- What is known of the point and normal an optic reports for a ray. -/
structure HitFacts (o : Optic ℝ) (ray : Ray ℝ) (x n : V3 ℝ) : Prop where
  unit : dot n n = 1
  onRay : ∃ t, x = ray.at t ∧ (1e-12 < t ∨ o.Grazed ray x)
  lens : ∀ l, o = .lens l → l.Ideal → ∃ m, l.normal = some m ∧ dot m m = 1 ∧ dot (x - l.position) m = 0 ∧
    1e-9 < |dot m ray.direction| ∧ ∃ t, 1e-9 < t ∧ x = ray.at t
  grating : ∀ g, o = .grating g → n = g.normal

/-- What is known of the 4-tuple an optic returns. -/
def Hit4.Good (o : Optic ℝ) (ray : Ray ℝ) (r : Hit4 XR) : Prop :=
  r.hit = true → ∃ pt n, r.pt = some pt ∧ r.normal = some n ∧ Finitely (HitFacts o ray) pt n

/-- The hit of a real shape, in numpy. -/
theorem hit6_lift_exact {P : V3 ℝ → V3 ℝ → Prop} {r : Hit6 ℝ} (h : r.Sat P) :
    r.lift.Sat (fun x n => ∃ y k, x = V3.lift y ∧ n = V3.lift k ∧ P y k) := by
  obtain ⟨hit, p1, p2, n1, n2, k⟩ := r
  refine ⟨fun hh => ?_, fun x hx => ?_, fun x hx => ?_⟩
  · have := h.hit hh
    cases p1 with
    | none => exact absurd rfl this
    | some x => simp [Hit6.lift]
  · cases p1 with
    | none => cases hx
    | some y =>
      obtain ⟨n, hn, hq⟩ := h.fst y rfl
      cases hx
      simp only at hn
      exact ⟨n.lift, by simp [Hit6.lift, hn], y, n, rfl, rfl, hq⟩
  · cases p2 with
    | none => cases hx
    | some y =>
      obtain ⟨h1, n, hn, hq⟩ := h.snd y rfl
      cases hx
      simp only at hn h1
      exact ⟨by simpa [Hit6.lift] using h1, n.lift, by simp [Hit6.lift, hn], y, n, rfl, rfl, hq⟩

/-- What a flat surface with centre `c` and normal `n` reports. -/
structure FlatHit (c n : V3 ℝ) (ray : Ray ℝ) (h : Hit3 ℝ) : Prop where
  hit : h.hit = true → 1e-9 < |dot (unitVector n) ray.direction| ∧ ∃ t, 1e-9 < t ∧ h.pt = some (ray.at t) ∧
    h.normal = some (unitVector n) ∧ dot (ray.at t - c) (unitVector n) = 0
  miss : h.hit = false → h.pt = none ∧ h.normal = none

theorem plane_flatHit (c n : V3 ℝ) (hn : n ≠ ⟨0, 0, 0⟩) (ray : Ray ℝ) (hd : dot ray.direction ray.direction = 1) :
    FlatHit c n ray ((Plane.new c n).testIntersect ray) := by
  rw [plane_eq c n hn ray hd]
  have hu := unit_dot hn
  split_ifs with h1 h2
  · refine ⟨fun _ => ⟨h1, _, h2, rfl, rfl, ?_⟩, (fun h => by cases h)⟩
    have hden : dot (unitVector n) ray.direction ≠ 0 := by
      intro e; rw [e, abs_zero] at h1; norm_num at h1
    have := (onPlane_line hn (c := c) ray.position ray.direction _).mpr (div_mul_cancel₀ _ hden)
    rw [OnPlane, inner_toE] at this
    have h2 : ∀ v, dot v n = norm n * dot v (unitVector n) := fun v => by
      rw [← dot_smul_right, unit_smul_norm hn]
    rw [h2] at this
    exact (mul_eq_zero.mp this).resolve_left (norm_pos hn).ne'
  · exact ⟨(fun h => by cases h), fun _ => ⟨rfl, rfl⟩⟩
  · exact ⟨(fun h => by cases h), fun _ => ⟨rfl, rfl⟩⟩

theorem circle_new_ok {α : Type} [PyNum α] {c : V3 α} {n : Option (V3 α)} {R D : Option α} {C : Circle α}
    (h : Circle.new c n R D = .ok C) : C.center = c ∧ C.normal = n.map unitVector ∧ C.plane = n.map (Plane.new c) ∧
      checkRAndD R D = .ok (C.R, C.D) := by
  unfold Circle.new at h
  rcases hc : checkRAndD R D with e' | ⟨r, d⟩ <;> rw [hc] at h <;> cases h
  exact ⟨rfl, rfl, rfl, rfl⟩

theorem circle_flatHit {c n : V3 ℝ} (hn : n ≠ ⟨0, 0, 0⟩) {R D : Option ℝ} {C : Circle ℝ}
    (hC : Circle.new c (some n) R D = .ok C) (ray : Ray ℝ) (hd : dot ray.direction ray.direction = 1) :
    ∃ h, C.testIntersect ray = .ok h ∧ C.lift.testIntersect ray.lift = .ok h.lift ∧ FlatHit c n ray h ∧
      C.normal = some (unitVector n) := by
  obtain ⟨h1, h2, h3, -⟩ := circle_new_ok hC
  have hF := plane_flatHit c n hn ray hd
  have hl := lift_circle_testIntersect C (Plane.new c n) h3 (ne_zero_of_dot_one (unit_dot hn)) ray
    (ne_zero_of_dot_one hd)
  have : ∃ h, C.testIntersect ray = .ok h ∧ FlatHit c n ray h := by
    unfold Circle.testIntersect
    rw [h3]
    simp only [Option.map_some]
    generalize (Plane.new c n).testIntersect ray = q at hF
    obtain ⟨hit, pt, m⟩ := q
    cases hit with
    | false => exact ⟨Hit3.miss, rfl, (fun h => by cases h), fun _ => ⟨rfl, rfl⟩⟩
    | true =>
      obtain ⟨hs, t, ht, e1, e2, e3⟩ := hF.hit rfl
      simp only at e1 e2
      subst e1 e2
      simp only
      split_ifs
      · exact ⟨_, rfl, fun _ => ⟨hs, t, ht, rfl, rfl, e3⟩, (fun h => by cases h)⟩
      · exact ⟨Hit3.miss, rfl, (fun h => by cases h), fun _ => ⟨rfl, rfl⟩⟩
  obtain ⟨h, e, hf⟩ := this
  exact ⟨h, e, by rw [hl, e]; rfl, hf, h2⟩

theorem rectangle_flatHit {c n t : V3 ℝ} (hn : n ≠ ⟨0, 0, 0⟩) {h w : Option ℝ} {r : Rectangle ℝ}
    (hr : Rectangle.new c n t h w = .ok r) (ray : Ray ℝ) (hd : dot ray.direction ray.direction = 1) :
    r.lift.testIntersect ray.lift = (r.testIntersect ray).lift ∧ FlatHit c n ray (r.testIntersect ray) ∧
      r.normal = unitVector n := by
  obtain ⟨-, -, -, -, -, -, h1, -, -, h2, -⟩ := rectangle_new_ok hr
  have hF := plane_flatHit c n hn ray hd
  refine ⟨lift_rectangle_testIntersect r (by rw [h2]; exact ne_zero_of_dot_one (unit_dot hn)) ray
    (ne_zero_of_dot_one hd), ?_, h1⟩
  unfold Rectangle.testIntersect
  rw [h2]
  simp only
  generalize (Plane.new c n).testIntersect ray = q at hF
  obtain ⟨hit, pt, m⟩ := q
  cases hit with
  | false => exact ⟨(fun h => by cases h), fun _ => ⟨rfl, rfl⟩⟩
  | true =>
    obtain ⟨hs, t, ht, e1, e2, e3⟩ := hF.hit rfl
    simp only at e1 e2
    subst e1 e2
    simp only
    split_ifs
    · exact ⟨fun _ => ⟨hs, t, ht, rfl, rfl, e3⟩, (fun h => by cases h)⟩
    · exact ⟨(fun h => by cases h), fun _ => ⟨rfl, rfl⟩⟩
    · exact ⟨(fun h => by cases h), fun _ => ⟨rfl, rfl⟩⟩

theorem ltInf_fin (x y : V3 ℝ) : PyNum.ltInf (distanceBetween x.lift y.lift) = true := by
  rw [lift_distance]; rfl

/-- The loop of an optic with one flat surface, in numpy. -/
theorem flat_lift {c n : V3 ℝ} {ray : Ray ℝ} {h : Hit3 ℝ} (hf : FlatHit c n ray h) (b : Bool) (s : Shape XR)
    (hs : s.testIntersect ray.lift = .ok (.three h.lift)) (hb : s.normalAttr = .ok (some (unitVector n).lift))
    (n0 : Option (Option (V3 XR))) :
    ∃ m, [s].foldlM (flatStep b ray.lift) ⟨false, none, none, n0⟩
      = .ok ⟨h.hit, h.pt.map V3.lift, m, some (h.normal.map V3.lift)⟩ := by
  refine flat_single b ray.lift s h.lift n0 hs (fun hh => ?_) (fun hh => ?_) (fun _ hh => ?_)
  · obtain ⟨-, t, -, e, -⟩ := hf.hit hh
    exact ⟨(ray.at t).lift, by simp [Hit3.lift, e], ltInf_fin _ _⟩
  · have := (hf.miss hh).1
    simp [Hit3.lift, this]
  · obtain ⟨-, t, -, -, e, -⟩ := hf.hit hh
    rw [hb]; simp [Hit3.lift, e]

/-- Facts for an optic with a flat surface. -/
theorem flat_good {o : Optic ℝ} {c n : V3 ℝ} (hn : n ≠ ⟨0, 0, 0⟩) {ray : Ray ℝ} {h : Hit3 ℝ}
    (hf : FlatHit c n ray h)
    (hl : ∀ l, o = .lens l → l.Ideal → l.normal = some (unitVector n) ∧ l.position = c)
    (hg : ∀ g, o = .grating g → g.normal = unitVector n) (sfo : Sfo) :
    Hit4.Good o ray ⟨h.hit, h.pt.map V3.lift, h.normal.map V3.lift, sfo⟩ := by
  intro hh
  obtain ⟨hs, t, ht, e1, e2, e3⟩ := hf.hit hh
  refine ⟨(ray.at t).lift, (unitVector n).lift, by simp [e1], by simp [e2], .inr ⟨_, _, rfl, rfl, ?_⟩⟩
  refine ⟨unit_dot hn, ⟨t, rfl, .inl (by norm_num at ht ⊢; linarith)⟩, fun l hl' hi => ?_, fun g e => (hg g e).symm⟩
  obtain ⟨h1, h2⟩ := hl l hl' hi
  exact ⟨_, h1, unit_dot hn, by rw [h2]; exact e3, hs, t, ht, rfl⟩

theorem circle_normalAttr {C : Circle ℝ} {n : V3 ℝ} (h : C.normal = some n) :
    (Shape.circle C.lift).normalAttr = .ok (some n.lift) := by
  unfold Shape.normalAttr Circle.lift
  simp only [h, Option.map_some]

theorem mirror_good {m : Mirror ℝ} (h : (Optic.mirror m).WellFormed) (ray : Ray ℝ)
    (hd : dot ray.direction ray.direction = 1) :
    ∃ r, m.lift.testIntersect ray.lift = .ok r ∧ r.Good (.mirror m) ray := by
  cases h with
  | mirror hn ht hdmd hD hf hm =>
  rename_i position shape n t D w hh f type dmd
  unfold Mirror.new at hm
  simp only [need, bind, Except.bind, pure, Except.pure] at hm
  split_ifs at hm with h1 h2 h3 h4
  · -- flat disc
    cases n with
    | none => cases hm
    | some n =>
      have hn : n ≠ ⟨0, 0, 0⟩ := fun e => hn (by rw [e])
      simp only at hm
      cases hC : Circle.new position (some n) none D with
      | error e => rw [hC] at hm; cases hm
      | ok C =>
        rw [hC] at hm
        obtain rfl := Except.ok.inj hm
        obtain ⟨hit, e1, e2, hF, e3⟩ := circle_flatHit hn hC ray hd
        obtain ⟨v, ev⟩ := flat_lift hF true (.circle C.lift)
          (by show (do return IntersectResult.three (← C.lift.testIntersect ray.lift)) = _; rw [e2]; rfl)
          (circle_normalAttr e3) none
        refine ⟨⟨hit.hit, hit.pt.map V3.lift, hit.normal.map V3.lift, .none⟩, ?_,
          flat_good hn hF (fun l e => by cases e) (fun g e => by cases e) _⟩
        unfold Mirror.testIntersect Mirror.lift
        simp only [h1, true_or, if_true, List.map_cons, List.map_nil, Shape.lift]
        rw [ev]; rfl
  · cases n with
    | none => cases hm
    | some n =>
      have hn : n ≠ ⟨0, 0, 0⟩ := fun e => hn (by rw [e])
      simp only at hm
      cases t with
      | none => cases hm
      | some t =>
        simp only at hm
        cases hC : Rectangle.new position n t hh w with
        | error e => rw [hC] at hm; cases hm
        | ok C =>
          rw [hC] at hm
          obtain rfl := Except.ok.inj hm
          obtain ⟨e2, hF, e3⟩ := rectangle_flatHit hn hC ray hd
          obtain ⟨v, ev⟩ := flat_lift hF true (.rectangle C.lift)
            (by show Except.ok (IntersectResult.three (C.lift.testIntersect ray.lift)) = _; rw [e2])
            (by simp [Shape.normalAttr, Rectangle.lift, e3]) none
          refine ⟨⟨(C.testIntersect ray).hit, (C.testIntersect ray).pt.map V3.lift,
            (C.testIntersect ray).normal.map V3.lift, .none⟩, ?_,
            flat_good hn hF (fun l e => by cases e) (fun g e => by cases e) _⟩
          unfold Mirror.testIntersect Mirror.lift
          simp only [h2, or_true, if_true, List.map_cons, List.map_nil, Shape.lift]
          rw [ev]; rfl
  · -- concave
    cases n with
    | none => cases hm
    | some n =>
      have hn : n ≠ ⟨0, 0, 0⟩ := fun e => hn (by rw [e])
      simp only at hm
      cases f with
      | none => cases hm
      | some f =>
        have hf : f ≠ 0 := fun e => hf (by rw [e])
        simp only at hm
        cases hC : Circle.new position (some n) none D with
        | error e => rw [hC] at hm; cases hm
        | ok C =>
          rw [hC] at hm
          simp only [Sphere.new, checkRAndD, bind, Except.bind, pure, Except.pure] at hm
          obtain rfl := Except.ok.inj hm
          set s : Sphere ℝ := ⟨position + (f * 2.0) * unitVector n, f * 2.0, f * 2.0 * 2.0⟩ with hs
          have hR : s.R ≠ 0 := by simp [hs, lit2, hf]
          obtain ⟨hit, e1, e2, hF, e3⟩ := circle_flatHit hn hC ray hd
          have hsat := sphere_sat s hR ray hd
          have el := lift_sphere_testIntersect s hR ray hd
          have good : ∀ x k sfo, (Prim.sphere s).Point ray x k → Hit4.Good (.mirror ⟨position, "circular_concave_spherical", D, w, hh, some f,
              type, unitVector dmd, some (unitVector n), [.circle C, .sphere s]⟩) ray
              ⟨true, some x.lift, some k.lift, sfo⟩ := by
            rintro x k sfo ⟨p1, p2, tt, p3, p4⟩ -
            refine ⟨_, _, rfl, rfl, .inr ⟨x, k, rfl, rfl, p1, ⟨tt, p3, p4.imp_right fun hh =>
              ⟨.sphere s, by simp [Optic.prims, Shape.prims], p2, hh⟩⟩, fun l e => (by cases e), fun g e => (by cases e)⟩⟩
          unfold Mirror.testIntersect Mirror.lift
          simp only [h3, show ("circular_concave_spherical" = "circular_flat" ∨
            "circular_concave_spherical" = "rectangular_flat") = False by simp, if_false, if_true, List.map_cons,
            List.map_nil, Shape.lift, firstSphere, firstCircle, bound, bind, Except.bind, el, e2, pure, Except.pure]
          generalize s.testIntersect ray = q at hsat
          obtain ⟨qh, q1, q2, m1, m2, k⟩ := q
          cases qh with
          | false => exact ⟨_, rfl, fun h => (by cases h)⟩
          | true =>
            simp only [Hit6.lift, if_true]
            cases hhit : hit.hit with
            | false =>
              simp only [Hit3.lift, hhit, Bool.false_eq_true, if_false]
              exact ⟨_, rfl, fun h => (by cases h)⟩
            | true =>
              obtain ⟨-, tt, -, f1, -⟩ := hF.hit hhit
              simp only [Hit3.lift, hhit, if_true, f1, Option.map_some, need]
              cases q1 with
              | none => exact absurd rfl (hsat.hit rfl)
              | some x =>
                obtain ⟨k1, hk1, hq1⟩ := hsat.fst x rfl
                simp only at hk1
                subst hk1
                simp only [Option.map_some]
                cases q2 with
                | none => exact ⟨_, rfl, good x k1 _ hq1⟩
                | some y =>
                  obtain ⟨-, k2, hk2, hq2⟩ := hsat.snd y rfl
                  simp only at hk2
                  subst hk2
                  simp only [Option.map_some]
                  split_ifs
                  · exact ⟨_, rfl, good x k1 _ hq1⟩
                  · exact ⟨_, rfl, good y k2 _ hq2⟩
  · -- convex
    cases D with
    | none => simp [Sphere.new, checkRAndD] at hm
    | some D =>
      have hD : D ≠ 0 := fun e => hD (by rw [e])
      simp only [Sphere.new, checkRAndD, bind, Except.bind, pure, Except.pure] at hm
      obtain rfl := Except.ok.inj hm
      set s : Sphere ℝ := ⟨position, D / 2.0, D⟩ with hs
      have hR : s.R ≠ 0 := by simp [hs, lit2, hD]
      have hsat := sphere_sat s hR ray hd
      have el := lift_sphere_testIntersect s hR ray hd
      have e : ∀ v, [Shape.sphere s.lift].foldlM (sphereStep ray.lift) v = sphereStep ray.lift v (.sphere s.lift) := by
        intro v
        rw [List.foldlM_cons]
        cases sphereStep ray.lift v (.sphere s.lift) <;> rfl
      unfold Mirror.testIntersect Mirror.lift
      simp only [h4, show ("circular_convex_spherical" = "circular_flat" ∨
            "circular_convex_spherical" = "rectangular_flat") = False by simp,
            show ("circular_convex_spherical" = "circular_concave_spherical") = False by simp, if_false, if_true,
            List.map_cons, List.map_nil, Shape.lift, e]
      simp only [sphereStep, bind, Except.bind, pure, Except.pure, bound, el]
      cases hq : (s.testIntersect ray).lift.hit with
      | false =>
        simp only [Bool.false_eq_true, if_false]
        exact ⟨_, rfl, fun h => (by cases h)⟩
      | true =>
        obtain ⟨x, k, mm, ex, hx⟩ := sphereUpdate_sat (Q := fun x n => ∃ y k, x = y.lift ∧ n = k.lift ∧
            (Prim.sphere s).Point ray y k) ray.lift (s.testIntersect ray).lift
            (hit6_lift_exact hsat) hq (by rintro z n ⟨y, k, rfl, rfl, -⟩; exact ltInf_fin _ _)
        · obtain ⟨y, k', rfl, rfl, p1, p2, tt, p3, p4⟩ := hx
          simp only [if_true, ex]
          refine ⟨_, rfl, fun _ => ⟨_, _, rfl, rfl, .inr ⟨y, -k', rfl, by rw [lift_neg], ?_, ⟨tt, p3, p4.imp_right fun hh =>
              ⟨.sphere s, by simp [Optic.prims, Shape.prims], p2, hh⟩⟩, fun l e => (by cases e), fun g e => (by cases e)⟩⟩⟩
          rw [dot_neg_left, dot_neg_right, neg_neg]; exact p1

theorem lens_good {l : Lens ℝ} (h : (Optic.lens l).WellFormed) (ray : Ray ℝ)
    (hd : dot ray.direction ray.direction = 1) :
    ∃ r, l.lift.testIntersect ray.lift = .ok r ∧ r.Good (.lens l) ray := by
  cases h with
  | lens hn hn' hD hi hl ideal =>
  rename_i position n shape D w hh f type index
  unfold Lens.new at hl
  simp only [bind, Except.bind, pure, Except.pure] at hl
  split_ifs at hl with h1 h2
  · cases n with
    | none => exact absurd rfl (hn' h1)
    | some n =>
      have hn : n ≠ ⟨0, 0, 0⟩ := fun e => hn (by rw [e])
      cases hC : Circle.new position (some n) none D with
      | error e => rw [hC] at hl; cases hl
      | ok C =>
        rw [hC] at hl
        obtain rfl := Except.ok.inj hl
        obtain ⟨hit, e1, e2, hF, e3⟩ := circle_flatHit hn hC ray hd
        obtain ⟨v, ev⟩ := flat_lift hF false (.circle C.lift)
          (by show (do return IntersectResult.three (← C.lift.testIntersect ray.lift)) = _; rw [e2]; rfl)
          (circle_normalAttr e3) (some none)
        refine ⟨⟨hit.hit, hit.pt.map V3.lift, hit.normal.map V3.lift, .bool true⟩, ?_,
          flat_good hn hF (fun l e _ => by cases e; exact ⟨rfl, rfl⟩) (fun g e => by cases e) _⟩
        unfold Lens.testIntersect Lens.lift
        simp only [h1, if_true, List.map_cons, List.map_nil, Shape.lift]
        rw [ev]; rfl
  · cases D with
    | none => simp [Sphere.new, checkRAndD] at hl
    | some D =>
      have hD : D ≠ 0 := fun e => hD (by rw [e])
      simp only [Sphere.new, checkRAndD, bind, Except.bind, pure, Except.pure] at hl
      obtain rfl := Except.ok.inj hl
      have hni := fun h => h1 (ideal h).1
      set s : Sphere ℝ := ⟨position, D / 2.0, D⟩ with hs
      have hR : s.R ≠ 0 := by simp [hs, lit2, hD]
      have hsat := sphere_sat s hR ray hd
      have el := lift_sphere_testIntersect s hR ray hd
      have e : ∀ v, [Shape.sphere s.lift].foldlM (lensSphereStep ray.lift) v
          = lensSphereStep ray.lift v (.sphere s.lift) := by
        intro v
        rw [List.foldlM_cons]
        cases lensSphereStep ray.lift v (.sphere s.lift) <;> rfl
      unfold Lens.testIntersect Lens.lift
      simp only [h2, show ("spherical" = "spherical_biconvex") = False by simp, if_false, if_true,
            List.map_cons, List.map_nil, Shape.lift, e]
      simp only [lensSphereStep, bind, Except.bind, pure, Except.pure, bound, el]
      cases hq : (s.testIntersect ray).lift.hit with
      | false =>
        simp only [Bool.false_eq_true, if_false]
        exact ⟨_, rfl, fun h => (by cases h)⟩
      | true =>
        obtain ⟨x, k, mm, ex, hx⟩ := sphereUpdate_sat (Q := fun x n => ∃ y k, x = y.lift ∧ n = k.lift ∧
            (Prim.sphere s).Point ray y k) ray.lift (s.testIntersect ray).lift
            (hit6_lift_exact hsat) hq (by rintro z n ⟨y, k, rfl, rfl, -⟩; exact ltInf_fin _ _)
        · obtain ⟨y, k', rfl, rfl, p1, p2, tt, p3, p4⟩ := hx
          simp only [if_true, ex]
          refine ⟨_, rfl, fun _ => ⟨_, _, rfl, rfl, .inr ⟨y, -k', rfl, by rw [lift_neg], ?_, ⟨tt, p3, p4.imp_right fun hh =>
              ⟨.sphere s, by simp [Optic.prims, Shape.prims], p2, hh⟩⟩, fun l e hi => ?_, fun g e => (by cases e)⟩⟩⟩
          · rw [dot_neg_left, dot_neg_right, neg_neg]; exact p1
          · cases e; exact absurd hi hni

theorem grating_good {g : Grating ℝ} (h : (Optic.grating g).WellFormed) (ray : Ray ℝ)
    (hd : dot ray.direction ray.direction = 1) :
    ∃ r, g.lift.testIntersect ray.lift = .ok r ∧ r.Good (.grating g) ray := by
  cases h with
  | grating hn ht hg =>
  rename_i position n t shape w hh G
  unfold Grating.new at hg
  simp only [bind, Except.bind, pure, Except.pure] at hg
  split_ifs at hg with h1
  cases hC : Rectangle.new position n t hh w with
  | error e => rw [hC] at hg; cases hg
  | ok C =>
    rw [hC] at hg
    obtain rfl := Except.ok.inj hg
    obtain ⟨e2, hF, e3⟩ := rectangle_flatHit hn hC ray hd
    obtain ⟨v, ev⟩ := flat_lift hF false (.rectangle C.lift)
      (by show Except.ok (IntersectResult.three (C.lift.testIntersect ray.lift)) = _; rw [e2])
      (by simp [Shape.normalAttr, Rectangle.lift, e3]) none
    refine ⟨⟨(C.testIntersect ray).hit, (C.testIntersect ray).pt.map V3.lift,
      (C.testIntersect ray).normal.map V3.lift, .none⟩, ?_,
      flat_good hn hF (fun l e => by cases e) (fun g e => by cases e; rfl) _⟩
    unfold Grating.testIntersect Grating.lift
    simp only [h1, or_true, if_true, List.map_cons, List.map_nil, Shape.lift]
    rw [ev]; rfl

theorem detector_good {d : Detector ℝ} (h : (Optic.detector d).WellFormed) (ray : Ray ℝ)
    (hd : dot ray.direction ray.direction = 1) :
    ∃ r, d.lift.testIntersect ray.lift = .ok r ∧ r.Good (.detector d) ray := by
  cases h with
  | detector hn ht hg =>
  rename_i id position n t shape w hh
  unfold Detector.new at hg
  simp only [bind, Except.bind, pure, Except.pure] at hg
  split_ifs at hg with h1
  cases hC : Rectangle.new position n t hh w with
  | error e => rw [hC] at hg; cases hg
  | ok C =>
    rw [hC] at hg
    obtain rfl := Except.ok.inj hg
    obtain ⟨e2, hF, e3⟩ := rectangle_flatHit hn hC ray hd
    obtain ⟨v, ev⟩ := flat_lift hF false (.rectangle C.lift)
      (by show Except.ok (IntersectResult.three (C.lift.testIntersect ray.lift)) = _; rw [e2])
      (by simp [Shape.normalAttr, Rectangle.lift, e3]) none
    refine ⟨⟨(C.testIntersect ray).hit, (C.testIntersect ray).pt.map V3.lift,
      (C.testIntersect ray).normal.map V3.lift, .none⟩, ?_,
      flat_good hn hF (fun l e => by cases e) (fun g e => by cases e) _⟩
    unfold Detector.testIntersect Detector.lift
    simp only [h1, or_true, if_true, List.map_cons, List.map_nil, Shape.lift]
    rw [ev]; rfl

/-- Every primitive of a well-formed compound answers, with points of that compound. -/
theorem compound_prims {e : Csg (Prim ℝ)} {behavior : String} {index : ℝ} (he : e.All Prim.WellFormed) (ray : Ray ℝ)
    (hd : dot ray.direction ray.direction = 1) (p : Prim ℝ) (hp : e.Mem p) :
    ∃ r, p.toShape.lift.testIntersect ray.lift = .ok (.six r) ∧
      r.Sat (Finitely (HitFacts (.compound ⟨e.tree, behavior, index⟩) ray)) := by
  obtain ⟨r, er, hr⟩ := prim_sat p (csg_mem_all e he p hp) ray hd
  have conv : ∀ x n, Finitely (p.Point ray) x n →
      Finitely (HitFacts (.compound ⟨e.tree, behavior, index⟩) ray) x n := by
    rintro x n (h | ⟨y, k, rfl, rfl, p1, p2, tt, p3, p4⟩)
    · exact .inl h
    · exact .inr ⟨y, k, rfl, rfl, p1, ⟨tt, p3, p4.imp_right fun hh => ⟨p, csg_prims e p hp, p2, hh⟩⟩,
        fun l e => (by cases e), fun g e => (by cases e)⟩
  refine ⟨r, er, hr.hit, fun x hx => ?_, fun x hx => ?_⟩
  · obtain ⟨n, hn, hq⟩ := hr.fst x hx
    exact ⟨n, hn, conv _ _ hq⟩
  · obtain ⟨h1, n, hn, hq⟩ := hr.snd x hx
    exact ⟨h1, n, hn, conv _ _ hq⟩

theorem six_good {o : Optic ℝ} {ray : Ray ℝ} {r : Hit6 XR} (hr : r.Sat (Finitely (HitFacts o ray))) (sfo : Sfo) :
    Hit4.Good o ray ⟨r.hit, r.pt1, r.n1, sfo⟩ := by
  intro hh
  cases hp : r.pt1 with
  | none => exact absurd hp (hr.hit hh)
  | some x =>
    obtain ⟨n, hn, hq⟩ := hr.fst x hp
    exact ⟨x, n, rfl, hn, hq⟩

/-- Every answer of a well-formed optic is good. -/
theorem test_good {o : Optic ℝ} (h : o.WellFormed) (ray : Ray ℝ) (hd : dot ray.direction ray.direction = 1)
    {r : Hit4 XR} (hr : o.lift.testIntersect ray.lift = .ok r) : r.Good o ray := by
  cases o with
  | base => cases h
  | block => cases h
  | annotation => cases hr
  | filter => cases hr
  | window => cases hr
  | mirror m =>
    obtain ⟨r', e, g⟩ := mirror_good h ray hd
    rw [show (Optic.mirror m).lift.testIntersect ray.lift = m.lift.testIntersect ray.lift from rfl, e] at hr
    cases hr; exact g
  | lens m =>
    obtain ⟨r', e, g⟩ := lens_good h ray hd
    rw [show (Optic.lens m).lift.testIntersect ray.lift = m.lift.testIntersect ray.lift from rfl, e] at hr
    cases hr; exact g
  | grating m =>
    obtain ⟨r', e, g⟩ := grating_good h ray hd
    rw [show (Optic.grating m).lift.testIntersect ray.lift = m.lift.testIntersect ray.lift from rfl, e] at hr
    cases hr; exact g
  | detector m =>
    obtain ⟨r', e, g⟩ := detector_good h ray hd
    rw [show (Optic.detector m).lift.testIntersect ray.lift = m.lift.testIntersect ray.lift from rfl, e] at hr
    cases hr; exact g
  | compound c =>
    cases h with
    | compound he hb hi =>
    rename_i e behavior index
    change (Compound.mk e.tree.lift behavior (XR.fin index)).testIntersect ray.lift = _ at hr
    unfold Compound.testIntersect at hr
    simp only [bind, Except.bind, pure, Except.pure] at hr
    cases ht : testTreeIntersect e.tree.lift ray.lift with
    | error e => rw [ht] at hr; cases hr
    | ok res =>
      obtain ⟨q, rfl, hq⟩ := csg_sat ray.lift e (compound_prims (behavior := behavior) (index := index) he ray hd) res ht
      rw [ht] at hr
      obtain rfl := Except.ok.inj hr
      exact six_good hq _

/-- Every well-formed optic answers, unless it is skipped or a compound with a `difference`. -/
theorem test_returns {o : Optic ℝ} (h : o.WellFormed) (hs : o.skipped = false) (hn : o.NoDifference) (ray : Ray ℝ)
    (hd : dot ray.direction ray.direction = 1) : ∃ r, o.lift.testIntersect ray.lift = .ok r := by
  cases o with
  | base => cases h
  | block => cases h
  | annotation => cases hs
  | filter => cases hs
  | window => cases hs
  | mirror m => obtain ⟨r', e, g⟩ := mirror_good h ray hd; exact ⟨r', e⟩
  | lens m => obtain ⟨r', e, g⟩ := lens_good h ray hd; exact ⟨r', e⟩
  | grating m => obtain ⟨r', e, g⟩ := grating_good h ray hd; exact ⟨r', e⟩
  | detector m => obtain ⟨r', e, g⟩ := detector_good h ray hd; exact ⟨r', e⟩
  | compound c =>
    obtain ⟨e, he, hno, hw⟩ := hn c rfl
    obtain ⟨r, er, -⟩ := csg_returns ray.lift e hno
      (compound_prims (behavior := c.surfaceBehavior) (index := c.index) hw ray hd)
    refine ⟨⟨r.hit, r.pt1, r.n1, .bool (decide (r.count % 2 = 0))⟩, ?_⟩
    show (Compound.mk c.tree.lift c.surfaceBehavior (XR.fin c.index)).testIntersect ray.lift = _
    rw [he]
    unfold Compound.testIntersect
    rw [er]
    rfl

end Optics
