import Verif.Spec.PlaneMirrors
import Verif.Spec.Drawing
import Verif.Lemmas.NanRun
import Verif.Lemmas.NearestX

/-!
# Plane mirrors in the run loop
-/

namespace Optics
open V3

theorem planeImage_apply (c n : V3 ℝ) (x : E3) :
    planeImage c n x = x - (2 * (inner ℝ (x - c.toE) n.toE / ‖n.toE‖ ^ 2)) • n.toE := by
  have hc : c.toE ∈ AffineSubspace.mk' c.toE (ℝ ∙ n.toE)ᗮ := AffineSubspace.self_mem_mk' _ _
  unfold planeImage
  have e := EuclideanGeometry.reflection_apply_of_mem (𝕜 := ℝ) (AffineSubspace.mk' c.toE (ℝ ∙ n.toE)ᗮ) (p := x) hc
  have : ∀ (K : Submodule ℝ E3) (h : K = (ℝ ∙ n.toE)ᗮ) (v : E3), K.reflection v = (ℝ ∙ n.toE)ᗮ.reflection v := by
    rintro K rfl v; rfl
  rw [this _ (AffineSubspace.direction_mk' _ _), Submodule.reflection_orthogonal_apply,
    Submodule.reflection_singleton_apply] at e
  refine e.trans ?_
  simp only [vsub_eq_sub, vadd_eq_add, real_inner_comm n.toE, RCLike.ofReal_real_eq_id, id_eq, two_smul]
  module

/-- The mirror image in the coordinates of the model. -/
theorem planeImage_toE (c n : V3 ℝ) (hn : n ≠ ⟨0, 0, 0⟩) (x : V3 ℝ) :
    planeImage c n x.toE = (x - (2 * dot (x - c) (unitVector n)) * unitVector n).toE := by
  rw [planeImage_apply, toE_sub, toE_smul, ← toE_sub, inner_toE, norm_toE, unitVector_eq, dot_smul_right, toE_smul, smul_smul]
  have := (norm_pos hn).ne'
  congr 2
  field_simp

/-- A ray that has been reflected at a point of the plane runs along the mirror image of its line. -/
theorem planeImage_line {c n : V3 ℝ} (hn : n ≠ ⟨0, 0, 0⟩) (r : Ray ℝ) (hd : dot r.direction r.direction = 1) {τ : ℝ}
    (hp : dot (r.at τ - c) (unitVector n) = 0) (t : ℝ) :
    planeImage c n (r.at (τ + t)).toE = (r.at τ + t * specular r.direction (unitVector n)).toE := by
  have hu := unit_dot hn
  rw [planeImage_toE c n hn, specular_eq_unit hd hu]
  have e : dot (r.at (τ + t) - c) (unitVector n) = t * dot r.direction (unitVector n) := by
    have : r.at (τ + t) - c = (r.at τ - c) + t * r.direction := by
      simp only [at_eq]
      ext <;> simp only [sub_x, sub_y, sub_z, add_x, add_y, add_z, smul_x, smul_y, smul_z] <;> ring
    rw [this, dot_add_left, hp, dot_smul_left, zero_add]
  rw [e]
  congr 1
  simp only [at_eq]
  ext <;> simp only [sub_x, sub_y, sub_z, add_x, add_y, add_z, smul_x, smul_y, smul_z] <;> ring

theorem Optic.PlaneMirror.wellFormed {c n : V3 ℝ} {o : Optic ℝ} (h : o.PlaneMirror c n) : o.WellFormed := by
  cases h with
  | mk hs hn ht hdmd hD hf hm => exact .mirror (fun e => hn (Option.some.inj e)) ht hdmd hD hf hm

theorem Optic.PlaneMirror.normal_ne {c n : V3 ℝ} {o : Optic ℝ} (h : o.PlaneMirror c n) : n ≠ ⟨0, 0, 0⟩ := by
  cases h with
  | mk hs hn ht hdmd hD hf hm => exact hn

/-- The test of a plane mirror, in real numbers and in numpy: a flat hit in the part `Q` of the plane. -/
structure PlaneTest (o : Optic ℝ) (c n : V3 ℝ) (Q : V3 ℝ → Prop) (r : Ray ℝ) (hit : Hit3 ℝ) : Prop where
  flat : FlatHit c n r hit
  numpy : o.lift.testIntersect r.lift = .ok ⟨hit.hit, hit.pt.map V3.lift, hit.normal.map V3.lift, .none⟩
  real : o.testIntersect r = .ok ⟨hit.hit, hit.pt, hit.normal, .none⟩
  iff : ∀ t, 1e-9 < t → 1e-9 < |dot (unitVector n) r.direction| → dot (r.at t - c) (unitVector n) = 0 →
    (hit.hit = true ↔ Q (r.at t))

/-- The test of the plane itself. -/
theorem plane_at_iff {c n : V3 ℝ} (hn : n ≠ ⟨0, 0, 0⟩) {r : Ray ℝ} (hd : dot r.direction r.direction = 1) {t : ℝ} (ht : 1e-9 < t)
    (hs : 1e-9 < |dot (unitVector n) r.direction|) (h : dot (r.at t - c) (unitVector n) = 0) :
    (Plane.new c n).testIntersect r = ⟨true, some (r.at t), some (unitVector n)⟩ := by
  have h0 : dot (unitVector n) r.direction ≠ 0 := by
    intro e; rw [e, abs_zero] at hs; norm_num at hs
  have e : dot (c - r.position) (unitVector n) = t * dot (unitVector n) r.direction := by
    rw [at_eq] at h
    simp only [dot, sub_x, sub_y, sub_z, add_x, add_y, add_z, smul_x, smul_y, smul_z] at h ⊢
    linarith
  rw [plane_eq c n hn r hd, if_pos hs, e, mul_div_cancel_right₀ _ h0, if_pos ht]
  rfl

theorem Optic.PlaneMirror.test {c n : V3 ℝ} {o : Optic ℝ} (h : o.PlaneMirror c n) :
    ∃ Q : V3 ℝ → Prop, ∀ r : Ray ℝ, dot r.direction r.direction = 1 → ∃ hit, PlaneTest o c n Q r hit := by
  cases h with
  | mk hs hn ht hdmd hD hf hm =>
  rename_i shape t D w hh f dmd m
  unfold Mirror.new at hm
  simp only [need, bind, Except.bind, pure, Except.pure] at hm
  rcases hs with rfl | rfl
  · rw [if_pos rfl] at hm
    cases hC : Circle.new c (some n) none D with
    | error e => rw [hC] at hm; cases hm
    | ok C =>
      rw [hC] at hm
      obtain rfl := Except.ok.inj hm
      refine ⟨fun x => distanceBetween x C.center < C.R, fun r hd => ?_⟩
      obtain ⟨hit, e1, e2, hF, e3⟩ := circle_flatHit hn hC r hd
      obtain ⟨v, ev⟩ := flat_lift hF true (.circle C.lift)
        (by show (do return IntersectResult.three (← C.lift.testIntersect r.lift)) = _; rw [e2]; rfl)
        (circle_normalAttr e3) none
      obtain ⟨v', ev'⟩ := flat_single true r (.circle C) hit none
        (by show (do return IntersectResult.three (← C.testIntersect r)) = _; rw [e1]; rfl)
        (fun hh => by obtain ⟨-, t, -, e, -⟩ := hF.hit hh; exact ⟨_, e, rfl⟩) (fun hh => (hF.miss hh).1)
        (fun _ hh => by
          obtain ⟨-, t, -, -, e, -⟩ := hF.hit hh
          unfold Shape.normalAttr
          simp only [e3, e])
      refine ⟨hit, hF, ?_, ?_, fun t ht hsl hon => ?_⟩
      · show Mirror.testIntersect _ _ = _
        unfold Mirror.testIntersect Mirror.lift
        simp only [true_or, if_true, List.map_cons, List.map_nil, Shape.lift]
        rw [ev]; rfl
      · show Mirror.testIntersect _ _ = _
        unfold Mirror.testIntersect
        simp only [true_or, if_true]
        rw [ev']; rfl
      · obtain ⟨-, -, h3, -⟩ := circle_new_ok hC
        unfold Circle.testIntersect at e1
        rw [h3] at e1
        simp only [Option.map_some, plane_at_iff hn hd ht hsl hon] at e1
        split_ifs at e1 with hq <;> obtain rfl := Except.ok.inj e1 <;> simp [hq, Hit3.miss]
  · rw [if_neg (by decide), if_pos rfl] at hm
    cases t with
    | none => cases hm
    | some t =>
      simp only at hm
      cases hC : Rectangle.new c n t hh w with
      | error e => rw [hC] at hm; cases hm
      | ok C =>
        rw [hC] at hm
        obtain rfl := Except.ok.inj hm
        refine ⟨fun M => ((0.0 : ℝ) ≤ dot (C.bounds1 - C.bounds0) (M - C.bounds0) ∧
            dot (C.bounds1 - C.bounds0) (M - C.bounds0) ≤ dot (C.bounds1 - C.bounds0) (C.bounds1 - C.bounds0)) ∧
          ((0.0 : ℝ) ≤ dot (C.bounds2 - C.bounds1) (M - C.bounds1) ∧
            dot (C.bounds2 - C.bounds1) (M - C.bounds1) ≤ dot (C.bounds2 - C.bounds1) (C.bounds2 - C.bounds1)), fun r hd => ?_⟩
        obtain ⟨e2, hF, e3⟩ := rectangle_flatHit hn hC r hd
        obtain ⟨v, ev⟩ := flat_lift hF true (.rectangle C.lift)
          (by show Except.ok (IntersectResult.three (C.lift.testIntersect r.lift)) = _; rw [e2])
          (by simp [Shape.normalAttr, Rectangle.lift, e3]) none
        obtain ⟨v', ev'⟩ := flat_single true r (.rectangle C) (C.testIntersect r) none rfl
          (fun hh => by obtain ⟨-, t, -, e, -⟩ := hF.hit hh; exact ⟨_, e, rfl⟩) (fun hh => (hF.miss hh).1)
          (fun _ hh => by
            obtain ⟨-, t, -, -, e, -⟩ := hF.hit hh
            unfold Shape.normalAttr
            simp only [e3, e])
        refine ⟨C.testIntersect r, hF, ?_, ?_, fun t ht hsl hon => ?_⟩
        · show Mirror.testIntersect _ _ = _
          unfold Mirror.testIntersect Mirror.lift
          simp only [or_true, if_true, List.map_cons, List.map_nil, Shape.lift]
          rw [ev]; rfl
        · show Mirror.testIntersect _ _ = _
          unfold Mirror.testIntersect
          simp only [or_true, if_true]
          rw [ev']; rfl
        · obtain ⟨-, -, -, -, -, -, -, -, -, h2, -⟩ := rectangle_new_ok hC
          unfold Rectangle.testIntersect
          rw [h2]
          simp only [plane_at_iff hn hd ht hsl hon]
          split_ifs with h1 h2
          · exact ⟨fun _ => ⟨h1, h2⟩, fun _ => rfl⟩
          · exact ⟨(fun h => by cases h), fun h => absurd h.2 h2⟩
          · exact ⟨(fun h => by cases h), fun h => absurd h.1 h1⟩

/-- What a plane mirror reports. -/
theorem Optic.PlaneMirror.reports {c n : V3 ℝ} {o : Optic ℝ} (h : o.PlaneMirror c n) {r : Ray ℝ}
    (hd : dot r.direction r.direction = 1) {x k : V3 ℝ} (hr : o.Reports r x k) :
    k = unitVector n ∧ 1e-9 < |dot (unitVector n) r.direction| ∧ dot (x - c) (unitVector n) = 0 ∧
      ∃ t, 1e-9 < t ∧ x = r.at t := by
  obtain ⟨sfo, hr⟩ := hr
  obtain ⟨Q, h⟩ := h.test
  obtain ⟨hit, h⟩ := h r hd
  rw [h.numpy] at hr
  simp only [Except.ok.injEq, Hit4.mk.injEq] at hr
  obtain ⟨e1, e2, e3, -⟩ := hr
  obtain ⟨h1, t, ht, f1, f2, f3⟩ := h.flat.hit e1
  rw [f1, Option.map_some] at e2
  rw [f2, Option.map_some] at e3
  have e2' := lift_inj (Option.some.inj e2)
  have e3' := lift_inj (Option.some.inj e3)
  exact ⟨e3'.symm, h1, by rw [← e2']; exact f3, t, ht, e2'.symm⟩

/-- The hit test of a plane mirror, in numpy, in terms of the points at which it can be hit. -/
theorem Optic.PlaneMirror.reports_iff {c n : V3 ℝ} {o : Optic ℝ} (h : o.PlaneMirror c n) {r : Ray ℝ}
    (hd : dot r.direction r.direction = 1) {t : ℝ} (ht : 1e-9 < t) :
    o.Reports r (r.at t) (unitVector n) ↔ 1e-9 < |dot (unitVector n) r.direction| ∧ o.CanBeHit (r.at t) := by
  obtain ⟨Q, hQ⟩ := h.test
  have hcan : ∀ x, o.CanBeHit x → dot (x - c) (unitVector n) = 0 ∧ Q x := by
    rintro x ⟨y, hy, res, h1, h2, h3⟩
    rw [norm_toE, norm_eq_one_iff] at hy
    obtain ⟨hit, H⟩ := hQ y hy
    rw [H.real] at h1
    obtain rfl := Except.ok.inj h1
    simp only at h2 h3
    obtain ⟨g1, u, hu, f1, f2, f3⟩ := H.flat.hit h2
    obtain rfl : _ = x := Option.some.inj (f1.symm.trans h3)
    exact ⟨f3, (H.iff u hu g1 f3).mp h2⟩
  constructor
  · intro hr
    obtain ⟨-, h1, h2, -⟩ := h.reports hd hr
    refine ⟨h1, r, by rw [norm_toE, norm_eq_one_iff]; exact hd, ?_⟩
    obtain ⟨hit, H⟩ := hQ r hd
    obtain ⟨sfo, hr⟩ := hr
    rw [H.numpy] at hr
    simp only [Except.ok.injEq, Hit4.mk.injEq] at hr
    obtain ⟨e1, e2, e3, -⟩ := hr
    refine ⟨_, H.real, e1, ?_⟩
    obtain ⟨-, u, -, f1, -⟩ := H.flat.hit e1
    rw [f1, Option.map_some] at e2
    rw [f1, lift_inj (Option.some.inj e2)]
  · rintro ⟨h1, h2⟩
    obtain ⟨hon, hq⟩ := hcan _ h2
    obtain ⟨hit, H⟩ := hQ r hd
    have hh := (H.iff t ht h1 hon).mpr hq
    obtain ⟨-, u, -, f1, f2, f3⟩ := H.flat.hit hh
    have hut : u = t := by
      have h0 : dot (unitVector n) r.direction ≠ 0 := by
        intro e; rw [e, abs_zero] at h1; norm_num at h1
      have : (u - t) * dot (unitVector n) r.direction = 0 := by
        rw [at_eq] at f3 hon
        simp only [dot, sub_x, sub_y, sub_z, add_x, add_y, add_z, smul_x, smul_y, smul_z] at f3 hon ⊢
        linarith
      exact sub_eq_zero.mp ((mul_eq_zero.mp this).resolve_right h0)
    refine ⟨.none, ?_⟩
    rw [H.numpy, hh, f1, f2, hut]; rfl

theorem Optic.PlaneMirror.on_plane {c n : V3 ℝ} {o : Optic ℝ} (h : o.PlaneMirror c n) {x : V3 ℝ} (hx : o.CanBeHit x) :
    dot (x - c) (unitVector n) = 0 := by
  obtain ⟨Q, hQ⟩ := h.test
  obtain ⟨y, hy, res, h1, h2, h3⟩ := hx
  rw [norm_toE, norm_eq_one_iff] at hy
  obtain ⟨hit, H⟩ := hQ y hy
  rw [H.real] at h1
  obtain rfl := Except.ok.inj h1
  simp only at h2 h3
  obtain ⟨g1, u, hu, f1, f2, f3⟩ := H.flat.hit h2
  obtain rfl : _ = x := Option.some.inj (f1.symm.trans h3)
  exact f3

/-- What a plane mirror does. -/
theorem Optic.PlaneMirror.acts {c n : V3 ℝ} {o : Optic ℝ} (h : o.PlaneMirror c n) {y : Ray ℝ}
    (hd : dot y.direction y.direction = 1) {k : V3 ℝ} (hk : dot k k = 1) (x : V3 XR) (sfo : Sfo) :
    o.lift.doIntersect y.lift x (some k.lift) sfo = .ok ({ y with direction := specular y.direction k }.lift, []) := by
  cases h with
  | mk hs hn ht hdmd hD hf hm =>
  rename_i shape t D w hh f dmd m
  obtain ⟨e1, e2⟩ := mirror_new_facts hm
  show (do return (← m.lift.doIntersect y.lift x (some k.lift), [])) = _
  unfold Mirror.doIntersect
  rw [if_pos (show m.lift.type = "normal" from e1)]
  obtain ⟨e, hu⟩ := lift_reflect hd hk ⟨x, none, none, none, none⟩
  rw [e]; rfl

/-- The ray after reflection by a plane mirror with normal `n` at parameter `t`. -/
noncomputable def Ray.bounced (r : Ray ℝ) (n : V3 ℝ) (t : ℝ) : Ray ℝ :=
  { r.movedTo (r.at t) with direction := specular r.direction (unitVector n) }

/-- One pass in a scene of plane mirrors, whose planes are described by `Q`. -/
inductive PlaneStep (Q : MirrorPlane → Prop) (md : ℝ) (optics : List (Optic ℝ)) (r : Ray ℝ) (ρ : ℝ) (s s' : RunState XR) : Prop
  | free (h : Sane (r.movedTo (r.at ρ)) (ρ - md) [] s') (hi : s'.interactions = s.interactions)
  | hit (o : Optic ℝ) (c n : V3 ℝ) (t : ℝ) (ho : o ∈ optics) (hq : Q ⟨c, n⟩) (hp : o.PlaneMirror c n) (ht : 1e-9 < t) (ht' : t ≤ ρ)
      (hon : dot (r.at t - c) (unitVector n) = 0) (hs : 1e-9 < |dot (unitVector n) r.direction|)
      (hr : o.Reports r (r.at t) (unitVector n))
      (h : Sane (r.bounced n t) (ρ - t) [] s') (hi : s'.interactions = s.interactions + 1)

theorem plane_step {Q : MirrorPlane → Prop} {md : ℝ} {optics : List (Optic ℝ)}
    (hw : ∀ o ∈ optics, ∃ m, Q m ∧ o.PlaneMirror m.point m.normal) {r : Ray ℝ} {ρ : ℝ}
    {s s' : RunState XR} (hs : Sane r ρ [] s) (hty : r.type ≠ "faerie_fire")
    (h : runStep (.fin md) (optics.map Optic.lift) s = .next s') : PlaneStep Q md optics r ρ s s' := by
  have hw' : ∀ o ∈ optics, o.WellFormed := fun o ho => by
    obtain ⟨m, -, h⟩ := hw o ho
    exact h.wellFormed
  have hg : GratingsDiffractAt optics r := by
    intro g hg
    obtain ⟨m, -, h⟩ := hw _ hg
    cases h
  rcases step_sane hw' hs hg h with ⟨h1, hi⟩ | ⟨o, x, k, d, b, rows, ho, hk, ht, hm, hf, hd1, hd2, ha, h1, hi⟩
  · exact .free h1 hi
  · obtain ⟨⟨c, n⟩, hq, hp⟩ := hw o ho
    obtain ⟨rfl, h2, h3, t, h4, rfl⟩ := hp.reports hs.unit ht
    have ht0 : 0 < t := by norm_num at h4 ⊢; linarith
    have hdist : dist r.position.toE (r.at t).toE = t := by
      rw [dist_toE_eq]
      change distanceBetween _ _ = _
      rw [dist_at r hs.unit, abs_of_pos ht0]
    rw [hdist] at hm h1 hd2
    refine .hit o c n t ho hq hp h4 hd2 h3 h2 ht ?_ hi
    obtain ⟨sfo, e⟩ := hm hty
    rw [hp.acts (y := r.movedTo (r.at t)) hs.unit (unit_dot hp.normal_ne)] at e
    simp only [Except.ok.injEq, Prod.mk.injEq] at e
    refine ⟨e.1.symm, h1.remaining, ?_, ?_⟩
    · have := h1.log
      rw [List.nil_append, ← e.2] at this
      exact this
    · show dot (specular _ _) (specular _ _) = 1
      rw [specular_eq (ne_zero_of_dot_one hs.unit) (ne_zero_of_dot_one (unit_dot hp.normal_ne))]
      exact specular_unit (ne_zero_of_dot_one hs.unit) (ne_zero_of_dot_one (unit_dot hp.normal_ne))

end Optics
