import Verif.Spec.LightPaths
import Verif.Lemmas.PlaneMirrors
import Verif.Props.PlaneMirrors
import Verif.Lemmas.BallHit

/-!
# Runs along light paths
-/

namespace Optics
open V3

theorem heading_toE (v w : Vertex) :
    heading v w = ((distanceBetween v.point w.point)⁻¹ * (w.point - v.point) : V3 ℝ).toE := by
  rw [heading, toE_smul, toE_sub, dist_toE_eq]
  rfl

theorem norm_heading {v w : Vertex} (h : 0 < dist v.point.toE w.point.toE) : ‖heading v w‖ = 1 := by
  rw [heading, _root_.norm_smul, norm_inv, Real.norm_eq_abs, abs_of_pos h, dist_comm, dist_eq_norm, inv_mul_cancel₀]
  rw [dist_comm, dist_eq_norm] at h
  exact h.ne'

theorem heading_comm (v w : Vertex) : heading w v = -heading v w := by
  rw [heading, heading, dist_comm, ← smul_neg, neg_sub]

/-- A ray along a leg. -/
theorem leg_at {v w : Vertex} (h : 0 < dist v.point.toE w.point.toE) {r : Ray ℝ} (hp : r.position = v.point)
    (hd : r.direction.toE = heading v w) : r.at (dist v.point.toE w.point.toE) = w.point := by
  apply toE_injective
  rw [at_eq, toE_add, toE_smul, hd, hp, heading, smul_smul, mul_inv_cancel₀ h.ne', one_smul]
  abel

theorem leg_segment {v w : Vertex} {r : Ray ℝ} (hp : r.position = v.point)
    (hd : r.direction.toE = heading v w) {t : ℝ} (h0 : 0 ≤ t) (h1 : t ≤ dist v.point.toE w.point.toE) :
    (r.at t).toE ∈ segment ℝ v.point.toE w.point.toE := by
  rw [segment_eq_image']
  refine ⟨t / dist v.point.toE w.point.toE, ⟨by positivity, div_le_one_of_le₀ h1 dist_nonneg⟩, ?_⟩
  rw [at_eq, toE_add, toE_smul, hd, hp, heading, smul_smul, div_eq_mul_inv]

theorem Leg.symm {optics : List (Optic ℝ)} {v w : Vertex} (h : Leg optics v w) : Leg optics w v where
  long := by rw [dist_comm]; exact h.long
  clear o ho x hx hc := by
    rw [segment_symm] at hx
    exact (h.clear o ho x hx hc).symm

theorem Leg.pos {optics : List (Optic ℝ)} {v w : Vertex} (h : Leg optics v w) : 0 < dist v.point.toE w.point.toE := by
  have := h.long
  norm_num at this
  linarith

theorem Reflected.reverse {n d d' : E3} (hd : ‖d‖ = 1) (h : Reflected n d d') : Reflected n (-d') (-d) where
  unit := by rw [_root_.norm_neg, hd]
  normalReversed := by
    have := h.normalReversed
    rw [hd, one_mul] at this
    rw [_root_.norm_neg, h.unit, inner_neg_left, inner_neg_left, this]; ring
  surfaceKept u hu := by
    have := h.surfaceKept u hu
    rw [hd, one_mul] at this
    rw [_root_.norm_neg, h.unit, inner_neg_left, inner_neg_left, this]; ring

theorem Bend.symm {optics : List (Optic ℝ)} {u v w : Vertex} (huv : Leg optics u v) (h : Bend optics u v w) :
    Bend optics w v u := by
  obtain ⟨o, c, n, h1, h2, h3, h4, h5, h6⟩ := h
  have hu := norm_heading huv.pos
  refine ⟨o, c, n, h1, h2, h3, h4, ?_, ?_⟩
  · have := h6.normalReversed
    rw [hu, one_mul] at this
    rw [heading_comm, inner_neg_right, abs_neg, real_inner_comm, this, abs_neg, real_inner_comm]
    exact h5
  · rw [heading_comm v w, heading_comm u v]
    exact h6.reverse hu

theorem LightPath.reverse {optics : List (Optic ℝ)} {path : List Vertex} (h : LightPath optics path) :
    LightPath optics path.reverse where
  leg v w hi := (h.leg w v (by rw [← List.reverse_infix]; exact hi)).symm
  bend u v w hi := by
    have hi' : [w, v, u] <:+: path := by rw [← List.reverse_infix]; exact hi
    refine Bend.symm (h.leg w v ?_) (h.bend w v u hi')
    exact List.IsInfix.trans ⟨[], [u], rfl⟩ hi'

theorem LightPath.tail {optics : List (Optic ℝ)} {v : Vertex} {path : List Vertex} (h : LightPath optics (v :: path)) :
    LightPath optics path where
  leg a b hi := h.leg a b (hi.trans (List.suffix_cons v path).isInfix)
  bend a b c hi := h.bend a b c (hi.trans (List.suffix_cons v path).isInfix)

/-- A pass does not raise in a scene of plane mirrors. -/
theorem plane_returns {md : ℝ} {optics : List (Optic ℝ)} (hw : ∀ o ∈ optics, ∃ c n, o.PlaneMirror c n) {r : Ray ℝ} {ρ : ℝ}
    {log : List (DetHit ℝ)} {s : RunState XR} (hs : Sane r ρ log s) :
    ∃ s', runStep (.fin md) (optics.map Optic.lift) s = .next s' := by
  cases h : runStep (.fin md) (optics.map Optic.lift) s with
  | next s' => exact ⟨s', rfl⟩
  | raised e s' =>
    obtain ⟨-, o, ho, hno, -⟩ := raise_sane (fun o ho => by
      obtain ⟨c, n, h⟩ := hw o ho
      exact h.wellFormed) hs h
    obtain ⟨c, n, hp⟩ := hw o ho
    exact absurd (fun c e => by cases hp; cases e) hno

/-- A mirror in reach lies on the ray. -/
theorem Optic.PlaneMirror.inReach {c n : V3 ℝ} {o : Optic ℝ} (h : o.PlaneMirror c n) {r : Ray ℝ}
    (hd : dot r.direction r.direction = 1) {ρ d : ℝ} {x k : V3 ℝ} (hr : o.InReach r ρ d x k) :
    k = unitVector n ∧ 1e-9 < d ∧ x = r.at d ∧ o.CanBeHit x := by
  obtain ⟨rfl, h1, h2, t, ht, rfl⟩ := h.reports hd hr.reports
  have ht0 : 0 < t := by norm_num at ht; linarith
  have : d = t := by
    rw [← hr.dist_eq, dist_toE_eq]
    change distanceBetween _ _ = _
    rw [dist_at r hd, abs_of_pos ht0]
  subst this
  exact ⟨rfl, ht, rfl, ((h.reports_iff hd ht).mp hr.reports).2⟩

/-- The last leg of a path. -/
theorem leg_free {md : ℝ} {optics : List (Optic ℝ)} (hw : ∀ o ∈ optics, ∃ c n, o.PlaneMirror c n) {v w : Vertex}
    (h : Leg optics v w) (hend : w.mirror = none) {r : Ray ℝ} (hp : r.position = v.point) (hd : r.direction.toE = heading v w)
    {s : RunState XR} (hs : Sane r (dist v.point.toE w.point.toE) [] s) :
    ∃ s', runStep (.fin md) (optics.map Optic.lift) s = .next s' ∧ s'.ray = (r.movedTo w.point).lift ∧
      s'.remaining = .fin (dist v.point.toE w.point.toE - md) ∧ s'.log = [] ∧ s'.interactions = s.interactions := by
  obtain ⟨s', e⟩ := plane_returns (md := md) hw hs
  refine ⟨s', e, ?_⟩
  rcases step_nearest (fun o ho => by
      obtain ⟨c, n, h⟩ := hw o ho
      exact h.wellFormed) hs e with ⟨-, h1, h2, h3, h4⟩ | ⟨l1, o, l2, d, x, n, rfl, hr, -⟩
  · rw [leg_at h.pos hp hd] at h1
    exact ⟨h1, h2, by rw [h3, hs.log]; rfl, h4⟩
  · exfalso
    obtain ⟨c, m, hpm⟩ := hw o (by simp)
    obtain ⟨-, h1, rfl, h3⟩ := hpm.inReach hs.unit hr
    have h0 : 0 < d := by norm_num at h1; linarith
    rcases h.clear o (by simp) (r.at d) (leg_segment hp hd h0.le hr.inReach) h3 with ⟨e, -⟩ | ⟨-, e⟩
    · have := hr.dist_eq
      rw [e, ← hp, dist_self] at this
      linarith
    · rw [hend] at e; cases e

/-- A leg that ends at a mirror. -/
theorem leg_bend {md : ℝ} {optics : List (Optic ℝ)} (hw : ∀ o ∈ optics, ∃ c n, o.PlaneMirror c n) {v w w' : Vertex}
    (h : Leg optics v w) (hb : Bend optics v w w') {r : Ray ℝ} (hp : r.position = v.point)
    (hd : r.direction.toE = heading v w) (hty : r.type ≠ "faerie_fire") {ρ : ℝ} (hρ : dist v.point.toE w.point.toE ≤ ρ)
    {s : RunState XR} (hs : Sane r ρ [] s) :
    ∃ s' d', runStep (.fin md) (optics.map Optic.lift) s = .next s' ∧
      Sane { r.movedTo w.point with direction := d' } (ρ - dist v.point.toE w.point.toE) [] s' ∧ d'.toE = heading w w' ∧
      s'.interactions = s.interactions + 1 := by
  obtain ⟨o, c, n, hm, ho, hpm, hcan, hst, href⟩ := hb
  have hn := hpm.normal_ne
  have hreach : o.InReach r ρ (dist v.point.toE w.point.toE) w.point (unitVector n) := by
    refine ⟨by cases hpm; rfl, ?_, by rw [hp], ?_, hρ⟩
    · have e := leg_at h.pos hp hd
      rw [← e, hpm.reports_iff hs.unit h.long, e]
      refine ⟨?_, hcan⟩
      rw [← hd, inner_toE, ← unit_smul_norm hn, dot_smul_left, abs_mul, unit_smul_norm hn, abs_of_pos (norm_pos hn),
        norm_toE, mul_comm (1e-9 : ℝ)] at hst
      exact lt_of_mul_lt_mul_left hst (norm_pos hn).le
    · have := h.long
      norm_num at this ⊢
      linarith
  obtain ⟨s', e⟩ := plane_returns (md := md) hw hs
  rcases step_nearest (fun o ho => by
      obtain ⟨c, n, h⟩ := hw o ho
      exact h.wellFormed) hs e with ⟨h1, -⟩ | ⟨l1, o', l2, d, x, k, rfl, hr, h1, h2, h3, h4, h5, -⟩
  · exact absurd hreach (h1 o ho _ _ _)
  · have hle : d ≤ dist v.point.toE w.point.toE := by
      rcases List.mem_append.mp ho with ho | ho
      · exact (h1 o ho _ _ _ hreach).le
      · rcases List.mem_cons.mp ho with rfl | ho
        · obtain ⟨sfo, e1⟩ := hr.reports
          obtain ⟨sfo', e2⟩ := hreach.reports
          rw [e1] at e2
          simp only [Except.ok.injEq, Hit4.mk.injEq, Option.some.injEq] at e2
          rw [← hr.dist_eq, lift_inj e2.2.1, hp]
        · exact h2 o ho _ _ _ hreach
    obtain ⟨c', n', hpm'⟩ := hw o' (by simp)
    obtain ⟨rfl, g1, rfl, g3⟩ := hpm'.inReach hs.unit hr
    have h0 : 0 < d := by norm_num at g1; linarith
    have hx : r.at d = w.point ∧ o = o' := by
      rcases h.clear o' (by simp) (r.at d) (leg_segment hp hd h0.le hle) g3 with ⟨e, -⟩ | ⟨e, e'⟩
      · exfalso
        have := hr.dist_eq
        rw [e, ← hp, dist_self] at this
        linarith
      · rw [hm] at e'
        exact ⟨e, Option.some.inj e'⟩
    obtain ⟨hx, rfl⟩ := hx
    have hdd : d = dist v.point.toE w.point.toE := by rw [← hr.dist_eq, hx, hp]
    have hk : unitVector n = unitVector n' := by
      obtain ⟨-, -, a3, -⟩ := hpm.inReach hs.unit hreach
      have q := hreach.reports
      obtain ⟨q1, -⟩ := hpm'.reports hs.unit q
      exact q1
    obtain ⟨sfo, hits, h6, h7⟩ := h5 hty
    rw [hpm.acts (y := r.movedTo (r.at d)) hs.unit (unit_dot hpm'.normal_ne)] at h6
    simp only [Except.ok.injEq, Prod.mk.injEq] at h6
    refine ⟨s', specular r.direction (unitVector n'), e, ⟨?_, by rw [h3, hdd], ?_, ?_⟩, ?_, h4⟩
    · rw [← h6.1, hx]; rfl
    · rw [h7, ← h6.2, hs.log]; rfl
    · show dot (specular _ _) (specular _ _) = 1
      rw [specular_eq (ne_zero_of_dot_one hs.unit) (ne_zero_of_dot_one (unit_dot hpm'.normal_ne))]
      exact specular_unit (ne_zero_of_dot_one hs.unit) (ne_zero_of_dot_one (unit_dot hpm'.normal_ne))
    · rw [← hk]
      have hu : dot (unitVector n) (unitVector n) = 1 := unit_dot hn
      have hr0 : r.direction ≠ ⟨0, 0, 0⟩ := ne_zero_of_dot_one hs.unit
      have a := specular_reflected hr0 (ne_zero_of_dot_one hu)
      have hn0 : n.toE ≠ 0 := by rw [← norm_ne_zero_iff, norm_toE]; exact (norm_pos hn).ne'
      have hd0 : r.direction.toE ≠ 0 := by rw [← norm_ne_zero_iff, norm_toE]; exact (norm_pos hr0).ne'
      rw [show (unitVector n).toE = (1 / norm n) • n.toE by rw [unitVector_eq, toE_smul]] at a
      refine Reflected.unique hn0 hd0 (Reflected.of_smul ?_ a) (by rw [hd]; exact href)
      have := (norm_pos hn).ne'
      positivity

end Optics
