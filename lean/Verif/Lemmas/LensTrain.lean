import Verif.Spec.LensTrain
import Verif.Lemmas.LightPaths
import Verif.Lemmas.Concrete

/-!
# Runs along an optical bench
-/

namespace Optics
open V3

/-! ## The hit test of flat optics -/

/-- An optic with one flat surface, the part `Q` of the plane through `c` perpendicular to `n`. -/
structure FlatOptic (o : Optic ℝ) (c n : V3 ℝ) (Q : V3 ℝ → Prop) : Prop where
  wellFormed : o.WellFormed
  notSkipped : o.skipped = false
  noPrims : o.prims = []
  noDifference : o.NoDifference
  reports : ∀ r : Ray ℝ, dot r.direction r.direction = 1 → ∀ x k, o.Reports r x k ↔
    k = unitVector n ∧ 1e-9 < |dot (unitVector n) r.direction| ∧
      ∃ t, 1e-9 < t ∧ x = r.at t ∧ dot (x - c) (unitVector n) = 0 ∧ Q x

/-- From the hit test of the surface. -/
theorem flat_reports {o : Optic ℝ} {c n : V3 ℝ} {Q : V3 ℝ → Prop} {r : Ray ℝ} (hd : dot r.direction r.direction = 1)
    (hn : n ≠ ⟨0, 0, 0⟩) {hit : Hit3 ℝ} (hF : FlatHit c n r hit) {sfo : Sfo}
    (he : o.lift.testIntersect r.lift = .ok ⟨hit.hit, hit.pt.map V3.lift, hit.normal.map V3.lift, sfo⟩)
    (hQ : ∀ t, (Plane.new c n).testIntersect r = ⟨true, some (r.at t), some (unitVector n)⟩ →
      (hit.hit = true ↔ Q (r.at t))) (x k : V3 ℝ) :
    o.Reports r x k ↔ k = unitVector n ∧ 1e-9 < |dot (unitVector n) r.direction| ∧
      ∃ t, 1e-9 < t ∧ x = r.at t ∧ dot (x - c) (unitVector n) = 0 ∧ Q x := by
  constructor
  · rintro ⟨sfo', hr⟩
    rw [he] at hr
    simp only [Except.ok.injEq, Hit4.mk.injEq] at hr
    obtain ⟨e1, e2, e3, -⟩ := hr
    obtain ⟨h1, t, ht, f1, f2, f3⟩ := hF.hit e1
    rw [f1, Option.map_some] at e2
    rw [f2, Option.map_some] at e3
    have e2' := lift_inj (Option.some.inj e2)
    have e3' := lift_inj (Option.some.inj e3)
    subst e2' e3'
    exact ⟨rfl, h1, t, ht, rfl, f3, (hQ t (plane_at_iff hn hd ht h1 f3)).mp e1⟩
  · rintro ⟨rfl, h1, t, ht, rfl, hon, hq⟩
    have hh := (hQ t (plane_at_iff hn hd ht h1 hon)).mpr hq
    obtain ⟨-, u, -, f1, f2, f3⟩ := hF.hit hh
    have hut : u = t := by
      have h0 : dot (unitVector n) r.direction ≠ 0 := by
        intro e; rw [e, abs_zero] at h1; norm_num at h1
      have : (u - t) * dot (unitVector n) r.direction = 0 := by
        rw [at_eq] at f3 hon
        simp only [dot, sub_x, sub_y, sub_z, add_x, add_y, add_z, smul_x, smul_y, smul_z] at f3 hon ⊢
        linarith
      exact sub_eq_zero.mp ((mul_eq_zero.mp this).resolve_right h0)
    refine ⟨sfo, ?_⟩
    rw [he, hh, f1, f2, hut]; rfl

/-- Lenses built from a disc. -/
theorem benchLens_flat {c n : V3 ℝ} (hn : n ≠ ⟨0, 0, 0⟩) {D f index : ℝ} (hD : D ≠ 0) (hf : f ≠ 0) (hi : 0 < index)
    {w h : Option ℝ} {type : String} {l : Lens ℝ}
    (hl : Lens.new c (some n) "spherical_biconvex" (some D) w h (some f) type index = .ok l) :
    FlatOptic (.lens l) c n (fun x => dist x.toE c.toE < D / 2) ∧ l.position = c ∧ l.normal = some (unitVector n) ∧
      l.f = some f ∧ l.type = type := by
  have hl' := hl
  simp only [Lens.new, bind, Except.bind, pure, Except.pure, if_true] at hl'
  cases hC : Circle.new c (some n) none (some D) with
  | error e => rw [hC] at hl'; cases hl'
  | ok C =>
  rw [hC] at hl'
  obtain rfl := Except.ok.inj hl'
  refine ⟨⟨?_, rfl, rfl, ?_, fun r hd => ?_⟩, rfl, rfl, rfl, rfl⟩
  · exact .lens (n := some n) (fun e => hn (Option.some.inj e)) (fun _ e => by cases e) (fun e => hD (Option.some.inj e))
      hi hl (fun _ => ⟨rfl, f, rfl, hf⟩)
  · intro c e; cases e
  · obtain ⟨h1, h2, h3, h4⟩ := circle_new_ok hC
    have hR : C.R = D / 2 := by
      simp only [checkRAndD, Except.ok.injEq, Prod.mk.injEq, lit2] at h4
      exact h4.1.symm
    obtain ⟨hit, e1, e2, hF, e3⟩ := circle_flatHit hn hC r hd
    obtain ⟨v, ev⟩ := flat_lift hF false (.circle C.lift)
      (by show (do return IntersectResult.three (← C.lift.testIntersect r.lift)) = _; rw [e2]; rfl)
      (circle_normalAttr e3) (some none)
    refine flat_reports hd hn hF (sfo := .bool true) ?_ fun t ht => ?_
    · show Lens.testIntersect _ _ = _
      unfold Lens.testIntersect Lens.lift
      simp only [if_true, List.map_cons, List.map_nil, Shape.lift]
      rw [ev]; rfl
    · unfold Circle.testIntersect at e1
      rw [h3] at e1
      simp only [Option.map_some, ht] at e1
      rw [h1, hR] at e1
      rw [dist_toE_eq]
      change _ ↔ distanceBetween _ _ < _
      split_ifs at e1 with hq <;> obtain rfl := Except.ok.inj e1 <;> simp [hq, Hit3.miss]

/-- Detectors. -/
theorem detector_flat {id : Nat} {c n t : V3 ℝ} (hn : n ≠ ⟨0, 0, 0⟩) (ht : t ≠ ⟨0, 0, 0⟩) {w h : ℝ} (hw : 0 < w) (hh : 0 < h)
    {d : Detector ℝ} (hg : Detector.new id c n t "rectangular_flat" (some w) (some h) = .ok d) :
    FlatOptic (.detector d) c n (fun x => |inner ℝ (x - c).toE (unitVector t).toE| ≤ h / 2 ∧
      |inner ℝ (x - c).toE (cross (unitVector n) (unitVector t)).toE| ≤
        w / 2 * ‖(cross (unitVector n) (unitVector t)).toE‖ ^ 2) ∧ d.id = id := by
  have hg' := hg
  simp only [Detector.new, bind, Except.bind, pure, Except.pure, if_true] at hg'
  cases hC : Rectangle.new c n t (some h) (some w) with
  | error e => rw [hC] at hg'; cases hg'
  | ok C =>
  rw [hC] at hg'
  obtain rfl := Except.ok.inj hg'
  refine ⟨⟨.detector hn ht hg, rfl, rfl, ?_, fun r hd => ?_⟩, rfl⟩
  · intro c e; cases e
  · obtain ⟨e2, hF, e3⟩ := rectangle_flatHit hn hC r hd
    obtain ⟨v, ev⟩ := flat_lift hF false (.rectangle C.lift)
      (by show Except.ok (IntersectResult.three (C.lift.testIntersect r.lift)) = _; rw [e2])
      (by simp [Shape.normalAttr, Rectangle.lift, e3]) none
    refine flat_reports hd hn hF (sfo := .none) ?_ fun s hs => ?_
    · show Detector.testIntersect _ _ = _
      unfold Detector.testIntersect Detector.lift
      simp only [or_true, if_true, List.map_cons, List.map_nil, Shape.lift]
      rw [ev]; rfl
    · obtain ⟨-, e1', e2', -, -, hc, hnn, htt, ht2, hp, b0, b1, b2, -⟩ := rectangle_new_ok hC
      have e1'' : C.h = h := (Option.some.inj e1').symm
      have e2'' : C.w = w := (Option.some.inj e2').symm
      have hut := unit_dot ht
      obtain ⟨w1, w2⟩ := rectangle_window (c := c) (u := C.tangent2) (t := C.tangent) (M := r.at s) (h := h) (w := w)
        (by rw [htt]; exact hut) (by rw [htt, ht2]; exact dot_cross_right _ _) hh hw
      unfold Rectangle.testIntersect
      rw [hp, hs]
      simp only [b0, b1, b2, e1'', e2'', lit0]
      rw [inner_toE, inner_toE, norm_toE, norm_sq, ← ht2, ← htt]
      split_ifs with q1 q2
      · exact ⟨fun _ => ⟨w2.mp q2, w1.mp q1⟩, fun _ => rfl⟩
      · exact ⟨(fun h => by cases h), fun h => absurd (w2.mpr h.1) q2⟩
      · exact ⟨(fun h => by cases h), fun h => absurd (w1.mpr h.2) q1⟩

/-! ## Bench coordinates -/

theorem BenchRay.Is.facts {b : Bench} (hb : dot b.axis b.axis = 1) {q : BenchRay} {r : Ray ℝ} (h : q.Is b r) :
    dot r.direction r.direction = 1 ∧ 0 < dot r.direction b.axis ∧
      r.direction = dot r.direction b.axis * (b.axis + q.slope) ∧ dot q.offset b.axis = 0 ∧ dot q.slope b.axis = 0 ∧
      dot r.direction b.axis * dot r.direction b.axis * (1 + dot q.slope q.slope) = 1 := by
  obtain ⟨h1, h2, ⟨κ, hκ, h3⟩, h4, h5⟩ := h
  rw [inner_toE] at h4 h5
  rw [norm_toE, norm_eq_one_iff] at h2
  have e : dot r.direction b.axis = κ := by
    rw [h3, dot_smul_left, dot_add_left, hb, h5]; ring
  refine ⟨h2, by rw [e]; exact hκ, by rw [e]; exact h3, h4, h5, ?_⟩
  have h6 := h2
  rw [h3] at h6
  simp only [dot_smul_left, dot_smul_right, dot_add_left, dot_add_right, hb, h5, dot_comm b.axis q.slope] at h6
  rw [e]
  linarith

theorem BenchRay.Is.at {b : Bench} (hb : dot b.axis b.axis = 1) {q : BenchRay} {r : Ray ℝ} (h : q.Is b r) (t : ℝ) :
    r.at t = b.point (q.height + t * dot r.direction b.axis) (q.at (q.height + t * dot r.direction b.axis)) := by
  obtain ⟨-, -, h3, -⟩ := h.facts hb
  rw [at_eq, h.position]
  conv_lhs => rw [h3]
  unfold Bench.point BenchRay.at
  ext <;> simp only [add_x, add_y, add_z, smul_x, smul_y, smul_z] <;> ring

theorem unit_axis {n : V3 ℝ} (hn : dot n n = 1) {c : ℝ} (hc : c ≠ 0) : unitVector (c * n) = n ∨ unitVector (c * n) = -n := by
  rcases lt_or_gt_of_ne hc with h | h
  · right
    have : c * n = (-c) * (-n) := by ext <;> simp
    rw [this, unitVector_smul (by linarith), unitVector_of_unit]
    rw [dot_neg_left, dot_neg_right, neg_neg]; exact hn
  · left
    rw [unitVector_smul h, unitVector_of_unit hn]

theorem BenchRay.offset_at {b : Bench} {q : BenchRay} (h1 : dot q.offset b.axis = 0) (h2 : dot q.slope b.axis = 0) (y : ℝ) :
    dot (q.at y) b.axis = 0 := by
  unfold BenchRay.at
  rw [dot_add_left, dot_smul_left, h1, h2]; ring

/-- The hit test of a flat optic across the axis. -/
theorem flat_bench {b : Bench} (hb : dot b.axis b.axis = 1) {q : BenchRay} {r : Ray ℝ} (h : q.Is b r) {o : Optic ℝ}
    {y c : ℝ} (hc : c ≠ 0) {Q : V3 ℝ → Prop} (ho : FlatOptic o (b.point y ⟨0, 0, 0⟩) (c * b.axis) Q) (x k : V3 ℝ) :
    o.Reports r x k ↔ k = unitVector (c * b.axis) ∧ 1e-9 < dot r.direction b.axis ∧
      1e-9 < (y - q.height) / dot r.direction b.axis ∧ x = b.point y (q.at y) ∧ Q x := by
  obtain ⟨h1, h2, h3, h4, h5, -⟩ := h.facts hb
  rw [ho.reports r h1]
  have ha : |dot (unitVector (c * b.axis)) r.direction| = dot r.direction b.axis := by
    rw [dot_comm]
    rcases unit_axis hb hc with e | e <;> rw [e]
    · exact abs_of_pos h2
    · rw [dot_neg_right, abs_neg]; exact abs_of_pos h2
  have hon : ∀ t, dot (r.at t - b.point y ⟨0, 0, 0⟩) (unitVector (c * b.axis)) = 0 ↔
      t * dot r.direction b.axis = y - q.height := by
    intro t
    have e : dot (r.at t - b.point y ⟨0, 0, 0⟩) b.axis = q.height + t * dot r.direction b.axis - y := by
      rw [h.at hb]
      generalize q.height + t * dot r.direction b.axis = z
      have := BenchRay.offset_at h4 h5 z
      have e2 : b.point z (q.at z) - b.point y ⟨0, 0, 0⟩ = (z - y) * b.axis + q.at z := by
        unfold Bench.point
        ext <;> simp only [sub_x, sub_y, sub_z, add_x, add_y, add_z, smul_x, smul_y, smul_z] <;> ring
      rw [e2, dot_add_left, dot_smul_left, hb, this]; ring
    rcases unit_axis hb hc with e' | e' <;> rw [e']
    · rw [e]; constructor <;> intro <;> linarith
    · rw [dot_neg_right, e]; constructor <;> intro <;> linarith
  rw [ha]
  refine and_congr_right fun _ => and_congr_right fun _ => ⟨?_, ?_⟩
  · rintro ⟨t, ht, rfl, h6, h7⟩
    have e := (hon t).mp h6
    refine ⟨by rw [← e, mul_div_cancel_right₀ _ h2.ne']; exact ht, ?_, h7⟩
    rw [h.at hb, e, add_sub_cancel]
  · rintro ⟨ht, rfl, h7⟩
    have e : (y - q.height) / dot r.direction b.axis * dot r.direction b.axis = y - q.height := div_mul_cancel₀ _ h2.ne'
    have e2 : r.at ((y - q.height) / dot r.direction b.axis) = b.point y (q.at y) := by
      rw [h.at hb, e, add_sub_cancel]
    refine ⟨_, ht, e2.symm, ?_, h7⟩
    rw [← e2]
    exact (hon _).mpr e

/-- One pass towards the nearest plane across the axis. -/
theorem bench_step {md : ℝ} {b : Bench} (hb : dot b.axis b.axis = 1) {optics : List (Optic ℝ)} {q : BenchRay} {r : Ray ℝ}
    (h : q.Is b r) {ρ : ℝ} {log : List (DetHit ℝ)} {s : RunState XR} (hs : Sane r ρ log s) (hty : r.type ≠ "faerie_fire")
    {y : ℝ} (hκ : 1e-9 < dot r.direction b.axis) (hy : q.height + 1e-9 < y) (hρ : (y - q.height) / dot r.direction b.axis ≤ ρ)
    (P : Optic ℝ → Prop)
    (hcl : ∀ o ∈ optics, ∃ (y' c : ℝ) (Q : V3 ℝ → Prop), c ≠ 0 ∧ FlatOptic o (b.point y' ⟨0, 0, 0⟩) (c * b.axis) Q ∧
      (y' ≤ q.height ∨ y < y' ∨ (y' = y ∧ P o)))
    (hex : ∃ o ∈ optics, ∃ (c : ℝ) (Q : V3 ℝ → Prop), c ≠ 0 ∧ FlatOptic o (b.point y ⟨0, 0, 0⟩) (c * b.axis) Q ∧ Q (b.point y (q.at y))) :
    ∃ s' o sfo k hits, runStep (.fin md) (optics.map Optic.lift) s = .next s' ∧ o ∈ optics ∧ P o ∧ dot k k = 1 ∧
      s'.remaining = .fin (ρ - (y - q.height) / dot r.direction b.axis) ∧ s'.interactions = s.interactions + 1 ∧
      o.lift.doIntersect (r.movedTo (b.point y (q.at y))).lift (b.point y (q.at y)).lift (some k.lift) sfo
        = .ok (s'.ray, hits) ∧ s'.log = s.log ++ hits := by
  obtain ⟨h1, h2, h3, h4, h5, h6⟩ := h.facts hb
  have hk1 : dot r.direction b.axis ≤ 1 := by
    have := dot_self_nonneg q.slope
    nlinarith
  have hlong : 1e-9 < (y - q.height) / dot r.direction b.axis := by
    rw [lt_div_iff₀ h2]
    have : (1e-9 : ℝ) * dot r.direction b.axis ≤ 1e-9 * 1 := mul_le_mul_of_nonneg_left hk1 (by norm_num)
    linarith
  have hdist : ∀ z, q.height ≤ z → dist r.position.toE (b.point z (q.at z)).toE = (z - q.height) / dot r.direction b.axis := by
    intro z hz
    have e2 : r.at ((z - q.height) / dot r.direction b.axis) = b.point z (q.at z) := by
      rw [h.at hb, div_mul_cancel₀ _ h2.ne', add_sub_cancel]
    rw [← e2, dist_toE_eq]
    change distanceBetween _ _ = _
    rw [dist_at r h1, abs_of_nonneg (div_nonneg (by linarith) h2.le)]
  have hw : ∀ o ∈ optics, o.WellFormed := fun o ho => by
    obtain ⟨y', c, Q, -, hF, -⟩ := hcl o ho
    exact hF.wellFormed
  obtain ⟨s', e⟩ : ∃ s', runStep (.fin md) (optics.map Optic.lift) s = .next s' := by
    cases hr : runStep (.fin md) (optics.map Optic.lift) s with
    | next s' => exact ⟨s', rfl⟩
    | raised e s' =>
      obtain ⟨-, o, ho, hno, -⟩ := raise_sane hw hs hr
      obtain ⟨y', c, Q, -, hF, -⟩ := hcl o ho
      exact absurd hF.noDifference hno
  obtain ⟨o0, ho0, c0, Q0, hc0, hF0, hQ0⟩ := hex
  have hy' : q.height ≤ y := by norm_num at hy; linarith
  have hreach : o0.InReach r ρ ((y - q.height) / dot r.direction b.axis) (b.point y (q.at y)) (unitVector (c0 * b.axis)) := by
    refine ⟨hF0.notSkipped, (flat_bench hb h hc0 hF0 _ _).mpr ⟨rfl, hκ, hlong, rfl, hQ0⟩, hdist y hy', ?_, hρ⟩
    norm_num at hlong ⊢
    linarith
  rcases step_nearest hw hs e with ⟨g1, -⟩ | ⟨l1, o, l2, d, x, k, rfl, hr, g1, g2, g3, g4, g5, -⟩
  · exact absurd hreach (g1 o0 ho0 _ _ _)
  · have hle : d ≤ (y - q.height) / dot r.direction b.axis := by
      rcases List.mem_append.mp ho0 with ho | ho
      · exact (g1 o0 ho _ _ _ hreach).le
      · rcases List.mem_cons.mp ho with rfl | ho
        · obtain ⟨sfo, e1⟩ := hr.reports
          obtain ⟨sfo', e2⟩ := hreach.reports
          rw [e1] at e2
          simp only [Except.ok.injEq, Hit4.mk.injEq, Option.some.injEq] at e2
          rw [← hr.dist_eq, lift_inj e2.2.1, hreach.dist_eq]
        · exact g2 o0 ho _ _ _ hreach
    obtain ⟨y', c, Q, hc, hF, hcase⟩ := hcl o (by simp)
    obtain ⟨rfl, -, f1, rfl, f2⟩ := (flat_bench hb h hc hF _ _).mp hr.reports
    have hpos : 0 < (y' - q.height) / dot r.direction b.axis := by norm_num at f1; linarith
    have hyy : q.height < y' := by
      have := mul_pos hpos h2
      rw [div_mul_cancel₀ _ h2.ne'] at this
      linarith
    have hdd : d = (y' - q.height) / dot r.direction b.axis := by rw [← hr.dist_eq, hdist y' hyy.le]
    have hle' : y' ≤ y := by
      rw [hdd, div_le_div_iff_of_pos_right h2] at hle
      linarith
    rcases hcase with hcase | hcase | ⟨rfl, hP⟩
    · linarith
    · linarith
    · obtain ⟨sfo, hits, k1, k2⟩ := g5 hty
      have e2 : r.at d = b.point y' (q.at y') := by
        rw [hdd, h.at hb, div_mul_cancel₀ _ h2.ne', add_sub_cancel]
      rw [e2] at k1
      refine ⟨s', o, sfo, _, hits, e, by simp, hP, ?_, by rw [g3, hdd], g4, k1, k2⟩
      rcases unit_axis hb hc with e | e <;> rw [e]
      · exact hb
      · rw [dot_neg_left, dot_neg_right, neg_neg]; exact hb

/-! ## The lenses -/

theorem BenchRay.Is.direction_eq {b : Bench} (hb : dot b.axis b.axis = 1) {q : BenchRay} {r : Ray ℝ} (h : q.Is b r) :
    r.direction = unitVector (b.axis + q.slope) := by
  obtain ⟨h1, h2, h3, -⟩ := h.facts hb
  rw [← unitVector_of_unit h1]
  conv_lhs => rw [h3]
  rw [unitVector_smul h2]

theorem axis_add_ne {b : Bench} (hb : dot b.axis b.axis = 1) {u : V3 ℝ} (hu : dot u b.axis = 0) : b.axis + u ≠ ⟨0, 0, 0⟩ := by
  intro e
  have : dot (b.axis + u) b.axis = 1 := by rw [dot_add_left, hb, hu, add_zero]
  rw [e] at this
  simp [dot] at this

theorem unitVector_toE (v : V3 ℝ) : (unitVector v).toE = ‖v.toE‖⁻¹ • v.toE := by
  rw [unitVector_eq, toE_smul, norm_toE, one_div]

/-- The tolerance test of the tracer. -/
theorem nearAxis_iff (b : Bench) (u : V3 ℝ) :
    b.NearAxis u ↔ allclose (unitVector (b.axis + u)) b.axis 1e-10 atolDefault = true := by
  unfold Bench.NearAxis
  rw [← unitVector_toE]
  simp only [allclose, isclose, Bool.and_eq_true, decide_eq_true_eq, real_abs, atolDefault, Fin.forall_fin_succ]
  simp only [V3.toE, and_assoc]
  constructor
  · rintro ⟨h1, h2, h3, -⟩
    exact ⟨decide_eq_true h1, decide_eq_true h2, decide_eq_true h3⟩
  · rintro ⟨h1, h2, h3⟩
    exact ⟨of_decide_eq_true h1, of_decide_eq_true h2, of_decide_eq_true h3, fun i => i.elim0⟩

theorem slope_bound {κ S : ℝ} (h0 : 0 < κ) (h : κ * κ * (1 + S) = 1) (hS : S ≤ 1e14) : 1e-8 < κ := by
  by_contra hc
  have hc := not_lt.mp hc
  have : κ * κ ≤ 1e-8 * 1e-8 := mul_le_mul hc hc h0.le (by norm_num)
  norm_num at this hS
  nlinarith [mul_pos h0 h0]

theorem BenchRay.Is.steep {b : Bench} (hb : dot b.axis b.axis = 1) {q : BenchRay} {r : Ray ℝ} (h : q.Is b r)
    (hu : ‖q.slope.toE‖ ≤ 1e7) : 1e-8 < dot r.direction b.axis := by
  obtain ⟨-, h2, -, -, -, h6⟩ := h.facts hb
  refine slope_bound h2 h6 ?_
  rw [norm_toE] at hu
  rw [← norm_mul_self]
  have := norm_nonneg q.slope
  have := mul_le_mul hu hu this (by norm_num)
  norm_num at this ⊢
  exact this

theorem Optic.LensAt.flat {b : Bench} (hb : dot b.axis b.axis = 1) {e : BenchLens} {o : Optic ℝ} (h : o.LensAt b e)
    (hf : e.f ≠ 0) (hD : e.D ≠ 0) : ∃ c : ℝ, c ≠ 0 ∧
      FlatOptic o (b.point e.height ⟨0, 0, 0⟩) (c * b.axis)
        (fun x => dist x.toE (b.point e.height ⟨0, 0, 0⟩).toE < e.D / 2) := by
  cases h with
  | @mk c index w h l hc hi hl =>
  refine ⟨c, hc, (benchLens_flat ?_ hD hf hi hl).1⟩
  intro e
  rcases unit_axis hb hc with h | h
  · have := dot_smul_left c b.axis b.axis
    rw [e, hb] at this
    simp [dot] at this
    exact hc this.symm
  · have := dot_smul_left c b.axis b.axis
    rw [e, hb] at this
    simp [dot] at this
    exact hc this.symm

theorem orientedNormal_axis {n d : V3 ℝ} {m : V3 ℝ} (hm : m = n ∨ m = -n) (hd : 0 < dot d n) : orientedNormal m d = n := by
  unfold orientedNormal
  rw [lit0]
  rcases hm with rfl | rfl
  · rw [if_neg (by rw [dot_comm]; linarith)]
  · rw [if_pos (by rw [dot_neg_left, dot_comm]; linarith), neg_neg']

/-- What a lens does. -/
theorem Optic.LensAt.acts {b : Bench} (hb : dot b.axis b.axis = 1) {e : BenchLens} {o : Optic ℝ} (h : o.LensAt b e)
    (hf : 0 < e.f) (hD : e.D ≠ 0) {q : BenchRay} {r : Ray ℝ} (hq : q.Is b r) (hκ : 1e-8 < dot r.direction b.axis) (k : V3 XR) (sfo : Sfo) :
    o.lift.doIntersect (r.movedTo (b.point e.height (q.at e.height))).lift (b.point e.height (q.at e.height)).lift (some k) sfo
      = .ok ({ r.movedTo (b.point e.height (q.at e.height)) with
          direction := unitVector (b.axis + (b.through q e).slope) }.lift, []) := by
  cases h with
  | @mk c index w h l hc hi hl =>
  have hn0 : (c * b.axis : V3 ℝ) ≠ ⟨0, 0, 0⟩ := by
    intro e
    have := dot_smul_left c b.axis b.axis
    rw [e, hb] at this
    simp [dot] at this
    exact hc this.symm
  obtain ⟨-, l1, l2, l3, l4⟩ := benchLens_flat hn0 hD hf.ne' hi hl
  obtain ⟨h1, h2, h3, h4, h5, h6⟩ := hq.facts hb
  have hoff := BenchRay.offset_at h4 h5 e.height
  set X := b.point e.height (q.at e.height) with hX
  have hm := unit_axis hb hc
  have hmu : dot (unitVector (c * b.axis)) (unitVector (c * b.axis)) = 1 := unit_dot hn0
  have hXP : X - b.point e.height ⟨0, 0, 0⟩ = q.at e.height := by
    rw [hX]; unfold Bench.point
    ext <;> simp only [sub_x, sub_y, sub_z, add_x, add_y, add_z, smul_x, smul_y, smul_z] <;> ring
  have hplane : dot (X - b.point e.height ⟨0, 0, 0⟩) (unitVector (c * b.axis)) = 0 := by
    rw [hXP]
    rcases hm with e' | e' <;> rw [e']
    · exact hoff
    · rw [dot_neg_right, hoff, neg_zero]
  obtain ⟨d', ed, hud, er⟩ := lift_thinLens (d := r.direction) h1 hmu hf.ne' hplane
  have habs : |dot r.direction (unitVector (c * b.axis))| = dot r.direction b.axis := by
    rcases hm with e' | e' <;> rw [e']
    · exact abs_of_pos h2
    · rw [dot_neg_right, abs_neg]; exact abs_of_pos h2
  rw [thinLens_eq h1 hmu (by rw [habs]; exact hκ), orientedNormal_axis hm h2, habs, hXP] at er
  have hd' : d' = unitVector (b.axis + (b.through q e).slope) := by
    have hna := nearAxis_iff b q.slope
    rw [← hq.direction_eq hb] at hna
    unfold Bench.through
    simp only
    rw [← unitVector_smul hf]
    split_ifs at er with hcl
    · rw [if_pos (hna.mpr hcl)]
      rw [← Except.ok.inj er]
      congr 1
      ext <;> simp only [sub_x, sub_y, sub_z, add_x, add_y, add_z, smul_x, smul_y, smul_z] <;> field_simp <;> ring
    · rw [if_neg (fun hh => hcl (hna.mp hh))]
      rw [← Except.ok.inj er]
      congr 1
      obtain ⟨κ, hk⟩ : ∃ κ, κ = dot r.direction b.axis := ⟨_, rfl⟩
      rw [← hk] at h2 h3 ⊢
      rw [h3]
      ext <;> simp only [sub_x, sub_y, sub_z, add_x, add_y, add_z, smul_x, smul_y, smul_z] <;> field_simp <;> ring
  subst hd'
  show (do return (← l.lift.doIntersect _ _ _ _, [])) = _
  have a0 : l.lift.type = "ideal" := l4
  have a1 : l.lift.normal = some (unitVector (c * b.axis)).lift := by show l.normal.map _ = _; rw [l2]; rfl
  have a2 : l.lift.f = some (XR.fin e.f) := by show l.f.map _ = _; rw [l3]; rfl
  have a3 : l.lift.position = (b.point e.height ⟨0, 0, 0⟩).lift := by show l.position.lift = _; rw [l1]
  unfold Lens.doIntersect
  rw [if_pos a0]
  unfold Ray.refract
  rw [if_pos rfl]
  simp only [a1, a2, a3, need, bind, Except.bind]
  have p1 : (r.movedTo X).lift.position = X.lift := rfl
  have p2 : (r.movedTo X).lift.direction = r.direction.lift := rfl
  rw [p1, p2, ed]
  rfl

theorem dot_zero_left (v : V3 ℝ) : dot ⟨0, 0, 0⟩ v = 0 := by simp [dot]

theorem Bench.through_slope {b : Bench} {q : BenchRay} {e : BenchLens} (h1 : dot q.offset b.axis = 0)
    (h2 : dot q.slope b.axis = 0) : dot (b.through q e).slope b.axis = 0 := by
  unfold Bench.through
  simp only
  rw [dot_sub_left, dot_smul_left, BenchRay.offset_at h1 h2]
  split_ifs
  · rw [dot_zero_left]; ring
  · rw [h2]; ring

/-- The ray behind a lens. -/
theorem through_is {b : Bench} (hb : dot b.axis b.axis = 1) {q : BenchRay} {r : Ray ℝ} (hq : q.Is b r) (e : BenchLens) :
    (b.through q e).Is b { r.movedTo (b.point e.height (q.at e.height)) with
          direction := unitVector (b.axis + (b.through q e).slope) } := by
  obtain ⟨h1, h2, h3, h4, h5, h6⟩ := hq.facts hb
  have hs := Bench.through_slope (e := e) h4 h5
  have h0 := axis_add_ne hb hs
  refine ⟨rfl, ?_, ⟨1 / norm (b.axis + (b.through q e).slope), one_div_pos.mpr (norm_pos h0), ?_⟩, ?_, ?_⟩
  · rw [norm_toE]; exact unit_norm h0
  · exact unitVector_eq _
  · rw [inner_toE]; exact BenchRay.offset_at h4 h5 e.height
  · rw [inner_toE]; exact hs

theorem Bench.Crosses.props {b : Bench} : ∀ {es : List BenchLens} {q : BenchRay}, b.Crosses q es →
    ∀ e ∈ es, q.height + 1e-9 < e.height ∧ 0 < e.f ∧ 0 < e.D
  | [], _, _, e, he => by cases he
  | e0 :: es, q, ⟨h1, h2, h3, h4, h5⟩, e, he => by
    rcases List.mem_cons.mp he with rfl | he
    · refine ⟨h1, h2, ?_⟩
      have := _root_.norm_nonneg (q.at e.height).toE
      linarith
    · obtain ⟨g1, g2, g3⟩ := h5.props e he
      refine ⟨?_, g2, g3⟩
      have : (b.through q e0).height = e0.height := rfl
      rw [this] at g1
      norm_num at h1 g1 ⊢
      linarith

/-- A scene of lenses on the bench, which ahead of the ray are `es`, and then detectors, at `Y` or higher. -/
def Bench.Scene (b : Bench) (optics : List (Optic ℝ)) (q : BenchRay) (es : List BenchLens) (Y : ℝ) : Prop :=
  ∀ o ∈ optics, (∃ e ∈ es, o.LensAt b e) ∨ (∃ e : BenchLens, e.height ≤ q.height ∧ e.f ≠ 0 ∧ e.D ≠ 0 ∧ o.LensAt b e) ∨
    ∃ Y' id t w h, Y ≤ Y' ∧ 0 < w ∧ 0 < h ∧ o.DetectorAt b Y' id t w h

theorem Optic.DetectorAt.flat {b : Bench} (hb : dot b.axis b.axis = 1) {Y : ℝ} {id : Nat} {t : V3 ℝ} {w h : ℝ} (hw : 0 < w)
    (hh : 0 < h) {o : Optic ℝ} (ho : o.DetectorAt b Y id t w h) : ∃ (c : ℝ) (Q : V3 ℝ → Prop), c ≠ 0 ∧
      FlatOptic o (b.point Y ⟨0, 0, 0⟩) (c * b.axis) Q ∧
      ∀ x, dot x b.axis = 0 → (Q (b.point Y x) ↔ b.Within t w h x) := by
  cases ho with
  | @mk c d hc ht hp hd =>
  have hn0 : (c * b.axis : V3 ℝ) ≠ ⟨0, 0, 0⟩ := by
    intro e
    have := dot_smul_left c b.axis b.axis
    rw [e, hb] at this
    simp [dot] at this
    exact hc this.symm
  refine ⟨c, _, hc, (detector_flat hn0 ht hw hh hd).1, fun x hx => ?_⟩
  have e1 : b.point Y x - b.point Y ⟨0, 0, 0⟩ = x := by
    unfold Bench.point
    ext <;> simp only [sub_x, sub_y, sub_z, add_x, add_y, add_z] <;> ring
  have htp := norm_pos ht
  have hcr : |inner ℝ x.toE (cross (unitVector (c * b.axis)) (unitVector t)).toE|
      = |inner ℝ x.toE (cross b.axis t).toE| / norm t := by
    have : cross (unitVector (c * b.axis)) (unitVector t) = (1 / norm t) * cross (unitVector (c * b.axis)) t := by
      rw [unitVector_eq t]
      ext <;> simp only [cross, smul_x, smul_y, smul_z] <;> ring
    rw [this, inner_toE, inner_toE, dot_smul_right, abs_mul, abs_of_pos (by positivity), one_div, inv_mul_eq_div]
    congr 1
    rcases unit_axis hb hc with e | e <;> rw [e]
    rw [← abs_neg]
    congr 1
    simp only [dot, cross, neg_x, neg_y, neg_z]; ring
  have hnn : ‖(cross (unitVector (c * b.axis)) (unitVector t)).toE‖ ^ 2 = 1 := by
    rw [norm_toE, norm_sq, cross_dot_self, unit_dot hn0, unit_dot ht]
    rw [inner_toE] at hp
    have : dot (unitVector (c * b.axis)) (unitVector t) = 0 := by
      rw [unitVector_eq t, dot_smul_right]
      rcases unit_axis hb hc with e | e <;> rw [e]
      · rw [hp, mul_zero]
      · rw [dot_neg_left, hp]; ring
    rw [this]; ring
  simp only [e1, hcr, hnn]
  unfold Bench.Within
  rw [unitVector_eq, toE_smul, inner_smul_right, abs_mul, abs_of_pos (by positivity), one_div, inv_mul_eq_div, norm_toE,
    div_le_iff₀ htp, div_le_iff₀ htp, mul_one]

/-- The length of a leg on the bench. -/
theorem BenchRay.Is.leg {b : Bench} (hb : dot b.axis b.axis = 1) {q : BenchRay} {r : Ray ℝ} (h : q.Is b r) {z : ℝ}
    (hz : q.height ≤ z) : dist r.position.toE (b.point z (q.at z)).toE = (z - q.height) / dot r.direction b.axis := by
  obtain ⟨h1, h2, -⟩ := h.facts hb
  have e2 : r.at ((z - q.height) / dot r.direction b.axis) = b.point z (q.at z) := by
    rw [h.at hb, div_mul_cancel₀ _ h2.ne', add_sub_cancel]
  rw [← e2, dist_toE_eq]
  change distanceBetween _ _ = _
  rw [dist_at r h1, abs_of_nonneg (div_nonneg (by linarith) h2.le)]

theorem sane_continues {r : Ray ℝ} {ρ : ℝ} {log : List (DetHit ℝ)} {s : RunState XR} (hs : Sane r ρ log s) (hρ : 0 < ρ)
    (hb : r.blocked = false) : s.continues none = true := by
  unfold RunState.continues
  rw [hs.remaining, xlit0, decide_eq_true (show XR.fin _ > XR.fin 0 from hρ), hs.ray]
  show (true && true && !r.blocked) = true
  rw [hb]; rfl

/-- The run through the lenses. -/
theorem train_lenses {md : ℝ} {b : Bench} (hb : dot b.axis b.axis = 1) {optics : List (Optic ℝ)} {Y : ℝ} {log : List (DetHit ℝ)} :
    ∀ (es : List BenchLens) (q : BenchRay) (r : Ray ℝ) (s : RunState XR) (ρ : ℝ) (fuel : Nat),
      q.Is b r → b.Crosses q es → (∀ e ∈ es, e.height < Y) → q.height < Y → b.Scene optics q es Y → (∀ e ∈ es, ∃ o ∈ optics, o.LensAt b e) →
      Sane r ρ log s → r.type ≠ "faerie_fire" → r.blocked = false →
      pathLength (r.position :: b.points q es) ≤ ρ →
      ∃ (s' : RunState XR) (r' : Ray ℝ), runLoop (.fin md) (optics.map Optic.lift) none (fuel + es.length) s
          = runLoop (.fin md) (optics.map Optic.lift) none fuel s' ∧
        (b.last q es).Is b r' ∧ (b.last q es).height < Y ∧ b.Scene optics (b.last q es) [] Y ∧
        Sane r' (ρ - pathLength (r.position :: b.points q es)) log s' ∧
        r'.pointHistory = r.pointHistory ++ b.points q es ∧ r'.type = r.type ∧ r'.blocked = false ∧
        r'.wavelength = r.wavelength ∧ s'.interactions = s.interactions + es.length
  | [], q, r, s, ρ, fuel, hq, hc, hY, hqY, hsc, hex, hs, hty, hbl, hρ => by
    refine ⟨s, r, rfl, hq, hqY, hsc, ?_, ?_, rfl, hbl, rfl, rfl⟩
    · simp only [Bench.points, Bench.behind, List.map_nil, pathLength]
      simpa using hs
    · simp [Bench.points, Bench.behind]
  | e :: es, q, r, s, ρ, fuel, hq, hc, hY, hqY, hsc, hex, hs, hty, hbl, hρ => by
    obtain ⟨c1, c2, c3, c4, c5⟩ := hc
    obtain ⟨h1, h2, h3, h4, h5, h6⟩ := hq.facts hb
    have hD : 0 < e.D := by
      have := _root_.norm_nonneg (q.at e.height).toE
      linarith
    have hκ := hq.steep hb c3
    have hκ' : 1e-9 < dot r.direction b.axis := by norm_num at hκ ⊢; linarith
    have hqe : q.height ≤ e.height := by norm_num at c1; linarith
    have hleg := hq.leg hb hqe
    have hpts : b.points q (e :: es) = b.point e.height (q.at e.height) :: b.points (b.through q e) es := rfl
    have hpl : pathLength (r.position :: b.points q (e :: es))
        = dist r.position.toE (b.point e.height (q.at e.height)).toE +
          pathLength (b.point e.height (q.at e.height) :: b.points (b.through q e) es) := by rw [hpts]; rfl
    have hnn := pathLength_nonneg (b.point e.height (q.at e.height) :: b.points (b.through q e) es)
    rw [hpl, hleg] at hρ
    have hpos : 0 < (e.height - q.height) / dot r.direction b.axis := div_pos (by norm_num at c1; linarith) h2
    obtain ⟨s1, o, sfo, k, hits, g1, g2, g3, -, g4, g5, g6, g7⟩ := bench_step (md := md) hb hq hs hty hκ' c1 (by linarith)
      (fun o => o.LensAt b e)
      (by
        intro o ho
        rcases hsc o ho with ⟨e', he', hl⟩ | ⟨e', he', hf', hD', hl⟩ | ⟨Y', id, t, w, h, hY', hw, hh, hd⟩
        · rcases List.mem_cons.mp he' with rfl | he'
          · obtain ⟨c, hc, hF⟩ := hl.flat hb c2.ne' hD.ne'
            exact ⟨_, c, _, hc, hF, .inr (.inr ⟨rfl, hl⟩)⟩
          · obtain ⟨p1, p2, p3⟩ := c5.props e' he'
            obtain ⟨c, hc, hF⟩ := hl.flat hb p2.ne' p3.ne'
            refine ⟨_, c, _, hc, hF, .inr (.inl ?_)⟩
            have : (b.through q e).height = e.height := rfl
            rw [this] at p1
            norm_num at p1
            linarith
        · obtain ⟨c, hc, hF⟩ := hl.flat hb hf' hD'
          exact ⟨_, c, _, hc, hF, .inl he'⟩
        · obtain ⟨c, Q, hc, hF, -⟩ := hd.flat hb hw hh
          exact ⟨_, c, _, hc, hF, .inr (.inl (lt_of_lt_of_le (hY e (by simp)) hY'))⟩)
      (by
        obtain ⟨o, ho, hl⟩ := hex e (by simp)
        obtain ⟨c, hc, hF⟩ := hl.flat hb c2.ne' hD.ne'
        refine ⟨o, ho, c, _, hc, hF, ?_⟩
        rw [dist_eq_norm, ← toE_sub]
        have : b.point e.height (q.at e.height) - b.point e.height ⟨0, 0, 0⟩ = q.at e.height := by
          unfold Bench.point
          ext <;> simp only [sub_x, sub_y, sub_z, add_x, add_y, add_z] <;> ring
        rw [this]
        exact c4)
    rw [g3.acts hb c2 hD.ne' hq hκ] at g6
    simp only [Except.ok.injEq, Prod.mk.injEq] at g6
    have hq1 := through_is hb hq e
    set r1 : Ray ℝ := { r.movedTo (b.point e.height (q.at e.height)) with
          direction := unitVector (b.axis + (b.through q e).slope) } with hr1
    have hs1 : Sane r1 (ρ - (e.height - q.height) / dot r.direction b.axis) log s1 := by
      refine ⟨g6.1.symm, g4, ?_, (hq1.facts hb).1⟩
      rw [g7, ← g6.2, List.append_nil, hs.log]
    obtain ⟨s', r', k1, k2, k3, k4, k5, k6, k7, k8, k9, k10⟩ := train_lenses (md := md) hb es (b.through q e) r1 s1
      (ρ - (e.height - q.height) / dot r.direction b.axis) fuel hq1 c5 (fun e' he' => hY e' (by simp [he'])) (hY e (by simp))
      (by
        intro o ho
        rcases hsc o ho with ⟨e', he', hl⟩ | ⟨e', he', hf', hD', hl⟩ | hd
        · rcases List.mem_cons.mp he' with rfl | he'
          · exact .inr (.inl ⟨e', le_rfl, c2.ne', hD.ne', hl⟩)
          · exact .inl ⟨e', he', hl⟩
        · exact .inr (.inl ⟨e', he'.trans hqe, hf', hD', hl⟩)
        · exact .inr (.inr hd))
      (fun e' he' => hex e' (by simp [he'])) hs1 hty hbl (by
        show pathLength (b.point e.height (q.at e.height) :: _) ≤ _
        linarith)
    refine ⟨s', r', ?_, k2, k3, k4, ?_, ?_, k7, k8, k9, ?_⟩
    · rw [List.length_cons, ← Nat.add_assoc, runLoop_next _ (sane_continues hs (by linarith) hbl) g1, k1]
    · rw [hpl, hleg, ← sub_sub]; exact k5
    · rw [k6, hpts]
      show (r.pointHistory ++ [_]) ++ _ = _
      simp
    · rw [k10, g5, List.length_cons]; omega

end Optics
