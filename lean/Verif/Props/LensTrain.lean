import Verif.Lemmas.LensTrain
import Mathlib.LinearAlgebra.Matrix.Determinant.Basic

/-!
# C86: ideal lenses on an optical bench follow matrix optics
-/

namespace Optics
open V3

theorem Bench.points_last (b : Bench) : ∀ (es : List BenchLens) (q : BenchRay),
    (b.point q.height q.offset :: b.points q es).getLast? = some (b.point (b.last q es).height (b.last q es).offset)
  | [], q => rfl
  | e :: es, q => by
    have := b.points_last es (b.through q e)
    show (_ :: b.point (b.through q e).height (b.through q e).offset :: b.points (b.through q e) es).getLast? = _
    rw [List.getLast?_cons_cons, this]
    rfl

/-- The lenses crossed lie below the plane in which the ray is followed on. -/
theorem Bench.Crosses.below {b : Bench} : ∀ {es : List BenchLens} {q : BenchRay} {Y : ℝ}, b.Crosses q es →
    (b.last q es).height < Y → q.height < Y ∧ ∀ e ∈ es, e.height < Y
  | [], q, Y, _, hY => ⟨hY, fun e he => by cases he⟩
  | e0 :: es, q, Y, ⟨h1, _, _, _, h5⟩, hY => by
    obtain ⟨g1, g2⟩ := h5.below hY
    have g1 : e0.height < Y := g1
    refine ⟨by norm_num at h1; linarith, fun e he => ?_⟩
    rcases List.mem_cons.mp he with rfl | he
    · exact g1
    · exact g2 e he

/-- C86: a ray that crosses ideal lenses on an optical bench, each within its aperture, and then the area of a detector, is
recorded by that detector at the point that the rules of thin lenses predict, and nowhere else: `run` returns with this one
record, having visited the lenses in the order of their heights, whatever their order in the list of optics. -/
theorem C86_detected (b : Bench) (hb : ‖b.axis.toE‖ = 1) (optics : List (Optic ℝ)) (es : List BenchLens) (Y : ℝ) (id : Nat)
    (t : V3 ℝ) (w h : ℝ) (hw : 0 < w) (hh : 0 < h)
    (hin : ∀ o ∈ optics, (∃ e ∈ es, o.LensAt b e) ∨ o.DetectorAt b Y id t w h)
    (hl : ∀ e ∈ es, ∃ o ∈ optics, o.LensAt b e) (hd : ∃ o ∈ optics, o.DetectorAt b Y id t w h)
    (q : BenchRay) (ray : Ray ℝ) (hq : q.Is b ray) (hty : ray.type ≠ "faerie_fire") (hbl : ray.blocked = false)
    (hc : b.Crosses q es) (hY : (b.last q es).height + 1e-9 < Y) (hsl : ‖(b.last q es).slope.toE‖ ≤ 1e7)
    (hwi : b.Within t w h ((b.last q es).at Y)) (md : ℝ)
    (hmd : pathLength (ray.position :: (b.points q es ++ [b.point Y ((b.last q es).at Y)])) ≤ md) (fuel : Nat)
    (hf : es.length + 2 ≤ fuel) :
    ∃ (s : RunState XR) (r : Ray ℝ), ray.lift.run (.fin md) (optics.map Optic.lift) none fuel = .finished s ∧
      s.ray = r.lift ∧ s.log = [DetHit.lift ⟨id, b.point Y ((b.last q es).at Y), ray.wavelength⟩] ∧
      r.position = b.point Y ((b.last q es).at Y) ∧
      r.pointHistory = ray.pointHistory ++ b.points q es ++ [b.point Y ((b.last q es).at Y)] ∧ r.blocked = true ∧
      s.interactions = es.length + 1 := by
  rw [norm_toE, norm_eq_one_iff] at hb
  have hY0 : (b.last q es).height < Y := by norm_num at hY; linarith
  obtain ⟨hqY, hes⟩ := hc.below hY0
  rw [pathLength_concat _ _ _ (b.point (b.last q es).height (b.last q es).offset)
    (by rw [hq.position]; exact b.points_last es q)] at hmd
  have hnn := @dist_nonneg _ _ (b.point (b.last q es).height (b.last q es).offset).toE (b.point Y ((b.last q es).at Y)).toE
  obtain ⟨f, rfl⟩ : ∃ f, fuel = (f + 2) + es.length := ⟨fuel - 2 - es.length, by omega⟩
  obtain ⟨s1, r1, k1, k2, k3, k4, k5, k6, k7, k8, k9, k10⟩ := train_lenses (md := md) hb (Y := Y) (log := []) es q ray
    (RunState.init ray.lift (.fin md)) md (f + 2) hq hc hes hqY
    (fun o ho => (hin o ho).imp (fun h => h) fun h' => .inr ⟨Y, id, t, w, h, le_rfl, hw, hh, h'⟩) hl
    ⟨rfl, rfl, rfl, (hq.facts hb).1⟩ hty hbl (by linarith)
  obtain ⟨h1, h2, h3, h4, h5, h6⟩ := k2.facts hb
  have hκ := k2.steep hb hsl
  have hκ' : 1e-9 < dot r1.direction b.axis := by norm_num at hκ ⊢; linarith
  have hleg := k2.leg hb hY0.le
  rw [k2.position] at hleg
  obtain ⟨s2, o, sfo, k, hits, g1, g2, g3, -, g4, g5, g6, g7⟩ := bench_step (md := md) hb k2 k5 (by rw [k7]; exact hty) hκ' hY
    (by rw [← hleg]; linarith) (fun o => o.DetectorAt b Y id t w h)
    (by
      intro o ho
      rcases hin o ho with ⟨e, he, hl⟩ | hd
      · rcases k4 o ho with ⟨e', he', -⟩ | ⟨e', he', hf', hD', hl⟩ | ⟨Y', id', t', w', h', hY', hw', hh', hd'⟩
        · cases he'
        · obtain ⟨c, hc, hF⟩ := hl.flat hb hf' hD'
          exact ⟨_, c, _, hc, hF, .inl he'⟩
        · cases hl; cases hd'
      · obtain ⟨c, Q, hc, hF, -⟩ := hd.flat hb hw hh
        exact ⟨_, c, _, hc, hF, .inr (.inr ⟨rfl, hd⟩)⟩)
    (by
      obtain ⟨o, ho, hd⟩ := hd
      obtain ⟨c, Q, hc, hF, hQ⟩ := hd.flat hb hw hh
      exact ⟨o, ho, c, _, hc, hF, (hQ _ (BenchRay.offset_at h4 h5 Y)).mpr hwi⟩)
  cases g3 with
  | @mk c d hc' ht hp hdet =>
  have hid : d.id = id := (detector_flat (by
    intro e
    have := dot_smul_left c b.axis b.axis
    rw [e, hb] at this
    simp [dot] at this
    exact hc' this.symm) ht hw hh hdet).2
  have g6' := Except.ok.inj g6
  simp only [Prod.mk.injEq] at g6'
  refine ⟨s2, { r1.movedTo (b.point Y ((b.last q es).at Y)) with blocked := true }, ?_, g6'.1.symm, ?_, rfl, ?_, rfl, ?_⟩
  · unfold Ray.run
    rw [k1, runLoop_next _ (sane_continues k5 ?_ k8) g1, runLoop_stop]
    · unfold RunState.continues
      rw [← g6'.1]
      exact Bool.and_false _
    · have : 0 < dist (b.point (b.last q es).height (b.last q es).offset).toE (b.point Y ((b.last q es).at Y)).toE := by
        rw [hleg]
        exact div_pos (by linarith) h2
      linarith
  · rw [g7, ← g6'.2, k5.log, ← hid, ← k9]; rfl
  · show r1.pointHistory ++ [_] = _
    rw [k6]
  · rw [g5, k10]
    show 0 + _ + 1 = _
    omega

/-! ## Matrix optics -/

/-- A slope within the tolerance of the tracer is small. -/
theorem nearAxis_small {b : Bench} (hb : dot b.axis b.axis = 1) {u : V3 ℝ} (hu : dot u b.axis = 0) (h : b.NearAxis u) :
    norm u ≤ 2e-8 := by
  rw [nearAxis_iff] at h
  have hbd := allclose_bound hb h
  have hne := axis_add_ne hb hu
  have hN := norm_pos hne
  have hNN : norm (b.axis + u) * norm (b.axis + u) = 1 + dot u u := by
    rw [norm_mul_self, dot_add_left, dot_add_right, dot_add_right, hb, hu, dot_comm b.axis u, hu]; ring
  have e1 : dot (unitVector (b.axis + u)) b.axis = 1 / norm (b.axis + u) := by
    rw [unitVector_eq, dot_smul_left, dot_add_left, hb, hu]; ring
  have e2 : dot (unitVector (b.axis + u) - b.axis) (unitVector (b.axis + u) - b.axis) = 2 - 2 * (1 / norm (b.axis + u)) := by
    rw [dot_sub_left, dot_sub_right, dot_sub_right, unit_dot hne, hb, dot_comm b.axis, e1]; ring
  rw [e2] at hbd
  rw [norm_eq]
  apply Real.sqrt_le_iff.mpr
  refine ⟨by norm_num, ?_⟩
  have e3 : dot u u = norm (b.axis + u) * norm (b.axis + u) - 1 := by rw [hNN]; ring
  rw [e3]
  generalize norm (b.axis + u) = N at *
  have h1 : (1 - 1.55e-16) * N ≤ 1 := by
    have : 1 - 1.55e-16 ≤ 1 / N := by norm_num at hbd ⊢; linarith
    rwa [le_div_iff₀ hN] at this
  norm_num at h1 ⊢
  nlinarith

theorem transfer_cons (Y y : ℝ) (e : BenchLens) (es : List BenchLens) (x u : V3 ℝ) (i : Fin 2) :
    transferMatrix Y y (e :: es) i 0 * x + transferMatrix Y y (e :: es) i 1 * u
      = transferMatrix Y e.height es i 0 * (x + (e.height - y) * u)
        + transferMatrix Y e.height es i 1 * (u - (1 / e.f) * (x + (e.height - y) * u)) := by
  rw [transferMatrix]
  ext <;> simp [Matrix.mul_apply, Fin.sum_univ_two, lensMatrix, flightMatrix] <;> ring

/-- C86: rays that meet every lens clearly inclined, or exactly along the axis, follow the ray-transfer matrix exactly. -/
theorem C86_matrix (b : Bench) (Y : ℝ) : ∀ (es : List BenchLens) (q : BenchRay), b.Clearly q es →
    (b.last q es).at Y = transferMatrix Y q.height es 0 0 * q.offset + transferMatrix Y q.height es 0 1 * q.slope ∧
      (b.last q es).slope = transferMatrix Y q.height es 1 0 * q.offset + transferMatrix Y q.height es 1 1 * q.slope
  | [], q, _ => by
    constructor <;> ext <;> simp [Bench.last, BenchRay.at, transferMatrix, flightMatrix]
  | e :: es, q, ⟨h1, h2⟩ => by
    have hs : (b.through q e).slope = q.slope - (1 / e.f) * q.at e.height := by
      unfold Bench.through
      dsimp only
      split_ifs with h
      · rw [h1 h]
      · rfl
    obtain ⟨g1, g2⟩ := C86_matrix b Y es (b.through q e) h2
    rw [hs] at g1 g2
    exact ⟨g1.trans (transfer_cons Y q.height e es q.offset q.slope 0).symm,
      g2.trans (transfer_cons Y q.height e es q.offset q.slope 1).symm⟩

/-- C86: rays of every inclination follow the ray-transfer matrix up to the tolerance of the tracer. -/
theorem C86_spread (b : Bench) (hb : ‖b.axis.toE‖ = 1) (Y : ℝ) : ∀ (es : List BenchLens) (q : BenchRay),
    inner ℝ q.offset.toE b.axis.toE = 0 → inner ℝ q.slope.toE b.axis.toE = 0 →
    ‖((b.last q es).at Y - (transferMatrix Y q.height es 0 0 * q.offset + transferMatrix Y q.height es 0 1 * q.slope)).toE‖
      ≤ 2e-8 * slopeSensitivity Y es
  | [], q, _, _ => by
    have : (b.last q []).at Y - (transferMatrix Y q.height [] 0 0 * q.offset + transferMatrix Y q.height [] 0 1 * q.slope)
        = (⟨0, 0, 0⟩ : V3 ℝ) := by
      ext <;> simp [Bench.last, BenchRay.at, transferMatrix, flightMatrix]
    rw [this, norm_toE]
    rw [norm_eq]; simp [slopeSensitivity, dot]
  | e :: es, q, h1, h2 => by
    have hb' : dot b.axis b.axis = 1 := by rwa [norm_toE, norm_eq_one_iff] at hb
    rw [inner_toE] at h1 h2
    obtain ⟨v, hv⟩ : ∃ v, v = (b.through q e).slope + (1 / e.f) * q.at e.height := ⟨_, rfl⟩
    have hs : (b.through q e).slope = v - (1 / e.f) * q.at e.height := by
      rw [hv]; ext <;> simp
    have hvu : norm (v - q.slope) ≤ 2e-8 ∧ dot v b.axis = 0 := by
      have : v = q.slope ∨ v = ⟨0, 0, 0⟩ ∧ b.NearAxis q.slope := by
        rw [hv]
        unfold Bench.through
        dsimp only
        split_ifs with h
        · right; refine ⟨?_, h⟩; ext <;> simp
        · left; ext <;> simp
      rcases this with rfl | ⟨rfl, hn⟩
      · have e0 : q.slope - q.slope = (⟨0, 0, 0⟩ : V3 ℝ) := by ext <;> simp
        rw [e0]
        refine ⟨?_, h2⟩
        rw [norm_eq]; simp [dot]; norm_num
      · have e0 : (⟨0, 0, 0⟩ : V3 ℝ) - q.slope = -q.slope := by ext <;> simp
        rw [e0, V3.norm_neg]
        exact ⟨nearAxis_small hb' h2 hn, by simp [dot]⟩
    have hoff : dot (q.at e.height) b.axis = 0 := by
      rw [BenchRay.at, dot_add_left, dot_smul_left, h1, h2]; ring
    have ih := C86_spread b hb Y es (b.through q e) (by rw [inner_toE]; exact hoff) (by
      rw [inner_toE, hs, dot_sub_left, dot_smul_left, hvu.2, hoff]; ring)
    rw [hs] at ih
    have key : (b.last q (e :: es)).at Y
        - (transferMatrix Y q.height (e :: es) 0 0 * q.offset + transferMatrix Y q.height (e :: es) 0 1 * q.slope)
        = ((b.last (b.through q e) es).at Y
          - (transferMatrix Y e.height es 0 0 * q.at e.height
            + transferMatrix Y e.height es 0 1 * (v - (1 / e.f) * q.at e.height)))
          + transferMatrix Y e.height es 0 1 * (v - q.slope) := by
      rw [transfer_cons Y q.height e es q.offset q.slope 0]
      change (b.last (b.through q e) es).at Y - (_ * q.at e.height + _ * (_ - _ * q.at e.height)) = _
      ext <;> simp only [sub_x, sub_y, sub_z, add_x, add_y, add_z, smul_x, smul_y, smul_z] <;> ring
    rw [key, toE_add]
    refine (norm_add_le _ _).trans ?_
    have : ‖(transferMatrix Y e.height es 0 1 * (v - q.slope)).toE‖ ≤ |transferMatrix Y e.height es 0 1| * 2e-8 := by
      rw [norm_toE, V3.norm_smul]
      exact mul_le_mul_of_nonneg_left hvu.1 (abs_nonneg _)
    rw [slopeSensitivity, mul_add, add_comm]
    refine add_le_add (by rw [mul_comm 2e-8]; exact this) ih

/-! ## Rays that miss the detector -/

/-- C86: a ray that crosses the lenses but misses the detector, or does not reach it (or meets none, if there is none),
leaves no record: `run` returns with the ray at the end of the rest of its path, on the line behind the last lens. -/
theorem C86_undetected (b : Bench) (hb : ‖b.axis.toE‖ = 1) (optics : List (Optic ℝ)) (es : List BenchLens) (Y : ℝ)
    (q : BenchRay) (md : ℝ)
    (hin : ∀ o ∈ optics, (∃ e ∈ es, o.LensAt b e) ∨ ∃ id t w h, 0 < w ∧ 0 < h ∧ o.DetectorAt b Y id t w h ∧
      (¬ b.Within t w h ((b.last q es).at Y) ∨
        md < pathLength (b.point q.height q.offset :: (b.points q es ++ [b.point Y ((b.last q es).at Y)]))))
    (hl : ∀ e ∈ es, ∃ o ∈ optics, o.LensAt b e)
    (ray : Ray ℝ) (hq : q.Is b ray) (hty : ray.type ≠ "faerie_fire") (hbl : ray.blocked = false)
    (hc : b.Crosses q es) (hY : (b.last q es).height < Y)
    (hmd : pathLength (ray.position :: b.points q es) < md) (fuel : Nat) (hf : es.length + 2 ≤ fuel) :
    ∃ (s : RunState XR) (r : Ray ℝ) (y : ℝ), ray.lift.run (.fin md) (optics.map Optic.lift) none fuel = .finished s ∧
      s.ray = r.lift ∧ s.log = [] ∧ (b.last q es).height < y ∧ r.position = b.point y ((b.last q es).at y) ∧
      dist (b.point (b.last q es).height (b.last q es).offset).toE r.position.toE
        = md - pathLength (ray.position :: b.points q es) ∧
      r.pointHistory = ray.pointHistory ++ b.points q es ++ [r.position] ∧ r.blocked = false ∧
      s.interactions = es.length := by
  rw [norm_toE, norm_eq_one_iff] at hb
  obtain ⟨hqY, hes⟩ := hc.below hY
  obtain ⟨f, rfl⟩ : ∃ f, fuel = (f + 2) + es.length := ⟨fuel - 2 - es.length, by omega⟩
  obtain ⟨s1, r1, k1, k2, k3, k4, k5, k6, k7, k8, k9, k10⟩ := train_lenses (md := md) hb (Y := Y) (log := []) es q ray
    (RunState.init ray.lift (.fin md)) md (f + 2) hq hc hes hqY
    (fun o ho => (hin o ho).imp (fun h => h) fun ⟨id, t, w, h, hw, hh, hd, _⟩ => .inr ⟨Y, id, t, w, h, le_rfl, hw, hh, hd⟩) hl
    ⟨rfl, rfl, rfl, (hq.facts hb).1⟩ hty hbl hmd.le
  obtain ⟨h1, h2, h3, h4, h5, h6⟩ := k2.facts hb
  obtain ⟨L, hL⟩ : ∃ L, L = pathLength (ray.position :: b.points q es) := ⟨_, rfl⟩
  rw [← hL] at hmd k5 ⊢
  have hL0 : 0 ≤ L := by rw [hL]; exact pathLength_nonneg _
  have flat : ∀ o ∈ optics, ∃ (y' c : ℝ) (Q : V3 ℝ → Prop), c ≠ 0 ∧ FlatOptic o (b.point y' ⟨0, 0, 0⟩) (c * b.axis) Q ∧
      (y' ≤ (b.last q es).height ∨ y' = Y ∧ (¬ Q (b.point Y ((b.last q es).at Y)) ∨
        md - L < dist r1.position.toE (b.point Y ((b.last q es).at Y)).toE)) := by
    intro o ho
    rcases hin o ho with ⟨e, he, hl'⟩ | ⟨id, t, w, h, hw, hh, hd, hm⟩
    · rcases k4 o ho with ⟨e', he', -⟩ | ⟨e', he', hf', hD', hl⟩ | ⟨Y', id', t', w', h', hY', hw', hh', hd'⟩
      · cases he'
      · obtain ⟨c, hc, hF⟩ := hl.flat hb hf' hD'
        exact ⟨_, c, _, hc, hF, .inl he'⟩
      · cases hl'; cases hd'
    · obtain ⟨c, Q, hc, hF, hQ⟩ := hd.flat hb hw hh
      refine ⟨_, c, _, hc, hF, .inr ⟨rfl, hm.imp (fun hm hq => hm ((hQ _ (BenchRay.offset_at h4 h5 Y)).mp hq)) fun hm => ?_⟩⟩
      rw [← hq.position, pathLength_concat _ _ _ (b.point (b.last q es).height (b.last q es).offset)
        (by rw [hq.position]; exact b.points_last es q), ← hL] at hm
      rw [k2.position]
      linarith
  have hw : ∀ o ∈ optics, o.WellFormed := fun o ho => by
    obtain ⟨y', c, Q, -, hF, -⟩ := flat o ho
    exact hF.wellFormed
  obtain ⟨s2, e⟩ : ∃ s', runStep (.fin md) (optics.map Optic.lift) s1 = .next s' := by
    cases hr : runStep (.fin md) (optics.map Optic.lift) s1 with
    | next s' => exact ⟨s', rfl⟩
    | raised e s' =>
      obtain ⟨-, o, ho, hno, -⟩ := raise_sane hw k5 hr
      obtain ⟨y', c, Q, -, hF, -⟩ := flat o ho
      exact absurd hF.noDifference hno
  have none : ∀ o ∈ optics, ∀ d x n, ¬ o.InReach r1 (md - L) d x n := by
    intro o ho d x n hr
    obtain ⟨y', c, Q, hc, hF, hcase⟩ := flat o ho
    obtain ⟨-, -, f1, rfl, f2⟩ := (flat_bench hb k2 hc hF _ _).mp hr.reports
    have hpos : 0 < (y' - (b.last q es).height) / dot r1.direction b.axis := by norm_num at f1; linarith
    have hyy : (b.last q es).height < y' := by
      have := mul_pos hpos h2
      rw [div_mul_cancel₀ _ h2.ne'] at this
      linarith
    rcases hcase with hcase | ⟨rfl, hcase | hcase⟩
    · linarith
    · exact hcase f2
    · rw [hr.dist_eq] at hcase
      exact absurd hr.inReach (not_le.mpr hcase)
  rcases step_nearest hw k5 e with ⟨-, g2, g3, g4, g5⟩ | ⟨l1, o, l2, d, x, k, rfl, hr, -⟩
  swap
  · exact absurd hr (none o (by simp) _ _ _)
  refine ⟨s2, r1.movedTo (r1.at (md - L)), (b.last q es).height + (md - L) * dot r1.direction b.axis, ?_, g2,
    by rw [g4, k5.log]; rfl, ?_, k2.at hb _, ?_, ?_, k8, ?_⟩
  · unfold Ray.run
    rw [k1, runLoop_next _ (sane_continues k5 (by linarith) k8) e, runLoop_stop]
    unfold RunState.continues
    rw [g3, xlit0, decide_eq_false (show ¬ XR.fin _ > XR.fin 0 from fun h => ?_)]
    · rfl
    · have h : (0 : ℝ) < md - L - md := h
      linarith
  · nlinarith [mul_pos (sub_pos.mpr hmd) h2]
  · rw [← k2.position, dist_toE_eq]
    change distanceBetween _ (r1.at (md - L)) = _
    rw [dist_at r1 h1, abs_of_pos (by linarith)]
  · show r1.pointHistory ++ [_] = _
    rw [k6]; rfl
  · rw [g5, k10]
    exact Nat.zero_add _

/-! ## Images -/

/-- C86: if the detector is in the plane conjugate to that of the object (the ray-transfer matrix has no term in the slope),
every ray of an object point is recorded in the image point, whatever its slope. -/
theorem C86_image (b : Bench) (hb : ‖b.axis.toE‖ = 1) (optics : List (Optic ℝ)) (es : List BenchLens) (Y : ℝ) (id : Nat)
    (t : V3 ℝ) (w h : ℝ) (hw : 0 < w) (hh : 0 < h)
    (hin : ∀ o ∈ optics, (∃ e ∈ es, o.LensAt b e) ∨ o.DetectorAt b Y id t w h)
    (hl : ∀ e ∈ es, ∃ o ∈ optics, o.LensAt b e) (hd : ∃ o ∈ optics, o.DetectorAt b Y id t w h)
    (q : BenchRay) (ray : Ray ℝ) (hq : q.Is b ray) (hty : ray.type ≠ "faerie_fire") (hbl : ray.blocked = false)
    (hc : b.Crosses q es) (hcl : b.Clearly q es) (hY : (b.last q es).height + 1e-9 < Y)
    (hsl : ‖(b.last q es).slope.toE‖ ≤ 1e7) (himg : transferMatrix Y q.height es 0 1 = 0)
    (hwi : b.Within t w h (transferMatrix Y q.height es 0 0 * q.offset)) (md : ℝ)
    (hmd : pathLength (ray.position :: (b.points q es ++ [b.point Y (transferMatrix Y q.height es 0 0 * q.offset)])) ≤ md)
    (fuel : Nat) (hf : es.length + 2 ≤ fuel) :
    ∃ (s : RunState XR) (r : Ray ℝ), ray.lift.run (.fin md) (optics.map Optic.lift) none fuel = .finished s ∧
      s.ray = r.lift ∧
      s.log = [DetHit.lift ⟨id, b.point Y (transferMatrix Y q.height es 0 0 * q.offset), ray.wavelength⟩] := by
  have e : (b.last q es).at Y = transferMatrix Y q.height es 0 0 * q.offset := by
    rw [(C86_matrix b Y es q hcl).1, himg]
    ext <;> simp
  rw [← e] at hwi hmd ⊢
  obtain ⟨s, r, h1, h2, h3, -⟩ := C86_detected b hb optics es Y id t w h hw hh hin hl hd q ray hq hty hbl hc hY hsl hwi md hmd
    fuel hf
  exact ⟨s, r, h1, h2, h3⟩

/-- C86: a single lens images the plane at distance `p` before it to the plane at distance `p'` behind it exactly if
`1/p + 1/p' = 1/f`, and then the image is inverted and magnified by `p'/p`. -/
theorem C86_single (e : BenchLens) (hf : e.f ≠ 0) (p p' : ℝ) (hp : p ≠ 0) (hp' : p' ≠ 0) :
    (transferMatrix (e.height + p') (e.height - p) [e] 0 1 = 0 ↔ 1 / p + 1 / p' = 1 / e.f) ∧
      (1 / p + 1 / p' = 1 / e.f → transferMatrix (e.height + p') (e.height - p) [e] 0 0 = -(p' / p)) := by
  have h1 : transferMatrix (e.height + p') (e.height - p) [e] 0 1 = p + p' - p * p' / e.f := by
    simp [transferMatrix, Matrix.mul_apply, Fin.sum_univ_two, lensMatrix, flightMatrix]; ring
  have h2 : transferMatrix (e.height + p') (e.height - p) [e] 0 0 = 1 - p' / e.f := by
    simp [transferMatrix, Matrix.mul_apply, Fin.sum_univ_two, lensMatrix, flightMatrix]; ring
  rw [h1, h2]
  constructor
  · constructor <;> intro h <;> field_simp at h ⊢ <;> linarith
  · intro h
    field_simp at h ⊢
    linarith

/-- C86: two lenses in a row, the second of which images the image of the first. -/
theorem C86_relay (e1 e2 : BenchLens) (p1 p1' p2 p2' : ℝ) (hp1 : p1 ≠ 0) (hp1' : p1' ≠ 0) (hp2 : p2 ≠ 0) (hp2' : p2' ≠ 0)
    (h1 : 1 / p1 + 1 / p1' = 1 / e1.f) (h2 : 1 / p2 + 1 / p2' = 1 / e2.f) (hh : e2.height - p2 = e1.height + p1') :
    transferMatrix (e2.height + p2') (e1.height - p1) [e1, e2] 0 1 = 0 ∧
      transferMatrix (e2.height + p2') (e1.height - p1) [e1, e2] 0 0 = (p1' / p1) * (p2' / p2) := by
  have hd : e2.height - e1.height = p1' + p2 := by linarith
  have g1 : e1.f⁻¹ = 1 / p1 + 1 / p1' := by rw [h1, one_div]
  have g2 : e2.f⁻¹ = 1 / p2 + 1 / p2' := by rw [h2, one_div]
  constructor
  · simp [transferMatrix, Matrix.mul_apply, Fin.sum_univ_two, lensMatrix, flightMatrix, hd, div_eq_mul_inv (-1 : ℝ), g1, g2]
    field_simp
    ring
  · simp [transferMatrix, Matrix.mul_apply, Fin.sum_univ_two, lensMatrix, flightMatrix, hd, div_eq_mul_inv (-1 : ℝ), g1, g2]
    field_simp
    ring

/-- C86: the ray-transfer matrix has determinant one, so that the magnification of slopes is the inverse of that of offsets
between conjugate planes. -/
theorem C86_lagrange (Y : ℝ) : ∀ (es : List BenchLens) (y : ℝ), (transferMatrix Y y es).det = 1
  | [], y => by simp [transferMatrix, flightMatrix, Matrix.det_fin_two]
  | e :: es, y => by
    rw [transferMatrix, Matrix.det_mul, Matrix.det_mul, C86_lagrange Y es]
    simp [lensMatrix, flightMatrix, Matrix.det_fin_two]

end Optics
