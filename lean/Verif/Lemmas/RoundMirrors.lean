import Verif.Props.Mirrors
import Verif.Lemmas.LensTrain
import Verif.Lemmas.PlaneMirrors

/-!
# Round mirrors in numpy arithmetic, and runs with a single bounce
-/

namespace Optics
open V3

/-- The answer of a real optic, in numpy. -/
def Hit4.lift (r : Hit4 ℝ) : Hit4 XR := ⟨r.hit, r.pt.map V3.lift, r.normal.map V3.lift, r.sfo⟩

theorem lift_lt_dist (a b c d : V3 ℝ) : distanceBetween a.lift b.lift < distanceBetween c.lift d.lift ↔
    distanceBetween a b < distanceBetween c d := by
  rw [lift_distance, lift_distance]; exact Iff.rfl

theorem concave_lift {position n : V3 ℝ} (hn : n ≠ ⟨0, 0, 0⟩) {D f : ℝ} (hf : f ≠ 0) {w h : Option ℝ}
    {t : Option (V3 ℝ)} {type : String} {dmd : V3 ℝ} {m : Mirror ℝ}
    (hm : Mirror.new position "circular_concave_spherical" (some n) (some D) w h (some f) t type (some dmd) = .ok m)
    (ray : Ray ℝ) (hd : dot ray.direction ray.direction = 1) :
    m.lift.testIntersect ray.lift = (m.testIntersect ray).map Hit4.lift := by
  simp only [Mirror.new, need, bind, Except.bind, pure, Except.pure, Sphere.new, checkRAndD] at hm
  rw [if_neg (by decide), if_neg (by decide), if_pos trivial] at hm
  cases hC : Circle.new position (some n) none (some D) with
  | error e => rw [hC] at hm; cases hm
  | ok C =>
  rw [hC] at hm
  obtain rfl := Except.ok.inj hm
  set s : Sphere ℝ := ⟨position + (f * 2.0) * unitVector n, f * 2.0, f * 2.0 * 2.0⟩ with hs
  have hR : s.R ≠ 0 := by simp [hs, lit2, hf]
  obtain ⟨hit, e1, e2, hF, e3⟩ := circle_flatHit hn hC ray hd
  have hsat := sphere_sat s hR ray hd
  have el := lift_sphere_testIntersect s hR ray hd
  unfold Mirror.testIntersect Mirror.lift
  simp only [show ("circular_concave_spherical" = "circular_flat" ∨
    "circular_concave_spherical" = "rectangular_flat") = False by simp, if_false, if_true, List.map_cons,
    List.map_nil, Shape.lift, firstSphere, firstCircle, bound, bind, Except.bind, el, e1, e2, pure, Except.pure]
  generalize s.testIntersect ray = q at hsat
  obtain ⟨qh, q1, q2, m1, m2, k⟩ := q
  cases qh with
  | false => rfl
  | true =>
    simp only [Hit6.lift, if_true]
    cases hhit : hit.hit with
    | false =>
      simp only [Hit3.lift, hhit, Bool.false_eq_true, if_false]
      rfl
    | true =>
      obtain ⟨-, tt, -, f1, -⟩ := hF.hit hhit
      simp only [Hit3.lift, hhit, if_true, f1, Option.map_some, need]
      cases q1 with
      | none => exact absurd rfl (hsat.hit rfl)
      | some x =>
        simp only [Option.map_some]
        cases q2 with
        | none => rfl
        | some y =>
          simp only [Option.map_some, lift_lt_dist]
          split_ifs <;> rfl

theorem convex_lift {position : V3 ℝ} {n : Option (V3 ℝ)} {D : ℝ} (hD : D ≠ 0) {w h f : Option ℝ}
    {t : Option (V3 ℝ)} {type : String} {dmd : V3 ℝ} {m : Mirror ℝ}
    (hm : Mirror.new position "circular_convex_spherical" n (some D) w h f t type (some dmd) = .ok m)
    (ray : Ray ℝ) (hd : dot ray.direction ray.direction = 1) :
    m.lift.testIntersect ray.lift = (m.testIntersect ray).map Hit4.lift := by
  simp only [Mirror.new, need, bind, Except.bind, pure, Except.pure, Sphere.new, checkRAndD] at hm
  rw [if_neg (by decide), if_neg (by decide), if_neg (by decide), if_pos trivial] at hm
  obtain rfl := Except.ok.inj hm
  set s : Sphere ℝ := ⟨position, D / 2.0, D⟩ with hs
  have hR : s.R ≠ 0 := by simp [hs, lit2, hD]
  have hsat := sphere_sat s hR ray hd
  have el := lift_sphere_testIntersect s hR ray hd
  have e : ∀ v, [Shape.sphere s.lift].foldlM (sphereStep ray.lift) v = sphereStep ray.lift v (.sphere s.lift) := by
    intro v
    rw [List.foldlM_cons]
    cases sphereStep ray.lift v (.sphere s.lift) <;> rfl
  have e' : ∀ v, [Shape.sphere s].foldlM (sphereStep ray) v = sphereStep ray v (.sphere s) := by
    intro v
    rw [List.foldlM_cons]
    cases sphereStep ray v (.sphere s) <;> rfl
  unfold Mirror.testIntersect Mirror.lift
  simp only [show ("circular_convex_spherical" = "circular_flat" ∨
        "circular_convex_spherical" = "rectangular_flat") = False by simp,
        show ("circular_convex_spherical" = "circular_concave_spherical") = False by simp, if_false, if_true,
        List.map_cons, List.map_nil, Shape.lift, e, e']
  simp only [sphereStep, bind, Except.bind, pure, Except.pure, bound, el]
  generalize s.testIntersect ray = q at hsat
  obtain ⟨qh, q1, q2, m1, m2, k⟩ := q
  cases qh with
  | false => rfl
  | true =>
    cases q1 with
    | none => exact absurd rfl (hsat.hit rfl)
    | some x =>
      obtain ⟨k1, hk1, -⟩ := hsat.fst x rfl
      simp only at hk1
      subst hk1
      have hi : ∀ z : V3 ℝ, ltMin (distanceBetween ray.lift.position z.lift) none = true := fun z => ltInf_fin _ _
      have hi' : ∀ z : V3 ℝ, ltMin (distanceBetween ray.position z) none = true := fun z => rfl
      cases q2 with
      | none =>
        simp only [Hit6.lift, if_true, Option.map_some, Option.map_none, sphereUpdate, need, bind, Except.bind, pure,
          Except.pure, hi, hi', lift_neg]
        rfl
      | some y =>
        obtain ⟨-, k2, hk2, -⟩ := hsat.snd y rfl
        simp only at hk2
        subst hk2
        have hl : ltMin (distanceBetween ray.lift.position y.lift) (some (distanceBetween ray.lift.position x.lift))
            = ltMin (distanceBetween ray.position y) (some (distanceBetween ray.position x)) := by
          unfold ltMin
          exact decide_eq_decide.mpr (lift_lt_dist _ _ _ _)
        simp only [Hit6.lift, if_true, Option.map_some, sphereUpdate, need, bind, Except.bind, pure,
          Except.pure, hi, hi', lift_neg, hl]
        split_ifs <;> rfl

/-- What the answer of the real mirror says about the reports. -/
theorem reports_of_lift {m : Mirror ℝ} {ray : Ray ℝ} {r : Hit4 ℝ}
    (hl : m.lift.testIntersect ray.lift = (m.testIntersect ray).map Hit4.lift) (hr : m.testIntersect ray = .ok r) (x k : V3 ℝ) :
    (Optic.mirror m).Reports ray x k ↔ r.hit = true ∧ r.pt = some x ∧ r.normal = some k := by
  have e : (Optic.mirror m).lift.testIntersect ray.lift = .ok r.lift := by
    show m.lift.testIntersect ray.lift = _
    rw [hl, hr]; rfl
  unfold Optic.Reports
  rw [e]
  constructor
  · rintro ⟨sfo, h⟩
    have h := Except.ok.inj h
    obtain ⟨a, b, c, d⟩ := r
    simp only [Hit4.lift, Hit4.mk.injEq] at h
    obtain ⟨h1, h2, h3, -⟩ := h
    refine ⟨h1, ?_, ?_⟩
    · cases b with
      | none => cases h2
      | some b => rw [lift_inj (Option.some.inj h2)]
    · cases c with
      | none => cases h3
      | some c => rw [lift_inj (Option.some.inj h3)]
  · rintro ⟨h1, h2, h3⟩
    refine ⟨r.sfo, ?_⟩
    unfold Hit4.lift
    rw [h1, h2, h3]; rfl

/-- What an ordinary mirror does. -/
theorem mirror_does {m : Mirror ℝ} (ht : m.type = "normal") {y : Ray ℝ} (hd : dot y.direction y.direction = 1) {k : V3 ℝ}
    (hk : dot k k = 1) (x : V3 XR) (sfo : Sfo) :
    (Optic.mirror m).lift.doIntersect y.lift x (some k.lift) sfo
      = .ok ({ y with direction := specular y.direction k }.lift, []) := by
  show (do return (← m.lift.doIntersect y.lift x (some k.lift), [])) = _
  unfold Mirror.doIntersect
  rw [if_pos (show m.lift.type = "normal" from ht)]
  obtain ⟨e, hu⟩ := lift_reflect hd hk ⟨x, none, none, none, none⟩
  rw [e]; rfl

/-- The ray, moved to `x` and turned to `e`. -/
noncomputable def Ray.turnedAt (r : Ray ℝ) (x e : V3 ℝ) : Ray ℝ := { r.movedTo x with direction := e }

/-- A run with a single optic, which turns the ray away and is not met again. -/
theorem run_bounce {o : Optic ℝ} (hw : o.WellFormed) (hnd : o.NoDifference) {r : Ray ℝ}
    (hd : dot r.direction r.direction = 1) (hty : r.type ≠ "faerie_fire") (hbl : r.blocked = false) {md δ : ℝ} {x k e : V3 ℝ}
    (hx : x = r.at δ) (hr : o.InReach r md δ x k) (hlt : δ < md) (he : dot e e = 1)
    (hdo : ∀ sfo, o.lift.doIntersect (r.movedTo x).lift x.lift (some k.lift) sfo
      = .ok ((r.turnedAt x e).lift, []))
    (hno : ∀ d y j, ¬ o.InReach (r.turnedAt x e) (md - δ) d y j) (fuel : Nat) (hf : 3 ≤ fuel) :
    ∃ s : RunState XR, r.lift.run (.fin md) [o.lift] none fuel = .finished s ∧
      s.ray = { r with position := lineAt x e (md - δ), direction := e,
                       pointHistory := r.pointHistory ++ [x, lineAt x e (md - δ)] }.lift ∧
      s.log = [] ∧ s.interactions = 1 := by
  obtain ⟨fuel, rfl⟩ : ∃ g, fuel = g + 1 + 1 + 1 := ⟨fuel - 3, by omega⟩
  have hδ : 0 < δ := by have := hr.notTooNear; norm_num at this; linarith
  have next : ∀ {y : Ray ℝ} {ρ : ℝ} {s : RunState XR}, Sane y ρ [] s →
      ∃ s', runStep (.fin md) ([o].map Optic.lift) s = .next s' := by
    intro y ρ s hs
    cases h : runStep (.fin md) ([o].map Optic.lift) s with
    | next s' => exact ⟨s', rfl⟩
    | raised e s' =>
      obtain ⟨-, o', ho', hdiff, -⟩ := raise_sane (by simpa using hw) hs h
      obtain rfl := List.mem_singleton.mp ho'
      exact absurd hnd hdiff
  have hs0 : Sane r md [] (RunState.init r.lift (.fin md)) := ⟨rfl, rfl, rfl, hd⟩
  obtain ⟨s1, h1⟩ := next hs0
  rcases step_nearest (by simpa using hw) hs0 h1 with ⟨g, -⟩ | ⟨l1, o', l2, d, x', k', hl, hr', -, -, g3, g4, g5, -⟩
  · exact absurd hr (g o (by simp) _ _ _)
  obtain ⟨rfl, rfl, rfl⟩ : l1 = [] ∧ o' = o ∧ l2 = [] := by
    cases l1 with
    | nil => cases hl; exact ⟨rfl, rfl, rfl⟩
    | cons a l => simp at hl
  obtain ⟨sfo, e1⟩ := hr'.reports
  obtain ⟨sfo', e2⟩ := hr.reports
  rw [e1] at e2
  simp only [Except.ok.injEq, Hit4.mk.injEq, Option.some.injEq] at e2
  obtain rfl := lift_inj e2.2.1
  obtain rfl := lift_inj e2.2.2.1
  obtain rfl : d = δ := by rw [← hr'.dist_eq, hr.dist_eq]
  obtain ⟨sfo, hits, k1, k2⟩ := g5 hty
  rw [← hx, hdo sfo] at k1
  obtain ⟨k3, k4⟩ := Prod.mk.inj (Except.ok.inj k1)
  subst k4
  have hs1 : Sane (r.turnedAt x' e) (md - d) [] s1 := ⟨k3.symm, g3, by rw [k2]; rfl, he⟩
  obtain ⟨s2, h2⟩ := next hs1
  rcases step_nearest (by simpa using hw) hs1 h2 with ⟨-, f1, f2, f3, f4⟩ | ⟨l1, o'', l2, d', y, j, hl, hr2, -⟩
  · refine ⟨s2, ?_, ?_, by rw [f3, hs1.log]; rfl, by rw [f4, g4]; rfl⟩
    · show runLoop _ ([o'].map Optic.lift) _ _ _ = _
      rw [runLoop_next _ (sane_continues hs0 (hδ.trans hlt) hbl) h1,
        runLoop_next _ (sane_continues hs1 (sub_pos.mpr hlt) hbl) h2, runLoop_stop]
      unfold RunState.continues
      rw [f2, xlit0, decide_eq_false (show ¬ (XR.fin (md - d - md) > XR.fin 0) from
        fun h => absurd (show (0 : ℝ) < md - d - md from h) (by linarith))]
      rfl
    · rw [f1]
      congr 1
      show (⟨_, _, _, _, _, _, _⟩ : Ray ℝ) = ⟨_, _, _, _, _, _, _⟩
      congr 1
      simp [Ray.turnedAt, Ray.movedTo, at_eq, lineAt]
  · obtain ⟨rfl, rfl, rfl⟩ : l1 = [] ∧ o'' = o' ∧ l2 = [] := by
      cases l1 with
      | nil => cases hl; exact ⟨rfl, rfl, rfl⟩
      | cons a l => simp at hl
    exact absurd hr2 (hno _ _ _)

/-! ## What round mirrors report -/

/-- The direction reflected about a radius. -/
theorem reflected_radius {a d : V3 ℝ} (hd : dot d d = 1) {R : ℝ} (hR : R ≠ 0) (ha : dot a a = R ^ 2) :
    Reflected a.toE d.toE (d - (2 * dot d a / R ^ 2) * a).toE := by
  have hk : dot ((1 / R) * a) ((1 / R) * a) = 1 := by
    rw [dot_smul_left, dot_smul_right, ha]; field_simp
  have h := specular_reflected (ne_zero_of_dot_one hd) (ne_zero_of_dot_one hk)
  rw [specular_eq_unit hd hk] at h
  have e : d - (2 * dot d ((1 / R) * a)) * ((1 / R) * a) = d - (2 * dot d a / R ^ 2) * a := by
    rw [dot_smul_right]
    ext <;> simp only [sub_x, sub_y, sub_z, smul_x, smul_y, smul_z] <;> field_simp
  rw [e, toE_smul] at h
  exact h.of_smul (one_div_ne_zero hR)

theorem reflected_radius_eq {a d e : V3 ℝ} (hd : dot d d = 1) {R : ℝ} (hR : R ≠ 0) (ha : dot a a = R ^ 2)
    (h : Reflected a.toE d.toE e.toE) : e = d - (2 * dot d a / R ^ 2) * a := by
  have hne : ∀ v : V3 ℝ, v.toE = 0 → dot v v = 0 := by
    intro v hv
    rw [← inner_toE, hv, inner_zero_left]
  refine toE_injective (Reflected.unique (n := a.toE) (d := d.toE) (fun e => ?_) (fun e => ?_) h (reflected_radius hd hR ha))
  · have := hne _ e
    rw [ha] at this
    exact hR (pow_eq_zero_iff (two_ne_zero) |>.mp this)
  · have := hne _ e
    rw [hd] at this
    exact one_ne_zero this

theorem reports_ok {m : Mirror ℝ} {ray : Ray ℝ} (hl : m.lift.testIntersect ray.lift = (m.testIntersect ray).map Hit4.lift)
    {x k : V3 ℝ} (h : (Optic.mirror m).Reports ray x k) :
    ∃ r, m.testIntersect ray = .ok r ∧ r.hit = true ∧ r.pt = some x ∧ r.normal = some k := by
  cases hr : m.testIntersect ray with
  | error e =>
    obtain ⟨sfo, e1⟩ := h
    rw [show (Optic.mirror m).lift.testIntersect ray.lift = m.lift.testIntersect ray.lift from rfl, hl, hr] at e1
    cases e1
  | ok r => exact ⟨r, rfl, (reports_of_lift hl hr x k).mp h⟩

theorem real_specular {m : Mirror ℝ} (ht : m.type = "normal") (y : Ray ℝ) (x k : V3 ℝ) :
    m.doIntersect y x (some k) = .ok { y with direction := specular y.direction k } := by
  unfold Mirror.doIntersect
  rw [if_pos ht]; rfl

theorem reports_unit {o : Optic ℝ} (h : o.WellFormed) {ray : Ray ℝ} (hd : dot ray.direction ray.direction = 1) {x k : V3 ℝ}
    (hr : o.Reports ray x k) : dot k k = 1 := by
  obtain ⟨sfo, e⟩ := hr
  obtain ⟨pt, n, e1, e2, hF⟩ := test_good h ray hd e rfl
  rcases hF with hF | ⟨y, j, h1, h2, h3⟩
  · rw [hF] at e1
    have := congrArg V3.x (Option.some.inj e1)
    cases this
  · have := h3.unit
    rw [h2] at e2
    rw [lift_inj (Option.some.inj e2)]; exact this

theorem reports_exists {m : Mirror ℝ} (hw : (Optic.mirror m).WellFormed) {ray : Ray ℝ}
    (hd : dot ray.direction ray.direction = 1) (hl : m.lift.testIntersect ray.lift = (m.testIntersect ray).map Hit4.lift)
    {r : Hit4 ℝ} (hr : m.testIntersect ray = .ok r) (hh : r.hit = true) : ∃ x k, (Optic.mirror m).Reports ray x k := by
  have e : (Optic.mirror m).lift.testIntersect ray.lift = .ok r.lift := by
    show m.lift.testIntersect ray.lift = _
    rw [hl, hr]; rfl
  obtain ⟨pt, n, e1, e2, -⟩ := test_good hw ray hd e hh
  obtain ⟨a, b, c, d⟩ := r
  cases b with
  | none => cases e1
  | some b =>
    cases c with
    | none => cases e2
    | some c => exact ⟨b, c, (reports_of_lift hl hr b c).mpr ⟨hh, rfl, rfl⟩⟩

/-- What a concave mirror reports, and what it does then. -/
theorem concave_reports {position n : V3 ℝ} (hn : dot n n = 1) {D f : ℝ} (hD : D ≠ 0) (hf : f ≠ 0) {w h : Option ℝ}
    {t : Option (V3 ℝ)} (ht : t ≠ some ⟨0, 0, 0⟩) {dmd : V3 ℝ} (hdmd : dmd ≠ ⟨0, 0, 0⟩) {m : Mirror ℝ}
    (hm : Mirror.new position "circular_concave_spherical" (some n) (some D) w h (some f) t "normal" (some dmd) = .ok m) :
    (Optic.mirror m).WellFormed ∧ m.type = "normal" ∧ ∀ ray : Ray ℝ, dot ray.direction ray.direction = 1 →
      (∀ x k, (Optic.mirror m).Reports ray x k → dot k k = 1 ∧
        specular ray.direction k = ray.direction - (2 * dot ray.direction (x - (position + (2 * f) * n)) / (2 * f) ^ 2) *
          (x - (position + (2 * f) * n)) ∧
        ∃ t, x = ray.at t ∧ OnSphere (position + (2 * f) * n) (2 * f) (ray.at t) ∧
          ∃ u, 1e-9 < u ∧ dot (ray.at u - position) n = 0 ∧ dist (ray.at u).toE position.toE < D / 2 ∧
            ∀ s, 1e-12 < s → OnSphere (position + (2 * f) * n) (2 * f) (ray.at s) →
              dist (ray.at u).toE (ray.at t).toE ≤ dist (ray.at u).toE (ray.at s).toE) ∧
      (¬ Tangent (position + (2 * f) * n) (2 * f) ray.position ray.direction →
        (∃ t, 1e-12 < t ∧ OnSphere (position + (2 * f) * n) (2 * f) (ray.at t)) → 1e-9 < |dot n ray.direction| →
        (∃ u, 1e-9 < u ∧ dot (ray.at u - position) n = 0 ∧ dist (ray.at u).toE position.toE < D / 2) →
        ∃ x k, (Optic.mirror m).Reports ray x k) := by
  have hn0 : n ≠ ⟨0, 0, 0⟩ := ne_zero_of_dot_one hn
  have hw : (Optic.mirror m).WellFormed := .mirror (fun e => hn0 (Option.some.inj e)) ht hdmd
    (fun e => hD (Option.some.inj e)) (fun e => hf (Option.some.inj e)) hm
  have hty := (mirror_new_facts hm).1
  have hu := unitVector_of_unit hn
  have hn1 : ‖n.toE‖ = 1 := by rw [norm_toE, norm_eq_one_iff]; exact hn
  refine ⟨hw, hty, fun ray hd => ⟨fun x k hk => ?_, fun hT h1 h2 h3 => ?_⟩⟩
  · have hl := concave_lift hn0 hf hm ray hd
    have hk1 := reports_unit hw hd hk
    obtain ⟨r, e1, e2, e3, e4⟩ := reports_ok hl hk
    obtain ⟨t', g1, g2, ⟨u, g3, g4, g5, g6⟩, g7⟩ := C55_concave position n hn0 D f hf w h t "normal" dmd hdmd m hm ray
      (by rw [norm_toE, norm_eq_one_iff]; exact hd) r e1 e2
    rw [hu] at g2 g6 g7
    obtain ⟨d', g8, g9⟩ := g7 ray rfl
    have hx : x = ray.at t' := Option.some.inj (e3.symm.trans g1)
    have hx' : lineAt ray.position ray.direction t' = x := by rw [hx]; rfl
    rw [e4, real_specular hty] at g8
    have hd' : specular ray.direction k = d' := congrArg Ray.direction (Except.ok.inj g8)
    refine ⟨hk1, ?_, t', hx, g2, u, g3, (onPlane_iff _ _ _).mp g4, g5, g6⟩
    rw [hd']
    rw [hx'] at g9 g2
    exact reflected_radius_eq hd (by simp [hf]) ((onSphere_iff _ _ _).mp g2) (g9.ordinary rfl)
  · have hl := concave_lift hn0 hf hm ray hd
    obtain ⟨r, e1, e2⟩ := C55_concave_hit position n hn0 D f hf w h t "normal" dmd m hm ray
      (by rw [norm_toE, norm_eq_one_iff]; exact hd) (by rw [hu]; exact hT)
    rw [hu] at e2
    obtain ⟨u, g1, g2, g3⟩ := h3
    exact reports_exists hw hd hl e1 (e2.mpr ⟨h1, by rw [hn1, inner_toE, mul_one]; exact h2, u, g1, (onPlane_iff _ _ _).mpr g2, g3⟩)

/-- What a convex mirror reports, and what it does then. -/
theorem convex_reports {position : V3 ℝ} {n : Option (V3 ℝ)} (hn : n ≠ some ⟨0, 0, 0⟩) {D : ℝ} (hD : D ≠ 0) {w h f : Option ℝ}
    (hf : f ≠ some 0) {t : Option (V3 ℝ)} (ht : t ≠ some ⟨0, 0, 0⟩) {dmd : V3 ℝ} (hdmd : dmd ≠ ⟨0, 0, 0⟩) {m : Mirror ℝ}
    (hm : Mirror.new position "circular_convex_spherical" n (some D) w h f t "normal" (some dmd) = .ok m) :
    (Optic.mirror m).WellFormed ∧ m.type = "normal" ∧ ∀ ray : Ray ℝ, dot ray.direction ray.direction = 1 →
      ¬ Tangent position (D / 2) ray.position ray.direction →
      (∀ x k, (Optic.mirror m).Reports ray x k → dot k k = 1 ∧
        specular ray.direction k = ray.direction - (2 * dot ray.direction (x - position) / (D / 2) ^ 2) * (x - position) ∧
        ∃ t, x = ray.at t ∧ FirstOnSphere position (D / 2) ray.position ray.direction t) ∧
      ((∃ t, 1e-12 < t ∧ OnSphere position (D / 2) (ray.at t)) → ∃ x k, (Optic.mirror m).Reports ray x k) := by
  have hw : (Optic.mirror m).WellFormed := .mirror hn ht hdmd (fun e => hD (Option.some.inj e)) hf hm
  have hty := (mirror_new_facts hm).1
  refine ⟨hw, hty, fun ray hd hT => ?_⟩
  have hl := convex_lift hD hm ray hd
  obtain ⟨r, e1, e2, e3⟩ := C55_convex position n D hD w h f t "normal" dmd hdmd m hm ray
      (by rw [norm_toE, norm_eq_one_iff]; exact hd) hT
  refine ⟨fun x k hk => ?_, fun h1 => reports_exists hw hd hl e1 (e2.mpr h1)⟩
  have hk1 := reports_unit hw hd hk
  obtain ⟨g1, g2, g3⟩ := (reports_of_lift hl e1 x k).mp hk
  obtain ⟨t', g4, g5, g6⟩ := e3 g1
  obtain ⟨d', g8, g9⟩ := g6 ray rfl
  have hx : x = ray.at t' := Option.some.inj (g2.symm.trans g5)
  have hx' : lineAt ray.position ray.direction t' = x := by rw [hx]; rfl
  rw [g3, real_specular hty] at g8
  have hd' : specular ray.direction k = d' := congrArg Ray.direction (Except.ok.inj g8)
  refine ⟨hk1, ?_, t', hx, g4⟩
  have g10 := g4.on
  rw [hd']
  rw [hx'] at g9 g10
  exact reflected_radius_eq hd (by simp [hD]) ((onSphere_iff _ _ _).mp g10) (g9.ordinary rfl)

end Optics
