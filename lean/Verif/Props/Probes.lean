import Verif.Props.FaerieFire
import Verif.Props.CsgRays
import Verif.Props.RealRun
import Verif.Props.Singlet

/-!
# C92: faerie fire draws the solid

`add_faerie_fire_rays` surrounds a solid with rays that stop at the first surface they meet; the scripts plot where they stop.
-/

namespace Optics
open V3

/-! ## One probe -/

/-- What a compound answers. -/
theorem compound_test {c : Compound ℝ} {ray : Ray ℝ} {r : Hit6 ℝ} (hr : testTreeIntersect c.tree ray = .ok (.six r)) :
    (Optic.compound c).testIntersect ray = .ok ⟨r.hit, r.pt1, r.n1, .bool (decide (r.count % 2 = 0))⟩ := by
  show Compound.testIntersect _ _ = _
  unfold Compound.testIntersect
  simp only [hr, bind, Except.bind]; rfl

/-- A probe that is told of a hit stops there. -/
theorem probe_stops {c : Compound ℝ} {ray : Ray ℝ} (hd : dot ray.direction ray.direction = 1) (hf : ray.type = "faerie_fire")
    (hb : ray.blocked = false) {r : Hit6 ℝ} (hr : testTreeIntersect c.tree ray = .ok (.six r)) (hh : r.hit = true) {t md : ℝ}
    (hp : r.pt1 = some (ray.at t)) (ht : 1e-12 < t) (hmd : t ≤ md) (fuel : ℕ) :
    ∃ s, ray.run md [.compound c] none (fuel + 2) = .finished s ∧ s.interactions = 1 ∧ s.log = [] ∧
      s.ray = { ray.movedTo (ray.at t) with blocked := true } := by
  have hdist : distanceBetween ray.position (ray.at t) = t := distance_lineAt hd (by norm_num at ht; linarith)
  have hscan : scan [.compound c] (RunState.init ray md) = .ok ⟨true, some (distanceBetween ray.position (ray.at t)),
      some ⟨.compound c, ray.at t, r.n1⟩, some (.bool (decide (r.count % 2 = 0)))⟩ := by
    rw [scan_one]
    exact scanStep_new (o := .compound c) rfl (compound_test hr) hh hp (by rw [hdist]; exact not_lt.mpr hmd)
      (by rw [hdist, clippingFloor_eq]; exact ht) (ltMin_none _)
  have h0 : 0 < md := by norm_num at ht; linarith
  have hstep : runStep md [.compound c] (RunState.init ray md) = .next { (RunState.init ray md) with
      selected := some ⟨.compound c, ray.at t, r.n1⟩, sfo := some (.bool (decide (r.count % 2 = 0))),
      remaining := md - t, interactions := 1, ray := { ray.movedTo (ray.at t) with blocked := true } } := by
    unfold runStep
    unfold scan at hscan
    have hfly : Ray.fly ray (some t) = .ok (ray.movedTo (ray.at t)) := rfl
    simp only [hscan, Bool.not_true, Bool.false_eq_true, if_false]
    simp only [RunState.init, hdist, hfly]
    rw [if_pos (show (ray.movedTo (ray.at t)).type = "faerie_fire" from hf)]
  unfold Ray.run
  rw [show fuel + 2 = (fuel + 1) + 1 from rfl,
    runLoop_next _ (by simp [RunState.continues, RunState.init, h0, hb, lit0]) hstep]
  exact ⟨_, runLoop_stop _ (by simp [RunState.continues]), rfl, rfl, rfl⟩

/-- A probe that is told of no hit, or of one too far away, flies on. -/
theorem probe_flies {c : Compound ℝ} {ray : Ray ℝ} (hb : ray.blocked = false) {md : ℝ} (hmd : 0 < md) {v : ScanVars ℝ}
    (hv : scan [.compound c] (RunState.init ray md) = .ok v) (hi : v.intersected = false) (fuel : ℕ) :
    ∃ s, ray.run md [.compound c] none (fuel + 2) = .finished s ∧ s.interactions = 0 ∧ s.log = [] ∧
      s.ray = ray.movedTo (ray.at md) := by
  unfold Ray.run
  rw [show fuel + 2 = (fuel + 1) + 1 from rfl, runLoop_next _ (by simp [RunState.continues, RunState.init, hmd, hb, lit0])
    (runStep_free hv hi)]
  exact ⟨_, runLoop_stop _ (by simp [RunState.continues, RunState.init, lit0]), rfl, rfl, rfl⟩

theorem probe_misses {c : Compound ℝ} {ray : Ray ℝ} (hb : ray.blocked = false) {md : ℝ} (hmd : 0 < md) {r : Hit6 ℝ}
    (hr : testTreeIntersect c.tree ray = .ok (.six r)) (hh : r.hit = false) (fuel : ℕ) :
    ∃ s, ray.run md [.compound c] none (fuel + 2) = .finished s ∧ s.interactions = 0 ∧ s.log = [] ∧
      s.ray = ray.movedTo (ray.at md) := by
  obtain ⟨v, hv, hi⟩ : ∃ v, scan [.compound c] (RunState.init ray md) = .ok v ∧ v.intersected = false := by
    rw [scan_one]
    exact ⟨_, scanStep_miss (o := .compound c) rfl (compound_test hr) hh, rfl⟩
  exact probe_flies hb hmd hv hi fuel

/-- C92: a probe sent to a compound whose tree finds the first crossing of a solid stops exactly there; if the solid is out of reach, or the
ray does not cross its boundary at all, the probe flies the whole distance. -/
theorem C92_probe (c : Compound ℝ) (S : Set (V3 ℝ)) (ray : Ray ℝ) (hd : ‖ray.direction.toE‖ = 1) (hf : ray.type = "faerie_fire")
    (hb : ray.blocked = false) (hc : Correct ray S (testTreeIntersect c.tree ray)) (hnear : ∀ t, FirstCrossing ray S t → 1e-12 < t)
    (md : ℝ) (hmd : 0 < md) (fuel : ℕ) (hfuel : 2 ≤ fuel) :
    ∃ s, ray.run md [.compound c] none fuel = .finished s ∧ s.log = [] ∧ s.ray.direction = ray.direction ∧
      ((∃ t, FirstCrossing ray S t ∧ t ≤ md ∧ s.ray.position = ray.at t ∧ s.ray.pointHistory = ray.pointHistory ++ [ray.at t] ∧
          s.ray.blocked = true ∧ s.interactions = 1) ∨
       ((∀ t, 0 < t → t ≤ md → (ray.at t ∈ S ↔ ray.at 0 ∈ S)) ∧ s.ray.position = ray.at md ∧
          s.ray.pointHistory = ray.pointHistory ++ [ray.at md] ∧ s.ray.blocked = false ∧ s.interactions = 0)) := by
  rw [norm_toE, norm_eq_one_iff] at hd
  obtain ⟨fuel, rfl⟩ := Nat.exists_eq_add_of_le' hfuel
  obtain ⟨r, hr, h | ⟨hh, t, hp, ht⟩⟩ := hc
  · obtain ⟨s, h1, h2, h3, h4⟩ := probe_misses hb hmd hr h.1 fuel
    refine ⟨s, h1, h3, by rw [h4]; rfl, .inr ⟨fun t ht _ => h.2 t ht, by rw [h4]; rfl, by rw [h4]; rfl, by rw [h4]; exact hb, h2⟩⟩
  · by_cases hle : t ≤ md
    · obtain ⟨s, h1, h2, h3, h4⟩ := probe_stops hd hf hb hr hh hp (hnear t ht) hle fuel
      exact ⟨s, h1, h3, by rw [h4]; rfl, .inl ⟨t, ht, hle, by rw [h4]; rfl, by rw [h4]; rfl, by rw [h4], h2⟩⟩
    · have hdist : distanceBetween ray.position (ray.at t) = t := distance_lineAt hd ht.1.le
      obtain ⟨v, hv, hi⟩ : ∃ v, scan [.compound c] (RunState.init ray md) = .ok v ∧ v.intersected = false := by
        rw [scan_one]
        exact ⟨_, scanStep_far (o := .compound c) rfl (compound_test hr) hh hp
          (.inl (by show md < distanceBetween ray.position _; rw [hdist]; exact not_le.mp hle)), rfl⟩
      obtain ⟨s, h1, h2, h3, h4⟩ := probe_flies hb hmd hv hi fuel
      refine ⟨s, h1, h3, by rw [h4]; rfl, .inr ⟨fun u hu hu' => ht.2.1 u hu (lt_of_le_of_lt hu' (not_le.mp hle)), by rw [h4]; rfl, by rw [h4]; rfl, by rw [h4]; exact hb, h2⟩⟩

/-! ## Two solids with the same chord -/

/-- The ray goes through two bodies at the same times. -/
def SameChord (ray : Ray ℝ) (A B : Prim ℝ) : Prop := ∀ t, 0 ≤ t → (ray.at t ∈ A.solid ↔ ray.at t ∈ B.solid)

/-- What the two bodies report to such a ray. -/
theorem sameChord_reports (A B : Prim ℝ) (hA : A.Solid) (hB : B.Solid) (ray : Ray ℝ) (hd : dot ray.direction ray.direction = 1)
    (gA : A.General ray) (gB : B.General ray) (h : SameChord ray A B) :
    ∃ ra rb, testTreeIntersect (Csg.prim A).tree ray = .ok (.six ra) ∧ testTreeIntersect (Csg.prim B).tree ray = .ok (.six rb) ∧
      ((ra.hit = false ∧ rb.hit = false) ∨
       (ra.hit = true ∧ rb.hit = true ∧ ∃ t0 t1 k x0 x1 y0 y1,
          helperFindIntersects ra ray .nearest = .ok ⟨some (ray.at t0), some x0, some t0, k⟩ ∧
          helperFindIntersects ra ray .farthest = .ok ⟨some (ray.at t1), some x1, some t1, k⟩ ∧
          helperFindIntersects rb ray .nearest = .ok ⟨some (ray.at t0), some y0, some t0, k⟩ ∧
          helperFindIntersects rb ray .farthest = .ok ⟨some (ray.at t1), some y1, some t1, k⟩ ∧
          (ray.position ∉ A.solid → k = 2))) := by
  obtain ⟨ra, ea, pa⟩ := prim_passes A hA ray hd gA
  obtain ⟨rb, eb, pb⟩ := prim_passes B hB ray hd gB
  refine ⟨ra, rb, ea, eb, ?_⟩
  have z : ray.at 0 = ray.position := at_zero ray
  cases pa with
  | never na =>
    cases pb with
    | never nb => exact .inl ⟨rfl, rfl⟩
    | through b0 b1 hb0 hb01 sb0 sb1 hbin _ hitb nearb farb =>
      exact absurd ((h _ (by linarith)).mpr ((hbin ((b0 + b1) / 2) (by linarith)).mpr ⟨by linarith, by linarith⟩)) (na _ (by linarith))
    | leave b1 hb1 sb1 hbin _ hitb bothb =>
      exact absurd ((h 0 le_rfl).mpr ((hbin 0 le_rfl).mpr (by linarith))) (na 0 le_rfl)
  | through a0 a1 ha0 ha01 sa0 sa1 hain _ hita near far =>
    cases pb with
    | never nb =>
      exact absurd ((h _ (by linarith)).mp ((hain ((a0 + a1) / 2) (by linarith)).mpr ⟨by linarith, by linarith⟩)) (nb _ (by linarith))
    | through b0 b1 hb0 hb01 sb0 sb1 hbin _ hitb nearb farb =>
      have e : Set.Ioo a0 a1 = Set.Ioo b0 b1 := by
        ext t
        constructor
        · intro ht
          exact (hbin t (by linarith [ht.1])).mp ((h t (by linarith [ht.1])).mp ((hain t (by linarith [ht.1])).mpr ht))
        · intro ht
          exact (hain t (by linarith [ht.1])).mp ((h t (by linarith [ht.1])).mpr ((hbin t (by linarith [ht.1])).mpr ht))
      have e0 : a0 = b0 := by rw [← csInf_Ioo ha01, e, csInf_Ioo hb01]
      have e1 : a1 = b1 := by rw [← csSup_Ioo ha01, e, csSup_Ioo hb01]
      subst e0 e1
      exact .inr ⟨hita, hitb, a0, a1, 2, _, _, _, _, near, far, nearb, farb, fun _ => rfl⟩
    | leave b1 hb1 sb1 hbin _ hitb bothb =>
      have := (hain 0 le_rfl).mp ((h 0 le_rfl).mpr ((hbin 0 le_rfl).mpr (by linarith)))
      linarith [this.1]
  | leave a1 ha1 sa1 hain _ hita botha =>
    cases pb with
    | never nb => exact absurd ((h 0 le_rfl).mp ((hain 0 le_rfl).mpr (by linarith))) (nb 0 le_rfl)
    | through b0 b1 hb0 hb01 sb0 sb1 hbin _ hitb nearb farb =>
      have := (hbin 0 le_rfl).mp ((h 0 le_rfl).mp ((hain 0 le_rfl).mpr (by linarith)))
      linarith [this.1]
    | leave b1 hb1 sb1 hbin _ hitb bothb =>
      have e1 : a1 = b1 := by
        rcases lt_trichotomy a1 b1 with c | c | c
        · exact absurd ((hain a1 (by linarith)).mp ((h a1 (by linarith)).mpr ((hbin a1 (by linarith)).mpr c))) (lt_irrefl _)
        · exact c
        · exact absurd ((hbin b1 (by linarith)).mp ((h b1 (by linarith)).mp ((hain b1 (by linarith)).mpr c))) (lt_irrefl _)
      subst e1
      refine .inr ⟨hita, hitb, a1, a1, 1, _, _, _, _, botha _, botha _, bothb _, bothb _, fun hn => absurd ?_ hn⟩
      rw [← z]
      exact (hain 0 le_rfl).mpr (by linarith)

/-- C92: `difference` is also right where the two bodies have the same chord, which is a tie that `C27_difference_correct_iff_partial`
leaves out: it reports a miss, and there is nothing to hit. -/
theorem C92_same_chord_difference (A B : Prim ℝ) (hA : A.Solid) (hB : B.Solid) (ray : Ray ℝ) (hd : ‖ray.direction.toE‖ = 1)
    (gA : A.General ray) (gB : B.General ray) (h : SameChord ray A B) :
    Correct ray (A.solid \ B.solid) (testTreeIntersect (Csg.op .difference (.prim A) (.prim B)).tree ray) ∧
      NeverCrosses ray (A.solid \ B.solid) := by
  rw [norm_toE, norm_eq_one_iff] at hd
  obtain ⟨ra, rb, ea, eb, hr⟩ := sameChord_reports A B hA hB ray hd gA gB h
  have hn : NeverCrosses ray (A.solid \ B.solid) := never_of_out fun t ht hm => hm.2 ((h t ht).mp hm.1)
  refine ⟨?_, hn⟩
  rw [tree_op_eq .difference _ _ ray ra rb ea eb]
  have e : operCsgDifference ra rb ray = .ok (Hit6.miss (ra.count + rb.count)) := by
    rcases hr with ⟨h1, h2⟩ | ⟨h1, h2, t0, t1, k, x0, x1, y0, y1, h3, h4, h5, h6, -⟩
    · simp [operCsgDifference, Hit6.miss, h1, h2]
    · simp [operCsgDifference, h1, h2, h3, h4, h5, h6, bind, Except.bind, pyLt, pure, Except.pure]
  simp only [e]
  exact correct_ok.mpr (describes_miss.mpr hn)

/-- C92: `intersect` is wrong there.  A ray that enters both bodies at one point, as it does through the rim of a lens, goes through the
solid unnoticed. -/
theorem C92_same_chord_intersect_wrong (A B : Prim ℝ) (hA : A.Solid) (hB : B.Solid) (ray : Ray ℝ) (hd : ‖ray.direction.toE‖ = 1)
    (gA : A.General ray) (gB : B.General ray) (h : SameChord ray A B) (hout : ray.position ∉ A.solid)
    (hin : ∃ t, 0 ≤ t ∧ ray.at t ∈ A.solid) :
    ¬ Correct ray (A.solid ∩ B.solid) (testTreeIntersect (Csg.op .intersect (.prim A) (.prim B)).tree ray) ∧
      ∃ k, testTreeIntersect (Csg.op .intersect (.prim A) (.prim B)).tree ray = .ok (.six (Hit6.miss k)) := by
  rw [norm_toE, norm_eq_one_iff] at hd
  obtain ⟨ra, rb, ea, eb, hr⟩ := sameChord_reports A B hA hB ray hd gA gB h
  have e : testTreeIntersect (Csg.op .intersect (.prim A) (.prim B)).tree ray = .ok (.six (Hit6.miss (ra.count + rb.count))) := by
    rw [tree_op_eq .intersect _ _ ray ra rb ea eb]
    rcases hr with ⟨h1, h2⟩ | ⟨h1, h2, t0, t1, k, x0, x1, y0, y1, h3, h4, h5, h6, h7⟩
    · simp [operCsgIntersect, Hit6.miss, h1, h2, Except.map]
    · simp [operCsgIntersect, h1, h2, h3, h4, h5, h6, h7 hout, bind, Except.bind, pyLt, pure, Except.pure, Except.map]
  refine ⟨?_, _, e⟩
  rw [e]
  intro hc
  have hn := describes_miss.mp (correct_ok.mp hc)
  obtain ⟨t, ht, hm⟩ := hin
  have z : ray.at 0 = ray.position := at_zero ray
  have h0 : ray.at 0 ∉ A.solid ∩ B.solid := fun hm => hout (z ▸ hm.1)
  rcases eq_or_lt_of_le ht with rfl | hlt
  · exact hout (z ▸ hm)
  · exact h0 ((hn t hlt).mp ⟨hm, (h t ht).mp hm⟩)

/-! ## Overlapping bodies, probed through a common point -/

/-- The ray meets a body before it comes to a point inside of it. -/
theorem firstCrossing_le {ray : Ray ℝ} {S : Set (V3 ℝ)} {t u : ℝ} (h : FirstCrossing ray S t) (hu : 0 < u)
    (h0 : ray.at 0 ∉ S) (hm : ray.at u ∈ S) : t ≤ u := by
  by_contra c
  exact h0 ((h.2.1 u hu (not_le.mp c)).mp hm)

/-- A probe starts outside of a ball of radius `R`, a distance `m` away at the least, and goes to a point inside of it. -/
theorem probe_general' {s : Sphere ℝ} {ray : Ray ℝ} (hd : dot ray.direction ray.direction = 1) {u : ℝ}
    (hin : ray.at u ∈ (Prim.sphere s).solid) (hstart : 1e-12 < |dist ray.position.toE s.center.toE - s.R|) (hR : 0 < s.R) :
    (Prim.sphere s).General ray := by
  refine ⟨id, fun _ _ => ⟨u, hin⟩, fun t h0 h1 hs => ?_⟩
  have h2 : dist (ray.at t).toE s.center.toE = |s.R| := hs
  have h3 : dist ray.position.toE (ray.at t).toE = t := by rw [dist_toE_eq]; exact distance_lineAt hd h0
  have h4 := abs_dist_sub_le ray.position.toE (ray.at t).toE s.center.toE
  rw [abs_of_pos hR] at h2
  rw [h2, h3] at h4
  linarith

theorem probe_general {s : Sphere ℝ} {ray : Ray ℝ} (hd : dot ray.direction ray.direction = 1) {u : ℝ}
    (hin : ray.at u ∈ (Prim.sphere s).solid) (hout : s.R + 1e-12 < dist ray.position.toE s.center.toE) (hR : 0 < s.R) :
    (Prim.sphere s).General ray :=
  probe_general' hd hin (lt_of_lt_of_le (lt_sub_iff_add_lt'.mpr hout) (le_abs_self _)) hR

/-- A probe that goes to a point of a solid inside of such a ball, and is told the truth, stops where it enters the solid. -/
theorem probe_hits {c : Compound ℝ} {S : Set (V3 ℝ)} {P : Sphere ℝ} (hP : 0 < P.R) (hsub : S ⊆ (Prim.sphere P).solid) {ray : Ray ℝ}
    (hd : ‖ray.direction.toE‖ = 1) (hf : ray.type = "faerie_fire") (hb : ray.blocked = false)
    (hc : Correct ray S (testTreeIntersect c.tree ray)) {u md : ℝ} (hu : 0 < u) (hmd : u ≤ md) (hm : ray.at u ∈ S)
    (hout : P.R + 1e-12 < dist ray.position.toE P.center.toE) (fuel : ℕ) (hfuel : 2 ≤ fuel) :
    ∃ s t, ray.run md [.compound c] none fuel = .finished s ∧ FirstCrossing ray S t ∧ t ≤ u ∧ 1e-12 < t ∧
      s.ray = { ray.movedTo (ray.at t) with blocked := true } ∧ s.interactions = 1 ∧ s.log = [] := by
  rw [norm_toE, norm_eq_one_iff] at hd
  obtain ⟨fuel, rfl⟩ := Nat.exists_eq_add_of_le' hfuel
  have far : ∀ t, 0 ≤ t → ray.at t ∈ S → dist ray.position.toE P.center.toE - P.R < t := by
    intro t ht hm
    have h2 : dist (ray.at t).toE P.center.toE < P.R := hsub hm
    have h3 : dist ray.position.toE (ray.at t).toE = t := by rw [dist_toE_eq]; exact distance_lineAt hd ht
    have h4 := dist_triangle ray.position.toE (ray.at t).toE P.center.toE
    linarith
  have h0 : ray.at 0 ∉ S := fun h => by
    have := far 0 le_rfl h
    norm_num at hout
    linarith
  have near : ∀ t, FirstCrossing ray S t → 1e-12 < t := by
    intro t ht
    obtain ⟨v, h1, h2, h3⟩ := ht.2.2 (dist ray.position.toE P.center.toE - P.R - 1e-12) (by linarith)
    have h4 : ray.at v ∈ S := by
      by_contra h
      exact h3 (iff_of_false h h0)
    have := far v (by linarith [ht.1]) h4
    linarith
  obtain ⟨r, hr, h | ⟨hh, t, hp, ht⟩⟩ := hc
  · exact absurd ((h.2 u hu).mp hm) h0
  · have hle := firstCrossing_le ht hu h0 hm
    obtain ⟨s, h1, h2, h3, h4⟩ := probe_stops hd hf hb hr hh hp (near t ht) (hle.trans hmd) fuel
    exact ⟨s, t, h1, ht, hle, near t ht, h4, h2, h3⟩

/-- C92: a lens-shaped solid, probed from outside through any of its points: the probe stops where it enters the solid.  The probe may start
inside of one of the two balls, but not within 1e-12 of a surface.  Ties are left out; see `C92_same_chord_intersect_wrong`. -/
theorem C92_intersect_partial (P Q : Sphere ℝ) (hP : 0 < P.R) (hQ : 0 < Q.R) (behavior : String) (index : ℝ) (ray : Ray ℝ)
    (hd : ‖ray.direction.toE‖ = 1) (hf : ray.type = "faerie_fire") (hb : ray.blocked = false) (u md : ℝ) (hu : 0 < u) (hmd : u ≤ md)
    (hinP : ray.at u ∈ (Prim.sphere P).solid) (hinQ : ray.at u ∈ (Prim.sphere Q).solid)
    (hstartP : 1e-12 < |dist ray.position.toE P.center.toE - P.R|) (hstartQ : 1e-12 < |dist ray.position.toE Q.center.toE - Q.R|)
    (hout : P.R < dist ray.position.toE P.center.toE ∨ Q.R < dist ray.position.toE Q.center.toE)
    (htie : NoTie ray (.sphere P) (.sphere Q)) (fuel : ℕ) (hfuel : 2 ≤ fuel) :
    ∃ s t, ray.run md [.compound ⟨(Csg.op .intersect (.prim (.sphere P)) (.prim (.sphere Q))).tree, behavior, index⟩] none fuel
        = .finished s ∧ FirstCrossing ray ((Prim.sphere P).solid ∩ (Prim.sphere Q).solid) t ∧ t ≤ u ∧ 1e-12 < t ∧
      s.ray = { ray.movedTo (ray.at t) with blocked := true } ∧ s.interactions = 1 ∧ s.log = [] := by
  have hd' := hd
  rw [norm_toE, norm_eq_one_iff] at hd'
  obtain ⟨r, hr, hdes, -⟩ := C26_intersect_partial (.sphere P) (.sphere Q) hP hQ ray hd (probe_general' hd' hinP hstartP hP)
    (probe_general' hd' hinQ hstartQ hQ) htie
  rcases hout with h | h
  · refine probe_hits hP Set.inter_subset_left hd hf hb ⟨r, hr, hdes⟩ hu hmd ⟨hinP, hinQ⟩ ?_ fuel hfuel
    rw [abs_of_pos (by linarith)] at hstartP
    linarith
  · refine probe_hits hQ Set.inter_subset_right hd hf hb ⟨r, hr, hdes⟩ hu hmd ⟨hinP, hinQ⟩ ?_ fuel hfuel
    rw [abs_of_pos (by linarith)] at hstartQ
    linarith

/-- C92: a solid with a ball cut out of it, probed from outside along a line with a point in both balls and, later or earlier, a point of
the solid: the probe stops where it enters the solid.  Ties are left out; see `C92_same_chord_difference`. -/
theorem C92_difference_partial (P Q : Sphere ℝ) (hP : 0 < P.R) (hQ : 0 < Q.R) (behavior : String) (index : ℝ) (ray : Ray ℝ)
    (hd : ‖ray.direction.toE‖ = 1) (hf : ray.type = "faerie_fire") (hb : ray.blocked = false) (u v md : ℝ) (hu : 0 < u) (hv : 0 < v)
    (hmd : v ≤ md) (hinP : ray.at u ∈ (Prim.sphere P).solid) (hinQ : ray.at u ∈ (Prim.sphere Q).solid)
    (hm : ray.at v ∈ (Prim.sphere P).solid \ (Prim.sphere Q).solid)
    (houtP : P.R + 1e-12 < dist ray.position.toE P.center.toE) (houtQ : Q.R + 1e-12 < dist ray.position.toE Q.center.toE)
    (htie : NoTie ray (.sphere P) (.sphere Q)) (fuel : ℕ) (hfuel : 2 ≤ fuel) :
    ∃ s t, ray.run md [.compound ⟨(Csg.op .difference (.prim (.sphere P)) (.prim (.sphere Q))).tree, behavior, index⟩] none fuel
        = .finished s ∧ FirstCrossing ray ((Prim.sphere P).solid \ (Prim.sphere Q).solid) t ∧ t ≤ v ∧ 1e-12 < t ∧
      s.ray = { ray.movedTo (ray.at t) with blocked := true } ∧ s.interactions = 1 ∧ s.log = [] := by
  have hd' := hd
  rw [norm_toE, norm_eq_one_iff] at hd'
  have out : ∀ s : Sphere ℝ, s.R + 1e-12 < dist ray.position.toE s.center.toE → ray.position ∉ (Prim.sphere s).solid := by
    intro s h1 h2
    have h3 : dist ray.position.toE s.center.toE < s.R := h2
    norm_num at h1
    linarith
  have hc := (C27_difference_correct_iff_partial (.sphere P) (.sphere Q) hP hQ ray hd (probe_general hd' hinP houtP hP)
    (probe_general hd' hinQ houtQ hQ) htie).mpr (.inr (.inl ⟨out P houtP, out Q houtQ, u, u, hu.le, le_rfl, hinP, hinQ⟩))
  exact probe_hits hP Set.diff_subset hd hf hb hc hv hmd hm houtP fuel hfuel

/-! ## Symmetric lenses -/

/-- A scene of one compound of two balls. -/
theorem pair_wellFormed (o : CsgOp) {P Q : Sphere ℝ} (hP : 0 < P.R) (hQ : 0 < Q.R) {behavior : String} {index : ℝ}
    (hb : behavior = "reflect" ∨ behavior = "refract") (hi : 0 < index) :
    (∀ x ∈ [Optic.compound ⟨(Csg.op o (.prim (.sphere P)) (.prim (.sphere Q))).tree, behavior, index⟩], x.WellFormed) ∧
    (∀ x ∈ [Optic.compound ⟨(Csg.op o (.prim (.sphere P)) (.prim (.sphere Q))).tree, behavior, index⟩],
      ∀ c, Prim.cylinder c ∉ x.prims) ∧
    ∀ g, Optic.grating g ∉ [Optic.compound ⟨(Csg.op o (.prim (.sphere P)) (.prim (.sphere Q))).tree, behavior, index⟩] := by
  refine ⟨fun x hx => ?_, fun x hx c hc => ?_, fun g hg => ?_⟩
  · rw [List.mem_singleton.mp hx]
    exact .compound ⟨hP.ne', hQ.ne'⟩ hb hi
  · rw [List.mem_singleton.mp hx] at hc
    simp [Optic.prims, Csg.tree, Csg.toTree, Tree.prims, Key.prims, Shape.prims, Prim.toShape] at hc
  · simp at hg

/-- The probes run in numpy floats as in real numbers. -/
theorem probe_lift (o : CsgOp) {P Q : Sphere ℝ} (hP : 0 < P.R) (hQ : 0 < Q.R) {behavior : String} {index : ℝ}
    (hb : behavior = "reflect" ∨ behavior = "refract") (hi : 0 < index) {r : Ray ℝ} (hd : ‖r.direction.toE‖ = 1) {md : ℝ} {fuel : ℕ}
    {s : RunState ℝ}
    (h : r.run md [.compound ⟨(Csg.op o (.prim (.sphere P)) (.prim (.sphere Q))).tree, behavior, index⟩] none fuel = .finished s) :
    r.lift.run (.fin md) ([Optic.compound ⟨(Csg.op o (.prim (.sphere P)) (.prim (.sphere Q))).tree, behavior, index⟩].map Optic.lift) none fuel
      = .finished s.lift := by
  obtain ⟨h1, h2, h3⟩ := pair_wellFormed o hP hQ hb hi
  rw [C89_without_cylinders_and_gratings h1 h2 h3 r hd, h]
  rfl

/-- The distance of a ray from a point beside the point `m` it goes through. -/
theorem lens_dist {r : Ray ℝ} (hd : dot r.direction r.direction = 1) {F : ℝ} {m : V3 ℝ} (hc : lineAt r.position r.direction F = m)
    (t : ℝ) (k : V3 ℝ) :
    dist (r.at t).toE (m + k).toE ^ 2 = (t - F) ^ 2 - 2 * (t - F) * dot r.direction k + dot k k := by
  subst hc
  rw [dist_toE_eq, pow_two, norm_mul_self]
  simp only [Ray.at, lineAt, dot, sub_x, sub_y, sub_z, add_x, add_y, add_z, smul_x, smul_y, smul_z] at hd ⊢
  linear_combination (t - F) ^ 2 * hd

theorem lens_in {r : Ray ℝ} (hd : dot r.direction r.direction = 1) {F : ℝ} {m : V3 ℝ} (hc : lineAt r.position r.direction F = m)
    (t : ℝ) (k : V3 ℝ) (R D : ℝ) (hR : 0 < R) :
    (r.at t ∈ (Prim.sphere (⟨m + k, R, D⟩ : Sphere ℝ)).solid ↔ (t - F) ^ 2 - 2 * (t - F) * dot r.direction k + dot k k < R ^ 2) ∧
    (r.at t ∈ (Prim.sphere (⟨m + k, R, D⟩ : Sphere ℝ)).surface ↔ (t - F) ^ 2 - 2 * (t - F) * dot r.direction k + dot k k = R ^ 2) := by
  rw [← lens_dist hd hc t k]
  have h0 : 0 ≤ dist (r.at t).toE (m + k).toE := dist_nonneg
  constructor
  · show dist _ _ < R ↔ _
    exact (sq_lt_sq₀ h0 hR.le).symm
  · show dist _ _ = |R| ↔ _
    rw [abs_of_pos hR]
    exact (sq_eq_sq₀ h0 hR.le).symm

theorem lens_start {r : Ray ℝ} (hd : dot r.direction r.direction = 1) {F : ℝ} {m : V3 ℝ} (hc : lineAt r.position r.direction F = m)
    {k : V3 ℝ} {R : ℝ} (hF0 : 0 ≤ F) (hF : R + ‖k.toE‖ + 1e-12 < F) : R + 1e-12 < dist r.position.toE (m + k).toE := by
  have h1 : dist r.position.toE m.toE = F := by
    rw [dist_toE_eq, ← hc]
    exact distance_lineAt hd hF0
  have h2 : dist m.toE (m + k).toE = ‖k.toE‖ := by
    rw [toE_add, dist_self_add_right]
  have h3 := dist_triangle_right r.position.toE m.toE (m + k).toE
  rw [h1, h2] at h3
  linarith

/-- C92: a lens whose surfaces have the same radius, probed through its middle: the probe stops where it enters the lens, unless it lies in
the plane of the rim; then it goes through the lens as if there were nothing. -/
theorem C92_symmetric_lens (m k : V3 ℝ) (R D D' F md : ℝ) (hk : ‖k.toE‖ < R) (hF : R + ‖k.toE‖ + 1e-12 < F) (hmd : F ≤ md)
    (behavior : String) (index : ℝ) (hbe : behavior = "reflect" ∨ behavior = "refract") (hi : 0 < index)
    (r : Ray ℝ) (hd : ‖r.direction.toE‖ = 1) (hf : r.type = "faerie_fire") (hb : r.blocked = false) (hh : r.pointHistory = [r.position])
    (hc : lineAt r.position r.direction F = m) (fuel : ℕ) (hfuel : 2 ≤ fuel) :
    ∃ s, r.lift.run (.fin md) ([Optic.compound ⟨(Csg.op .intersect (.prim (.sphere ⟨m + k, R, D⟩))
        (.prim (.sphere ⟨m + (-1 : ℝ) * k, R, D'⟩))).tree, behavior, index⟩].map Optic.lift) none fuel = .finished s ∧ s.log = [] ∧
      (inner ℝ r.direction.toE k.toE ≠ 0 → ∃ t, FirstCrossing r {x | dist x.toE (m + k).toE < R ∧ dist x.toE (m + (-1 : ℝ) * k).toE < R} t ∧
        s.interactions = 1 ∧ s.ray = { r with position := r.at t, pointHistory := [r.position, r.at t], blocked := true }.lift) ∧
      (inner ℝ r.direction.toE k.toE = 0 → s.interactions = 0 ∧
        r.at F ∈ {x : V3 ℝ | dist x.toE (m + k).toE < R ∧ dist x.toE (m + (-1 : ℝ) * k).toE < R} ∧
        s.ray = { r with position := r.at md, pointHistory := [r.position, r.at md] }.lift) := by
  have hd' := hd
  rw [norm_toE, norm_eq_one_iff] at hd'
  have hR : 0 < R := lt_of_le_of_lt (_root_.norm_nonneg _) hk
  have hF0 : 0 < F := by
    have := _root_.norm_nonneg k.toE
    norm_num at hF
    linarith
  have hkk : dot k k < R ^ 2 := by
    rw [← norm_mul_self, ← norm_toE]
    have := _root_.norm_nonneg k.toE
    nlinarith
  have hk2 : ‖((-1 : ℝ) * k).toE‖ = ‖k.toE‖ := by rw [toE_smul, _root_.norm_smul]; simp
  have inP := fun t => lens_in hd' hc t k R D hR
  have inQ := fun t => lens_in hd' hc t ((-1 : ℝ) * k) R D' hR
  simp only [dot_smul_right, dot_smul_left] at inQ
  have hP := (inP F).1.mpr (by nlinarith)
  have hQ := (inQ F).1.mpr (by nlinarith)
  have oP : R + 1e-12 < dist r.position.toE (m + k).toE := lens_start hd' hc hF0.le hF
  have oQ : R + 1e-12 < dist r.position.toE (m + (-1 : ℝ) * k).toE := lens_start hd' hc hF0.le (by rw [hk2]; exact hF)
  have sP : 1e-12 < |dist r.position.toE (m + k).toE - R| := lt_of_lt_of_le (lt_sub_iff_add_lt'.mpr oP) (le_abs_self _)
  have sQ : 1e-12 < |dist r.position.toE (m + (-1 : ℝ) * k).toE - R| := lt_of_lt_of_le (lt_sub_iff_add_lt'.mpr oQ) (le_abs_self _)
  have oP' : R < dist r.position.toE (m + k).toE := by
    norm_num at oP
    linarith
  rw [inner_toE]
  by_cases hy : dot r.direction k = 0
  · have hch : SameChord r (.sphere ⟨m + k, R, D⟩) (.sphere ⟨m + (-1 : ℝ) * k, R, D'⟩) := by
      intro t _
      rw [(inP t).1, (inQ t).1, hy]
      ring_nf
    obtain ⟨-, n, hn⟩ := C92_same_chord_intersect_wrong (.sphere ⟨m + k, R, D⟩) (.sphere ⟨m + (-1 : ℝ) * k, R, D'⟩)
      hR hR r hd (probe_general hd' hP oP hR) (probe_general hd' hQ oQ hR) hch
      (fun hm => absurd (show dist r.position.toE (m + k).toE < R from hm) (not_lt.mpr oP'.le)) ⟨F, hF0.le, hP⟩
    obtain ⟨fuel, rfl⟩ := Nat.exists_eq_add_of_le' hfuel
    obtain ⟨s, h1, h2, h3, h4⟩ := probe_misses (c := ⟨_, behavior, index⟩) hb (md := md) (lt_of_lt_of_le hF0 hmd) hn rfl fuel
    refine ⟨s.lift, probe_lift .intersect hR hR hbe hi hd h1, by simp [RunState.lift, h3], fun h => absurd hy h, fun _ => ⟨h2, ⟨hP, hQ⟩, ?_⟩⟩
    show s.ray.lift = _
    rw [h4, Ray.movedTo, hh]
    rfl
  · obtain ⟨s, t, h1, h2, h3, -, h4, h5, h6⟩ := C92_intersect_partial ⟨m + k, R, D⟩ ⟨m + (-1 : ℝ) * k, R, D'⟩
      hR hR behavior index r hd hf hb F md hF0 hmd hP hQ sP sQ (.inl oP') (by
        intro t _ hs hs'
        rw [(inP t).2] at hs
        rw [(inQ t).2] at hs'
        have h7 : (t - F) * dot r.direction k = 0 := by linarith
        rcases mul_eq_zero.mp h7 with h8 | h8
        · rw [h8] at hs
          nlinarith
        · exact hy h8) fuel hfuel
    refine ⟨s.lift, probe_lift .intersect hR hR hbe hi hd h1, by simp [RunState.lift, h6], fun _ => ⟨t, h2, h5, ?_⟩, fun h => absurd h hy⟩
    show s.ray.lift = _
    rw [h4, Ray.movedTo, hh]
    rfl

/-! ## script_testCompoundIntersect.py and script_testCompoundDifference.py -/

/-- A probe of a script around ⟨0, 50, 0⟩: how far it is, at `t`, from a centre on the `y` axis. -/
theorem probe_dist {r : Ray ℝ} (hd : dot r.direction r.direction = 1) (hc : lineAt r.position r.direction 100 = ⟨0, 50, 0⟩) (t k : ℝ) :
    dist (r.at t).toE (⟨0, 50 + k, 0⟩ : V3 ℝ).toE ^ 2 = (t - 100) ^ 2 - 2 * k * (t - 100) * r.direction.y + k ^ 2 := by
  have hx := congrArg V3.x hc
  have hy := congrArg V3.y hc
  have hz := congrArg V3.z hc
  simp only [lineAt, add_x, add_y, add_z, smul_x, smul_y, smul_z] at hx hy hz
  rw [dist_toE_eq, pow_two, norm_mul_self]
  simp only [Ray.at, lineAt, dot, sub_x, sub_y, sub_z, add_x, add_y, add_z, smul_x, smul_y, smul_z] at hd ⊢
  have e1 : r.position.x = -(100 * r.direction.x) := by linarith
  have e2 : r.position.y = 50 - 100 * r.direction.y := by linarith
  have e3 : r.position.z = -(100 * r.direction.z) := by linarith
  rw [e1, e2, e3]
  linear_combination (t - 100) ^ 2 * hd

/-- In and out of the balls of the scripts. -/
theorem probe_in {r : Ray ℝ} (hd : dot r.direction r.direction = 1) (hc : lineAt r.position r.direction 100 = ⟨0, 50, 0⟩) (t k R D : ℝ)
    (hR : 0 < R) : (r.at t ∈ (Prim.sphere (⟨⟨0, 50 + k, 0⟩, R, D⟩ : Sphere ℝ)).solid ↔
      (t - 100) ^ 2 - 2 * k * (t - 100) * r.direction.y + k ^ 2 < R ^ 2) ∧
    (r.at t ∈ (Prim.sphere (⟨⟨0, 50 + k, 0⟩, R, D⟩ : Sphere ℝ)).surface ↔
      (t - 100) ^ 2 - 2 * k * (t - 100) * r.direction.y + k ^ 2 = R ^ 2) := by
  rw [← probe_dist hd hc t k]
  have h0 : 0 ≤ dist (r.at t).toE (⟨0, 50 + k, 0⟩ : V3 ℝ).toE := dist_nonneg
  constructor
  · show dist _ _ < R ↔ _
    exact (sq_lt_sq₀ h0 hR.le).symm
  · show dist _ _ = |R| ↔ _
    rw [abs_of_pos hR]
    exact (sq_eq_sq₀ h0 hR.le).symm

theorem probe_y {r : Ray ℝ} (hd : dot r.direction r.direction = 1) : r.direction.y ^ 2 ≤ 1 := by
  simp only [dot] at hd
  nlinarith [sq_nonneg r.direction.x, sq_nonneg r.direction.z]

/-- They start outside. -/
theorem probe_start {r : Ray ℝ} (hd : dot r.direction r.direction = 1) (hc : lineAt r.position r.direction 100 = ⟨0, 50, 0⟩) (k R : ℝ)
    (hR : 0 < R) (hk : -100 < k ∧ k < 100) (h : R + |k| < 99) : R + 1e-12 < dist r.position.toE (⟨0, 50 + k, 0⟩ : V3 ℝ).toE := by
  have h1 : dist r.position.toE (⟨0, 50, 0⟩ : V3 ℝ).toE = 100 := by
    rw [dist_toE_eq, ← hc]
    exact distance_lineAt hd (by norm_num)
  have h2 : dist (⟨0, 50, 0⟩ : V3 ℝ).toE (⟨0, 50 + k, 0⟩ : V3 ℝ).toE = |k| := by
    rw [dist_toE_eq, norm_eq]
    simp only [dot, sub_x, sub_y, sub_z]
    rw [← Real.sqrt_sq_eq_abs]
    congr 1; ring
  have h3 := dist_triangle_right r.position.toE (⟨0, 50, 0⟩ : V3 ℝ).toE (⟨0, 50 + k, 0⟩ : V3 ℝ).toE
  rw [h1, h2] at h3
  norm_num
  linarith

/-- The ball of radius `R` around ⟨0, y, 0⟩. -/
def ballAt (y R : ℝ) : Set (V3 ℝ) := {x | dist x.toE (⟨0, y, 0⟩ : V3 ℝ).toE < R}

theorem intersectScene_eq : intersectScene (α := ℝ) = .ok [.compound ⟨(Csg.op .intersect
    (.prim (.sphere ⟨⟨0, 80, 0⟩, 65 / 2, 65⟩)) (.prim (.sphere ⟨⟨0, 20, 0⟩, 65 / 2, 65⟩))).tree, "reflect", 1.5⟩] := by
  have e1 : Sphere.new (⟨0.0, 80.0, 0.0⟩ : V3 ℝ) none (some 65.0) = .ok ⟨⟨0, 80, 0⟩, 65 / 2, 65⟩ := by
    unfold Sphere.new checkRAndD; norm_num [bind, Except.bind, pure, Except.pure]
  have e2 : Sphere.new (⟨0.0, 20.0, 0.0⟩ : V3 ℝ) none (some 65.0) = .ok ⟨⟨0, 20, 0⟩, 65 / 2, 65⟩ := by
    unfold Sphere.new checkRAndD; norm_num [bind, Except.bind, pure, Except.pure]
  unfold intersectScene
  simp only [e1, e2, bind, Except.bind]
  rfl

theorem differenceScene_eq : differenceScene (α := ℝ) = .ok [.compound ⟨(Csg.op .difference
    (.prim (.sphere ⟨⟨0, 50 + 10, 0⟩, 15, 30⟩)) (.prim (.sphere ⟨⟨0, 50 + -10, 0⟩, 15, 30⟩))).tree, "reflect", 1.5⟩] := by
  have e1 : Sphere.new (⟨0.0, 60.0, 0.0⟩ : V3 ℝ) none (some 30.0) = .ok ⟨⟨0, 50 + 10, 0⟩, 15, 30⟩ := by
    unfold Sphere.new checkRAndD; norm_num [bind, Except.bind, pure, Except.pure]
  have e2 : Sphere.new (⟨0.0, 40.0, 0.0⟩ : V3 ℝ) none (some 30.0) = .ok ⟨⟨0, 50 + -10, 0⟩, 15, 30⟩ := by
    unfold Sphere.new checkRAndD; norm_num [bind, Except.bind, pure, Except.pure]
  unfold differenceScene
  simp only [e1, e2, bind, Except.bind]
  rfl

/-- A symmetric lens on the `y` axis. -/
theorem y_lens {a b c k R D F md : ℝ} (ha : a = c + k) (hb' : b = c - k) (hk0 : 0 < k) (hk : k < R) (hF : R + k + 1e-12 < F) (hmd : F ≤ md)
    {behavior : String} {index : ℝ} (hbe : behavior = "reflect" ∨ behavior = "refract") (hi : 0 < index)
    {r : Ray ℝ} (hd : ‖r.direction.toE‖ = 1) (hf : r.type = "faerie_fire") (hb : r.blocked = false) (hh : r.pointHistory = [r.position])
    (hc : lineAt r.position r.direction F = ⟨0, c, 0⟩) (fuel : ℕ) (hfuel : 2 ≤ fuel) :
    ∃ s, r.lift.run (.fin md) ([Optic.compound ⟨(Csg.op .intersect (.prim (.sphere ⟨⟨0, a, 0⟩, R, D⟩))
        (.prim (.sphere ⟨⟨0, b, 0⟩, R, D⟩))).tree, behavior, index⟩].map Optic.lift) none fuel = .finished s ∧ s.log = [] ∧
      (r.direction.y ≠ 0 → ∃ t, FirstCrossing r (ballAt a R ∩ ballAt b R) t ∧
        s.interactions = 1 ∧ s.ray = { r with position := r.at t, pointHistory := [r.position, r.at t], blocked := true }.lift) ∧
      (r.direction.y = 0 → s.interactions = 0 ∧ r.at F ∈ ballAt a R ∩ ballAt b R ∧
        s.ray = { r with position := r.at md, pointHistory := [r.position, r.at md] }.lift) := by
  subst ha hb'
  have n1 : ‖(⟨0, k, 0⟩ : V3 ℝ).toE‖ = k := by
    rw [norm_toE, norm_eq]
    simp [dot, Real.sqrt_mul_self hk0.le]
  have e1 : (⟨0, c, 0⟩ : V3 ℝ) + (⟨0, k, 0⟩ : V3 ℝ) = ⟨0, c + k, 0⟩ := by ext <;> simp
  have e2 : (⟨0, c, 0⟩ : V3 ℝ) + (-1 : ℝ) * (⟨0, k, 0⟩ : V3 ℝ) = ⟨0, c - k, 0⟩ := by ext <;> simp; ring
  have e4 : inner ℝ r.direction.toE (⟨0, k, 0⟩ : V3 ℝ).toE = r.direction.y * k := by rw [inner_toE]; simp [dot]
  obtain ⟨s, h1, h2, h3, h4⟩ := C92_symmetric_lens ⟨0, c, 0⟩ ⟨0, k, 0⟩ R D D F md (by rw [n1]; exact hk) (by rw [n1]; exact hF)
    hmd behavior index hbe hi r hd hf hb hh hc fuel hfuel
  rw [e1, e2] at h1 h3 h4
  rw [e4] at h3 h4
  exact ⟨s, h1, h2, fun h => h3 (mul_ne_zero h hk0.ne'), fun h => h4 (by rw [h, zero_mul])⟩

/-- C92: script_testCompoundIntersect.py, whatever the random generator returns.  Every probe ends without exception.  It stops where it
enters the lens-shaped solid; only a probe in the plane of the rim goes through it as if there were nothing. -/
theorem C92_intersect_script (N : ℕ) (samples : List ℝ) (rays : List (Ray ℝ))
    (h : addFaerieFireRays [] 100 ⟨0, 50, 0⟩ N samples = some rays) :
    ∃ optics, intersectScene (α := ℝ) = .ok optics ∧ rays.length = N ∧ ∀ r ∈ rays, ∀ fuel, 2 ≤ fuel →
      ∃ s, r.lift.run (.fin 150) (optics.map Optic.lift) none fuel = .finished s ∧ s.log = [] ∧
        (r.direction.y ≠ 0 → ∃ t, FirstCrossing r (ballAt 80 (65 / 2) ∩ ballAt 20 (65 / 2)) t ∧ s.interactions = 1 ∧
          s.ray = { r with position := r.at t, pointHistory := [r.position, r.at t], blocked := true }.lift) ∧
        (r.direction.y = 0 → s.interactions = 0 ∧ r.at 100 ∈ ballAt 80 (65 / 2) ∩ ballAt 20 (65 / 2) ∧
          s.ray = { r with position := r.at 150, pointHistory := [r.position, r.at 150] }.lift) := by
  obtain ⟨new, hnew, hlen, hall⟩ := C53_faerie_fire _ _ _ _ _ _ h
  rw [List.nil_append] at hnew
  subst hnew
  refine ⟨_, intersectScene_eq, hlen, fun r hr fuel hfuel => ?_⟩
  obtain ⟨-, hd, hc, hh, -, -, hb, hf⟩ := hall r hr
  exact y_lens (c := 50) (k := 30) (F := 100) (by norm_num) (by norm_num) (by norm_num) (by norm_num) (by norm_num) (by norm_num)
    (.inl rfl) (by norm_num) hd hf hb hh hc fuel hfuel

/-- C92: the probes of script_testSingletLens.py, likewise. -/
theorem C92_singlet_script (N : ℕ) (samples : List ℝ) (rays : List (Ray ℝ))
    (h : addFaerieFireRays singletRays 450 ⟨0, 400, 0⟩ N samples = some rays) :
    ∃ optics probes, singletScene (α := ℝ) = .ok optics ∧ rays = singletRays ++ probes ∧ probes.length = N ∧ ∀ r ∈ probes, ∀ fuel, 2 ≤ fuel →
      ∃ s, r.lift.run (.fin 550) (optics.map Optic.lift) none fuel = .finished s ∧ s.log = [] ∧
        (r.direction.y ≠ 0 → ∃ t, FirstCrossing r (ballAt 500.6 102.4 ∩ ballAt 299.4 102.4) t ∧ s.interactions = 1 ∧
          s.ray = { r with position := r.at t, pointHistory := [r.position, r.at t], blocked := true }.lift) ∧
        (r.direction.y = 0 → s.interactions = 0 ∧ r.at 450 ∈ ballAt 500.6 102.4 ∩ ballAt 299.4 102.4 ∧
          s.ray = { r with position := r.at 550, pointHistory := [r.position, r.at 550] }.lift) := by
  obtain ⟨new, hnew, hlen, hall⟩ := C53_faerie_fire _ _ _ _ _ _ h
  refine ⟨_, new, singletScene_eq, hnew, hlen, fun r hr fuel hfuel => ?_⟩
  obtain ⟨-, hd, hc, hh, -, -, hb, hf⟩ := hall r hr
  exact y_lens (c := 400) (k := 100.6) (F := 450) (by norm_num) (by norm_num) (by norm_num) (by norm_num) (by norm_num) (by norm_num)
    (.inr rfl) (by norm_num) hd hf hb hh hc fuel hfuel

/-- C92: the probes of script_testBestformLens.py that do not meet the rim of the lens and do not start on a surface stop where they enter
the lens. -/
theorem C92_bestform_script_partial (N : ℕ) (samples : List ℝ) (rays : List (Ray ℝ))
    (h : addFaerieFireRays singletRays 450 ⟨0, 400, 0⟩ N samples = some rays) :
    ∃ optics probes, bestformScene (α := ℝ) = .ok optics ∧ rays = singletRays ++ probes ∧ probes.length = N ∧ ∀ r ∈ probes, ∀ fuel, 2 ≤ fuel →
      (∀ t, 0 ≤ t → ¬ (dist (r.at t).toE (⟨0, 458.72, 0⟩ : V3 ℝ).toE = 60.02 ∧ dist (r.at t).toE (⟨0, 49.4, 0⟩ : V3 ℝ).toE = 353.3)) →
      1e-12 < |dist r.position.toE (⟨0, 49.4, 0⟩ : V3 ℝ).toE - 353.3| →
      ∃ s t, r.lift.run (.fin 550) (optics.map Optic.lift) none fuel = .finished s ∧ s.log = [] ∧
        FirstCrossing r (ballAt 458.72 60.02 ∩ ballAt 49.4 353.3) t ∧ s.interactions = 1 ∧
          s.ray = { r with position := r.at t, pointHistory := [r.position, r.at t], blocked := true }.lift := by
  obtain ⟨new, hnew, hlen, hall⟩ := C53_faerie_fire _ _ _ _ _ _ h
  refine ⟨_, new, bestformScene_eq, hnew, hlen, fun r hr fuel hfuel hrim hst => ?_⟩
  obtain ⟨-, hd, hc, hh, -, -, hb, hf⟩ := hall r hr
  have hd' := hd
  rw [norm_toE, norm_eq_one_iff] at hd'
  have e1 : (⟨0, 400, 0⟩ : V3 ℝ) + ⟨0, 58.72, 0⟩ = ⟨0, 458.72, 0⟩ := by ext <;> norm_num
  have n1 : ‖(⟨0, 58.72, 0⟩ : V3 ℝ).toE‖ = 58.72 := by
    rw [norm_toE, norm_eq]
    simp only [dot]
    rw [show (0 : ℝ) * 0 + 58.72 * 58.72 + 0 * 0 = 58.72 ^ 2 by norm_num, Real.sqrt_sq (by norm_num)]
  have oP := lens_start hd' hc (k := ⟨0, 58.72, 0⟩) (R := 60.02) (by norm_num) (by rw [n1]; norm_num)
  rw [e1] at oP
  have hin : ∀ y R : ℝ, |400 - y| < R → r.at 450 ∈ (Prim.sphere (⟨⟨0, y, 0⟩, R, 2 * R⟩ : Sphere ℝ)).solid := by
    intro y R hy
    show dist (lineAt r.position r.direction 450).toE (⟨0, y, 0⟩ : V3 ℝ).toE < R
    rw [hc, dist_toE_eq, norm_eq]
    simp only [dot, sub_x, sub_y, sub_z]
    rw [show ((0 : ℝ) - 0) * (0 - 0) + (400 - y) * (400 - y) + (0 - 0) * (0 - 0) = (400 - y) ^ 2 by ring, Real.sqrt_sq_eq_abs]
    exact hy
  obtain ⟨s, t, h1, h2, h3, -, h4, h5, h6⟩ := C92_intersect_partial ⟨⟨0, 458.72, 0⟩, 60.02, 120.04⟩ ⟨⟨0, 49.4, 0⟩, 353.3, 706.6⟩
    (by norm_num) (by norm_num) "refract" 1.5167 r hd hf hb 450 550 (by norm_num) (by norm_num)
    (hin 458.72 60.02 (by norm_num [abs_lt])) (hin 49.4 353.3 (by norm_num [abs_lt]))
    (lt_of_lt_of_le (lt_sub_iff_add_lt'.mpr oP) (le_abs_self _)) hst (.inl (by norm_num at oP ⊢; linarith)) (by
      intro t ht hs hs'
      refine hrim t ht ⟨?_, ?_⟩
      · have h7 : dist (r.at t).toE (⟨0, 458.72, 0⟩ : V3 ℝ).toE = |60.02| := hs
        rw [h7, abs_of_pos (by norm_num)]
      · have h7 : dist (r.at t).toE (⟨0, 49.4, 0⟩ : V3 ℝ).toE = |353.3| := hs'
        rw [h7, abs_of_pos (by norm_num)]) fuel hfuel
  refine ⟨s.lift, t, probe_lift .intersect (by norm_num) (by norm_num) (.inr rfl) (by norm_num) hd h1, by simp [RunState.lift, h6], h2, h5, ?_⟩
  show s.ray.lift = _
  rw [h4, Ray.movedTo, hh]
  rfl

/-- A point of the solid of script_testCompoundDifference.py on the line of a probe. -/
theorem difference_witness {y : ℝ} (hy : y ≠ 0) (hy1 : y ^ 2 ≤ 1) :
    ∃ w : ℝ, -25 ≤ w ∧ w ≤ 25 ∧ w ^ 2 - 20 * w * y + 100 < 225 ∧ ¬ w ^ 2 + 20 * w * y + 100 < 225 := by
  have hq : 0 ≤ 100 * y ^ 2 + 125 := by positivity
  have hs := Real.sq_sqrt hq
  have h0 := Real.sqrt_nonneg (100 * y ^ 2 + 125)
  have h15 : √(100 * y ^ 2 + 125) ≤ 15 := by
    rw [Real.sqrt_le_left (by norm_num)]; linarith
  have hy2 : -1 ≤ y ∧ y ≤ 1 := abs_le.mp (by rw [← sq_abs] at hy1; nlinarith [abs_nonneg y])
  have hlt : |10 * y| < √(100 * y ^ 2 + 125) := by
    apply Real.lt_sqrt_of_sq_lt
    rw [sq_abs]; linarith
  obtain ⟨hl, hr⟩ := abs_lt.mp hlt
  set q := √(100 * y ^ 2 + 125)
  rcases lt_or_gt_of_ne hy with h | h
  · refine ⟨-(10 * y) - q, by linarith, by linarith, ?_, ?_⟩
    · nlinarith [mul_pos (neg_pos.mpr h) (show 0 < 10 * y + q by linarith)]
    · nlinarith
  · refine ⟨-(10 * y) + q, by linarith, by linarith, ?_, ?_⟩
    · nlinarith [mul_pos h (show 0 < -(10 * y) + q by linarith)]
    · nlinarith

/-- C92: script_testCompoundDifference.py, whatever the random generator returns.  Every probe ends without exception, although the operator
`difference` may raise one.  It stops where it enters the ball with a ball cut out of it; a probe in the plane between the centres
does not meet that solid and flies on. -/
theorem C92_difference_script (N : ℕ) (samples : List ℝ) (rays : List (Ray ℝ))
    (h : addFaerieFireRays [] 100 ⟨0, 50, 0⟩ N samples = some rays) :
    ∃ optics, differenceScene (α := ℝ) = .ok optics ∧ rays.length = N ∧ ∀ r ∈ rays, ∀ fuel, 2 ≤ fuel →
      ∃ s, r.lift.run (.fin 150) (optics.map Optic.lift) none fuel = .finished s ∧ s.log = [] ∧
        (r.direction.y ≠ 0 → ∃ t, FirstCrossing r (ballAt 60 15 \ ballAt 40 15) t ∧ s.interactions = 1 ∧
          s.ray = { r with position := r.at t, pointHistory := [r.position, r.at t], blocked := true }.lift) ∧
        (r.direction.y = 0 → NeverCrosses r (ballAt 60 15 \ ballAt 40 15) ∧ s.interactions = 0 ∧
          s.ray = { r with position := r.at 150, pointHistory := [r.position, r.at 150] }.lift) := by
  obtain ⟨new, hnew, hlen, hall⟩ := C53_faerie_fire _ _ _ _ _ _ h
  rw [List.nil_append] at hnew
  subst hnew
  refine ⟨_, differenceScene_eq, hlen, fun r hr fuel hfuel => ?_⟩
  obtain ⟨-, hd, hc, hh, -, -, hb, hf⟩ := hall r hr
  have hd' := hd
  rw [norm_toE, norm_eq_one_iff] at hd'
  have eP : (Prim.sphere (⟨⟨0, 50 + 10, 0⟩, 15, 30⟩ : Sphere ℝ)).solid = ballAt 60 15 := by
    show ballAt (50 + 10) 15 = _; norm_num
  have eQ : (Prim.sphere (⟨⟨0, 50 + -10, 0⟩, 15, 30⟩ : Sphere ℝ)).solid = ballAt 40 15 := by
    show ballAt (50 + -10) 15 = _; norm_num
  have inP := fun t => probe_in hd' hc t 10 15 30 (by norm_num)
  have inQ := fun t => probe_in hd' hc t (-10) 15 30 (by norm_num)
  have hP := (inP 100).1.mpr (by norm_num)
  have hQ := (inQ 100).1.mpr (by norm_num)
  have oP := probe_start hd' hc 10 15 (by norm_num) (by norm_num) (by norm_num)
  have oQ := probe_start hd' hc (-10) 15 (by norm_num) (by norm_num) (by norm_num)
  have gP := probe_general hd' hP oP (by norm_num)
  have gQ := probe_general hd' hQ oQ (by norm_num)
  by_cases hy : r.direction.y = 0
  · have hch : SameChord r (.sphere ⟨⟨0, 50 + 10, 0⟩, 15, 30⟩) (.sphere ⟨⟨0, 50 + -10, 0⟩, 15, 30⟩) := by
      intro t _
      rw [(inP t).1, (inQ t).1, hy]
      norm_num
    obtain ⟨⟨res, hres, hdes⟩, hn⟩ := C92_same_chord_difference (.sphere ⟨⟨0, 50 + 10, 0⟩, 15, 30⟩) (.sphere ⟨⟨0, 50 + -10, 0⟩, 15, 30⟩)
      (show (0 : ℝ) < 15 by norm_num) (show (0 : ℝ) < 15 by norm_num) r hd gP gQ hch
    have hmiss : res.hit = false := by
      rcases hdes with h | ⟨-, t, -, ht⟩
      · exact h.1
      · obtain ⟨v, h1, -, h3⟩ := ht.2.2 1 one_pos
        exact absurd (hn v (lt_of_lt_of_le ht.1 h1)) h3
    obtain ⟨fuel, rfl⟩ := Nat.exists_eq_add_of_le' hfuel
    obtain ⟨s, h1, h2, h3, h4⟩ := probe_misses (c := ⟨_, "reflect", 1.5⟩) hb (md := 150) (by norm_num) hres hmiss fuel
    refine ⟨s.lift, probe_lift .difference (by norm_num) (by norm_num) (.inl rfl) (by norm_num) hd h1, by simp [RunState.lift, h3], fun h => absurd hy h,
      fun _ => ⟨?_, h2, ?_⟩⟩
    · rw [eP, eQ] at hn; exact hn
    · show s.ray.lift = _
      rw [h4, Ray.movedTo, hh]
      rfl
  · obtain ⟨w, w1, w2, w3, w4⟩ := difference_witness hy (probe_y hd')
    obtain ⟨s, t, h1, h2, h3, -, h4, h5, h6⟩ := C92_difference_partial ⟨⟨0, 50 + 10, 0⟩, 15, 30⟩ ⟨⟨0, 50 + -10, 0⟩, 15, 30⟩
      (by norm_num) (by norm_num) "reflect" 1.5 r hd hf hb 100 (100 + w) 150 (by norm_num) (by linarith) (by linarith) hP hQ
      ⟨(inP _).1.mpr (by ring_nf; ring_nf at w3; linarith), fun hm => w4 (by
        have := (inQ _).1.mp hm
        ring_nf at this ⊢; linarith)⟩ oP oQ (by
        intro t _ hs hs'
        rw [(inP t).2] at hs
        rw [(inQ t).2] at hs'
        have h7 : (t - 100) * r.direction.y = 0 := by linarith
        rcases mul_eq_zero.mp h7 with h8 | h8
        · rw [h8] at hs; norm_num at hs
        · exact hy h8) fuel hfuel
    refine ⟨s.lift, probe_lift .difference (by norm_num) (by norm_num) (.inl rfl) (by norm_num) hd h1, by simp [RunState.lift, h6], fun _ => ⟨t, ?_, h5, ?_⟩, fun h => absurd h hy⟩
    · rw [eP, eQ] at h2; exact h2
    · show s.ray.lift = _
      rw [h4, Ray.movedTo, hh]
      rfl

/-- Random numbers for which the scripts send a probe along the axis and one in the plane between the centres: both cases occur. -/
example : ∃ r1 r2 : Ray ℝ, addFaerieFireRays [] 100 ⟨0, 50, 0⟩ 2 [0, 2, 0, 3, 0, 0] = some [r1, r2] ∧
    r1.direction = ⟨0, -1, 0⟩ ∧ r2.direction = ⟨-1, 0, 0⟩ := by
  have n1 : norm (⟨0, 2, 0⟩ : V3 ℝ) = 2 := norm_eq_of_sq (by norm_num) (by norm_num [dot])
  have n2 : norm (⟨3, 0, 0⟩ : V3 ℝ) = 3 := norm_eq_of_sq (by norm_num) (by norm_num [dot])
  have hu : usableTriples [0, 2, 0, 3, 0, 0] = [⟨0, 2, 0⟩, ⟨3, 0, 0⟩] := by
    unfold usableTriples
    rw [triples_cons, triples_cons]
    simp only [List.filter_cons, norm_toE, n1, n2]
    norm_num [triples]
  refine ⟨faerieRay 100 ⟨0, 50, 0⟩ ⟨0, 2, 0⟩, faerieRay 100 ⟨0, 50, 0⟩ ⟨3, 0, 0⟩, ?_, ?_, ?_⟩
  · rw [C53_equation, hu]; rfl
  all_goals
    simp only [faerieRay, n1, n2]
    ext <;> norm_num

/-- A probe from ⟨0, -50, 0⟩ up the axis goes into both balls of script_testCompoundDifference.py, enters the first at 45, leaves the second
at 55, and stops there: on the wall of the hollow. -/
example : ∃ s : RunState ℝ, (Ray.new (⟨0, -50, 0⟩ : V3 ℝ) ⟨0, 1, 0⟩ 532 0 "faerie_fire").run 150
    [.compound ⟨(Csg.op .difference (.prim (.sphere ⟨⟨0, 60, 0⟩, 15, 30⟩)) (.prim (.sphere ⟨⟨0, 40, 0⟩, 15, 30⟩))).tree, "reflect", 1.5⟩] none 2
      = .finished s ∧ s.ray.position = ⟨0, 55, 0⟩ := by
  set r := Ray.new (⟨0, -50, 0⟩ : V3 ℝ) ⟨0, 1, 0⟩ 532 0 "faerie_fire" with hr
  have hd0 : r.direction = ⟨0, 1, 0⟩ := unitVector_of_unit (by simp [dot])
  have hd : dot r.direction r.direction = 1 := by rw [hd0]; simp [dot]
  have hc : lineAt r.position r.direction 100 = ⟨0, 50, 0⟩ := by rw [hd0]; ext <;> norm_num [hr, Ray.new, lineAt]
  have inP := fun t => (probe_in hd hc t 10 15 30 (by norm_num)).1
  have inQ := fun t => (probe_in hd hc t (-10) 15 30 (by norm_num)).1
  have e1 : (⟨0, 60, 0⟩ : V3 ℝ) = ⟨0, 50 + 10, 0⟩ := by ext <;> norm_num
  have e2 : (⟨0, 40, 0⟩ : V3 ℝ) = ⟨0, 50 + -10, 0⟩ := by ext <;> norm_num
  rw [e1, e2]
  obtain ⟨s, t, h1, h2, h3, -, h4, -⟩ := C92_difference_partial ⟨⟨0, 50 + 10, 0⟩, 15, 30⟩ ⟨⟨0, 50 + -10, 0⟩, 15, 30⟩
    (by norm_num) (by norm_num) "reflect" 1.5 r (by rw [norm_toE, norm_eq_one_iff]; exact hd) rfl rfl 100 105 150 (by norm_num) (by norm_num)
    (by norm_num) ((inP _).mpr (by norm_num)) ((inQ _).mpr (by norm_num))
    ⟨(inP _).mpr (by rw [hd0]; norm_num), fun hm => by have := (inQ _).mp hm; rw [hd0] at this; norm_num at this⟩
    (probe_start hd hc 10 15 (by norm_num) (by norm_num) (by norm_num)) (probe_start hd hc (-10) 15 (by norm_num) (by norm_num) (by norm_num))
    (by
      intro t _ hs hs'
      rw [(probe_in hd hc t 10 15 30 (by norm_num)).2, hd0] at hs
      rw [(probe_in hd hc t (-10) 15 30 (by norm_num)).2, hd0] at hs'
      have h8 : t - 100 = 0 := by dsimp only at hs hs'; linarith
      rw [h8] at hs; norm_num at hs) 2 le_rfl
  have ht : t = 105 := by
    have h0 : r.at 0 ∉ (Prim.sphere (⟨⟨0, 50 + 10, 0⟩, 15, 30⟩ : Sphere ℝ)).solid \ (Prim.sphere (⟨⟨0, 50 + -10, 0⟩, 15, 30⟩ : Sphere ℝ)).solid :=
      fun hm => by have := (inP 0).mp hm.1; rw [hd0] at this; norm_num at this
    rcases lt_or_eq_of_le h3 with h | h
    · exfalso
      obtain ⟨v, v1, v2, v3⟩ := h2.2.2 (105 - t) (by linarith)
      have hv : r.at v ∈ (Prim.sphere (⟨⟨0, 50 + 10, 0⟩, 15, 30⟩ : Sphere ℝ)).solid \ (Prim.sphere (⟨⟨0, 50 + -10, 0⟩, 15, 30⟩ : Sphere ℝ)).solid := by
        by_contra c
        exact v3 (iff_of_false c h0)
      have q1 := (inP v).mp hv.1
      have q2 : ¬ _ := fun c => hv.2 ((inQ v).mpr c)
      rw [hd0] at q1 q2
      dsimp only at q1 q2
      nlinarith
    · exact h
  refine ⟨s, h1, ?_⟩
  rw [h4, ht]
  show r.at 105 = _
  unfold Ray.at
  rw [hd0]
  ext <;> norm_num [hr, Ray.new, lineAt]

end Optics
