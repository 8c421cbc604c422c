import Verif.Lemmas.SceneRun

/-!
# The nearest optic in numpy arithmetic
-/

namespace Optics
open V3

/-- In numpy arithmetic the optic reports a hit at `pt`, at the finite distance `d`, which the scan accepts. -/
structure XCandidate (ray : Ray XR) (ρ : ℝ) (o : Optic XR) (d : ℝ) (pt : V3 XR) (n : Option (V3 XR)) : Prop where
  notSkipped : o.skipped = false
  hit : ∃ sfo, o.testIntersect ray = .ok ⟨true, some pt, n, sfo⟩
  dist_eq : distanceBetween ray.position pt = .fin d
  notTooNear : 1e-12 < d
  inReach : d ≤ ρ

theorem xcandidate_of {ray : Ray XR} {ρ : ℝ} {o : Optic XR} {r : Hit4 XR} {pt : V3 XR} (hk : o.skipped = false)
    (h : o.testIntersect ray = .ok r) (hh : r.hit = true) (hp : r.pt = some pt)
    (hd : ¬ distanceBetween ray.position pt > .fin ρ ∧ distanceBetween ray.position pt > clippingFloor) :
    ∃ d, distanceBetween ray.position pt = .fin d ∧ XCandidate ray ρ o d pt r.normal := by
  have hr : r = ⟨true, some pt, r.normal, r.sfo⟩ := by cases r; cases hh; cases hp; rfl
  cases hdist : distanceBetween ray.position pt with
  | nan => rw [hdist] at hd; exact absurd hd.2 (fun h => h)
  | inf => rw [hdist] at hd; exact absurd trivial hd.1
  | ninf => rw [hdist] at hd; exact absurd hd.2 (fun h => h)
  | fin d =>
    rw [hdist] at hd
    exact ⟨d, rfl, hk, ⟨r.sfo, by rw [h, ← hr]⟩, hdist, hd.2, not_lt.mp hd.1⟩

theorem xcandidate_unique {ray : Ray XR} {ρ : ℝ} {o : Optic XR} {d d' : ℝ} {pt pt' : V3 XR} {n n' : Option (V3 XR)}
    (h : XCandidate ray ρ o d pt n) (h' : XCandidate ray ρ o d' pt' n') : d = d' ∧ pt = pt' ∧ n = n' := by
  obtain ⟨s, e⟩ := h.hit
  obtain ⟨s', e'⟩ := h'.hit
  rw [e] at e'
  cases e'
  have := h.dist_eq
  rw [h'.dist_eq] at this
  exact ⟨(XR.fin.inj this).symm, rfl, rfl⟩

/-- What the scan has found after a list of optics. -/
structure XScanResult (ray : Ray XR) (ρ : ℝ) (l : List (Optic XR)) (v : ScanVars XR) : Prop where
  nothing : v.minDistance = none → v.intersected = false ∧ ∀ o ∈ l, ∀ d pt n, ¬ XCandidate ray ρ o d pt n
  found : ∀ m, v.minDistance = some m → v.intersected = true ∧ ∃ δ l1 o l2 pt n, m = .fin δ ∧ l = l1 ++ o :: l2 ∧
    v.selected = some ⟨o, pt, n⟩ ∧ XCandidate ray ρ o δ pt n ∧
    (∀ o' ∈ l1, ∀ d pt' n', XCandidate ray ρ o' d pt' n' → δ < d) ∧
    (∀ o' ∈ l2, ∀ d pt' n', XCandidate ray ρ o' d pt' n' → δ ≤ d)

theorem xscan_result (ray : Ray XR) (ρ : ℝ) (v0 : ScanVars XR) (h1 : v0.intersected = false)
    (h2 : v0.minDistance = none) : ∀ (l : List (Optic XR)) (v : ScanVars XR),
      l.foldlM (scanStep ray (.fin ρ)) v0 = .ok v → XScanResult ray ρ l v := by
  intro l
  induction l using List.reverseRecOn with
  | nil =>
    intro v h
    cases h
    exact ⟨fun _ => ⟨h1, by simp⟩, fun m hm => by rw [h2] at hm; cases hm⟩
  | append_singleton l o ih =>
    intro v h
    rw [List.foldlM_append] at h
    cases hw : l.foldlM (scanStep ray (.fin ρ)) v0 with
    | error e => rw [hw] at h; cases h
    | ok w =>
      rw [hw] at h
      have hstep : scanStep ray (.fin ρ) w o = .ok v := by
        rw [show (Except.ok w >>= fun s => [o].foldlM (scanStep ray (.fin ρ)) s) = ([o].foldlM (scanStep ray (.fin ρ)) w) from rfl,
          List.foldlM_cons] at h
        cases hs : scanStep ray (.fin ρ) w o with
        | error e => rw [hs] at h; cases h
        | ok u => rw [hs] at h; cases h; rfl
      have W := ih w hw
      have keep : (∀ d pt n, ¬ XCandidate ray ρ o d pt n) → v.intersected = w.intersected →
          v.minDistance = w.minDistance → v.selected = w.selected → XScanResult ray ρ (l ++ [o]) v := by
        intro hno e1 e2 e3
        constructor
        · intro hm
          rw [e2] at hm
          obtain ⟨a, c⟩ := W.nothing hm
          refine ⟨by rw [e1, a], ?_⟩
          intro x hx
          rcases List.mem_append.mp hx with hx | hx
          · exact c x hx
          · rw [List.mem_singleton.mp hx]; exact hno
        · intro m hm
          rw [e2] at hm
          obtain ⟨a, δ, l1, x, l2, pt, n, b0, b1, b2, b3, b4, b5⟩ := W.found m hm
          refine ⟨by rw [e1, a], δ, l1, x, l2 ++ [o], pt, n, b0, by rw [b1]; simp, by rw [e3, b2], b3, b4, ?_⟩
          intro y hy
          rcases List.mem_append.mp hy with hy | hy
          · exact b5 y hy
          · rw [List.mem_singleton.mp hy]; exact fun d p q h => absurd h (hno d p q)
      rcases scanStep_ok hstep with ⟨hk, rfl⟩ | ⟨r, hk, ht, hh, rfl⟩ | ⟨r, pt, hk, ht, hh, hp, hd, rfl⟩ |
        ⟨r, pt, hk, ht, hh, hp, hd, hm, rfl⟩ | ⟨r, pt, hk, ht, hh, hp, hd, hm, rfl⟩
      · refine keep (fun d pt n h => ?_) rfl rfl rfl
        have := h.notSkipped; rw [hk] at this; cases this
      · refine keep (fun d pt n h => ?_) rfl rfl rfl
        obtain ⟨s, hs⟩ := h.hit
        rw [ht] at hs; cases hs; cases hh
      · refine keep (fun d pt' n hc => ?_) rfl rfl rfl
        obtain ⟨s, hs⟩ := hc.hit
        rw [ht] at hs
        cases hs
        cases hp
        rw [hc.dist_eq] at hd
        rcases hd with hd | hd
        · exact absurd hc.inReach (not_le.mpr hd)
        · exact hd hc.notTooNear
      · obtain ⟨δ', hδ, hc⟩ := xcandidate_of (ρ := ρ) hk ht hh hp hd
        rw [hδ] at hm
        cases hwm : w.minDistance with
        | none => rw [hwm] at hm; cases hm
        | some m =>
          obtain ⟨a, δ, l1, x, l2, pt', n, b0, b1, b2, b3, b4, b5⟩ := W.found m hwm
          rw [hwm, b0] at hm
          have hle : δ ≤ δ' := not_lt.mp (of_decide_eq_false hm)
          refine ⟨(fun h => by cases h), ?_⟩
          intro m' hm'
          cases hm'
          refine ⟨rfl, δ, l1, x, l2 ++ [o], pt', n, b0, by rw [b1]; simp, b2, b3, b4, ?_⟩
          intro y hy
          rcases List.mem_append.mp hy with hy | hy
          · exact b5 y hy
          · rw [List.mem_singleton.mp hy]
            intro d p q h
            rw [← (xcandidate_unique hc h).1]; exact hle
      · obtain ⟨δ', hδ, hc⟩ := xcandidate_of (ρ := ρ) hk ht hh hp hd
        refine ⟨(fun h => by cases h), ?_⟩
        rintro m ⟨⟩
        refine ⟨rfl, δ', l, o, [], pt, r.normal, hδ, rfl, rfl, hc, ?_, by simp⟩
        intro o' ho' d pt' n' h
        rw [hδ] at hm
        cases hwm : w.minDistance with
        | none => exact absurd h ((W.nothing hwm).2 o' ho' d pt' n')
        | some m =>
          obtain ⟨a, δ, l1, x, l2, pt'', n, b0, b1, b2, b3, b4, b5⟩ := W.found m hwm
          rw [hwm, b0] at hm
          have hlt : δ' < δ := of_decide_eq_true hm
          rw [b1] at ho'
          rcases List.mem_append.mp ho' with ho' | ho'
          · exact hlt.trans (b4 o' ho' d pt' n' h)
          · rcases List.mem_cons.mp ho' with rfl | ho'
            · rw [← (xcandidate_unique b3 h).1]; exact hlt
            · exact hlt.trans_le (b5 o' ho' d pt' n' h)

/-- The optic, seen from the ray, is a candidate at distance `d`: it would be tested, and reports a point that is further
than 1e-12 and within `ρ`. -/
structure Optic.InReach (o : Optic ℝ) (r : Ray ℝ) (ρ : ℝ) (d : ℝ) (x n : V3 ℝ) : Prop where
  notSkipped : o.skipped = false
  reports : o.Reports r x n
  dist_eq : dist r.position.toE x.toE = d
  notTooNear : 1e-12 < d
  inReach : d ≤ ρ

theorem lift_skipped (o : Optic ℝ) : o.lift.skipped = o.skipped := by cases o <;> rfl

theorem Optic.InReach.xcandidate {o : Optic ℝ} {r : Ray ℝ} {ρ d : ℝ} {x n : V3 ℝ} (h : o.InReach r ρ d x n) :
    XCandidate r.lift ρ o.lift d x.lift (some n.lift) where
  notSkipped := by rw [lift_skipped]; exact h.notSkipped
  hit := h.reports
  dist_eq := by
    rw [← h.dist_eq, dist_toE_eq]
    show distanceBetween r.position.lift x.lift = _
    rw [lift_distance]; rfl
  notTooNear := h.notTooNear
  inReach := h.inReach

theorem XCandidate.inReach' {o : Optic ℝ} (hw : o.WellFormed) {r : Ray ℝ} (hu : dot r.direction r.direction = 1) {ρ d : ℝ}
    {pt : V3 XR} {n : Option (V3 XR)} (h : XCandidate r.lift ρ o.lift d pt n) :
    ∃ x k, pt = x.lift ∧ n = some k.lift ∧ o.InReach r ρ d x k := by
  obtain ⟨sfo, ht⟩ := h.hit
  obtain ⟨x, k, h1, h2, h3, -, h5, h6, h7, h8⟩ := sane_chosen_at (optics := [o]) (by simpa using hw) hu
    (sel := ⟨o.lift, pt, n⟩) (res := ⟨true, some pt, n, sfo⟩) (ρ := ρ) ⟨by simp, h.notSkipped, ht, rfl, rfl, rfl,
      (by rw [h.dist_eq]; exact not_lt.mpr h.inReach), (by rw [h.dist_eq]; exact h.notTooNear)⟩ (o := o) (by simp) rfl
  refine ⟨x, k, h2, h3, h1, h8, ?_, h.notTooNear, h.inReach⟩
  have : XR.fin d = _ := h.dist_eq.symm.trans h7
  exact (XR.fin.inj this).symm

theorem foldlM_xscan {optics : List (Optic ℝ)} {s : RunState XR} {r : Ray ℝ} {ρ : ℝ} {log : List (DetHit ℝ)} (hs : Sane r ρ log s)
    {v : ScanVars XR} (hv : scan (optics.map Optic.lift) s = .ok v) :
    XScanResult r.lift ρ (optics.map Optic.lift) v := by
  unfold scan at hv
  rw [hs.ray, hs.remaining] at hv
  exact xscan_result _ _ _ rfl rfl _ _ hv

/-- The selection of a pass from a sane state. -/
theorem step_nearest {md : ℝ} {optics : List (Optic ℝ)} (hw : ∀ o ∈ optics, o.WellFormed) {r : Ray ℝ} {ρ : ℝ}
    {log : List (DetHit ℝ)} {s s' : RunState XR} (hs : Sane r ρ log s)
    (h : runStep (.fin md) (optics.map Optic.lift) s = .next s') :
    ((∀ o ∈ optics, ∀ d x n, ¬ o.InReach r ρ d x n) ∧ s'.ray = (r.movedTo (r.at ρ)).lift ∧ s'.remaining = .fin (ρ - md) ∧
      s'.log = s.log ∧ s'.interactions = s.interactions) ∨
    ∃ l1 o l2 d x n, optics = l1 ++ o :: l2 ∧ o.InReach r ρ d x n ∧
      (∀ o' ∈ l1, ∀ d' x' n', o'.InReach r ρ d' x' n' → d < d') ∧
      (∀ o' ∈ l2, ∀ d' x' n', o'.InReach r ρ d' x' n' → d ≤ d') ∧
      s'.remaining = .fin (ρ - d) ∧ s'.interactions = s.interactions + 1 ∧
      (r.type ≠ "faerie_fire" → ∃ sfo hits,
        o.lift.doIntersect (r.movedTo (r.at d)).lift x.lift (some n.lift) sfo = .ok (s'.ray, hits) ∧ s'.log = s.log ++ hits) ∧
      (r.type = "faerie_fire" → s'.log = s.log ∧ s'.ray = { r.movedTo (r.at d) with blocked := true }.lift) := by
  obtain ⟨v, hv, hcase⟩ := runStep_next h
  have R := foldlM_xscan hs hv
  have hit : v.intersected = true → ∀ sel, v.selected = some sel → ∃ l1 o l2 d x n, sel = ⟨o.lift, x.lift, some n.lift⟩ ∧
      optics = l1 ++ o :: l2 ∧ o.InReach r ρ d x n ∧
      (∀ o' ∈ l1, ∀ d' x' n', o'.InReach r ρ d' x' n' → d < d') ∧
      (∀ o' ∈ l2, ∀ d' x' n', o'.InReach r ρ d' x' n' → d ≤ d') ∧
      distanceBetween s.ray.position sel.pt = .fin d := by
    intro hi sel hsel
    cases hm : v.minDistance with
    | none => rw [(R.nothing hm).1] at hi; cases hi
    | some m =>
      obtain ⟨-, δ, l1, o, l2, pt, n, rfl, h1, h2, h3, h4, h5⟩ := R.found m hm
      obtain ⟨m1, m2, e1, rfl, e2⟩ := List.map_eq_append_iff.mp h1
      obtain ⟨o', m3, rfl, rfl, rfl⟩ := List.map_eq_cons_iff.mp e2
      obtain ⟨x, k, rfl, rfl, hr⟩ := h3.inReach' (hw o' (by rw [e1]; simp)) hs.unit
      rw [hsel] at h2
      cases h2
      refine ⟨m1, o', m3, δ, x, k, rfl, e1, hr, ?_, ?_, ?_⟩
      · intro o'' ho'' d' x' n' hr'
        exact h4 _ (List.mem_map_of_mem ho'') _ _ _ hr'.xcandidate
      · intro o'' ho'' d' x' n' hr'
        exact h5 _ (List.mem_map_of_mem ho'') _ _ _ hr'.xcandidate
      · rw [hs.ray]; exact h3.dist_eq
  rcases hcase with ⟨hi, rfl⟩ | ⟨sel, hi, hsel, ht, rfl⟩ | ⟨sel, sfo, ray', hits, hi, hsel, _, ht, ha, rfl⟩
  · left
    cases hm : v.minDistance with
    | some m => rw [(R.found m hm).1] at hi; cases hi
    | none =>
      refine ⟨fun o ho d x n hr => (R.nothing hm).2 _ (List.mem_map_of_mem ho) _ _ _ hr.xcandidate, ?_, ?_, rfl, rfl⟩
      · show s.ray.movedTo (s.ray.position + s.remaining * s.ray.direction) = _
        rw [hs.ray, hs.remaining, lift_fly]
      · show s.remaining - _ = _
        rw [hs.remaining, XR.fin_sub]
  · right
    obtain ⟨l1, o, l2, d, x, n, rfl, h1, h2, h3, h4, h5⟩ := hit hi sel hsel
    have hfl : s.ray.movedTo (s.ray.position + distanceBetween s.ray.position x.lift * s.ray.direction)
        = (r.movedTo (r.at d)).lift := by
      rw [h5, hs.ray, lift_fly]
    rw [hs.ray] at ht
    refine ⟨l1, o, l2, d, x, n, h1, h2, h3, h4, ?_, rfl, fun h => absurd ht h, fun _ => ⟨rfl, ?_⟩⟩
    · show s.remaining - distanceBetween s.ray.position x.lift = _
      rw [hs.remaining, h5, XR.fin_sub]
    · show { s.ray.movedTo (s.ray.position + distanceBetween s.ray.position x.lift * s.ray.direction) with blocked := true } = _
      rw [hfl]; rfl
  · right
    obtain ⟨l1, o, l2, d, x, n, rfl, h1, h2, h3, h4, h5⟩ := hit hi sel hsel
    have hfl : s.flown x.lift = (r.movedTo (r.at d)).lift := by
      unfold RunState.flown
      rw [h5, hs.ray, lift_fly]
    rw [hs.ray] at ht
    rw [hfl] at ha
    refine ⟨l1, o, l2, d, x, n, h1, h2, h3, h4, ?_, rfl, fun _ => ⟨sfo, hits, ha, rfl⟩, fun h => absurd h ht⟩
    show s.remaining - distanceBetween s.ray.position x.lift = _
    rw [hs.remaining, h5, XR.fin_sub]

end Optics
