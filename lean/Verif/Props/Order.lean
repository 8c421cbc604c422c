import Verif.Spec.Order
import Verif.Props.GlassBall
import Verif.Props.Mirrors

/-!
# C46: does the order of the optic list matter?
-/

namespace Optics
open V3

theorem SameTrace.refl (s : RunState ℝ) : SameTrace s s := ⟨rfl, rfl, rfl, rfl⟩

/-- What a lens that does not refract does is independent of the side flag. -/
theorem ignores_side {o : Optic ℝ} (h : o.NotRefractingLens) (ray : Ray ℝ) (pt : V3 ℝ) (n : Option (V3 ℝ)) (a b : Sfo) :
    o.doIntersect ray pt n a = o.doIntersect ray pt n b := by
  cases o with
  | lens l =>
    show (do return (← l.doIntersect ray pt n a, [])) = (do return (← l.doIntersect ray pt n b, []))
    have : l.doIntersect ray pt n a = l.doIntersect ray pt n b := by
      unfold Lens.doIntersect
      rcases h with h | h | h
      · simp only [if_pos h]
      · have : l.type ≠ "ideal" := by rw [h]; decide
        simp only [if_neg this, if_pos h]
      · have h1 : l.type ≠ "ideal" := by rw [h]; decide
        have h2 : l.type ≠ "ideal_collimate" := by rw [h]; decide
        simp only [if_neg h1, if_neg h2, if_pos h]
    rw [this]
  | _ => rfl

/-- The results of one pass each. -/
inductive SameStep : StepResult ℝ → StepResult ℝ → Prop
  | next {s s'} (h : SameTrace s s') : SameStep (.next s) (.next s')
  | raised {e e' s s'} (h : SameTrace s s') : SameStep (.raised e s) (.raised e' s')

/-- What the side flag may do: nothing, or be the same in both runs. -/
def SideOk (optics optics' : List (Optic ℝ)) : Prop :=
  (∀ o ∈ optics, o.NotRefractingLens) ∨
  ∀ s s' v v', SameTrace s s' → scan optics s = .ok v → scan optics' s' = .ok v' → v.sfo ≠ none → v'.sfo = v.sfo

theorem same_step {md : ℝ} {optics optics' : List (Optic ℝ)} (hp : optics.Perm optics') (hI : SideOk optics optics')
    {s s' : RunState ℝ} (hs : SameTrace s s') (hT : NoTies optics s.ray s.remaining) :
    SameStep (runStep md optics s) (runStep md optics' s') := by
  obtain ⟨ray, rem, k, sel, sfo, log⟩ := s
  obtain ⟨ray', rem', k', sel', sfo', log'⟩ := s'
  obtain ⟨e1, e2, e3, e4⟩ := hs
  simp only at e1 e2 e3 e4 hT
  subst e1 e2 e3 e4
  have ok1 := scan_ok_iff ray' rem' optics ⟨false, none, sel, sfo⟩
  have ok2 := scan_ok_iff ray' rem' optics' ⟨false, none, sel', sfo'⟩
  have hTR : TestsReturn ray' optics ↔ TestsReturn ray' optics' :=
    ⟨fun h o ho => h o (hp.mem_iff.mpr ho), fun h o ho => h o (hp.mem_iff.mp ho)⟩
  rw [hTR, ← ok2] at ok1
  cases hv : optics.foldlM (scanStep ray' rem') ⟨false, none, sel, sfo⟩ with
  | error e =>
    cases hv' : optics'.foldlM (scanStep ray' rem') ⟨false, none, sel', sfo'⟩ with
    | error e' =>
      unfold runStep
      simp only [hv, hv']
      exact .raised ⟨rfl, rfl, rfl, rfl⟩
    | ok v' =>
      obtain ⟨v, h⟩ := ok1.mpr ⟨v', hv'⟩
      rw [hv] at h; cases h
  | ok v =>
    obtain ⟨v', hv'⟩ := ok1.mp ⟨v, hv⟩
    have R := scan_result ray' rem' ⟨false, none, sel, sfo⟩ rfl rfl optics v hv
    have R' := scan_result ray' rem' ⟨false, none, sel', sfo'⟩ rfl rfl optics' v' hv'
    unfold runStep
    simp only [hv, hv', fly_some]
    cases hm : v.minDistance with
    | none =>
      obtain ⟨h1, h2, h3⟩ := R.nothing hm
      have hm' : v'.minDistance = none := by
        cases hm' : v'.minDistance with
        | none => rfl
        | some m' =>
          obtain ⟨-, l1, o, l2, pt, n, a1, a2, a3, -⟩ := R'.found m' hm'
          exact absurd a3 (h3 o (hp.mem_iff.mpr (by rw [a1]; simp)) _ _ _)
      obtain ⟨h1', h2', h3'⟩ := R'.nothing hm'
      simp only [h1, h1', Bool.not_false, if_true]
      exact .next ⟨rfl, rfl, rfl, rfl⟩
    | some m =>
      obtain ⟨h1, l1, o, l2, pt, n, a1, a2, a3, a4, a5⟩ := R.found m hm
      have hle : ∀ o' ∈ optics, ∀ d pt' n', Candidate ray' rem' o' d pt' n' → m ≤ d := by
        intro o' ho' d pt' n' hc
        rw [a1] at ho'
        rcases List.mem_append.mp ho' with h | h
        · exact (a4 o' h d pt' n' hc).le
        · rcases List.mem_cons.mp h with rfl | h
          · exact (candidate_unique a3 hc).1.le
          · exact a5 o' h d pt' n' hc
      have ho : o ∈ optics := by rw [a1]; simp
      cases hm' : v'.minDistance with
      | none => exact absurd a3 ((R'.nothing hm').2.2 o (hp.mem_iff.mp ho) _ _ _)
      | some m' =>
        obtain ⟨h1', l1', o', l2', pt', n', b1, b2, b3, b4, b5⟩ := R'.found m' hm'
        have hle' : ∀ x ∈ optics', ∀ d p q, Candidate ray' rem' x d p q → m' ≤ d := by
          intro x hx d p q hc
          rw [b1] at hx
          rcases List.mem_append.mp hx with h | h
          · exact (b4 x h d p q hc).le
          · rcases List.mem_cons.mp h with rfl | h
            · exact (candidate_unique b3 hc).1.le
            · exact b5 x h d p q hc
        have ho' : o' ∈ optics := hp.mem_iff.mpr (by rw [b1]; simp)
        have em : m = m' := le_antisymm (hle o' ho' _ _ _ b3) (hle' o (hp.mem_iff.mp ho) _ _ _ a3)
        subst em
        obtain rfl := hT o ho o' ho' _ _ _ _ _ a3 b3
        obtain ⟨-, rfl, rfl⟩ := candidate_unique a3 b3
        have f1 := R.sfo ⟨o, ho, a3.notSkipped⟩
        have f2 := R'.sfo ⟨o, hp.mem_iff.mp ho, a3.notSkipped⟩
        obtain ⟨c, hc⟩ := Option.ne_none_iff_exists'.mp f1
        obtain ⟨c', hc'⟩ := Option.ne_none_iff_exists'.mp f2
        simp only [h1, h1', a2, b2, hc, hc', Bool.not_true, Bool.false_eq_true, if_false]
        split_ifs with hty
        · exact .next ⟨rfl, rfl, rfl, rfl⟩
        · have hact : ∀ r : Ray ℝ, o.doIntersect r pt n c' = o.doIntersect r pt n c := by
            intro r
            rcases hI with hI | hI
            · exact ignores_side (hI o ho) r pt n _ _
            · have := hI ⟨ray', rem', k', sel, sfo, log'⟩ ⟨ray', rem', k', sel', sfo', log'⟩ v v' ⟨rfl, rfl, rfl, rfl⟩
                hv hv' f1
              rw [hc, hc'] at this
              rw [Option.some.inj this]
          rw [hact]
          cases o.doIntersect (ray'.movedTo (ray'.position + distanceBetween ray'.position pt * ray'.direction)) pt n c with
          | error e => exact .raised ⟨rfl, rfl, rfl, rfl⟩
          | ok p => exact .next ⟨rfl, rfl, rfl, rfl⟩

theorem Passes.head {α : Type} [PyNum α] {md : α} {optics : List (Optic α)} {mi : Option Int} {n : Nat}
    {a b c : RunState α} (h1 : a.continues mi = true) (h2 : runStep md optics a = .next b)
    (h3 : Passes md optics mi n b c) : Passes md optics mi (n + 1) a c := by
  induction h3 with
  | zero b => exact .succ (.zero a) h1 h2
  | succ _ h4 h5 ih => exact .succ (ih h2) h4 h5

theorem same_loop {md : ℝ} {optics optics' : List (Optic ℝ)} {mi : Option Int} (hp : optics.Perm optics')
    (hI : SideOk optics optics') : ∀ (fuel : Nat) (s s' : RunState ℝ), SameTrace s s' →
    (∀ n t, Passes md optics mi n s t → t.continues mi = true → NoTies optics t.ray t.remaining) →
    SameOutcome (runLoop md optics mi fuel s) (runLoop md optics' mi fuel s')
  | 0, s, s', h, _ => .outOfFuel h
  | fuel + 1, s, s', h, hT => by
    have hc : s'.continues mi = s.continues mi := by
      unfold RunState.continues
      rw [h.ray, h.remaining, h.interactions]
    rw [runLoop, runLoop, hc]
    split_ifs with hcc
    · have hstep := same_step (md := md) hp hI h (hT 0 s (.zero s) hcc)
      generalize runStep md optics' s' = q at *
      cases e : runStep md optics s with
      | raised er t =>
        rw [e] at hstep
        cases hstep with
        | raised h' => exact .raised h'
      | next t =>
        rw [e] at hstep
        cases hstep with
        | next h' => exact same_loop hp hI fuel _ _ h' (fun n u hu => hT (n + 1) u (hu.head hcc e))
    · exact .finished h

/-- C46, without refracting lenses: reordering the list of optics does not change the run, if at no state it reaches
two different optics are at the same distance. -/
theorem C46_order_partial (ray : Ray ℝ) (md : ℝ) (optics optics' : List (Optic ℝ)) (hp : optics.Perm optics')
    (mi : Option Int) (fuel : Nat) (hL : ∀ o ∈ optics, o.NotRefractingLens)
    (hT : ∀ n t, Passes md optics mi n (RunState.init ray md) t → t.continues mi = true →
      NoTies optics t.ray t.remaining) :
    SameOutcome (ray.run md optics mi fuel) (ray.run md optics' mi fuel) :=
  same_loop hp (.inl hL) fuel _ _ (SameTrace.refl _) hT

/-- C46, with any optics, if the last one tested stays last. -/
theorem C46_order_same_last_partial (ray : Ray ℝ) (md : ℝ) (optics optics' : List (Optic ℝ)) (last : Optic ℝ)
    (hlast : last.skipped = false) (hp : optics.Perm optics') (mi : Option Int) (fuel : Nat)
    (hT : ∀ n t, Passes md (optics ++ [last]) mi n (RunState.init ray md) t → t.continues mi = true →
      NoTies (optics ++ [last]) t.ray t.remaining) :
    SameOutcome (ray.run md (optics ++ [last]) mi fuel) (ray.run md (optics' ++ [last]) mi fuel) := by
  refine same_loop (hp.append_right _) (.inr ?_) fuel _ _ (SameTrace.refl _) hT
  have key : ∀ (l : List (Optic ℝ)) (s : RunState ℝ) v, scan (l ++ [last]) s = .ok v →
      ∃ r, last.testIntersect s.ray = .ok r ∧ v.sfo = some r.sfo := by
    intro l s v h
    unfold scan at h
    rw [List.foldlM_append] at h
    cases hw : l.foldlM (scanStep s.ray s.remaining) ⟨false, none, s.selected, s.sfo⟩ with
    | error e => rw [hw] at h; cases h
    | ok w =>
      rw [hw] at h
      have hstep : scanStep s.ray s.remaining w last = .ok v := by
        rw [show (Except.ok w >>= fun t => [last].foldlM (scanStep s.ray s.remaining) t)
          = ([last].foldlM (scanStep s.ray s.remaining) w) from rfl, List.foldlM_cons] at h
        cases hs : scanStep s.ray s.remaining w last with
        | error e => rw [hs] at h; cases h
        | ok u => rw [hs] at h; cases h; rfl
      rcases scanStep_ok hstep with ⟨hk, rfl⟩ | ⟨r, hk, ht, hh, rfl⟩ | ⟨r, pt, hk, ht, hh, hp, hd, rfl⟩ |
        ⟨r, pt, hk, ht, hh, hp, hd, hm, rfl⟩ | ⟨r, pt, hk, ht, hh, hp, hd, hm, rfl⟩
      · rw [hlast] at hk; cases hk
      all_goals exact ⟨r, ht, rfl⟩
  intro s s' v v' hs h h' _
  obtain ⟨r, h1, h2⟩ := key _ _ _ h
  obtain ⟨r', h1', h2'⟩ := key _ _ _ h'
  rw [hs.ray, h1] at h1'
  rw [h2, h2', Except.ok.inj h1']

/-! ## With a refracting lens the order matters -/

/-- A disc mirror far behind the ray is missed. -/
theorem disc_behind (c n : V3 ℝ) (hn : dot n n = 1) (R : ℝ) (ray : Ray ℝ) (hd : dot ray.direction ray.direction = 1)
    {t : ℝ} (h1 : 1e-9 < |dot n ray.direction|) (h2 : t ≤ 1e-9)
    (h3 : dot (c - ray.position) n = t * dot n ray.direction) :
    (Optic.mirror (discMirror c n R)).testIntersect ray = .ok ⟨false, none, none, .none⟩ := by
  show (discMirror c n R).testIntersect ray = _
  have hc : (⟨c, R, 2 * R, some n, some ⟨c, n⟩⟩ : Circle ℝ).testIntersect ray = .ok Hit3.miss := by
    unfold Circle.testIntersect
    simp only [plane_behind hn hd h1 h2 h3]
    rfl
  obtain ⟨b, e⟩ := flat_single true ray (.circle (⟨c, R, 2 * R, some n, some ⟨c, n⟩⟩ : Circle ℝ)) Hit3.miss none
    (by show (do return IntersectResult.three (← _)) = _; rw [hc]; rfl) (fun h => by cases h) (fun _ => rfl)
    (fun _ h => by cases h)
  unfold Mirror.testIntersect discMirror
  simp only [true_or, if_true, e]
  rfl

/-- A case meeting the hypotheses of `C46_order_partial`: a mirror in front of the ray and one behind it. -/
example : ∃ m₁ m₂ : Mirror ℝ, m₁ ≠ m₂ ∧
    (∀ o ∈ [Optic.mirror m₁, .mirror m₂], o.NotRefractingLens) ∧
    (∃ d pt k, Candidate mirrorRay 100 (.mirror m₁) d pt k) ∧
    ∀ n t, Passes 100 [.mirror m₁, .mirror m₂] (some 1) n (RunState.init mirrorRay 100) t →
      t.continues (some 1) = true → NoTies [.mirror m₁, .mirror m₂] t.ray t.remaining := by
  have hz : dot (⟨0, 0, 1⟩ : V3 ℝ) ⟨0, 0, 1⟩ = 1 := by norm_num [dot]
  have hd : dot mirrorRay.direction mirrorRay.direction = 1 := by norm_num [mirrorRay, dot]
  have hd' : ‖mirrorRay.direction.toE‖ = 1 := mirrorRay_unit
  have hmt : (Optic.mirror (discMirror ⟨0, 0, 100⟩ ⟨0, 0, 1⟩ 1)).testIntersect mirrorRay
      = .ok ⟨false, none, none, .none⟩ :=
    disc_behind _ _ hz 1 mirrorRay hd (t := -95) (by norm_num [mirrorRay, dot]) (by norm_num)
      (by norm_num [mirrorRay, dot])
  obtain ⟨r, hr, h1, h2⟩ := C55_flat_disc _ _ (by simp) _ _ _ _ _ _ ⟨0, 0, 1⟩ (by simp) _
    (discMirror_new ⟨0, 0, 0⟩ hz 1) mirrorRay hd'
  have hhit : r.hit = true := h1.mpr ⟨by rw [norm_toE, norm_eq_one_iff.mpr hz, inner_toE]; norm_num [mirrorRay, dot], 5,
    by norm_num, by norm_num [OnPlane, inner_toE, lineAt, mirrorRay, dot],
    by norm_num [dist_toE_eq, lineAt, mirrorRay, V3.norm, dot]⟩
  obtain ⟨t, ht, hpt, hpl, -⟩ := h2 hhit
  have ht5 : t = 5 := by
    have := hpl
    norm_num [OnPlane, inner_toE, lineAt, mirrorRay, dot] at this
    linarith
  subst ht5
  have hdist : distanceBetween mirrorRay.position (lineAt mirrorRay.position mirrorRay.direction 5) = 5 :=
    distance_lineAt hd (by norm_num)
  have hc := candidate_of (rem := 100) (o := .mirror (discMirror ⟨0, 0, 0⟩ ⟨0, 0, 1⟩ 1)) rfl hr hhit hpt
    ⟨by rw [hdist]; norm_num, by rw [hdist, clippingFloor_eq]; norm_num⟩
  refine ⟨discMirror ⟨0, 0, 0⟩ ⟨0, 0, 1⟩ 1, discMirror ⟨0, 0, 100⟩ ⟨0, 0, 1⟩ 1, ?_, ?_, ⟨_, _, _, hc⟩, ?_⟩
  · intro e
    have := congrArg (fun m : Mirror ℝ => m.position.z) e
    norm_num [discMirror] at this
  · intro o ho
    rcases List.mem_cons.mp ho with rfl | ho
    · trivial
    · rw [List.mem_singleton.mp ho]; trivial
  · intro n t ht hcont o ho o' ho' d pt k pt' k' c c'
    have stop : ∀ s : RunState ℝ, s.interactions = 1 → s.continues (some 1) = false := by
      intro s h; simp [RunState.continues, h]
    have ht0 : t = RunState.init mirrorRay 100 ∨ t.interactions = 1 := by
      refine passes_invariant (fun t => t = RunState.init mirrorRay 100 ∨ t.interactions = 1) ?_ ht (.inl rfl)
      rintro a b (rfl | h) hc' hb
      · rcases C45_nearest _ _ _ _ hb with ⟨hno, -⟩ | ⟨-, -, -, -, -, -, -, -, -, -, -, h, -⟩
        · exact absurd hc (hno _ (by simp) _ _ _)
        · exact .inr h
      · rw [stop a h] at hc'; cases hc'
    rcases ht0 with rfl | h
    swap
    · rw [stop t h] at hcont; cases hcont
    have only : ∀ x ∈ [Optic.mirror (discMirror ⟨0, 0, 0⟩ ⟨0, 0, 1⟩ 1), .mirror (discMirror ⟨0, 0, 100⟩ ⟨0, 0, 1⟩ 1)],
        ∀ d p q, Candidate mirrorRay 100 x d p q → x = .mirror (discMirror ⟨0, 0, 0⟩ ⟨0, 0, 1⟩ 1) := by
      intro x hx d p q hcx
      rcases List.mem_cons.mp hx with rfl | hx
      · rfl
      · rw [List.mem_singleton.mp hx] at hcx
        obtain ⟨f, hf⟩ := hcx.hit
        rw [hmt] at hf
        cases hf
    rw [only o ho _ _ _ c, only o' ho' _ _ _ c']

/-- A ray that meets a ball of radius 5 about the origin at `(3, 0, 4)`. -/
noncomputable def orderingRay : Ray ℝ := ⟨⟨3, 0, 20⟩, ⟨0, 0, -1⟩, 532, 0, [⟨3, 0, 20⟩], false, "normal"⟩

/-- C46 is false with a refracting lens: `run` hands the lens the side flag of the optic tested last. A ray that
comes from outside to a glass ball of index 2 is refracted into it if the ball is the last optic in the list, but
reflected by it if a mirror (which the ray does not meet) comes after it. -/
theorem C46_counterexample : ∃ (l : Lens ℝ) (m : Mirror ℝ) (s s' : RunState ℝ),
    Lens.new (⟨0, 0, 0⟩ : V3 ℝ) none "spherical" (some 10) none none none "normal" 2 = .ok l ∧
    Mirror.new (⟨0, 0, 100⟩ : V3 ℝ) "circular_flat" (some ⟨0, 0, 1⟩) (some (2 * 1)) none none none none "normal"
      (some ⟨0, 0, 1⟩) = .ok m ∧
    (∀ n t, Passes 100 [.mirror m, .lens l] (some 1) n (RunState.init orderingRay 100) t → t.continues (some 1) = true →
      NoTies [.mirror m, .lens l] t.ray t.remaining) ∧
    orderingRay.run 100 [.mirror m, .lens l] (some 1) 2 = .finished s ∧
    orderingRay.run 100 [.lens l, .mirror m] (some 1) 2 = .finished s' ∧
    s.ray.position = ⟨3, 0, 4⟩ ∧ s'.ray.position = ⟨3, 0, 4⟩ ∧
    Refracted 1 2 ((5 : ℝ)⁻¹ • (⟨3, 0, 4⟩ : V3 ℝ).toE) orderingRay.direction.toE s.ray.direction.toE ∧
    Reflected (⟨3, 0, 4⟩ : V3 ℝ).toE orderingRay.direction.toE s'.ray.direction.toE ∧
    s.ray.direction ≠ s'.ray.direction := by
  obtain ⟨l, hl⟩ : ∃ l, Lens.new (⟨0, 0, 0⟩ : V3 ℝ) none "spherical" (some 10) none none none "normal" 2 = .ok l :=
    ⟨_, rfl⟩
  obtain ⟨hlt, hball⟩ := ballLens_new hl
  have hz : dot (⟨0, 0, 1⟩ : V3 ℝ) ⟨0, 0, 1⟩ = 1 := by norm_num [dot]
  have hm := discMirror_new ⟨0, 0, 100⟩ hz 1
  set m := discMirror ⟨0, 0, 100⟩ ⟨0, 0, 1⟩ 1
  have hd : dot orderingRay.direction orderingRay.direction = 1 := by norm_num [orderingRay, dot]
  have hd' : ‖orderingRay.direction.toE‖ = 1 := by rw [norm_toE, norm_eq_one_iff]; exact hd
  have hD : sphDisc ⟨0, 0, 0⟩ orderingRay.position orderingRay.direction (10 / 2) = 16 := by
    norm_num [sphDisc, orderingRay, dot]
  have hq : dot orderingRay.direction (⟨0, 0, 0⟩ - orderingRay.position) = 20 := by norm_num [orderingRay, dot]
  have hon := fun t => onSphere_line ⟨0, 0, 0⟩ orderingRay.position orderingRay.direction (10 / 2) t hd
  rw [hD, hq] at hon
  have hT : ¬ Tangent (⟨0, 0, 0⟩ : V3 ℝ) (10 / 2) orderingRay.position orderingRay.direction := by
    rw [tangent_iff _ _ _ _ hd, hD]; norm_num
  have hx : lineAt orderingRay.position orderingRay.direction 16 = ⟨3, 0, 4⟩ := by
    ext <;> norm_num [lineAt, orderingRay]
  have hx0 : (⟨3, 0, 4⟩ : V3 ℝ) - ⟨0, 0, 0⟩ = ⟨3, 0, 4⟩ := by ext <;> norm_num
  have hn5 : ‖(⟨3, 0, 4⟩ : V3 ℝ).toE‖ = 5 := by
    rw [norm_toE, V3.norm, real_sqrt, show dot (⟨3, 0, 4⟩ : V3 ℝ) ⟨3, 0, 4⟩ = 5 * 5 by norm_num [dot]]
    exact Real.sqrt_mul_self (by norm_num)
  have hid : inner ℝ (⟨3, 0, 4⟩ : V3 ℝ).toE orderingRay.direction.toE = -4 := by
    rw [inner_toE]; norm_num [orderingRay, dot]
  have hfirst : FirstOnSphere ⟨0, 0, 0⟩ (10 / 2) orderingRay.position orderingRay.direction 16 :=
    ⟨by norm_num, by rw [hon]; norm_num, fun u _ hu => by rw [hon] at hu; nlinarith⟩
  have hmt : (Optic.mirror m).testIntersect orderingRay = .ok ⟨false, none, none, .none⟩ :=
    disc_behind _ _ hz 1 orderingRay hd (t := -80) (by norm_num [orderingRay, dot]) (by norm_num)
      (by norm_num [orderingRay, dot])
  obtain ⟨nv, hlt', hnv⟩ : ∃ nv, (Optic.lens l).testIntersect orderingRay
      = .ok ⟨true, some ⟨3, 0, 4⟩, some nv, .bool true⟩ ∧ nv = unitVector (⟨3, 0, 4⟩ : V3 ℝ) := by
    rcases ballLens_test hball orderingRay hd hT with ⟨hno, -⟩ | ⟨u, hu, b, e, hb1, hb2⟩
    · exact absurd hfirst.on (hno _ hfirst.ahead)
    · obtain rfl := hu.unique hfirst
      rw [hx, hx0, hid] at hb1
      rw [hx, hb1.mpr (by norm_num)] at e
      refine ⟨_, e, ?_⟩
      rw [(sphere_normal_unitVector ⟨⟨0, 0, 0⟩, 10 / 2, 10⟩ (by norm_num) (hx ▸ hfirst.on)).2]
      exact congrArg unitVector hx0
  have hdist : distanceBetween orderingRay.position (⟨3, 0, 4⟩ : V3 ℝ) = 16 := by
    rw [← hx]; exact distance_lineAt hd (by norm_num)
  let s0 : RunState ℝ := RunState.init orderingRay 100
  have hcont : s0.continues (some 1) = true := by
    simp [RunState.continues, s0, RunState.init, orderingRay, lit0]
  have hne : (⟨3, 0, 4⟩ : V3 ℝ) ≠ ⟨0, 0, 0⟩ := by simp
  have hfl : s0.flown ⟨3, 0, 4⟩ = orderingRay.movedTo ⟨3, 0, 4⟩ := by
    unfold RunState.flown
    show orderingRay.movedTo (orderingRay.position + distanceBetween orderingRay.position ⟨3, 0, 4⟩ * orderingRay.direction) = _
    rw [hdist, ← hx]; rfl
  have e1 : scanStep orderingRay 100 ⟨false, none, none, none⟩ (.mirror m) = .ok ⟨false, none, none, some .none⟩ :=
    scanStep_miss rfl hmt rfl
  have e2 : scanStep orderingRay 100 ⟨false, none, none, some .none⟩ (.lens l)
      = .ok ⟨true, some 16, some ⟨.lens l, ⟨3, 0, 4⟩, some nv⟩, some (.bool true)⟩ := by
    rw [scanStep_new (o := .lens l) rfl hlt' rfl rfl (by rw [hdist]; norm_num)
      (by rw [hdist, clippingFloor_eq]; norm_num) (ltMin_none _), hdist]
  have e3 : scanStep orderingRay 100 ⟨false, none, none, none⟩ (.lens l)
      = .ok ⟨true, some 16, some ⟨.lens l, ⟨3, 0, 4⟩, some nv⟩, some (.bool true)⟩ := by
    rw [scanStep_new (o := .lens l) rfl hlt' rfl rfl (by rw [hdist]; norm_num)
      (by rw [hdist, clippingFloor_eq]; norm_num) (ltMin_none _), hdist]
  have e4 : scanStep orderingRay 100 ⟨true, some 16, some ⟨.lens l, ⟨3, 0, 4⟩, some nv⟩, some (.bool true)⟩ (.mirror m)
      = .ok ⟨true, some 16, some ⟨.lens l, ⟨3, 0, 4⟩, some nv⟩, some .none⟩ := scanStep_miss rfl hmt rfl
  -- the two directions
  have hl1 : l.type ≠ "ideal" := by rw [hlt]; decide
  have hl2 : l.type ≠ "ideal_collimate" := by rw [hlt]; decide
  have hl3 : l.type ≠ "ideal_focus" := by rw [hlt]; decide
  obtain ⟨d₁, hd₁, hg₁⟩ : ∃ d', l.doIntersect (orderingRay.movedTo ⟨3, 0, 4⟩) ⟨3, 0, 4⟩ (some nv) (.bool true)
      = .ok { orderingRay.movedTo ⟨3, 0, 4⟩ with direction := d' } ∧
      GlassLaw 1 2 (⟨3, 0, 4⟩ : V3 ℝ).toE orderingRay.direction.toE d'.toE := by
    unfold Lens.doIntersect
    simp only [if_neg hl1, if_neg hl2, if_neg hl3, Sfo.truthy, if_true, lit1, hball.index]
    exact snell_glass (orderingRay.movedTo ⟨3, 0, 4⟩) hd' _ _ _ ⟨3, 0, 4⟩ 1 2 one_pos two_pos hne (.inl hnv)
  obtain ⟨d₂, hd₂, hg₂⟩ : ∃ d', l.doIntersect (orderingRay.movedTo ⟨3, 0, 4⟩) ⟨3, 0, 4⟩ (some nv) .none
      = .ok { orderingRay.movedTo ⟨3, 0, 4⟩ with direction := d' } ∧
      GlassLaw 2 1 (⟨3, 0, 4⟩ : V3 ℝ).toE orderingRay.direction.toE d'.toE := by
    unfold Lens.doIntersect
    simp only [if_neg hl1, if_neg hl2, if_neg hl3, Sfo.truthy, lit1, hball.index, need, bind, Except.bind,
      Bool.false_eq_true, if_false]
    exact snell_glass (orderingRay.movedTo ⟨3, 0, 4⟩) hd' _ _ _ ⟨3, 0, 4⟩ 2 1 two_pos one_pos hne (.inr (by rw [hnv]))
  have hsin : sinIncidence (⟨3, 0, 4⟩ : V3 ℝ).toE orderingRay.direction.toE = 3 / 5 := by
    have hnu : ‖‖(⟨3, 0, 4⟩ : V3 ℝ).toE‖⁻¹ • (⟨3, 0, 4⟩ : V3 ℝ).toE‖ = 1 :=
      normalised (by rw [← norm_ne_zero_iff, hn5]; norm_num)
    have e := inner_sq hnu hd'
    rw [inner_smul_right, real_inner_comm, hid, hn5, sinIncidence_smul (by norm_num)] at e
    have : sinIncidence (⟨3, 0, 4⟩ : V3 ℝ).toE orderingRay.direction.toE ^ 2 = (3 / 5) ^ 2 := by
      linear_combination e
    exact (sq_eq_sq₀ (sinIncidence_nonneg _ _) (by norm_num)).mp this
  have r₁ := hg₁.refracts (by rw [hsin]; norm_num)
  have r₂ := hg₂.reflects (by rw [hsin]; norm_num)
  rw [hn5] at r₁
  have hdiff : d₁ ≠ d₂ := by
    intro e
    have f := r₁.farSide
    have g := r₂.normalReversed
    rw [e, inner_smul_right, inner_smul_right, real_inner_comm, hid] at f
    rw [hd', one_mul, real_inner_comm (⟨3, 0, 4⟩ : V3 ℝ).toE orderingRay.direction.toE, hid] at g
    rw [g] at f
    norm_num at f
  have step₁ := runStep_act (md := 100) (s := s0) (ray' := { orderingRay.movedTo ⟨3, 0, 4⟩ with direction := d₁ })
    (hits := []) (optics := [.mirror m, .lens l]) (scan_two _ _ _ e1 e2) rfl rfl rfl
    (show "normal" ≠ "faerie_fire" by decide)
    (by
      rw [hfl]
      show (do return (← l.doIntersect _ _ _ _, [])) = _
      rw [hd₁]; rfl)
  have step₂ := runStep_act (md := 100) (s := s0) (ray' := { orderingRay.movedTo ⟨3, 0, 4⟩ with direction := d₂ })
    (hits := []) (optics := [.lens l, .mirror m]) (scan_two _ _ _ e3 e4) rfl rfl rfl
    (show "normal" ≠ "faerie_fire" by decide)
    (by
      rw [hfl]
      show (do return (← l.doIntersect _ _ _ _, [])) = _
      rw [hd₂]; rfl)
  have stop : ∀ s : RunState ℝ, s.interactions = 1 → s.continues (some 1) = false := by
    intro s h; simp [RunState.continues, h]
  have run₁ := (runLoop_next 1 hcont step₁).trans (runLoop_stop (mi := some 1) 0 (stop _ rfl))
  have run₂ := (runLoop_next 1 hcont step₂).trans (runLoop_stop (mi := some 1) 0 (stop _ rfl))
  refine ⟨l, m, _, _, hl, hm, ?_, run₁, run₂, rfl, rfl, r₁, r₂, hdiff⟩
  · intro n t ht hc o ho o' ho' d pt k pt' k' c c'
    have ht0 : t = s0 ∨ t.interactions = 1 := by
      refine passes_invariant (fun t => t = s0 ∨ t.interactions = 1) ?_ ht (.inl rfl)
      rintro a b (rfl | h) hc' hb
      · rw [step₁] at hb
        cases hb
        exact .inr rfl
      · rw [stop a h] at hc'; cases hc'
    rcases ht0 with rfl | h
    swap
    · rw [stop t h] at hc; cases hc
    have only : ∀ x ∈ [Optic.mirror m, .lens l], ∀ d p q, Candidate s0.ray s0.remaining x d p q → x = .lens l := by
      intro x hx d p q hcx
      rcases List.mem_cons.mp hx with rfl | hx
      · obtain ⟨f, hf⟩ := hcx.hit
        rw [show (Optic.mirror m).testIntersect s0.ray = .ok ⟨false, none, none, .none⟩ from hmt] at hf
        cases hf
      · simpa using hx
    rw [only o ho _ _ _ c, only o' ho' _ _ _ c']

end Optics
