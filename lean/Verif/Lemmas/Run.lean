import Verif.Spec.Run
import Verif.Lemmas.Vec

/-!
# Helper lemmas about the run loop
-/

namespace Optics
variable {α : Type} [PyNum α]
open V3

theorem fly_some (ray : Ray α) (d : α) :
    ray.fly (some d) = .ok (ray.movedTo (ray.position + d * ray.direction)) := rfl

/-- Whether `do_intersect` of the optic stops the ray. -/
def Optic.blocks : Optic α → Bool
  | .detector _ => true
  | .block => true
  | _ => false

/-- What `do_intersect` of the optic writes to `hit_data`. -/
def Optic.rows (pt : V3 α) (wavelength : α) : Optic α → List (DetHit α)
  | .detector d => [⟨d.id, pt, wavelength⟩]
  | _ => []

/-- What `do_intersect` may change: the direction and `blocked`. -/
structure ActsOnly (o : Optic α) (ray : Ray α) (pt : V3 α) (ray' : Ray α) (hits : List (DetHit α)) : Prop where
  eq : ∃ d b, ray' = { ray with direction := d, blocked := b }
  blocked : ray'.blocked = (ray.blocked || o.blocks)
  hits : hits = o.rows pt ray.wavelength
  direction : (match o with
    | .detector _ | .block | .base | .annotation | .filter | .window => ray'.direction = ray.direction
    | _ => True)

theorem reflect_ok {ray ray' : Ray α} {t : String} {n : Option (V3 α)} {o : OpticAttrs α}
    (h : ray.reflect t n o = .ok ray') : ∃ d, ray' = { ray with direction := d } := by
  unfold Ray.reflect at h
  simp only [bind, Except.bind, pure, Except.pure, need] at h
  split_ifs at h
  · cases n with
    | none => cases h
    | some n => cases h; exact ⟨_, rfl⟩
  · cases n with
    | none => cases h
    | some n =>
      cases ht : o.tangent with
      | none => rw [ht] at h; cases h
      | some t =>
        cases hg : o.G with
        | none => rw [ht, hg] at h; cases h
        | some g => rw [ht, hg] at h; cases h; exact ⟨_, rfl⟩

theorem refract_ok {ray ray' : Ray α} {t : String} {n : Option (V3 α)} {o : OpticAttrs α} {pt : V3 α}
    {e1 e2 : Option α} (h : ray.refract t n o pt e1 e2 = .ok ray') :
    ∃ d, ray' = { ray with direction := d } := by
  unfold Ray.refract at h
  simp only [bind, Except.bind, pure, Except.pure, need] at h
  split_ifs at h
  · cases hn : o.normal with
    | none => rw [hn] at h; cases h
    | some m =>
      rw [hn] at h
      simp only at h
      split at h
      · cases h
      · cases h; exact ⟨_, rfl⟩
  · cases hn : o.normal with
    | none => rw [hn] at h; cases h
    | some m => rw [hn] at h; cases h; exact ⟨_, rfl⟩
  · cases hn : o.normal with
    | none => rw [hn] at h; cases h
    | some m =>
      cases hf : o.f with
      | none => rw [hn, hf] at h; cases h
      | some f => rw [hn, hf] at h; cases h; exact ⟨_, rfl⟩
  · cases n with
    | none => cases h
    | some m =>
      cases e1 with
      | none => cases h
      | some e1 =>
        cases e2 with
        | none => cases h
        | some e2 =>
          simp only at h
          split at h
          · cases h
          · cases h; exact ⟨_, rfl⟩

theorem compound_doIntersect_ok {c : Compound α} {ray ray' : Ray α} {pt n}
    (h : c.doIntersect ray pt n = .ok ray') : ∃ d, ray' = { ray with direction := d } := by
  unfold Compound.doIntersect at h
  simp only [bind, Except.bind] at h
  split_ifs at h
  · exact reflect_ok h
  · split at h
    · cases h
    · exact refract_ok h

theorem mirror_doIntersect_ok {m : Mirror α} {ray ray' : Ray α} {pt n}
    (h : m.doIntersect ray pt n = .ok ray') : ∃ d, ray' = { ray with direction := d } := by
  unfold Mirror.doIntersect at h
  split_ifs at h
  · exact reflect_ok h
  · exact reflect_ok h
  · cases h; exact ⟨ray.direction, rfl⟩

theorem lens_doIntersect_ok {l : Lens α} {ray ray' : Ray α} {pt n sfo}
    (h : l.doIntersect ray pt n sfo = .ok ray') : ∃ d, ray' = { ray with direction := d } := by
  unfold Lens.doIntersect at h
  simp only [bind, Except.bind] at h
  split_ifs at h
  · exact refract_ok h
  · exact refract_ok h
  · exact refract_ok h
  · exact refract_ok h
  · split at h
    · cases h
    · exact refract_ok h

theorem grating_doIntersect_ok {g : Grating α} {ray ray' : Ray α} {pt n}
    (h : g.doIntersect ray pt n = .ok ray') : ∃ d, ray' = { ray with direction := d } := by
  unfold Grating.doIntersect at h
  split_ifs at h
  · exact reflect_ok h
  · exact reflect_ok h

theorem doIntersect_ok {o : Optic α} {ray ray' : Ray α} {pt n sfo hits}
    (h : o.doIntersect ray pt n sfo = .ok (ray', hits)) : ActsOnly o ray pt ray' hits := by
  have key : ∀ (x : Py (Ray α)), (∀ r, x = .ok r → ∃ d, r = { ray with direction := d }) →
      (do return (← x, ([] : List (DetHit α)))) = (Except.ok (ray', hits) : Py (Ray α × List (DetHit α))) →
      (∃ d, ray' = { ray with direction := d }) ∧ hits = [] := by
    intro x hx h
    cases x with
    | error e => cases h
    | ok r =>
      have e : (r, ([] : List (DetHit α))) = (ray', hits) := Except.ok.inj h
      cases e
      exact ⟨hx _ rfl, rfl⟩
  have fin : ∀ d, ray' = { ray with direction := d } → ray'.blocked = (ray.blocked || false) := by
    rintro d rfl; simp
  cases o with
  | compound c =>
    obtain ⟨⟨d, e⟩, e'⟩ := key _ (fun r hr => compound_doIntersect_ok hr) h
    exact ⟨⟨d, ray.blocked, e⟩, fin d e, e', trivial⟩
  | mirror c =>
    obtain ⟨⟨d, e⟩, e'⟩ := key _ (fun r hr => mirror_doIntersect_ok hr) h
    exact ⟨⟨d, ray.blocked, e⟩, fin d e, e', trivial⟩
  | lens c =>
    obtain ⟨⟨d, e⟩, e'⟩ := key _ (fun r hr => lens_doIntersect_ok hr) h
    exact ⟨⟨d, ray.blocked, e⟩, fin d e, e', trivial⟩
  | grating c =>
    obtain ⟨⟨d, e⟩, e'⟩ := key _ (fun r hr => grating_doIntersect_ok hr) h
    exact ⟨⟨d, ray.blocked, e⟩, fin d e, e', trivial⟩
  | detector d => cases h; exact ⟨⟨_, _, rfl⟩, by simp [Optic.blocks], rfl, rfl⟩
  | block => cases h; exact ⟨⟨_, _, rfl⟩, by simp [Optic.blocks], rfl, rfl⟩
  | base => cases h; exact ⟨⟨_, _, rfl⟩, by simp [Optic.blocks], rfl, rfl⟩
  | annotation => cases h; exact ⟨⟨_, _, rfl⟩, by simp [Optic.blocks], rfl, rfl⟩
  | filter => cases h; exact ⟨⟨_, _, rfl⟩, by simp [Optic.blocks], rfl, rfl⟩
  | window => cases h; exact ⟨⟨_, _, rfl⟩, by simp [Optic.blocks], rfl, rfl⟩

/-- The scan of one pass. -/
def scan (optics : List (Optic α)) (s : RunState α) : Py (ScanVars α) :=
  optics.foldlM (scanStep s.ray s.remaining) ⟨false, none, s.selected, s.sfo⟩

/-- The ray after flying to the selected point. -/
def RunState.flown (s : RunState α) (pt : V3 α) : Ray α :=
  s.ray.movedTo (s.ray.position + distanceBetween s.ray.position pt * s.ray.direction)

/-- How a completed pass relates the states before and after. -/
inductive StepNext (md : α) (v : ScanVars α) (s s' : RunState α) : Prop
  | free (hi : v.intersected = false)
      (e : s' = { s with selected := v.selected, sfo := v.sfo, remaining := s.remaining - md,
                         ray := s.ray.movedTo (s.ray.position + s.remaining * s.ray.direction) })
  | faerie (sel : Selected α) (hi : v.intersected = true) (hs : v.selected = some sel)
      (ht : s.ray.type = "faerie_fire")
      (e : s' = { s with selected := v.selected, sfo := v.sfo,
                         remaining := s.remaining - distanceBetween s.ray.position sel.pt,
                         interactions := s.interactions + 1,
                         ray := { s.flown sel.pt with blocked := true } })
  | act (sel : Selected α) (sfo : Sfo) (ray' : Ray α) (hits : List (DetHit α))
      (hi : v.intersected = true) (hs : v.selected = some sel) (hf : v.sfo = some sfo)
      (ht : s.ray.type ≠ "faerie_fire")
      (ha : sel.optic.doIntersect (s.flown sel.pt) sel.pt sel.normal sfo = .ok (ray', hits))
      (e : s' = { s with selected := v.selected, sfo := v.sfo,
                         remaining := s.remaining - distanceBetween s.ray.position sel.pt,
                         interactions := s.interactions + 1, ray := ray', log := s.log ++ hits })

theorem runStep_next {md : α} {optics : List (Optic α)} {s s' : RunState α}
    (h : runStep md optics s = .next s') : ∃ v, scan optics s = .ok v ∧ StepNext md v s s' := by
  unfold runStep at h
  cases hv : scan optics s with
  | error e => simp only [scan] at hv; simp only [hv] at h; cases h
  | ok v =>
    simp only [scan] at hv
    simp only [hv, fly_some] at h
    refine ⟨v, rfl, ?_⟩
    cases hi : v.intersected with
    | false =>
      simp only [hi, Bool.not_false, if_true] at h
      cases h
      exact .free hi rfl
    | true =>
      simp only [hi, Bool.not_true, Bool.false_eq_true, if_false] at h
      cases hs : v.selected with
      | none => simp only [hs] at h; cases h
      | some sel =>
        simp only [hs] at h
        split_ifs at h with ht
        · cases h
          exact .faerie sel hi hs ht (by rw [hs]; rfl)
        · cases hf : v.sfo with
          | none => simp only [hf] at h; cases h
          | some sfo =>
            simp only [hf] at h
            cases ha : sel.optic.doIntersect (s.flown sel.pt) sel.pt sel.normal sfo with
            | error e =>
              simp only [RunState.flown] at ha
              simp only [ha] at h; cases h
            | ok p =>
              obtain ⟨ray', hits⟩ := p
              have ha' := ha
              simp only [RunState.flown] at ha
              simp only [ha] at h
              cases h
              exact .act sel sfo ray' hits hi hs hf ht ha' (by rw [hs, hf])

/-- How a pass that raises relates the states before and after. -/
inductive StepRaised (md : α) (optics : List (Optic α)) (e : PyErr) (s s' : RunState α) : Prop
  | scan (he : scan optics s = .error e) (es : s' = s)
  | unbound (v : ScanVars α) (hv : Optics.scan optics s = .ok v) (hi : v.intersected = true) (hs : v.selected = none)
      (es : s' = { s with selected := v.selected, sfo := v.sfo })
  | act (v : ScanVars α) (sel : Selected α) (hv : Optics.scan optics s = .ok v) (hi : v.intersected = true)
      (hs : v.selected = some sel) (ht : s.ray.type ≠ "faerie_fire")
      (ha : ∀ sfo, v.sfo = some sfo → sel.optic.doIntersect (s.flown sel.pt) sel.pt sel.normal sfo = .error e)
      (es : s' = { s with selected := v.selected, sfo := v.sfo,
                          remaining := s.remaining - distanceBetween s.ray.position sel.pt,
                          interactions := s.interactions + 1, ray := s.flown sel.pt })

theorem runStep_raised {md : α} {optics : List (Optic α)} {s s' : RunState α} {e : PyErr}
    (h : runStep md optics s = .raised e s') : StepRaised md optics e s s' := by
  unfold runStep at h
  cases hv : scan optics s with
  | error e' =>
    have hv' := hv
    simp only [scan] at hv; simp only [hv] at h; cases h
    exact .scan hv' rfl
  | ok v =>
    have hv' := hv
    simp only [scan] at hv
    simp only [hv, fly_some] at h
    cases hi : v.intersected with
    | false =>
      simp only [hi, Bool.not_false, if_true] at h
      cases h
    | true =>
      simp only [hi, Bool.not_true, Bool.false_eq_true, if_false] at h
      cases hs : v.selected with
      | none => simp only [hs] at h; cases h; exact .unbound v hv' hi hs (by rw [hs])
      | some sel =>
        simp only [hs] at h
        split_ifs at h with ht
        cases hf : v.sfo with
        | none =>
          simp only [hf] at h; cases h
          exact .act v sel hv' hi hs ht (by rw [hf]; rintro _ ⟨⟩) (by rw [hs, hf]; rfl)
        | some sfo =>
          simp only [hf] at h
          cases ha : sel.optic.doIntersect (s.flown sel.pt) sel.pt sel.normal sfo with
          | error e' =>
            have ha' := ha
            simp only [RunState.flown] at ha
            simp only [ha] at h; cases h
            exact .act v sel hv' hi hs ht (by rw [hf]; rintro _ ⟨⟩; exact ha') (by rw [hs, hf]; rfl)
          | ok p =>
            obtain ⟨ray', hits⟩ := p
            simp only [RunState.flown] at ha
            simp only [ha] at h
            cases h

/-- Loop invariants. -/
theorem runLoop_invariant {md : α} {optics : List (Optic α)} {mi : Option Int} (P : RunState α → Prop)
    (hn : ∀ s s', P s → s.continues mi = true → runStep md optics s = .next s' → P s')
    (hr : ∀ s s' e, P s → s.continues mi = true → runStep md optics s = .raised e s' → P s') :
    ∀ (fuel : Nat) (s : RunState α), P s → P (runLoop md optics mi fuel s).state
  | 0, s, h => h
  | fuel + 1, s, h => by
    unfold runLoop
    split_ifs with hc
    · cases hs : runStep md optics s with
      | raised e s' => exact hr s s' e h hc hs
      | next s' => exact runLoop_invariant P hn hr fuel s' (hn s s' h hc hs)
    · exact h

/-- How `run` ends, in terms of the passes made. -/
theorem runLoop_passes {md : α} {optics : List (Optic α)} {mi : Option Int} :
    ∀ (fuel : Nat) (s : RunState α), ∃ n s', Passes md optics mi n s s' ∧
      match runLoop md optics mi fuel s with
      | .finished t => t = s' ∧ s'.continues mi = false
      | .raised e t => s'.continues mi = true ∧ runStep md optics s' = .raised e t
      | .outOfFuel t => t = s' ∧ n = fuel
  | 0, s => ⟨0, s, .zero s, rfl, rfl⟩
  | fuel + 1, s => by
    have front : ∀ {n a b c}, a.continues mi = true → runStep md optics a = .next b →
        Passes md optics mi n b c → Passes md optics mi (n + 1) a c := by
      intro n a b c h1 h2 h3
      induction h3 with
      | zero b => exact .succ (.zero a) h1 h2
      | succ _ h4 h5 ih => exact .succ (ih h2) h4 h5
    unfold runLoop
    split_ifs with hc
    · cases hs : runStep md optics s with
      | raised e s' => exact ⟨0, s, .zero s, hc, hs⟩
      | next s' =>
        obtain ⟨n, t, h1, h2⟩ := runLoop_passes (md := md) (optics := optics) (mi := mi) fuel s'
        refine ⟨n + 1, t, front hc hs h1, ?_⟩
        simp only
        cases hl : runLoop md optics mi fuel s' with
        | finished u => rw [hl] at h2; exact h2
        | raised e u => rw [hl] at h2; exact h2
        | outOfFuel u => rw [hl] at h2; exact ⟨h2.1, by rw [h2.2]⟩
    · exact ⟨0, s, .zero s, rfl, by simpa using hc⟩

/-- Invariants of completed passes. -/
theorem passes_invariant {md : α} {optics : List (Optic α)} {mi : Option Int} (P : RunState α → Prop)
    (hn : ∀ s s', P s → s.continues mi = true → runStep md optics s = .next s' → P s')
    {n : Nat} {s s' : RunState α} (h : Passes md optics mi n s s') (h0 : P s) : P s' := by
  induction h with
  | zero => exact h0
  | succ _ h1 h2 ih => exact hn _ _ (ih h0) h1 h2

end Optics
