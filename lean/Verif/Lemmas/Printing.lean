import Verif.Spec.Printing
import Verif.Lemmas.NanRun

/-!
# Lemmas: printing changes nothing else
-/

namespace Optics
open V3

/-! ## `repr` -/

theorem toPrecision_cases (x : XR) (p : ℕ) : (∃ t, toPrecision x p = .ok t) ∧ ¬ (x = .inf ∨ x = .ninf) ∨
    toPrecision x p = .error .overflowError ∧ (x = .inf ∨ x = .ninf) := by
  cases x with
  | nan => exact .inl ⟨⟨_, rfl⟩, by simp⟩
  | inf => exact .inr ⟨rfl, .inl rfl⟩
  | ninf => exact .inr ⟨rfl, .inr rfl⟩
  | fin x =>
    refine .inl ⟨?_, by simp⟩
    unfold toPrecision
    simp only
    split_ifs <;> exact ⟨_, rfl⟩

theorem V3.text_cases (v : V3 XR) : (∃ t, v.text = .ok t) ∧ ¬ v.Infinite ∨
    v.text = .error .overflowError ∧ v.Infinite := by
  unfold V3.text V3.Infinite
  rcases toPrecision_cases v.x 5 with ⟨⟨x, hx⟩, nx⟩ | ⟨hx, nx⟩
  · rcases toPrecision_cases v.y 5 with ⟨⟨y, hy⟩, ny⟩ | ⟨hy, ny⟩
    · rcases toPrecision_cases v.z 5 with ⟨⟨z, hz⟩, nz⟩ | ⟨hz, nz⟩
      · rw [hx, hy, hz]; exact .inl ⟨⟨_, rfl⟩, by tauto⟩
      · rw [hx, hy, hz]; exact .inr ⟨rfl, by tauto⟩
    · rw [hx, hy]; exact .inr ⟨rfl, by tauto⟩
  · rw [hx]; exact .inr ⟨rfl, by tauto⟩

theorem reprText_cases (name : List Char) (p d : V3 XR) : (∃ t, reprText name p d = .ok t) ∧ ¬ (p.Infinite ∨ d.Infinite) ∨
    reprText name p d = .error .overflowError ∧ (p.Infinite ∨ d.Infinite) := by
  unfold reprText
  rcases p.text_cases with ⟨⟨x, hx⟩, nx⟩ | ⟨hx, nx⟩
  · rcases d.text_cases with ⟨⟨y, hy⟩, ny⟩ | ⟨hy, ny⟩
    · rw [hx, hy]; exact .inl ⟨⟨_, rfl⟩, by tauto⟩
    · rw [hx, hy]; exact .inr ⟨rfl, by tauto⟩
  · rw [hx]; exact .inr ⟨rfl, by tauto⟩

theorem repr_cases (r : Ray XR) : (∃ t, r.repr = .ok t) ∧ ¬ r.Infinite ∨ r.repr = .error .overflowError ∧ r.Infinite :=
  reprText_cases _ _ _

/-! ## Lines -/

theorem rayLines_append (a b : List Line) : rayLines (a ++ b) = rayLines a ++ rayLines b := by
  induction a with
  | nil => rfl
  | cons l a ih => cases l <;> simp [rayLines, ih]

theorem hitLines_append (a b : List Line) : hitLines (a ++ b) = hitLines a + hitLines b := by
  induction a with
  | nil => simp [hitLines]
  | cons l a ih => cases l <;> simp [hitLines, ih] <;> omega

theorem freeLines_append (a b : List Line) : freeLines (a ++ b) = freeLines a + freeLines b := by
  induction a with
  | nil => simp [freeLines]
  | cons l a ih => cases l <;> simp [freeLines, ih] <;> omega

theorem Shown.append {a b : List Line} {L M : List (Ray XR)} (h : Shown a L) (h' : Shown b M) : Shown (a ++ b) (L ++ M) := by
  unfold Shown at *
  rw [List.map_append, rayLines_append, List.map_append, h, h']

/-- What a method does that may print at its end, against the same method without printing: the ray if it bends, the
angle if it turns. -/
inductive Act.Matches (ray : Ray XR) (bends turns : Prop) : Act → Py (Ray XR) → Prop
  | error (e : PyErr) : Matches ray bends turns ⟨ray, [], some e⟩ (.error e)
  | quiet (r : Ray XR) (hb : ¬ bends) (ht : ¬ turns) : Matches ray bends turns ⟨r, [], none⟩ (.ok r)
  | turned (r : Ray XR) (x : XR) (hb : ¬ bends) (ht : turns) :
      Matches ray bends turns ⟨r, [.turned ray.wavelength x], none⟩ (.ok r)
  | shown (r : Ray XR) (t : List Char) (hb : bends) (h : r.repr = .ok t) : Matches ray bends turns ⟨r, [.ray t], none⟩ (.ok r)
  | overflow (r : Ray XR) (hb : bends) (h : r.Infinite) : Matches ray bends turns ⟨r, [], some .overflowError⟩ (.ok r)

theorem say_matches (ray r : Ray XR) {B T : Prop} (hB : B) : Act.Matches ray B T r.say (.ok r) := by
  unfold Ray.say
  rcases repr_cases r with ⟨⟨t, h⟩, -⟩ | ⟨h, hi⟩
  · rw [h]; exact .shown r t hB h
  · rw [h]; exact .overflow r hB hi

theorem refract_matches (ray : Ray XR) (t : String) (n : Option (V3 XR)) (o : OpticAttrs XR) (x : V3 XR) (e1 e2 : Option XR)
    {B T : Prop} (hB : B) : Act.Matches ray B T (ray.refractP t n o x e1 e2) (ray.refract t n o x e1 e2) := by
  unfold Ray.refractP
  cases ray.refract t n o x e1 e2 with
  | error e => exact .error e
  | ok r => exact say_matches ray r hB

theorem reflect_matches (ray : Ray XR) (n : Option (V3 XR)) (o : OpticAttrs XR) {B T : Prop} (hB : ¬ B) (hT : ¬ T) :
    Act.Matches ray B T (ray.reflectP "specular_flat" n o) (ray.reflect "specular_flat" n o) := by
  unfold Ray.reflectP
  cases ray.reflect "specular_flat" n o with
  | error e => exact .error e
  | ok r =>
    simp only
    rw [if_neg (by decide)]
    exact .quiet r hB hT

theorem diffract_matches (ray : Ray XR) (n : Option (V3 XR)) (o : OpticAttrs XR) {B T : Prop} (hB : ¬ B) (hT : T) :
    Act.Matches ray B T (ray.reflectP "grating" n o) (ray.reflect "grating" n o) := by
  unfold Ray.reflectP Ray.reflect
  simp only [bind, Except.bind, pure, Except.pure, need, if_true, if_neg (show ¬ ("grating" = "specular_flat") by decide)]
  cases n with
  | none => exact .error _
  | some n =>
    cases o.tangent with
    | none => exact .error _
    | some t =>
      cases o.G with
      | none => exact .error _
      | some G => exact .turned _ _ hB hT

theorem compound_matches (c : Compound XR) (ray : Ray XR) (x : V3 XR) (n : Option (V3 XR)) :
    Act.Matches ray (c.surfaceBehavior = "refract") False (c.doIntersectP ray x n) (c.doIntersect ray x n) := by
  unfold Compound.doIntersectP Compound.doIntersect
  split_ifs with h1 h2
  · exact reflect_matches ray n _ (by rw [h1]; decide) id
  · cases c.getIndexAtPointIfInside (x + (1e-8 : XR) * ray.direction) with
    | error e => exact .error e
    | ok o => cases o <;> exact refract_matches ray _ n _ x _ _ h2
  · exact .error _

theorem mirror_matches (m : Mirror XR) (ray : Ray XR) (x : V3 XR) (n : Option (V3 XR)) :
    Act.Matches ray False False (m.doIntersectP ray x n) (m.doIntersect ray x n) := by
  unfold Mirror.doIntersectP Mirror.doIntersect
  split_ifs
  · exact reflect_matches ray n _ id id
  · exact reflect_matches ray _ _ id id
  · exact .quiet ray id id

theorem lens_matches (l : Lens XR) (ray : Ray XR) (x : V3 XR) (n : Option (V3 XR)) (sfo : Sfo) :
    Act.Matches ray True False (l.doIntersectP ray x n sfo) (l.doIntersect ray x n sfo) := by
  unfold Lens.doIntersectP Lens.doIntersect
  simp only
  split_ifs
  · exact refract_matches ray _ n _ x _ _ trivial
  · exact refract_matches ray _ n _ x _ _ trivial
  · exact refract_matches ray _ n _ x _ _ trivial
  · exact refract_matches ray _ n _ x _ _ trivial
  · cases n with
    | none => exact .error _
    | some n => exact refract_matches ray _ (some (-n)) _ x _ _ trivial

theorem grating_matches (g : Grating XR) (ray : Ray XR) (x : V3 XR) (n : Option (V3 XR)) :
    Act.Matches ray False (PyNum.eqb ray.order 0.0 = false) (g.doIntersectP ray x n) (g.doIntersect ray x n) := by
  unfold Grating.doIntersectP Grating.doIntersect
  split_ifs with h
  · exact reflect_matches ray n _ id (by rw [h]; decide)
  · exact diffract_matches ray _ _ id (by simpa using h)

/-- `do_intersect` with and without printing. -/
inductive ActHits (o : Optic XR) (ray : Ray XR) : Act × List (DetHit XR) → Py (Ray XR × List (DetHit XR)) → Prop
  | error (e : PyErr) : ActHits o ray (⟨ray, [], some e⟩, []) (.error e)
  | ok (a : Act) (r : Ray XR) (hits : List (DetHit XR)) (h : Act.Matches ray o.Refracts (o.Turns ray.order) a (.ok r)) :
      ActHits o ray (a, hits) (.ok (r, hits))

theorem matches_hits {o : Optic XR} {ray : Ray XR} {a : Act} {x : Py (Ray XR)} {B T : Prop} (h : Act.Matches ray B T a x)
    (hB : B ↔ o.Refracts) (hT : T ↔ o.Turns ray.order) : ActHits o ray (a, []) (do return (← x, [])) := by
  rw [propext hB, propext hT] at h
  cases x with
  | error e => cases h; exact .error e
  | ok r => exact .ok _ _ _ h

theorem doIntersect_matches (o : Optic XR) (ray : Ray XR) (x : V3 XR) (n : Option (V3 XR)) (sfo : Sfo) :
    ActHits o ray (o.doIntersectP ray x n sfo) (o.doIntersect ray x n sfo) := by
  cases o with
  | compound c => exact matches_hits (compound_matches c ray x n) Iff.rfl (by simp [Optic.Turns])
  | mirror m => exact matches_hits (mirror_matches m ray x n) Iff.rfl (by simp [Optic.Turns])
  | lens l => exact matches_hits (lens_matches l ray x n sfo) Iff.rfl (by simp [Optic.Turns])
  | grating g => exact matches_hits (grating_matches g ray x n) Iff.rfl (by simp [Optic.Turns])
  | detector d => exact .ok _ _ _ (.quiet _ id (by simp [Optic.Turns]))
  | block => exact .ok _ _ _ (.quiet _ id (by simp [Optic.Turns]))
  | base => exact .ok _ _ _ (.quiet _ id (by simp [Optic.Turns]))
  | annotation => exact .ok _ _ _ (.quiet _ id (by simp [Optic.Turns]))
  | filter => exact .ok _ _ _ (.quiet _ id (by simp [Optic.Turns]))
  | window => exact .ok _ _ _ (.quiet _ id (by simp [Optic.Turns]))

/-! ## The loop -/

theorem scanStep_selected {ray : Ray XR} {rem : XR} {v w : ScanVars XR} {o : Optic XR}
    (h : scanStep ray rem v o = .ok w) : w.selected = v.selected ∨ ∃ sel, w.selected = some sel ∧ sel.optic = o := by
  unfold scanStep at h
  split_ifs at h
  · cases h; exact .inl rfl
  · cases ht : o.testIntersect ray with
    | error e => rw [ht] at h; cases h
    | ok r =>
      rw [ht] at h
      simp only [bind, Except.bind, pure, Except.pure] at h
      split_ifs at h
      · cases hp : r.pt with
        | none => rw [hp] at h; cases h
        | some pt =>
          rw [hp] at h
          simp only [need] at h
          split_ifs at h <;> cases h
          · exact .inl rfl
          · exact .inr ⟨_, rfl, rfl⟩
          · exact .inl rfl
          · exact .inl rfl
      · cases h; exact .inl rfl

theorem fold_selected {ray : Ray XR} {rem : XR} : ∀ (optics : List (Optic XR)) (v w : ScanVars XR),
    optics.foldlM (scanStep ray rem) v = .ok w → w.selected = v.selected ∨ ∃ sel, w.selected = some sel ∧ sel.optic ∈ optics
  | [], v, w, h => by cases h; exact .inl rfl
  | o :: optics, v, w, h => by
    rw [List.foldlM_cons] at h
    cases hs : scanStep ray rem v o with
    | error e => rw [hs] at h; cases h
    | ok u =>
      rw [hs] at h
      rcases fold_selected optics u w h with e | ⟨sel, e, hm⟩
      · rcases scanStep_selected hs with e' | ⟨sel, e', he⟩
        · exact .inl (e.trans e')
        · exact .inr ⟨sel, e.trans e', by simp [he]⟩
      · exact .inr ⟨sel, e, by simp [hm]⟩

def StepResult.state : StepResult XR → RunState XR
  | .next s => s
  | .raised _ s => s

/-- One pass with printing, against the same pass without. -/
inductive StepMatch (s : RunState XR) : List Line × StepResult XR → StepResult XR → Prop
  | raised (out : List Line) (e : PyErr) (s' : RunState XR) : StepMatch s (out, .raised e s') (.raised e s')
  | next (out : List Line) (s' : RunState XR) (h : Tells s s' out) : StepMatch s (out, .next s') (.next s')
  | overflow (out : List Line) (s1 : RunState XR) (res : StepResult XR) (hi : s1.ray.Infinite)
      (position : s1.ray.position = res.state.ray.position)
      (direction : s1.ray.direction = s.ray.direction ∨ s1.ray.direction = res.state.ray.direction)
      (history : res.state.ray.pointHistory = s.ray.pointHistory ++ [res.state.ray.position]) :
      StepMatch s (out, .raised .overflowError s1) res

theorem runStep_matches (md : XR) (optics : List (Optic XR)) (s : RunState XR) :
    StepMatch s (runStepP md optics s) (runStep md optics s) := by
  unfold runStepP runStep
  cases hv : optics.foldlM (scanStep s.ray s.remaining) ⟨false, none, s.selected, s.sfo⟩ with
  | error e => exact .raised _ _ _
  | ok v =>
    simp only
    by_cases hi : v.intersected = true
    swap
    · simp only [hi, Bool.not_false, if_true, Ray.flyP, fly_some, Ray.say]
      rcases repr_cases (s.ray.movedTo (s.ray.position + s.remaining * s.ray.direction)) with ⟨⟨t, h⟩, -⟩ | ⟨h, hinf⟩
      · simp only [h]
        exact .next _ _ (.free rfl h)
      · simp only [h]
        exact .overflow _ _ _ hinf rfl (.inl rfl) rfl
    · simp only [hi, Bool.not_true, Bool.false_eq_true, if_false]
      cases hsel : v.selected with
      | none => exact .raised _ _ _
      | some sel =>
        simp only [fly_some]
        set r := s.ray.movedTo (s.ray.position + distanceBetween s.ray.position sel.pt * s.ray.direction) with hr
        rcases repr_cases r with ⟨⟨t, h⟩, -⟩ | ⟨h, hinf⟩
        · have hP : s.ray.flyP (some (distanceBetween s.ray.position sel.pt)) = ⟨r, [.ray t], none⟩ := by
            simp only [Ray.flyP, fly_some, Ray.say, ← hr, h]
          simp only [hP]
          split_ifs with hff
          · exact .next _ _ (.faerie rfl hff h)
          · cases hf : v.sfo with
            | none => exact .raised _ _ _
            | some sfo =>
              simp only
              have hm := doIntersect_matches sel.optic r sel.pt sel.normal sfo
              cases hdo : sel.optic.doIntersect r sel.pt sel.normal sfo with
              | error e =>
                rw [hdo] at hm
                generalize hb : sel.optic.doIntersectP r sel.pt sel.normal sfo = b at hm
                cases hm
                exact .raised _ _ _
              | ok p =>
                obtain ⟨r', rows⟩ := p
                have ho := doIntersect_ok hdo
                obtain ⟨d', b', he⟩ := ho.eq
                have hpos : r'.position = r.position := by rw [he]
                have hhist : r'.pointHistory = r.pointHistory := by rw [he]
                rw [hdo] at hm
                generalize hb : sel.optic.doIntersectP r sel.pt sel.normal sfo = b at hm
                cases hm with
                | ok a r' rows h' =>
                  have hH : r'.pointHistory = s.ray.pointHistory ++ [r'.position] := by rw [hhist, hpos]; rfl
                  have hA : (r'.arriving s.ray.direction).repr = .ok t := by
                    unfold Ray.repr Ray.arriving
                    rw [hpos]
                    exact h
                  cases h' with
                  | quiet r' hb' ht' => exact .next _ _ (.plain rfl hff hA rfl hb' ht')
                  | turned r' x hb' ht' => exact .next _ _ (.turned rfl hff hA rfl ht')
                  | shown r' t' hb' ht' => exact .next _ _ (.bent rfl hff hA rfl hb' ht')
                  | overflow r' hp hinf => exact .overflow _ _ _ hinf rfl (.inr rfl) hH
        · have hP : s.ray.flyP (some (distanceBetween s.ray.position sel.pt)) = ⟨r, [], some .overflowError⟩ := by
            simp only [Ray.flyP, fly_some, Ray.say, ← hr, h]
          simp only [hP]
          have key : ∀ res : StepResult XR, res.state.ray.position = r.position →
              res.state.ray.pointHistory = r.pointHistory →
              StepMatch s ([.intersected], .raised .overflowError { s with selected := some sel, sfo := v.sfo, ray := r })
                res := fun res h1 h2 =>
            .overflow _ _ _ hinf h1.symm (.inl rfl) (by rw [h1, h2]; rfl)
          split_ifs with hff
          · exact key _ rfl rfl
          · cases hf : v.sfo with
            | none => rw [hf] at key; exact key _ rfl rfl
            | some sfo =>
              rw [hf] at key
              simp only
              cases hdo : sel.optic.doIntersect r sel.pt sel.normal sfo with
              | error e => exact key _ rfl rfl
              | ok p =>
                obtain ⟨r', rows⟩ := p
                obtain ⟨d', b', he⟩ := (doIntersect_ok hdo).eq
                exact key _ (by simp [StepResult.state, he]) (by simp [StepResult.state, he])

theorem runLoop_matches (md : XR) (optics : List (Optic XR)) (mi : Option Int) : ∀ (fuel : Nat) (s : RunState XR),
    (runLoopP md optics mi fuel s).2 = runLoop md optics mi fuel s ∨
    ∃ s', (runLoopP md optics mi fuel s).2 = .raised .overflowError s' ∧ s'.ray.Infinite
  | 0, s => .inl rfl
  | fuel + 1, s => by
    unfold runLoopP runLoop
    split_ifs with hc
    · have hm := runStep_matches md optics s
      generalize runStepP md optics s = a at hm
      generalize runStep md optics s = b at hm
      cases hm with
      | raised out e s' => exact .inl rfl
      | next out s' h => exact runLoop_matches md optics mi fuel s'
      | overflow out s1 res hi _ _ _ => exact .inr ⟨s1, rfl, hi⟩
    · exact .inl rfl

/-- What a finished loop has printed. -/
structure LoopLines (optics : List (Optic XR)) (mid : List Line) (s s' : RunState XR) (L : List (Ray XR))
    (new : List (V3 XR)) : Prop where
  shown : Shown mid L
  history : s'.ray.pointHistory = s.ray.pointHistory ++ new
  sub : new.Sublist (L.map (·.position))
  mem : ∀ r ∈ L, r.position ∈ new
  hits : hitLines mid + s.interactions = s'.interactions
  count : freeLines mid + hitLines mid = new.length
  inner : ∀ l ∈ mid, l ≠ .runBegin ∧ l ≠ .runComplete
  bare : (∀ o ∈ optics, ¬ o.Refracts) → L.map (·.position) = new

theorem runStep_selected {md : XR} {optics : List (Optic XR)} {s s' : RunState XR} (h : runStep md optics s = .next s')
    (hs : ∀ sel, s.selected = some sel → sel.optic ∈ optics) : ∀ sel, s'.selected = some sel → sel.optic ∈ optics := by
  obtain ⟨v, hv, hn⟩ := runStep_next h
  have e : s'.selected = v.selected := by rcases hn with ⟨-, rfl⟩ | ⟨-, -, -, -, rfl⟩ | ⟨-, -, -, -, -, -, -, -, -, rfl⟩ <;> rfl
  intro sel hsel
  rw [e] at hsel
  rcases fold_selected _ _ _ hv with e' | ⟨sel', e', hm⟩
  · exact hs sel (e'.symm.trans hsel)
  · rw [e'] at hsel; cases hsel; exact hm

theorem runLoop_narrates {md : XR} {optics : List (Optic XR)} {mi : Option Int} : ∀ (fuel : Nat) (s : RunState XR)
    {out : List Line} {s' : RunState XR}, runLoopP md optics mi fuel s = (out, .finished s') →
    ∃ mid, out = mid ++ [.runComplete] ∧ Narrates md optics s s' mid
  | 0, s, out, s', h => by cases h
  | fuel + 1, s, out, s', h => by
    unfold runLoopP at h
    split_ifs at h with hc
    · have hm := runStep_matches md optics s
      cases hP : runStepP md optics s with
      | mk o1 rP =>
        rw [hP] at h hm
        cases rP with
        | raised e t => cases h
        | next t =>
          simp only [Prod.mk.injEq] at h
          obtain ⟨h1, h2⟩ := h
          generalize hb : runStep md optics s = b at hm
          cases hm with
          | next _ _ hl =>
            obtain ⟨mid, e, hL⟩ := runLoop_narrates fuel t (out := (runLoopP md optics mi fuel t).1)
              (s' := s') (by rw [← h2])
            exact ⟨o1 ++ mid, by rw [← h1, e, List.append_assoc], .pass hb hl hL⟩
    · cases h
      exact ⟨[], rfl, .done s⟩

/-! ## Counting lines -/

theorem step_history {md : XR} {optics : List (Optic XR)} {s t : RunState XR} (h : runStep md optics s = .next t) :
    t.ray.pointHistory = s.ray.pointHistory ++ [t.ray.position] := by
  obtain ⟨v, hv, hn⟩ := runStep_next h
  rcases hn with ⟨-, rfl⟩ | ⟨-, -, -, -, rfl⟩ | ⟨sel, sfo, ray', hits, -, -, -, -, ha, rfl⟩
  · rfl
  · rfl
  · obtain ⟨d, b, rfl⟩ := (doIntersect_ok ha).eq
    rfl

/-- What one pass has printed, counted. -/
theorem tells_lines {s t : RunState XR} {l : List Line} (h : Tells s t l) : ∃ M, Shown l (t.ray.arriving s.ray.direction :: M) ∧
    (M = [] ∨ M = [t.ray] ∧ ∃ sel, t.selected = some sel ∧ sel.optic.Refracts) ∧
    hitLines l + s.interactions = t.interactions ∧ freeLines l + hitLines l = 1 ∧
    ∀ x ∈ l, x ≠ .runBegin ∧ x ≠ .runComplete := by
  cases h with
  | free hi ha => exact ⟨[], by simp [Shown, rayLines, ha], .inl rfl, by simp [hitLines, hi], rfl, by simp⟩
  | faerie hi _ ha => exact ⟨[], by simp [Shown, rayLines, ha], .inl rfl, by simp [hitLines, hi, Nat.add_comm], rfl, by simp⟩
  | bent hi _ ha hs hr hb =>
    exact ⟨[t.ray], by simp [Shown, rayLines, ha, hb], .inr ⟨rfl, _, hs, hr⟩, by simp [hitLines, hi, Nat.add_comm], rfl, by simp⟩
  | turned hi _ ha _ _ => exact ⟨[], by simp [Shown, rayLines, ha], .inl rfl, by simp [hitLines, hi, Nat.add_comm], rfl, by simp⟩
  | plain hi _ ha _ _ _ => exact ⟨[], by simp [Shown, rayLines, ha], .inl rfl, by simp [hitLines, hi, Nat.add_comm], rfl, by simp⟩

theorem narrates_lines {md : XR} {optics : List (Optic XR)} {s s' : RunState XR} {mid : List Line}
    (h : Narrates md optics s s' mid) (hs : ∀ sel, s.selected = some sel → sel.optic ∈ optics) :
    ∃ L new, LoopLines optics mid s s' L new := by
  induction h with
  | done s => exact ⟨[], [], rfl, by simp, by simp, by simp, by simp [hitLines], rfl, by simp, fun _ => rfl⟩
  | @pass s t u l l' h ht hu ih =>
    have hs' := runStep_selected h hs
    obtain ⟨L, new, hL⟩ := ih hs'
    obtain ⟨M, h1, h2, h3, h4, h5⟩ := tells_lines ht
    have hM : ∀ q ∈ M, q.position = t.ray.position := by
      intro q hq
      rcases h2 with rfl | ⟨rfl, -⟩
      · cases hq
      · rw [List.mem_singleton.mp hq]
    refine ⟨(t.ray.arriving s.ray.direction :: M) ++ L, t.ray.position :: new, h1.append hL.shown, ?_, ?_, ?_, ?_, ?_, ?_, ?_⟩
    · rw [hL.history, step_history h, List.append_assoc]; rfl
    · rw [List.cons_append, List.map_cons, List.map_append]
      exact (hL.sub.trans (List.sublist_append_right _ _)).cons_cons _
    · intro q hq
      rcases List.mem_append.mp hq with hq | hq
      · rcases List.mem_cons.mp hq with rfl | hq
        · exact List.mem_cons_self
        · rw [hM q hq]; simp
      · exact List.mem_cons_of_mem _ (hL.mem q hq)
    · rw [hitLines_append]; have := hL.hits; omega
    · rw [hitLines_append, freeLines_append, List.length_cons]; have := hL.count; omega
    · intro x hq
      rcases List.mem_append.mp hq with hq | hq
      · exact h5 x hq
      · exact hL.inner x hq
    · intro hno
      have : M = [] := by
        rcases h2 with e | ⟨-, sel, h6, h7⟩
        · exact e
        · exact absurd h7 (hno _ (hs' sel h6))
      subst this
      rw [List.map_append, hL.bare hno]; rfl

/-! ## Scenes of finite numbers -/

theorem lift_not_infinite (v : V3 ℝ) : ¬ v.lift.Infinite := by simp [V3.Infinite, V3.lift]

theorem nan_not_infinite : ¬ V3.nan.Infinite := by simp [V3.Infinite, V3.nan]

theorem fate_not_infinite {optics : List (Optic ℝ)} {ray : Ray ℝ} {md : ℝ} {mi : Option Int} {k : Nat} {s : RunState XR}
    (h : Fate optics ray md mi k s) : ¬ s.ray.position.Infinite ∧ ¬ s.ray.direction.Infinite := by
  cases h with
  | traced h _ _ => rw [h.sane.ray]; exact ⟨lift_not_infinite _, lift_not_infinite _⟩
  | lost _ _ hr _ _ => rw [hr]; exact ⟨lift_not_infinite _, nan_not_infinite⟩
  | gone _ _ hr _ _ => rw [hr]; exact ⟨nan_not_infinite, nan_not_infinite⟩

theorem fate_matches {optics : List (Optic ℝ)} (hw : ∀ o ∈ optics, o.WellFormed) {ray : Ray ℝ} {md : ℝ}
    (hd : dot ray.direction ray.direction = 1) {mi : Option Int} : ∀ (fuel k : Nat) (s : RunState XR),
    Passes (.fin md) (optics.map Optic.lift) mi k (RunState.init ray.lift (.fin md)) s →
    (runLoopP (.fin md) (optics.map Optic.lift) mi fuel s).2 = runLoop (.fin md) (optics.map Optic.lift) mi fuel s
  | 0, _, s, _ => rfl
  | fuel + 1, k, s, hp => by
    unfold runLoopP runLoop
    split_ifs with hc
    · have hf := fate_passes hw hd hp
      have hm := runStep_matches (.fin md) (optics.map Optic.lift) s
      generalize runStepP (.fin md) (optics.map Optic.lift) s = a at hm
      generalize hb : runStep (.fin md) (optics.map Optic.lift) s = b at hm
      cases hm with
      | raised out e s' => rfl
      | next out s' h => exact fate_matches hw hd fuel (k + 1) s' (.succ hp hc hb)
      | overflow out s1 res hi h1 h2 h3 =>
        exfalso
        have n1 := fate_not_infinite hf
        cases b with
        | next s' =>
          have n2 := fate_not_infinite (fate_passes hw hd (.succ hp hc hb))
          rcases hi with hi | hi
          · rw [h1] at hi; exact n2.1 hi
          · rcases h2 with h2 | h2 <;> rw [h2] at hi
            · exact n1.2 hi
            · exact n2.2 hi
        | raised e s' =>
          obtain ⟨rfl, -⟩ := fate_raised hw hf hc hb
          have := congrArg List.length h3
          simp [StepResult.state] at this
    · rfl

end Optics
