import Verif.Lemmas.RoundedMirror

/-! # Runs between plane mirrors with rounding -/

namespace Optics
open V3

section generic
variable {α : Type} [PyNum α]

theorem foldlM_invariant_mem {σ β : Type} (f : σ → β → Py σ) (P : σ → Prop) :
    ∀ (l : List β), (∀ s b s', b ∈ l → P s → f s b = .ok s' → P s') → ∀ (s s' : σ), P s → l.foldlM f s = .ok s' → P s'
  | [], _, s, s', h0, e => by cases e; exact h0
  | b :: l, h, s, s', h0, e => by
    rw [List.foldlM_cons] at e
    cases hb : f s b with
    | error e' => rw [hb] at e; cases e
    | ok t =>
      rw [hb] at e
      exact foldlM_invariant_mem f P l (fun s c s' hc => h s c s' (List.mem_cons_of_mem _ hc)) t s'
        (h s b t List.mem_cons_self h0 hb) e

theorem mirror_built {position : V3 α} {shape : String} {n t : Option (V3 α)} {D w h f : Option α} {type : String}
    {dmd : Option (V3 α)} {m : Mirror α} (hm : Mirror.new position shape n D w h f t type dmd = .ok m) :
    m.type = type ∧ ∃ v, dmd = some v ∧ m.dmdNormal = unitVector v := by
  cases dmd with
  | none => cases hm
  | some dmd =>
  unfold Mirror.new at hm
  simp only [need, bind, Except.bind, pure, Except.pure] at hm
  split_ifs at hm
  · cases n with
    | none => cases hm
    | some n =>
      simp only at hm
      split at hm
      · cases hm
      · cases hm; exact ⟨rfl, _, rfl, rfl⟩
  · cases n with
    | none => cases hm
    | some n =>
      cases t with
      | none => cases hm
      | some t =>
        simp only at hm
        split at hm
        · cases hm
        · cases hm; exact ⟨rfl, _, rfl, rfl⟩
  · cases n with
    | none => cases hm
    | some n =>
      cases f with
      | none => cases hm
      | some f =>
        simp only at hm
        split at hm
        · cases hm
        · split at hm
          · cases hm
          · cases hm; exact ⟨rfl, _, rfl, rfl⟩
  · split at hm
    · cases hm
    · cases hm; exact ⟨rfl, _, rfl, rfl⟩

theorem flat_mirror_built {position : V3 α} {shape : String} {n : V3 α} {t : Option (V3 α)} {D w h f : Option α}
    {type : String} {dmd : Option (V3 α)} {m : Mirror α} (hs : shape = "circular_flat" ∨ shape = "rectangular_flat")
    (hm : Mirror.new position shape (some n) D w h f t type dmd = .ok m) :
    m.shape = shape ∧ ∃ surf, m.surfaces = [surf] ∧ surf.normalAttr = .ok (some (unitVector n)) := by
  cases dmd with
  | none => cases hm
  | some dmd =>
  unfold Mirror.new at hm
  simp only [need, bind, Except.bind, pure, Except.pure] at hm
  rcases hs with rfl | rfl
  · simp only [if_true] at hm
    cases hc : Circle.new position (some n) none D with
    | error e => rw [hc] at hm; cases hm
    | ok c =>
      rw [hc] at hm; cases hm
      refine ⟨rfl, _, rfl, ?_⟩
      unfold Circle.new at hc
      cases hcr : checkRAndD (none : Option α) D with
      | error e => rw [hcr] at hc; cases hc
      | ok p => rw [hcr] at hc; cases hc; rfl
  · simp only [show ¬ ("rectangular_flat" = "circular_flat") by decide, if_false, if_true] at hm
    cases t with
    | none => cases hm
    | some t =>
      simp only at hm
      cases hr : Rectangle.new position n t h w with
      | error e => rw [hr] at hm; cases hm
      | ok r =>
        rw [hr] at hm; cases hm
        refine ⟨rfl, _, rfl, ?_⟩
        unfold Rectangle.new at hr
        simp only at hr
        split_ifs at hr
        cases hcr : checkHAndW h w with
        | error e => rw [hcr] at hr; cases hr
        | ok p => rw [hcr] at hr; cases hr; rfl

theorem flat_mirror_normal {m : Mirror α} (hs : m.shape = "circular_flat" ∨ m.shape = "rectangular_flat")
    {surf : Shape α} (hm : m.surfaces = [surf]) {n : V3 α} (hn : surf.normalAttr = .ok (some n)) {ray : Ray α} {r : Hit4 α}
    (h : m.testIntersect ray = .ok r) {pt : V3 α} (hp : r.pt = some pt) : r.normal = some n := by
  unfold Mirror.testIntersect at h
  rw [if_pos hs, hm] at h
  simp only [List.foldlM_cons, List.foldlM_nil, bind, Except.bind, pure, Except.pure, flatStep] at h
  cases ht : surf.testIntersect ray with
  | error e => rw [ht] at h; cases h
  | ok q =>
    rw [ht] at h
    cases q with
    | none => cases h
    | six q => cases h
    | three q =>
      simp only [asHit3] at h
      split_ifs at h with h1
      · cases hq : q.pt with
        | none => rw [hq] at h; cases h
        | some x =>
          rw [hq] at h
          simp only [need] at h
          split_ifs at h with h2
          · simp only [hn, bound] at h
            cases h; rfl
          · simp only [bound] at h
            cases h; cases hp
      · simp only [bound] at h
        cases h; cases hp

end generic

variable {R : Rounding}

/-- What a selection of the scan says about the reflection to come. -/
def SelOk (optics : List (Optic (Fl R))) (sel : Selected (Fl R)) : Prop :=
  sel.optic ∈ optics ∧ ∃ N, PlainOptic sel.optic N ∧
    ∀ m, sel.optic = .mirror m → m.type = "normal" → ∀ N', N = some N' → sel.normal = some (unitVector N'.fl)

/-- How far a pass turns the ray. -/
theorem act_near {optics : List (Optic (Fl R))} {sel : Selected (Fl R)} (hsel : SelOk optics sel) {ray ray' : Ray (Fl R)}
    {d : V3 ℝ} (hd : ray.direction = d.fl) (hu : NearUnit R d) {pt : V3 (Fl R)} {sfo : Sfo} {hits : List (DetHit (Fl R))}
    (h : sel.optic.doIntersect ray pt sel.normal sfo = .ok (ray', hits)) :
    (PlainOptic sel.optic none ∧ ray'.direction = d.fl) ∨
    (∃ N w, PlainOptic sel.optic (some N) ∧ ray'.direction = w.fl ∧ NearUnit R w ∧
      ‖w.toE - mirrorImage N d.toE‖ ≤ 300 * R.u) := by
  obtain ⟨-, N, hN, hnorm⟩ := hsel
  obtain ⟨o, spt, snorm⟩ := sel
  simp only at *
  cases hN with
  | @mirror m position shape D w hh f tangent dmd N hs hsh hm =>
    have hp : PlainOptic (.mirror m) (some N) := .mirror hs hsh hm
    obtain ⟨ht, -⟩ := mirror_built hm
    have hn := hnorm m rfl ht N rfl
    obtain ⟨n, hn1, hn2⟩ := unitVector_near (R := R) hs
    obtain ⟨w, hw1, hw2, hw3⟩ := specular_near (R := R) hu hs hn2
    simp only [Optic.doIntersect, Mirror.doIntersect, ht, if_true, Ray.reflect, hn, need, bind, Except.bind, pure,
      Except.pure, hd, hn1, hw1] at h
    cases h
    exact .inr ⟨N, w, hp, rfl, hw2, hw3⟩
  | @micromirrors m position shape normal D w hh f tangent N hs hm =>
    have hp : PlainOptic (.mirror m) (some N) := .micromirrors hs hm
    obtain ⟨ht, v, hv, hdm⟩ := mirror_built hm
    cases hv
    obtain ⟨n, hn1, hn2⟩ := unitVector_near (R := R) hs
    obtain ⟨w, hw1, hw2, hw3⟩ := specular_near (R := R) hu hs hn2
    simp only [Optic.doIntersect, Mirror.doIntersect, ht, show ¬ ("dmd" = "normal") by decide, if_false, if_true, Ray.reflect,
      hdm, need, bind, Except.bind, pure, Except.pure, hd, hn1, hw1] at h
    cases h
    exact .inr ⟨N, w, hp, rfl, hw2, hw3⟩
  | detector dd => cases h; exact .inl ⟨.detector dd, hd⟩
  | annotation => cases h; exact .inl ⟨.annotation, hd⟩
  | filter => cases h; exact .inl ⟨.filter, hd⟩
  | window => cases h; exact .inl ⟨.window, hd⟩

/-- Everything the scan selects is an optic of the scene, with the normal its constructor stored. -/
theorem scan_selOk {optics : List (Optic (Fl R))} (hsc : PlainScene optics) {s : RunState (Fl R)} {v : ScanVars (Fl R)}
    (hs : ∀ sel, s.selected = some sel → SelOk optics sel) (h : scan optics s = .ok v) :
    ∀ sel, v.selected = some sel → SelOk optics sel := by
  refine foldlM_invariant_mem (scanStep s.ray s.remaining) (fun v => ∀ sel, v.selected = some sel → SelOk optics sel)
    optics ?_ _ v hs h
  intro v o v' ho hv hstep
  rcases scanStep_ok hstep with ⟨_, rfl⟩ | ⟨r, _, _, _, rfl⟩ | ⟨r, pt, _, _, _, _, _, rfl⟩ |
    ⟨r, pt, _, _, _, _, hd, hm, rfl⟩ | ⟨r, pt, _, hr, _, hp, hd, hm, rfl⟩
  · exact hv
  · exact hv
  · exact hv
  · exact hv
  · intro sel hsel
    cases hsel
    obtain ⟨N, hN⟩ := hsc o ho
    refine ⟨ho, N, hN, ?_⟩
    intro m hm ht N' hN'
    simp only at hm
    subst hm hN'
    cases hN with
    | @mirror m position shape D w hh f tangent dmd N hs hsh hm =>
      obtain ⟨hshape, surf, h1, h2⟩ := flat_mirror_built hsh hm
      exact flat_mirror_normal (by rw [hshape]; exact hsh) h1 h2 hr hp
    | @micromirrors m position shape normal D w hh f tangent N hs hm =>
      rw [(mirror_built hm).1] at ht
      exact absurd ht (by decide)

end Optics
