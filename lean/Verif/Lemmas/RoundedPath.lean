import Verif.Lemmas.RoundedPlane
import Verif.Lemmas.PlaneMirrors
import Verif.Spec.RoundedPath

/-! # Paths of rounded runs between plane mirrors -/

namespace Optics
open V3

section generic
variable {α : Type} [PyNum α]

/-- What the scan selects was tested on the ray of this pass. -/
theorem scan_tested {optics : List (Optic α)} {s : RunState α} {v : ScanVars α}
    (hfin : ∀ d : α, ¬ d > s.remaining → d > clippingFloor → PyNum.ltInf d = true)
    (h : scan optics s = .ok v) (hi : v.intersected = true) :
    ∃ sel r, v.selected = some sel ∧ sel.optic ∈ optics ∧ sel.optic.skipped = false ∧
      sel.optic.testIntersect s.ray = .ok r ∧ r.hit = true ∧ r.pt = some sel.pt ∧ sel.normal = r.normal ∧
      ¬ distanceBetween s.ray.position sel.pt > s.remaining ∧ distanceBetween s.ray.position sel.pt > clippingFloor := by
  have key := foldlM_invariant_mem (scanStep s.ray s.remaining)
    (fun v => (v.minDistance = none ∧ v.intersected = false) ∨
      (v.minDistance ≠ none ∧ ∃ sel r, v.selected = some sel ∧ sel.optic ∈ optics ∧ sel.optic.skipped = false ∧
      sel.optic.testIntersect s.ray = .ok r ∧ r.hit = true ∧ r.pt = some sel.pt ∧ sel.normal = r.normal ∧
      ¬ distanceBetween s.ray.position sel.pt > s.remaining ∧ distanceBetween s.ray.position sel.pt > clippingFloor))
    optics ?_ _ v (.inl ⟨rfl, rfl⟩) h
  · rcases key with ⟨_, hf⟩ | ⟨_, h⟩
    · rw [hf] at hi; cases hi
    · exact h
  · intro v o v' ho hv hstep
    rcases scanStep_ok hstep with ⟨_, rfl⟩ | ⟨r, _, _, _, rfl⟩ | ⟨r, pt, _, _, _, _, _, rfl⟩ |
      ⟨r, pt, _, _, _, _, hd, hm, rfl⟩ | ⟨r, pt, hk, hr, hh, hp, hd, hm, rfl⟩
    · exact hv
    · exact hv
    · exact hv
    · rcases hv with ⟨h1, -⟩ | hv
      · rw [h1] at hm
        simp only [ltMin, hfin _ hd.1 hd.2] at hm
        cases hm
      · exact .inr hv
    · exact .inr ⟨by simp, _, r, rfl, ho, hk, hr, hh, hp, rfl, hd.1, hd.2⟩

/-- A hit of a flat mirror is a hit of its plane. -/
theorem flat_mirror_plane {position : V3 α} {shape : String} {n : V3 α} {t : Option (V3 α)} {D w h f : Option α}
    {type : String} {dmd : Option (V3 α)} {m : Mirror α} (hs : shape = "circular_flat" ∨ shape = "rectangular_flat")
    (hm : Mirror.new position shape (some n) D w h f t type dmd = .ok m) {ray : Ray α} {r : Hit4 α}
    (hr : m.testIntersect ray = .ok r) (hh : r.hit = true) :
    ∃ pt nn, (Plane.new position n).testIntersect ray = ⟨true, some pt, nn⟩ ∧ ∀ pt', r.pt = some pt' → pt' = pt := by
  obtain ⟨hshape, surf, h1, -⟩ := flat_mirror_built hs hm
  have hsurf : ∀ q, surf.testIntersect ray = .ok (.three q) → q.hit = true → ∀ pt, q.pt = some pt →
      ∃ nn, (Plane.new position n).testIntersect ray = ⟨true, some pt, nn⟩ := by
    cases dmd with
    | none => cases hm
    | some dmd =>
    unfold Mirror.new at hm
    simp only [need, bind, Except.bind, pure, Except.pure] at hm
    rcases hs with rfl | rfl
    · simp only [if_true] at hm
      cases hc : Circle.new position (some n) none D with
      | error e => rw [hc] at hm; cases hm
      | ok c =>
        rw [hc] at hm; cases hm
        cases h1
        unfold Circle.new at hc
        cases hcr : checkRAndD (none : Option α) D with
        | error e => rw [hcr] at hc; cases hc
        | ok p =>
          rw [hcr] at hc; cases hc
          intro q hq hqh pt hpt
          simp only [Shape.testIntersect, Circle.testIntersect, Option.map_some, bind, Except.bind, pure, Except.pure] at hq
          generalize (Plane.new position n).testIntersect ray = z at *
          obtain ⟨zh, zp, zn⟩ := z
          cases zh <;> cases zp <;> simp only at hq
          · cases hq; cases hqh
          · cases hq; cases hqh
          · cases hq; cases hqh
          · split_ifs at hq
            · cases hq; cases hpt; exact ⟨_, rfl⟩
            · cases hq; cases hqh
    · simp only [show ¬ ("rectangular_flat" = "circular_flat") by decide, if_false, if_true] at hm
      cases t with
      | none => cases hm
      | some t =>
        simp only at hm
        cases hrn : Rectangle.new position n t h w with
        | error e => rw [hrn] at hm; cases hm
        | ok r =>
          rw [hrn] at hm; cases hm
          cases h1
          unfold Rectangle.new at hrn
          simp only at hrn
          split_ifs at hrn
          cases hcr : checkHAndW h w with
          | error e => rw [hcr] at hrn; cases hrn
          | ok p =>
            rw [hcr] at hrn; cases hrn
            intro q hq hqh pt hpt
            simp only [Shape.testIntersect, Rectangle.testIntersect] at hq
            generalize (Plane.new position n).testIntersect ray = z at *
            obtain ⟨zh, zp, zn⟩ := z
            cases zh <;> cases zp <;> simp only at hq
            · cases hq; cases hqh
            · cases hq; cases hqh
            · cases hq; cases hqh
            · split_ifs at hq
              · cases hq; cases hpt; exact ⟨_, rfl⟩
              · cases hq; cases hqh
              · cases hq; cases hqh
  unfold Mirror.testIntersect at hr
  rw [if_pos (by rw [hshape]; exact hs), h1] at hr
  simp only [List.foldlM_cons, List.foldlM_nil, bind, Except.bind, pure, Except.pure, flatStep] at hr
  cases ht : surf.testIntersect ray with
  | error e => rw [ht] at hr; cases hr
  | ok q =>
    rw [ht] at hr
    cases q with
    | none => cases hr
    | six q => cases hr
    | three q =>
      simp only [asHit3] at hr
      split_ifs at hr with h2
      · cases hq : q.pt with
        | none => rw [hq] at hr; cases hr
        | some x =>
          rw [hq] at hr
          simp only [need] at hr
          obtain ⟨nn', hnn'⟩ := hsurf q ht h2 x hq
          split_ifs at hr with h3
          · cases hn : surf.normalAttr with
            | error e => rw [hn] at hr; cases hr
            | ok nn =>
              rw [hn] at hr
              simp only [bound] at hr
              cases hr
              exact ⟨x, nn', hnn', fun pt' h => (Option.some.inj h).symm⟩
          · simp only [bound] at hr
            cases hr
            exact ⟨x, nn', hnn', fun pt' h => by cases h⟩
      · simp only [bound] at hr
        cases hr; cases hh

theorem flat_mirror_hit {position : V3 α} {shape : String} {n : V3 α} {t : Option (V3 α)} {D w h f : Option α}
    {type : String} {dmd : Option (V3 α)} {m : Mirror α} (hs : shape = "circular_flat" ∨ shape = "rectangular_flat")
    (hm : Mirror.new position shape (some n) D w h f t type dmd = .ok m) {ray : Ray α} {r : Hit4 α}
    (hr : m.testIntersect ray = .ok r) (hh : r.hit = true) {pt : V3 α} (hp : r.pt = some pt) :
    ∃ nn, (Plane.new position n).testIntersect ray = ⟨true, some pt, nn⟩ := by
  obtain ⟨pt', nn, h1, h2⟩ := flat_mirror_plane hs hm hr hh
  rw [h2 pt hp]
  exact ⟨nn, h1⟩

end generic

variable {R : Rounding}

/-! ## Mirror images of points and of directions -/

theorem planeImage_dirE {N : V3 ℝ} (hN : 0 < ‖N.toE‖) (C : V3 ℝ) (x : E3) :
    planeImage C N x = x - (2 * inner ℝ (x - C.toE) N.dirE) • N.dirE := by
  rw [planeImage_apply]
  unfold V3.dirE
  rw [inner_smul_right, smul_smul]
  congr 2
  field_simp

theorem planeImage_shift {N : V3 ℝ} (hN : 0 < ‖N.toE‖) (C : V3 ℝ) (x v : E3) :
    planeImage C N (x + v) = planeImage C N x + mirrorImage N v := by
  rw [planeImage_dirE hN, planeImage_dirE hN, mirrorImage_apply hN,
    show x + v - C.toE = (x - C.toE) + v by abel, inner_add_left]
  module

theorem imageThrough_snoc (ps : List MirrorPlane) (p : MirrorPlane) (x : E3) :
    imageThrough (ps ++ [p]) x = planeImage p.point p.normal (imageThrough ps x) := by
  induction ps generalizing x with
  | nil => rfl
  | cons q ps ih => exact ih _

theorem mirrorImages_append (ns : List (V3 ℝ)) (N : V3 ℝ) (d : E3) :
    mirrorImages (ns ++ [N]) d = mirrorImage N (mirrorImages ns d) := by
  unfold mirrorImages; rw [List.foldl_append]; rfl

theorem imageThrough_shift {ps : List MirrorPlane} (h : ∀ p ∈ ps, 0 < ‖p.normal.toE‖) (x v : E3) :
    imageThrough ps (x + v) = imageThrough ps x + mirrorImages (ps.map MirrorPlane.normal) v := by
  induction ps generalizing x v with
  | nil => rfl
  | cons q ps ih =>
    show imageThrough ps (planeImage q.point q.normal (x + v)) = _
    rw [planeImage_shift (h q List.mem_cons_self), ih (fun p hp => h p (List.mem_cons_of_mem _ hp))]
    rfl

theorem mirrorImage_norm (N : V3 ℝ) (d : E3) : ‖mirrorImage N d‖ = ‖d‖ := by
  unfold mirrorImage; rw [LinearIsometryEquiv.norm_map]

theorem mirrorImage_sub (N : V3 ℝ) (d e : E3) : mirrorImage N d - mirrorImage N e = mirrorImage N (d - e) := by
  unfold mirrorImage; rw [map_sub]

theorem foldl_mirror_smul (l : ℝ) (ns : List (V3 ℝ)) (d : E3) :
    ns.foldl (fun d N => mirrorImage N d) (l • d) = l • ns.foldl (fun d N => mirrorImage N d) d := by
  induction ns generalizing d with
  | nil => rfl
  | cons N ns ih =>
    simp only [List.foldl_cons]
    rw [show mirrorImage N (l • d) = l • mirrorImage N d by unfold mirrorImage; rw [map_smul]]
    exact ih _

/-! ## One pass -/

/-- What the loop does with a finite budget. -/
theorem budget_hit {r : ℝ} {d : Fl R} (h1 : ¬ d > Fl.fin r) (h2 : d > clippingFloor) :
    PyNum.ltInf d = true ∧ ∃ x, d = Fl.fin x ∧ 0 < x ∧ x ≤ r := by
  obtain ⟨f, hf, -⟩ := R.near (1 / 10 ^ 12) (by
    rw [abs_of_pos (by positivity)]; exact le_trans (by norm_num) huge_ge)
  have hcf : (clippingFloor : Fl R) = Fl.fin f := by
    unfold clippingFloor
    rw [fl_lit, show (OfScientific.ofScientific 1 true 12 : ℝ) = 1 / 10 ^ 12 by norm_num, hf]; rfl
  rw [hcf] at h2
  obtain ⟨d⟩ := d
  cases d with
  | nan => exact absurd h2 (fun h => h)
  | inf => exact absurd trivial h1
  | ninf => exact absurd h2 (fun h => h)
  | fin d =>
    have h2 : f < d := h2
    have h1 : ¬ r < d := h1
    exact ⟨rfl, d, rfl, lt_of_le_of_lt (rnd_nonneg (by positivity) hf) h2, not_lt.mp h1⟩

/-- Where a run stands: how far it is from the exact path. -/
structure OnPath (md B : ℝ) (optics : List (Optic (Fl R))) (mi : Option Int) (s₀ : RunState (Fl R)) (P₀ : V3 ℝ) (d₀ : E3)
    (n : Nat) (s : RunState (Fl R)) (ps : List MirrorPlane) (L : ℝ) (P w : V3 ℝ) (r : ℝ) : Prop where
  path : RoundedPath (Fl.fin md) optics mi s₀ n ps L s
  pos : s.ray.position = P.fl
  dir : s.ray.direction = w.fl
  unit : NearUnit R w
  rem : s.remaining = Fl.fin r
  rem_le : r ≤ md
  len : 0 ≤ L
  len_le : L + max r 0 ≤ md + 11 * (R.u * B) * n
  far : ‖P.toE - P₀.toE‖ ≤ L
  normals : ∀ p ∈ ps, 0 < ‖p.normal.toE‖
  count : ps.length ≤ n
  turn : ‖w.toE - mirrorImages (ps.map MirrorPlane.normal) d₀‖ ≤ (300 * ps.length + 5) * R.u
  near : ‖P.toE - imageThrough ps (P₀.toE + L • d₀)‖ ≤ (160 * n * B + (300 * ps.length + 5) * L) * R.u

/-- The end of one leg, before the ray is turned. -/
theorem leg_step {md B : ℝ} {optics : List (Optic (Fl R))} {mi : Option Int} {s₀ s : RunState (Fl R)} {P₀ P P' w : V3 ℝ}
    {d₀ : E3} {n : Nat} {ps : List MirrorPlane} {L r x : ℝ} (h : OnPath md B optics mi s₀ P₀ d₀ n s ps L P w r)
    (hB : 1 ≤ B) (hx : 0 ≤ x) (hxB : x ≤ B)
    (e : ‖P'.toE - (P.toE + x • w.toE)‖ ≤ R.u * (21 / 10 * x + 11 / 10 * B)) :
    ‖P'.toE - imageThrough ps (P₀.toE + (L + ‖P'.toE - P.toE‖) • d₀)‖ ≤
      (160 * n * B + 12 * B + (300 * ps.length + 5) * (L + ‖P'.toE - P.toE‖)) * R.u ∧
    ‖P'.toE - P.toE‖ ≤ x + 9 * (R.u * B) ∧ ‖P'.toE - P₀.toE‖ ≤ L + ‖P'.toE - P.toE‖ := by
  obtain ⟨h1, h2⟩ := leg_near (R := R) (P := P) (P' := P') hB h.unit hx hxB e
  refine ⟨?_, by linarith [(abs_le.mp h2).2], ?_⟩
  · set l := ‖P'.toE - P.toE‖ with hl
    have hl0 : 0 ≤ l := _root_.norm_nonneg _
    rw [add_smul, ← add_assoc, imageThrough_shift h.normals]
    have e1 : mirrorImages (ps.map MirrorPlane.normal) (l • d₀) = l • mirrorImages (ps.map MirrorPlane.normal) d₀ :=
      foldl_mirror_smul l _ d₀
    rw [e1]
    have e2 : P'.toE - (imageThrough ps (P₀.toE + L • d₀) + l • mirrorImages (ps.map MirrorPlane.normal) d₀) =
        (P.toE - imageThrough ps (P₀.toE + L • d₀)) + (P'.toE - P.toE - l • w.toE) +
          l • (w.toE - mirrorImages (ps.map MirrorPlane.normal) d₀) := by
      rw [smul_sub]; abel
    rw [e2]
    have a1 := norm_add_le ((P.toE - imageThrough ps (P₀.toE + L • d₀)) + (P'.toE - P.toE - l • w.toE))
      (l • (w.toE - mirrorImages (ps.map MirrorPlane.normal) d₀))
    have a2 := norm_add_le (P.toE - imageThrough ps (P₀.toE + L • d₀)) (P'.toE - P.toE - l • w.toE)
    rw [_root_.norm_smul, Real.norm_of_nonneg hl0] at a1
    have a3 := mul_le_mul_of_nonneg_left h.turn hl0
    have a4 := h.near
    have e3 : (160 * n * B + 12 * B + (300 * ps.length + 5) * (L + l)) * R.u =
        (160 * n * B + (300 * ps.length + 5) * L) * R.u + 12 * (R.u * B) + l * ((300 * ps.length + 5) * R.u) := by ring
    rw [e3]
    linarith
  · have := norm_sub_le_norm_sub_add_norm_sub P'.toE P.toE P₀.toE
    linarith [h.far]

theorem RoundedMirror.sane {o : Optic (Fl R)} {p : MirrorPlane} (h : RoundedMirror o p) : SaneLength p.normal := by
  cases h with | mk hN _ _ => exact hN

/-- One reflection in the exact normal from which the mirror was built. -/
theorem bounce_near {o : Optic (Fl R)} {p : MirrorPlane} (ho : RoundedMirror o p) {ray ray₀ ray' : Ray (Fl R)} {w : V3 ℝ}
    (hd : ray.direction = w.fl) (hu : NearUnit R w) {r : Hit4 (Fl R)} {pt pt' : V3 (Fl R)} {sfo : Sfo}
    {hits : List (DetHit (Fl R))} (hr : o.testIntersect ray₀ = .ok r) (hp : r.pt = some pt)
    (h : o.doIntersect ray pt' r.normal sfo = .ok (ray', hits)) :
    ray'.position = ray.position ∧ ∃ w', ray'.direction = w'.fl ∧ NearUnit R w' ∧
      ‖w'.toE - mirrorImage p.normal w.toE‖ ≤ 300 * R.u := by
  cases ho with
  | @mk m shape D ww hh f tangent dmd p hN hs hm =>
    obtain ⟨ht, -⟩ := mirror_built hm
    obtain ⟨hshape, surf, h1, h2⟩ := flat_mirror_built hs hm
    have hn := flat_mirror_normal (by rw [hshape]; exact hs) h1 h2 hr hp
    obtain ⟨n, hn1, hn2⟩ := unitVector_near (R := R) hN
    obtain ⟨w', hw1, hw2, hw3⟩ := specular_near (R := R) hu hN hn2
    simp only [Optic.doIntersect, Mirror.doIntersect, ht, if_true, Ray.reflect, hn, need, bind, Except.bind, pure,
      Except.pure, hd, hn1, hw1] at h
    cases h
    exact ⟨rfl, w', rfl, hw2, hw3⟩

theorem inert_act {o : Optic (Fl R)} (ho : Inert o) {ray ray' : Ray (Fl R)} {pt : V3 (Fl R)}
    {normal : Option (V3 (Fl R))} {sfo : Sfo} {hits : List (DetHit (Fl R))}
    (h : o.doIntersect ray pt normal sfo = .ok (ray', hits)) :
    ray'.position = ray.position ∧ ray'.direction = ray.direction := by
  cases ho <;> cases h <;> exact ⟨rfl, rfl⟩

theorem budget_after {r x md B : ℝ} (hB : 1 ≤ B) (hB' : B ≤ 10 ^ 50) (hmd : R.rnd md = .fin md) (hx : 0 ≤ x) (hxr : x ≤ r)
    (hr : r ≤ md) (hmB : md ≤ B) :
    ∃ y, (Fl.fin r : Fl R) - Fl.fin x = Fl.fin y ∧ y ≤ md ∧ max y 0 ≤ r - x + 2 * (R.u * B) := by
  have hu := R.u_pos
  have hbig : (10 : ℝ) ^ 50 ≤ 10 ^ 250 := pow_le_pow_right₀ (by norm_num) (by norm_num)
  obtain ⟨y, hy, ey⟩ := rnd_near (R := R) (x := r - x) (e := B) (by rw [abs_of_nonneg (by linarith)]; linarith) (by linarith)
  have hy' : R.rnd (r - x) = .fin y := congrArg Fl.val hy
  refine ⟨y, by rw [fl_sub, hy], ?_, ?_⟩
  · have := R.mono (r - x) md (by linarith)
    rw [hy', hmd] at this
    exact this
  · rw [max_eq_left (rnd_nonneg (by linarith) hy')]
    have ht : (1 : ℝ) / 10 ^ 250 ≤ 1 := by norm_num
    generalize (1 : ℝ) / 10 ^ 250 = t at *
    have := (abs_le.mp ey).2
    have h2 := mul_le_mul_of_nonneg_left (show B + t ≤ 2 * B by linarith) hu.le
    linarith

/-- One pass keeps a run on its path. -/
theorem onPath_step {md B : ℝ} {optics : List (Optic (Fl R))} (hsc : MirrorScene optics B) {mi : Option Int}
    {s₀ s s' : RunState (Fl R)} {P₀ P w : V3 ℝ} {d₀ : E3} {n : Nat} {ps : List MirrorPlane} {L r : ℝ} (hB : 1 ≤ B)
    (hB' : B ≤ 10 ^ 50) (huB : R.u * B ≤ 1 / 10 ^ 10) (hmd : R.rnd md = .fin md) (hmd0 : 0 ≤ md)
    (hstart : ‖P₀.toE‖ + md ≤ 9 / 10 * B) (hn : n * R.u ≤ 1 / 1000)
    (h : OnPath md B optics mi s₀ P₀ d₀ n s ps L P w r) (hc : s.continues mi = true)
    (hst : runStep (Fl.fin md) optics s = .next s') :
    ∃ ps' L' P' w' r', OnPath md B optics mi s₀ P₀ d₀ (n + 1) s' ps' L' P' w' r' := by
  have hu := R.u_pos
  have huB0 : 0 < R.u * B := by positivity
  have hr : 0 < r := by
    have : s.remaining > 0.0 := by
      simp only [RunState.continues, Bool.and_eq_true, decide_eq_true_eq] at hc; exact hc.1.1
    rw [h.rem, fl_lit0] at this
    exact this
  have hnB : 11 * (R.u * B) * n ≤ B / 50 := by
    have := mul_le_mul_of_nonneg_right hn (show 0 ≤ 11 * B by linarith)
    have e : n * R.u * (11 * B) = 11 * (R.u * B) * n := by ring
    rw [e] at this
    linarith
  have hlen := h.len_le
  rw [max_eq_left hr.le] at hlen
  have hP0 := _root_.norm_nonneg P₀.toE
  have hP : ‖P.toE‖ ≤ B := by
    have := norm_le_norm_add_norm_sub' P.toE P₀.toE
    linarith [h.far]
  have hmB : md ≤ B := by linarith
  have hbig : B ≤ 10 ^ 100 := hB'.trans (pow_le_pow_right₀ (by norm_num) (by norm_num))
  have hnn : (0 : ℝ) ≤ n := Nat.cast_nonneg n
  obtain ⟨v, hv, hs'⟩ := runStep_next hst
  -- what flying a distance does
  have hfly : ∀ x, 0 ≤ x → x ≤ r → ∃ P' : V3 ℝ, (P.fl : V3 (Fl R)) + (Fl.fin x : Fl R) * (w.fl : V3 (Fl R)) = P'.fl ∧
      ‖P'.toE - (P.toE + x • w.toE)‖ ≤ R.u * (21 / 10 * x + 11 / 10 * B) := fun x h0 h1 =>
    fly_near (R := R) hP hB hB' h.unit h0 (by linarith [h.rem_le])
  have hlegs : ∀ (x : ℝ) (P' : V3 ℝ), 0 ≤ x → x ≤ r → ‖P'.toE - (P.toE + x • w.toE)‖ ≤ R.u * (21 / 10 * x + 11 / 10 * B) → _ :=
    fun x P' h0 h1 e => leg_step (P' := P') h hB h0 (by linarith [h.rem_le]) e
  have hcast : ((n + 1 : Nat) : ℝ) = n + 1 := by push_cast; ring
  -- a leg at whose end the ray is not turned
  have hstraight : ∀ (x : ℝ) (P' : V3 ℝ) (r' : ℝ), 0 ≤ x → x ≤ r → ‖P'.toE - (P.toE + x • w.toE)‖ ≤ R.u * (21 / 10 * x + 11 / 10 * B) →
      s'.ray.position = P'.fl → s'.ray.direction = w.fl → s'.remaining = Fl.fin r' → r' ≤ md →
      max r' 0 ≤ r - x + 2 * (R.u * B) →
      (s'.interactions = s.interactions ∨ (∃ sel, s'.selected = some sel ∧ Inert sel.optic) ∨ s.ray.type = "faerie_fire") →
      ∃ ps' L' P' w' r', OnPath md B optics mi s₀ P₀ d₀ (n + 1) s' ps' L' P' w' r' := by
    intro x P' r' h0 h1 he hpos hdir hrem hrm hmax hwhy
    obtain ⟨l1, l2, l3⟩ := hlegs x P' h0 h1 he
    refine ⟨ps, _, P', w, r', ⟨.straight h.path hc hst h.pos hpos hwhy, hpos, hdir, h.unit, hrem, hrm, ?_, ?_, l3,
      h.normals, h.count.trans (Nat.le_succ _), h.turn, ?_⟩⟩
    · have := h.len; have := _root_.norm_nonneg (P'.toE - P.toE); linarith
    · rw [hcast]; linarith
    · refine l1.trans (mul_le_mul_of_nonneg_right ?_ hu.le)
      rw [hcast]; linarith
  rcases hs' with ⟨_, e⟩ | ⟨sel, hi, hse, ht, e⟩ | ⟨sel, sfo, ray', hits, hi, hse, _, ht, ha, e⟩
  · obtain ⟨P', hP', eP⟩ := hfly r hr.le le_rfl
    obtain ⟨y, hy, -⟩ := rnd_near (R := R) (x := r - md) (e := B)
      (by rw [abs_of_nonpos (by linarith [h.rem_le])]; linarith)
      (hB'.trans (pow_le_pow_right₀ (by norm_num) (by norm_num)))
    have hy0 : y ≤ 0 := rnd_nonpos (by linarith [h.rem_le]) (congrArg Fl.val hy : R.rnd (r - md) = .fin y)
    refine hstraight r P' y hr.le le_rfl eP ?_ ?_ ?_ (by linarith) ?_ (.inl (by rw [e]))
    · rw [e]; show s.ray.position + s.remaining * s.ray.direction = _
      rw [h.pos, h.rem, h.dir, hP']
    · rw [e]; exact h.dir
    · rw [e]; show s.remaining - Fl.fin md = _
      rw [h.rem, fl_sub, hy]
    · rw [max_eq_right hy0]; linarith
  all_goals
    obtain ⟨sel', q, e1, hmem, hskip, htest, hhit, hpt, hnor, hle, hgt⟩ := scan_tested (fun d h1 h2 =>
      (budget_hit (R := R) (r := r) (by rw [h.rem] at h1; exact h1) h2).1) hv hi
    rw [hse] at e1; cases e1
    rw [h.rem] at hle
    obtain ⟨-, x, hx, hx0, hxr⟩ := budget_hit (R := R) hle hgt
    obtain ⟨P', hP', eP⟩ := hfly x hx0.le hxr
    obtain ⟨y, hy, hym, hymax⟩ := budget_after (R := R) hB hB' hmd hx0.le hxr h.rem_le hmB
    have hflown : (s.flown sel.pt).position = P'.fl := by
      show s.ray.position + distanceBetween s.ray.position sel.pt * s.ray.direction = _
      rw [hx, h.pos, h.dir, hP']
    have hrem : s'.remaining = Fl.fin y := by
      rw [e]; show s.remaining - distanceBetween s.ray.position sel.pt = _
      rw [hx, h.rem, hy]
  · exact hstraight x P' y hx0.le hxr eP (by rw [e]; exact hflown) (by rw [e]; exact h.dir) hrem hym hymax (.inr (.inr ht))
  · rcases hsc _ hmem with hin | ⟨p, hp, hpB⟩
    · obtain ⟨i1, i2⟩ := inert_act hin ha
      refine hstraight x P' y hx0.le hxr eP (by rw [e]; exact i1.trans hflown) (by rw [e]; exact i2.trans h.dir) hrem hym
        hymax (.inr (.inl ⟨sel, by rw [e]; exact hse, hin⟩))
    · rw [hnor] at ha
      obtain ⟨b1, w', b2, b3, b4⟩ := bounce_near hp (ray := s.flown sel.pt) h.dir h.unit htest hpt ha
      obtain ⟨l1, l2, l3⟩ := hlegs x P' hx0.le hxr eP
      have hpos : s'.ray.position = P'.fl := by rw [e]; exact b1.trans hflown
      have hN : 0 < ‖p.normal.toE‖ := hp.sane.pos
      have hplane : |inner ℝ p.normal.dirE (P'.toE - p.point.toE)| ≤ 70 * (R.u * B) := by
        cases hq : sel.optic with
        | mirror m =>
          rw [hq] at hp htest
          cases hp with
          | mk hN hs hm =>
            obtain ⟨nn, hnn⟩ := flat_mirror_hit hs hm htest hhit hpt
            exact hit_near hN hpB hP hB hB' huB h.unit h.pos h.dir hnn hx (by linarith [h.rem_le]) eP
        | _ => rw [hq] at hp; cases hp
      refine ⟨ps ++ [p], _, P', w', y, ⟨.bounce h.path hc hst h.pos hpos (by rw [e]) (by rw [e]; exact hse) hmem hp ht,
        hpos, by rw [e]; exact b2, b3, hrem, hym, ?_, ?_, l3, ?_, ?_, ?_, ?_⟩⟩
      · have := h.len; have := _root_.norm_nonneg (P'.toE - P.toE); linarith
      · rw [hcast]; linarith
      · intro q hq
        rcases List.mem_append.mp hq with hq | hq
        · exact h.normals q hq
        · rw [List.mem_singleton.mp hq]; exact hN
      · rw [List.length_append]; exact Nat.add_le_add_right h.count 1
      · rw [List.map_append, List.map_singleton, mirrorImages_append, List.length_append]
        have a1 := norm_sub_le_norm_sub_add_norm_sub w'.toE (mirrorImage p.normal w.toE)
          (mirrorImage p.normal (mirrorImages (ps.map MirrorPlane.normal) d₀))
        rw [mirrorImage_sub, mirrorImage_norm] at a1
        have := h.turn
        push_cast [List.length_singleton]
        linarith
      · rw [imageThrough_snoc, List.length_append]
        set Q := imageThrough ps (P₀.toE + (L + ‖P'.toE - P.toE‖) • d₀) with hQ
        have a1 := norm_sub_le_norm_sub_add_norm_sub P'.toE (planeImage p.point p.normal P'.toE)
          (planeImage p.point p.normal Q)
        have a2 : ‖planeImage p.point p.normal P'.toE - planeImage p.point p.normal Q‖ = ‖P'.toE - Q‖ := by
          rw [← dist_eq_norm, AffineIsometryEquiv.dist_map, dist_eq_norm]
        have a3 : ‖P'.toE - planeImage p.point p.normal P'.toE‖ ≤ 140 * (R.u * B) := by
          rw [planeImage_dirE hN, sub_sub_cancel, _root_.norm_smul, dirE_norm hN, mul_one, Real.norm_eq_abs, abs_mul,
            abs_two, real_inner_comm]
          linarith
        have l0 : 0 ≤ L + ‖P'.toE - P.toE‖ := by
          have := h.len; have := _root_.norm_nonneg (P'.toE - P.toE); linarith
        rw [a2] at a1
        refine a1.trans ?_
        have l4 : 0 ≤ (L + ‖P'.toE - P.toE‖) * R.u := by positivity
        have e3 : (160 * ((n + 1 : Nat) : ℝ) * B + (300 * ((ps.length + [p].length : Nat) : ℝ) + 5) *
            (L + ‖P'.toE - P.toE‖)) * R.u = (160 * n * B + 12 * B + (300 * ps.length + 5) * (L + ‖P'.toE - P.toE‖)) * R.u +
            148 * (R.u * B) + 300 * ((L + ‖P'.toE - P.toE‖) * R.u) := by
          push_cast [List.length_singleton]; ring
        rw [e3]
        linarith

theorem onPath_passes {md B : ℝ} {optics : List (Optic (Fl R))} (hsc : MirrorScene optics B) {mi : Option Int}
    {ray : Ray (Fl R)} {P₀ w₀ : V3 ℝ} {d₀ : E3} {n : Nat} {s : RunState (Fl R)} (hB : 1 ≤ B)
    (hB' : B ≤ 10 ^ 50) (huB : R.u * B ≤ 1 / 10 ^ 10) (hmd : R.rnd md = .fin md) (hmd0 : 0 ≤ md)
    (hstart : ‖P₀.toE‖ + md ≤ 9 / 10 * B) (hn : n * R.u ≤ 1 / 1000)
    (hp : ray.position = P₀.fl) (hd : ray.direction = w₀.fl) (hw : NearUnit R w₀) (hw' : ‖w₀.toE - d₀‖ ≤ 5 * R.u)
    (h : Passes (Fl.fin md) optics mi n (RunState.init ray (Fl.fin md)) s) :
    ∃ ps L P w r, OnPath md B optics mi (RunState.init ray (Fl.fin md)) P₀ d₀ n s ps L P w r := by
  generalize hs0 : RunState.init ray (Fl.fin md) = s0 at h
  induction h with
  | zero s =>
    subst hs0
    refine ⟨[], 0, P₀, w₀, md, ⟨.start, hp, hd, hw, rfl, le_rfl, le_rfl, ?_, by simp, by simp, le_rfl, ?_, ?_⟩⟩
    · rw [max_eq_left hmd0]; simp
    · simpa [mirrorImages] using hw'
    · simp [imageThrough]
  | @succ n s s' s'' h hc hst ih =>
    have hn' : (n : ℝ) * R.u ≤ 1 / 1000 := by
      push_cast at hn
      have := R.u_pos
      linarith
    obtain ⟨ps, L, P, w, r, hon⟩ := ih hn' hs0
    exact onPath_step hsc hB hB' huB hmd hmd0 hstart hn' hon hc hst

/-- A pass that ends at a mirror leaves the ray close to its plane. -/
theorem mirror_pass_near {md B : ℝ} {optics : List (Optic (Fl R))} {mi : Option Int}
    {s₀ s s' : RunState (Fl R)} {P₀ P w : V3 ℝ} {d₀ : E3} {n : Nat} {ps : List MirrorPlane} {L r : ℝ} (hB : 1 ≤ B)
    (hB' : B ≤ 10 ^ 50) (huB : R.u * B ≤ 1 / 10 ^ 10) (hmd0 : 0 ≤ md)
    (hstart : ‖P₀.toE‖ + md ≤ 9 / 10 * B) (hn : n * R.u ≤ 1 / 1000)
    (h : OnPath md B optics mi s₀ P₀ d₀ n s ps L P w r) (hc : s.continues mi = true)
    (hst : runStep (Fl.fin md) optics s = .next s') (hint : s'.interactions = s.interactions + 1) {sel : Selected (Fl R)}
    (hsel : s'.selected = some sel) {p : MirrorPlane} (hp : RoundedMirror sel.optic p) (hpB : ‖p.point.toE‖ ≤ B) :
    ∃ P' : V3 ℝ, s'.ray.position = P'.fl ∧ |inner ℝ p.normal.dirE (P'.toE - p.point.toE)| ≤ 70 * (R.u * B) := by
  have hu := R.u_pos
  have huB0 : 0 < R.u * B := by positivity
  have hr : 0 < r := by
    have : s.remaining > 0.0 := by
      simp only [RunState.continues, Bool.and_eq_true, decide_eq_true_eq] at hc; exact hc.1.1
    rw [h.rem, fl_lit0] at this
    exact this
  have hnB : 11 * (R.u * B) * n ≤ B / 50 := by
    have := mul_le_mul_of_nonneg_right hn (show 0 ≤ 11 * B by linarith)
    have e : n * R.u * (11 * B) = 11 * (R.u * B) * n := by ring
    rw [e] at this
    linarith
  have hlen := h.len_le
  rw [max_eq_left hr.le] at hlen
  have hP0 := _root_.norm_nonneg P₀.toE
  have hP : ‖P.toE‖ ≤ B := by
    have := norm_le_norm_add_norm_sub' P.toE P₀.toE
    linarith [h.far]
  have hbig : B ≤ 10 ^ 100 := hB'.trans (pow_le_pow_right₀ (by norm_num) (by norm_num))
  have key : ∀ {v : ScanVars (Fl R)} {sel' : Selected (Fl R)}, scan optics s = .ok v → v.intersected = true →
      v.selected = some sel' → sel' = sel →
      ∃ P' : V3 ℝ, (s.flown sel.pt).position = P'.fl ∧
        |inner ℝ p.normal.dirE (P'.toE - p.point.toE)| ≤ 70 * (R.u * B) := by
    rintro v _ hv hi hse rfl
    obtain ⟨sel', q, e1, hmem, hskip, htest, hhit, hpt, hnor, hle, hgt⟩ := scan_tested (fun d h1 h2 =>
      (budget_hit (R := R) (r := r) (by rw [h.rem] at h1; exact h1) h2).1) hv hi
    rw [hse] at e1; cases e1
    rw [h.rem] at hle
    obtain ⟨-, x, hx, hx0, hxr⟩ := budget_hit (R := R) hle hgt
    obtain ⟨P', hP', eP⟩ := fly_near (R := R) hP hB hB' h.unit hx0.le (by linarith [h.rem_le])
    refine ⟨P', ?_, ?_⟩
    · show s.ray.position + distanceBetween s.ray.position _ * s.ray.direction = _
      rw [hx, h.pos, h.dir, hP']
    · cases hq : Selected.optic _ with
      | mirror m =>
        rw [hq] at hp htest
        cases hp with
        | mk hN hs hm =>
          obtain ⟨nn, hnn⟩ := flat_mirror_hit hs hm htest hhit hpt
          exact hit_near hN hpB hP hB hB' huB h.unit h.pos h.dir hnn hx (by linarith [h.rem_le]) eP
      | _ => rw [hq] at hp; cases hp
  obtain ⟨v, hv, hs'⟩ := runStep_next hst
  rcases hs' with ⟨_, e⟩ | ⟨sel', hi, hse, ht, e⟩ | ⟨sel', sfo, ray', hits, hi, hse, _, ht, ha, e⟩
  · rw [e] at hint; exact absurd hint (Nat.succ_ne_self _).symm
  · have e2 : sel' = sel := by
      rw [e] at hsel; exact Option.some.inj (hse.symm.trans hsel)
    obtain ⟨P', h1, h2⟩ := key hv hi hse e2
    exact ⟨P', by rw [e, e2]; exact h1, h2⟩
  · have e2 : sel' = sel := by
      rw [e] at hsel; exact Option.some.inj (hse.symm.trans hsel)
    obtain ⟨P', h1, h2⟩ := key hv hi hse e2
    subst e2
    refine ⟨P', ?_, h2⟩
    rw [e]
    refine Eq.trans ?_ h1
    show ray'.position = _
    cases hq : sel'.optic with
    | mirror m =>
      rw [hq] at hp ha
      cases hp with
      | mk hN hs hm =>
        obtain ⟨ht, -⟩ := mirror_built hm
        simp only [Optic.doIntersect, Mirror.doIntersect, ht, if_true, Ray.reflect, need, bind, Except.bind, pure,
          Except.pure] at ha
        cases hnn : sel'.normal with
        | none => rw [hnn] at ha; cases ha
        | some nn => rw [hnn] at ha; cases ha; rfl
    | _ => rw [hq] at hp; cases hp

/-- A ray close to a plane, leaving it at a fair angle, does not hit it. -/
theorem leaving_misses {C N P w : V3 ℝ} {B : ℝ} (hN : SaneLength N) (hC : ‖C.toE‖ ≤ B) (hP : ‖P.toE‖ ≤ B) (hB : 1 ≤ B)
    (hB' : B ≤ 10 ^ 50) (hw : NearUnit R w) {ray : Ray (Fl R)} (hp : ray.position = P.fl) (hd : ray.direction = w.fl)
    (hnear : |inner ℝ N.dirE (P.toE - C.toE)| ≤ 70 * (R.u * B)) (hang : 11 * 10 ^ 10 * (R.u * B) ≤ |inner ℝ N.dirE w.toE|)
    {pt : V3 (Fl R)} {nn : Option (V3 (Fl R))} : (Plane.new C.fl N.fl).testIntersect ray ≠ ⟨true, some pt, nn⟩ := by
  intro h
  have hu := R.u_pos
  have huB : R.u ≤ R.u * B := by nlinarith
  obtain ⟨t, ht, -, -, et⟩ := plane_near hN hC hP hB hB' hw hp hd h
  obtain ⟨ε, he0, -, heps⟩ := fl_eps (R := R)
  rw [heps] at ht
  have ht' : 9 / 10 ^ 10 < t := lt_of_le_of_lt he0 ht
  have ht0 : 0 < t := lt_trans (by positivity) ht'
  have e1 : inner ℝ N.dirE (C.toE - P.toE) = -inner ℝ N.dirE (P.toE - C.toE) := by
    rw [← inner_neg_right, neg_sub]
  have a1 := abs_add_le (t * inner ℝ N.dirE w.toE - inner ℝ N.dirE (C.toE - P.toE)) (inner ℝ N.dirE (C.toE - P.toE))
  rw [sub_add_cancel, abs_mul, abs_of_pos ht0] at a1
  rw [e1, abs_neg] at a1
  rw [e1] at et
  have a2 := mul_le_mul_of_nonneg_left hang ht0.le
  have a3 : R.u * (29 * t + 23 * B) = 29 * (R.u * t) + 23 * (R.u * B) := by ring
  have a4 : R.u * t ≤ R.u * B * t := mul_le_mul_of_nonneg_right huB ht0.le
  have a5 : 9 / 10 ^ 10 * (R.u * B) < t * (R.u * B) := mul_lt_mul_of_pos_right ht' (by positivity)
  norm_num at a5 a2
  linarith

end Optics
