import Verif.Lemmas.MoveX
import Verif.Lemmas.NanRun

/-!
# Rigid motions in numpy: what the optics do, and whole runs
-/

namespace Optics
open V3

/-! ## Directions -/

theorem specular_move (g : Motion) (d n : V3 ℝ) : specular (g.dir d) (g.dir n) = g.dir (specular d n) := by
  unfold specular
  simp only [g.unitVector_dir, g.dot_dir, g.dir_smul, g.dir_sub]

theorem angle_move (g : Motion) (a b k : V3 ℝ) :
    angleBetween (g.dir a) (g.dir b) (some (g.dir k)) = angleBetween a b (some k) := by
  unfold angleBetween
  simp only [g.unitVector_dir, g.cross_dir, g.dot_dir]

theorem axisAngle_move (g : Motion) {k : V3 ℝ} (hk : k ≠ ⟨0, 0, 0⟩) (θ : ℝ) (v : V3 ℝ) :
    M3.mulVec (rotationMatrixAxisAngle (g.dir k) θ) (g.dir v) = g.dir (M3.mulVec (rotationMatrixAxisAngle k θ) v) := by
  rw [axisAngle_rodrigues hk, axisAngle_rodrigues (dir_ne_zero g hk)]
  unfold rodrigues
  simp only [g.unitVector_dir, g.cross_dir, g.dot_dir, g.dir_smul, g.dir_add]

theorem grating_move (g : Motion) (d n : V3 ℝ) {t : V3 ℝ} (ht : t ≠ ⟨0, 0, 0⟩) (G m wl : ℝ) :
    gratingDirection (g.dir d) (g.dir n) (g.dir t) G m wl = g.dir (gratingDirection d n t G m wl) := by
  unfold gratingDirection
  simp only [g.unitVector_dir, g.project_dir, g.dir_neg, angle_move, g.dot_dir, g.dir_smul, g.dir_sub,
    axisAngle_move g ht]

theorem gratingSine_move (g : Motion) (d n t : V3 ℝ) (G m wl : ℝ) :
    gratingSine (g.dir d) (g.dir n) (g.dir t) G m wl = gratingSine d n t G m wl := by
  unfold gratingSine
  simp only [g.project_dir, g.unitVector_dir, g.dir_neg, angle_move]

theorem hasOrder_move (g : Motion) (d n t : V3 ℝ) (G m wl : ℝ) :
    HasOrder (g.dir d) (g.dir n) (g.dir t) G m wl ↔ HasOrder d n t G m wl := by
  have e : ∀ v, g.dir v = ⟨0, 0, 0⟩ ↔ v = ⟨0, 0, 0⟩ :=
    fun v => ⟨fun h => g.dir_inj (h.trans g.dir_zero.symm), fun h => by rw [h, g.dir_zero]⟩
  unfold HasOrder
  simp only [gratingSine_move, g.project_dir, ne_eq, e]

theorem grating_moveX (g : Motion) {d n t : V3 ℝ} (hd : dot d d = 1) (hn : dot n n = 1) (ht : dot t t = 1) (G m wl : ℝ) :
    gratingDirection (g.dir d).lift (g.dir n).lift (g.dir t).lift (.fin G) (.fin m) (.fin wl)
      = g.dirX (gratingDirection d.lift n.lift t.lift (.fin G) (.fin m) (.fin wl)) := by
  rcases grating_cases hd hn ht G m wl with ⟨h, e⟩ | ⟨h, e, -⟩ <;>
  rcases grating_cases (unit_dir g hd) (unit_dir g hn) (unit_dir g ht) G m wl with ⟨h', e'⟩ | ⟨h', e', -⟩ <;>
  rw [hasOrder_move] at h'
  · rw [e, e', g.dirX_nan]
  · exact absurd h' h
  · exact absurd h h'
  · rw [e, e', grating_move g _ _ (ne_zero_of_dot_one ht), g.dirX_lift]

theorem orientedNormal_move (g : Motion) (n d : V3 ℝ) : orientedNormal (g.dir n) (g.dir d) = g.dir (orientedNormal n d) := by
  unfold orientedNormal
  simp only [g.dot_dir, g.dir_neg]
  split_ifs <;> rfl

theorem snell_move (g : Motion) (d n : V3 ℝ) (η₁ η₂ : ℝ) :
    snellDirection (g.dir d) (g.dir n) η₁ η₂ = (snellDirection d n η₁ η₂).map g.dir := by
  unfold snellDirection
  simp only [g.dot_dir, g.dir_neg]
  have e : (if dot d n < 0.0 then g.dir n else g.dir (-n)) = g.dir (if dot d n < 0.0 then n else -n) := by
    split_ifs <;> rfl
  simp only [e, g.dot_dir, g.dir_smul, g.dir_add, specular_move]
  split_ifs <;> rfl

theorem lift_snell_pos {d n : V3 ℝ} (hd : dot d d = 1) (hn : dot n n = 1) {η₁ η₂ : ℝ} (h1 : 0 < η₁) (h2 : 0 < η₂) :
    snellDirection d.lift n.lift (.fin η₁) (.fin η₂) = (snellDirection d n η₁ η₂).map V3.lift := by
  refine lift_snell hd (ne_zero_of_dot_one hn) ?_
  have hr : 0 < η₁ / η₂ := by positivity
  rcases lt_or_ge η₂ η₁ with h | h
  · exact Or.inl h
  · right
    have : η₁ / η₂ ≤ 1 := (div_le_one h2).mpr h
    have h3 : (η₁ / η₂) ^ 2 ≤ 1 := pow_le_one₀ hr.le this
    nlinarith [sq_nonneg (dot d n), sq_nonneg (η₁ / η₂)]

theorem unitVector_moveX (g : Motion) (v : V3 ℝ) : unitVector (g.dir v).lift = g.dirX (unitVector v.lift) := by
  by_cases h : v = ⟨0, 0, 0⟩
  · subst h
    rw [g.dir_zero]
    have : unitVector (V3.lift ⟨0, 0, 0⟩) = V3.nan := by
      rw [unitVector, lift_norm, show norm (⟨0, 0, 0⟩ : V3 ℝ) = 0 by rw [V3.norm_eq_zero]]
      ext <;> exact XR.zero_div_zero
    rw [this, g.dirX_nan]
  · rw [lift_unitVector h, lift_unitVector (dir_ne_zero g h), g.unitVector_dir, g.dirX_lift]

theorem dirX_translation {g : Motion} (h : g.IsTranslation) (v : V3 XR) : g.dirX v = v := by
  cases hv : v.real? with
  | some u => rw [real?_some hv, g.dirX_lift, h]
  | none => exact g.dirX_none hv

theorem pt_translation {g : Motion} (h : g.IsTranslation) (x y : V3 ℝ) : g.pt x - g.pt y = x - y := by
  rw [g.pt_sub, h]

/-! ## Rays -/

theorem ray_lift_move (g : Motion) (r : Ray ℝ) : (r.move g).lift = r.lift.moveX g := by
  unfold Ray.move Ray.lift Ray.moveX
  simp only [List.map_map, g.ptX_lift, g.dirX_lift]
  rfl

/-- Moving what `do_intersect` returns. -/
noncomputable def actMoveX (g : Motion) (p : Ray XR × List (DetHit XR)) : Ray XR × List (DetHit XR) :=
  (p.1.moveX g, p.2.map (DetHit.moveX g))

theorem ray_with_dirX (g : Motion) (r : Ray XR) (d : V3 XR) :
    ({ r.moveX g with direction := g.dirX d } : Ray XR) = ({ r with direction := d } : Ray XR).moveX g := rfl

theorem reflect_moveX (g : Motion) {ray : Ray ℝ} (hd : dot ray.direction ray.direction = 1) {n : V3 ℝ} (hn : dot n n = 1)
    (a b : OpticAttrs XR) :
    (ray.move g).lift.reflect "specular_flat" (some (g.dir n).lift) a
      = (ray.lift.reflect "specular_flat" (some n.lift) b).map (Ray.moveX g) := by
  rw [(lift_reflect hd hn b).1, (lift_reflect (ray := ray.move g) (unit_dir g hd) (unit_dir g hn) a).1]
  show Except.ok _ = Except.ok _
  rw [← ray_lift_move]
  refine congrArg Except.ok ?_
  show _ = ({ ray.move g with direction := g.dir (specular ray.direction n) } : Ray ℝ).lift
  rw [← specular_move]; rfl

theorem refract_moveX (g : Motion) {ray : Ray ℝ} (hd : dot ray.direction ray.direction = 1) {n : V3 ℝ} (hn : dot n n = 1)
    (a b : OpticAttrs XR) (p q : V3 XR) {η₁ η₂ : ℝ} (h1 : 0 < η₁) (h2 : 0 < η₂) :
    (ray.move g).lift.refract "snells_law" (some (g.dir n).lift) a p (some (.fin η₁)) (some (.fin η₂))
      = (ray.lift.refract "snells_law" (some n.lift) b q (some (.fin η₁)) (some (.fin η₂))).map (Ray.moveX g) := by
  show (do let d ← snellDirection (g.dir ray.direction).lift (g.dir n).lift (.fin η₁) (.fin η₂)
           return { (ray.move g).lift with direction := d })
    = Except.map _ (do let d ← snellDirection ray.direction.lift n.lift (.fin η₁) (.fin η₂)
                       return { ray.lift with direction := d })
  rw [lift_snell_pos hd hn h1 h2, lift_snell_pos (unit_dir g hd) (unit_dir g hn) h1 h2, snell_move, ray_lift_move]
  cases snellDirection ray.direction n η₁ η₂ <;> rfl

/-- The lenses a rotation of the scene may not contain: `thin_lens` compares directions component by component. -/
def Optic.ThinLens {α : Type} : Optic α → Prop
  | .lens l => l.type = "ideal"
  | _ => False

/-- The action of a moved optic on a moved ray is the moved action. -/
theorem act_moveX (g : Motion) {o : Optic ℝ} (h : o.WellFormed) (hgo : g.IsTranslation ∨ ¬ o.ThinLens) {ray : Ray ℝ}
    {x n : V3 ℝ} (hd : dot ray.direction ray.direction = 1) (hn : dot n n = 1) (sfo : Sfo) :
    (o.move g).lift.doIntersect (ray.move g).lift (g.pt x).lift (some (g.dir n).lift) sfo
      = (o.lift.doIntersect ray.lift x.lift (some n.lift) sfo).map (actMoveX g) := by
  have wrap : ∀ a b : Py (Ray XR), a = b.map (Ray.moveX g) →
      (do return (← a, ([] : List (DetHit XR)))) = Except.map (actMoveX g) (do return (← b, [])) := by
    rintro a b rfl
    cases b <;> rfl
  cases h with
  | annotation => show Except.ok _ = _; rw [ray_lift_move]; rfl
  | filter => show Except.ok _ = _; rw [ray_lift_move]; rfl
  | window => show Except.ok _ = _; rw [ray_lift_move]; rfl
  | detector hn' ht hD =>
    rename_i D
    show Except.ok (({ (ray.move g).lift with blocked := true } : Ray XR), [(⟨D.id, (g.pt x).lift, _⟩ : DetHit XR)]) = _
    rw [ray_lift_move]; rfl
  | mirror hn' ht hdmd hD hf' hm =>
    rename_i position shape n' t D w hh f type dmd m
    obtain ⟨e1, e2⟩ := mirror_new_facts hm
    have hdu : dot m.dmdNormal m.dmdNormal = 1 := by rw [e2]; exact unit_dot hdmd
    refine wrap _ _ ?_
    unfold Mirror.doIntersect
    simp only [Mirror.lift]
    by_cases t1 : m.type = "normal"
    · simp only [t1, if_true]
      exact reflect_moveX g hd hn _ _
    by_cases t2 : m.type = "dmd"
    · simp only [t2, show ¬ ("dmd" = "normal") by decide, if_true, if_false]
      exact reflect_moveX g hd hdu _ _
    · simp only [t1, t2, if_false]
      rw [ray_lift_move]; rfl
  | compound he hb hi =>
    rename_i e behavior index
    refine wrap (Compound.doIntersect ⟨(e.tree.move g).lift, behavior, .fin index⟩ _ _ _)
      (Compound.doIntersect ⟨e.tree.lift, behavior, .fin index⟩ _ _ _) ?_
    unfold Compound.doIntersect
    simp only
    split_ifs
    · exact reflect_moveX g hd hn _ _
    · unfold Compound.getIndexAtPointIfInside
      have hp : (g.pt x).lift + (1e-8 : XR) * (ray.move g).lift.direction
          = (g.pt (x + (1e-8 : ℝ) * ray.direction)).lift := by
        rw [← g.pt_add, ← g.dir_smul]; rfl
      have hp' : x.lift + (1e-8 : XR) * ray.lift.direction = (x + (1e-8 : ℝ) * ray.direction).lift := rfl
      simp only [hp, hp', csg_testPoint_moveX g _ he]
      obtain ⟨b, eb⟩ := csg_point_returns (x + (1e-8 : ℝ) * ray.direction).lift e he
      simp only [eb, bind, Except.bind, pure, Except.pure, index_world]
      cases b with
      | true => exact refract_moveX g hd hn _ _ _ _ one_pos hi
      | false => exact refract_moveX g hd hn _ _ _ _ hi one_pos
    · rfl
  | grating hn' ht hg =>
    rename_i position n' t shape w hh G r
    have htt : dot r.tangent r.tangent = 1 := by
      unfold Grating.new at hg
      simp only [bind, Except.bind, pure, Except.pure] at hg
      split_ifs at hg
      split at hg <;> cases hg
      exact unit_dot ht
    refine wrap _ _ ?_
    unfold Grating.doIntersect
    simp only [show (ray.move g).lift.order = XR.fin ray.order from rfl, show ray.lift.order = XR.fin ray.order from rfl,
      xlit0, XR.fin_eqb]
    by_cases h0 : ray.order = 0
    · simp only [h0, decide_true, if_true]
      exact reflect_moveX g hd hn _ _
    · simp only [h0, decide_false, Bool.false_eq_true, if_false]
      unfold Ray.reflect
      rw [if_neg (by decide), if_pos rfl, if_neg (by decide), if_pos rfl]
      cases hG : r.G with
      | none =>
        simp only [Grating.lift, hG, Option.map_none, need, bind, Except.bind]
        rfl
      | some G' =>
      simp only [Grating.lift, hG, Option.map_some, need, bind, Except.bind, pure, Except.pure]
      show Except.ok ({ (ray.move g).lift with direction := (gratingDirection (g.dir ray.direction).lift
            (g.dir n).lift (g.dir r.tangent).lift (.fin G') (.fin ray.order) (.fin ray.wavelength)) } : Ray XR)
        = .ok (({ ray.lift with direction := (gratingDirection ray.direction.lift n.lift
            r.tangent.lift (.fin G') (.fin ray.order) (.fin ray.wavelength)) } : Ray XR).moveX g)
      rw [grating_moveX g hd hn htt, ray_lift_move]
      rfl
  | lens hn' hn'' hD hi hl ideal =>
    rename_i position n' shape D w hh f type index l
    obtain ⟨e1, e2, e3, e4, e5⟩ := lens_new_facts hl
    have hli : 0 < l.index := by rw [e2]; exact hi
    refine wrap _ _ ?_
    unfold Lens.doIntersect
    simp only [Lens.lift, xlit1]
    by_cases t1 : l.type = "ideal"
    · have hT : g.IsTranslation := hgo.resolve_right (fun h => h t1)
      simp only [t1, if_true]
      unfold Ray.refract
      rw [if_pos rfl, if_pos rfl]
      cases l.normal with
      | none => rfl
      | some m =>
        simp only [Option.map_some, need, bind, Except.bind, pure, Except.pure]
        have key : thinLensDirection (ray.move g).lift.position (ray.move g).lift.direction (g.pt l.position).lift
            (g.dir m).lift (l.f.map XR.fin) (g.pt x).lift
            = thinLensDirection ray.lift.position ray.lift.direction l.position.lift m.lift (l.f.map XR.fin) x.lift := by
          show thinLensDirection (g.pt ray.position).lift (g.dir ray.direction).lift _ _ _ _
            = thinLensDirection ray.position.lift ray.direction.lift _ _ _ _
          unfold thinLensDirection
          rw [hT, hT]
          cases l.f with
          | none => rfl
          | some f =>
            simp only [lift_sub, pt_translation hT, Option.map_some, need, bind, Except.bind, lift_orientedNormal,
              lift_smul, lift_add]
            have e : g.pt l.position + f * orientedNormal m ray.direction - g.pt ray.position
                = l.position + f * orientedNormal m ray.direction - ray.position := by
              have h1 := g.pt_add l.position (f * orientedNormal m ray.direction)
              rw [hT] at h1
              rw [h1, pt_translation hT]
            rw [e]
        rw [key]
        cases thinLensDirection ray.lift.position ray.lift.direction l.position.lift m.lift (l.f.map XR.fin) x.lift with
        | error e => rfl
        | ok d =>
          show Except.ok ({ (ray.move g).lift with direction := d } : Ray XR) = .ok (Ray.moveX g { ray.lift with direction := d })
          rw [← ray_with_dirX, dirX_translation hT, ray_lift_move]
    by_cases t2 : l.type = "ideal_collimate"
    · simp only [t2, if_true]
      rw [if_neg (by decide), if_neg (by decide)]
      unfold Ray.refract
      rw [if_neg (by decide), if_pos rfl, if_neg (by decide), if_pos rfl]
      cases l.normal with
      | none => rfl
      | some m =>
        show Except.ok ({ (ray.move g).lift with direction := collimateDirection (g.dir ray.direction).lift (g.dir m).lift } : Ray XR)
          = .ok (Ray.moveX g { ray.lift with direction := collimateDirection ray.direction.lift m.lift })
        unfold collimateDirection
        rw [lift_orientedNormal, lift_orientedNormal, orientedNormal_move, unitVector_moveX, ray_lift_move, ray_with_dirX]
    by_cases t3 : l.type = "ideal_focus"
    · simp only [t3, if_true]
      rw [if_neg (by decide), if_neg (by decide), if_neg (by decide), if_neg (by decide)]
      unfold Ray.refract
      rw [if_neg (by decide), if_neg (by decide), if_pos rfl, if_neg (by decide), if_neg (by decide), if_pos rfl]
      cases l.normal with
      | none => rfl
      | some m =>
        cases l.f with
        | none => rfl
        | some f =>
        show Except.ok ({ (ray.move g).lift with direction := (focusDirection (g.pt ray.position).lift
            (g.dir ray.direction).lift (g.pt l.position).lift (g.dir m).lift (.fin f)) } : Ray XR)
          = .ok (Ray.moveX g { ray.lift with direction := (focusDirection ray.position.lift ray.direction.lift
            l.position.lift m.lift (.fin f)) })
        unfold focusDirection
        simp only [lift_orientedNormal, orientedNormal_move, lift_smul, lift_add, lift_sub, g.dir_smul, g.pt_add, g.pt_sub]
        have := unitVector_moveX g (l.position + f * orientedNormal m ray.direction - ray.position)
        unfold unitVector at this
        rw [this, ray_lift_move, ray_with_dirX]
    · simp only [t1, t2, t3, if_false]
      cases sfo.truthy with
      | true =>
        simp only [if_true]
        exact refract_moveX g hd hn _ _ _ _ one_pos hli
      | false =>
        simp only [Bool.false_eq_true, if_false, need, bind, Except.bind, lift_neg, g.dir_neg]
        exact refract_moveX g hd (by rw [dot_neg_left, dot_neg_right, neg_neg]; exact hn) _ _ _ _ hli one_pos

/-! ## The scan -/

/-- The selections of two scans correspond. -/
inductive SelTwin (g : Motion) (optics : List (Optic ℝ)) : Option (Selected XR) → Option (Selected XR) → Prop
  | none : SelTwin g optics none none
  | some {o : Optic ℝ} (ho : o ∈ optics) (pt : V3 XR) (n : Option (V3 XR)) :
      SelTwin g optics (some ⟨o.lift, pt, n⟩) (some ⟨(o.move g).lift, g.ptX pt, n.map g.dirX⟩)

/-- The variables of two scans correspond. -/
structure ScanTwin (g : Motion) (optics : List (Optic ℝ)) (v v' : ScanVars XR) : Prop where
  intersected : v'.intersected = v.intersected
  minDistance : v'.minDistance = v.minDistance
  sfo : v'.sfo = v.sfo
  selected : SelTwin g optics v.selected v'.selected

/-- Both raise the same exception, or both return corresponding values. -/
inductive PyTwin {β : Type} (R : β → β → Prop) : Py β → Py β → Prop
  | error (e : PyErr) : PyTwin R (.error e) (.error e)
  | ok {a b : β} (h : R a b) : PyTwin R (.ok a) (.ok b)

theorem skipped_move (g : Motion) (o : Optic ℝ) : (o.move g).lift.skipped = o.lift.skipped := by
  cases o <;> rfl

theorem scanStep_twin (g : Motion) {optics : List (Optic ℝ)} {o : Optic ℝ} (ho : o ∈ optics) (hw : o.WellFormed)
    {ray ray' : Ray XR} (hd : MovesAlong g ray ray') (rem : XR) {v v' : ScanVars XR} (h : ScanTwin g optics v v') :
    PyTwin (ScanTwin g optics) (scanStep ray rem v o.lift) (scanStep ray' rem v' (o.move g).lift) := by
  obtain ⟨i, m, s, f⟩ := v
  obtain ⟨i', m', s', f'⟩ := v'
  obtain ⟨h1, h2, h3, h4⟩ := h
  simp only at h1 h2 h3 h4
  subst h1 h2 h3
  unfold scanStep
  rw [skipped_move]
  cases o.lift.skipped with
  | true => exact .ok ⟨rfl, rfl, rfl, h4⟩
  | false =>
    simp only [Bool.false_eq_true, if_false, optic_moveX g hw hd, bind, Except.bind, pure, Except.pure]
    cases o.lift.testIntersect ray with
    | error e => exact .error e
    | ok r =>
      obtain ⟨hit, pt, n, sfo⟩ := r
      simp only [Except.map, Hit4.moveX]
      cases hit with
      | false => exact .ok ⟨rfl, rfl, rfl, h4⟩
      | true =>
        cases pt with
        | none => exact .error _
        | some pt =>
          have e : distanceBetween ray'.position (g.ptX pt) = distanceBetween ray.position pt := by
            rw [hd.position]; exact g.distX _ _
          simp only [Option.map_some, need, e, if_true]
          split_ifs
          · exact .ok ⟨rfl, rfl, rfl, h4⟩
          · exact .ok ⟨rfl, rfl, rfl, .some ho pt n⟩
          · exact .ok ⟨rfl, rfl, rfl, h4⟩
          · exact .ok ⟨rfl, rfl, rfl, h4⟩

theorem scan_twin (g : Motion) {optics : List (Optic ℝ)} (hw : ∀ o ∈ optics, o.WellFormed)
    {ray ray' : Ray XR} (hd : MovesAlong g ray ray') (rem : XR) : ∀ (l : List (Optic ℝ)), (∀ o ∈ l, o ∈ optics) →
    ∀ {v v' : ScanVars XR}, ScanTwin g optics v v' →
    PyTwin (ScanTwin g optics) ((l.map Optic.lift).foldlM (scanStep ray rem) v)
      (((l.map (Optic.move g)).map Optic.lift).foldlM (scanStep ray' rem) v')
  | [], _, v, v', h => .ok h
  | o :: l, hl, v, v', h => by
    simp only [List.map_cons, List.foldlM_cons, bind, Except.bind]
    have ho := hl o List.mem_cons_self
    have hst := scanStep_twin g ho (hw o ho) hd rem h
    generalize scanStep ray rem v o.lift = a at hst
    generalize scanStep ray' rem v' (o.move g).lift = b at hst
    cases hst with
    | error e => exact .error e
    | ok h => exact scan_twin g hw hd rem l (fun o ho => hl o (List.mem_cons_of_mem _ ho)) h

/-! ## Rays without a direction -/

theorem follows_nan (g : Motion) {ray : Ray XR} (hd : ray.direction = V3.nan) : MovesAlong g ray (ray.moveX g) := by
  have hd' : (ray.moveX g).direction = V3.nan := by show g.dirX ray.direction = _; rw [hd, g.dirX_nan]
  refine ⟨rfl, fun {s} hs => ?_⟩
  cases s with
  | shape c => rfl
  | cylinder c R D h => rfl
  | plane p =>
    show Except.ok (IntersectResult.three ((p.move g).lift.testIntersect _)) = .ok (.three ((p.lift.testIntersect ray).moveX g))
    rw [plane_nan _ hd, plane_nan _ hd']; rfl
  | rectangle r =>
    show Except.ok (IntersectResult.three ((r.move g).lift.testIntersect _)) = .ok (.three ((r.lift.testIntersect ray).moveX g))
    rw [rectangle_nan _ hd, rectangle_nan _ hd']; rfl
  | sphere s =>
    show Except.ok (IntersectResult.six ((s.move g).lift.testIntersect _)) = .ok (.six ((s.lift.testIntersect ray).moveX g))
    rw [sphere_nan _ hd, sphere_nan _ hd']; rfl
  | circle c =>
    show (do return IntersectResult.three (← (c.move g).lift.testIntersect _))
      = Except.map _ (do return IntersectResult.three (← c.lift.testIntersect ray))
    cases hp : c.plane with
    | none =>
      unfold Circle.testIntersect
      simp only [Circle.lift, Circle.move, hp, Option.map_none]
      rfl
    | some p =>
      rw [circle_nan c.lift p.lift (by simp [Circle.lift, hp]) hd,
        circle_nan (c.move g).lift (p.move g).lift (by simp [Circle.lift, Circle.move, hp]) hd']
      rfl
  | infiniteCylinder c =>
    have hR : PyNum.eqb (XR.fin c.R) 0.0 = false := by rw [xlit0, XR.fin_eqb, decide_eq_false hs.1]
    show (do return IntersectResult.six (← (c.move g).lift.testIntersect _))
      = Except.map _ (do return IntersectResult.six (← c.lift.testIntersect ray))
    rw [cylinder_nan c.lift hR hd, cylinder_nan (c.move g).lift hR hd']
    rfl

/-! ## The loop -/

/-- Two run states correspond: the second is the first moved. -/
structure Twin (g : Motion) (optics : List (Optic ℝ)) (s s' : RunState XR) : Prop where
  ray : s'.ray = s.ray.moveX g
  log : s'.log = s.log.map (DetHit.moveX g)
  remaining : s'.remaining = s.remaining
  interactions : s'.interactions = s.interactions
  sfo : s'.sfo = s.sfo
  selected : SelTwin g optics s.selected s'.selected

/-- Two results of a pass correspond. -/
inductive StepTwin (g : Motion) (optics : List (Optic ℝ)) : StepResult XR → StepResult XR → Prop
  | raised {s s'} (e : PyErr) (h : Twin g optics s s') : StepTwin g optics (.raised e s) (.raised e s')
  | next {s s'} (h : Twin g optics s s') : StepTwin g optics (.next s) (.next s')

theorem at_move (g : Motion) (r : Ray ℝ) (t : ℝ) : (r.move g).at t = g.pt (r.at t) := by
  show g.pt r.position + t * g.dir r.direction = g.pt (r.position + t * r.direction)
  rw [← g.pt_add, g.dir_smul]

theorem movedTo_moveX (g : Motion) (r : Ray XR) (p : V3 XR) : (r.moveX g).movedTo (g.ptX p) = (r.movedTo p).moveX g := by
  unfold Ray.movedTo Ray.moveX
  simp only [List.map_append, List.map_cons, List.map_nil]

/-- The rays met in a run: with a unit direction, or with none. -/
def Ray.Proper (ray : Ray XR) : Prop := (∃ r : Ray ℝ, ray = r.lift ∧ dot r.direction r.direction = 1) ∨ ray.direction = V3.nan

theorem follows_proper (g : Motion) {ray : Ray XR} (h : ray.Proper) : MovesAlong g ray (ray.moveX g) := by
  rcases h with ⟨r, rfl, h⟩ | h
  · rw [← ray_lift_move]; exact follows_unit g h
  · exact follows_nan g h

theorem fly_moveX (g : Motion) {ray : Ray XR} (h : ray.Proper) (t : ℝ) :
    (ray.moveX g).movedTo ((ray.moveX g).position + XR.fin t * (ray.moveX g).direction)
      = (ray.movedTo (ray.position + XR.fin t * ray.direction)).moveX g := by
  rw [← movedTo_moveX]
  congr 1
  rcases h with ⟨r, rfl, -⟩ | h
  · rw [← ray_lift_move]
    show ((r.move g).at t).lift = g.ptX (r.at t).lift
    rw [at_move, g.ptX_lift]
  · show g.ptX ray.position + XR.fin t * g.dirX ray.direction = _
    rw [h, g.dirX_nan, fly_nan, fly_nan, g.ptX_nan]

theorem step_twin (g : Motion) {optics : List (Optic ℝ)} (hw : ∀ o ∈ optics, o.WellFormed)
    (hgo : g.IsTranslation ∨ ∀ o ∈ optics, ¬ o.ThinLens) {md ρ : ℝ}
    {s s' : RunState XR} (hu : s.ray.Proper) (hρ : s.remaining = .fin ρ) (h : Twin g optics s s') :
    StepTwin g optics (runStep (.fin md) (optics.map Optic.lift) s)
      (runStep (.fin md) ((optics.map (Optic.move g)).map Optic.lift) s') := by
  have hscan := scan_twin g hw (follows_proper g hu) s.remaining optics (fun _ h => h)
    (v := ⟨false, none, s.selected, s.sfo⟩) (v' := ⟨false, none, s'.selected, s'.sfo⟩) ⟨rfl, rfl, h.sfo, h.selected⟩
  have hfin : ∀ d : XR, ¬ d > s.remaining → d > clippingFloor → PyNum.ltInf d = true := by
    rw [hρ]; exact xr_ltInf
  unfold runStep
  simp only [fly_some, h.remaining, h.ray]
  generalize hv : (optics.map Optic.lift).foldlM (scanStep s.ray s.remaining) ⟨false, none, s.selected, s.sfo⟩ = V at hscan
  generalize ((optics.map (Optic.move g)).map Optic.lift).foldlM (scanStep (s.ray.moveX g) s.remaining)
    ⟨false, none, s'.selected, s'.sfo⟩ = V' at hscan
  cases hscan with
  | error e => exact .raised e h
  | @ok v v' hv' =>
    obtain ⟨h1, -, h3, h4⟩ := hv'
    simp only [h1]
    cases hi : v.intersected with
    | false =>
      simp only [Bool.not_false, if_true, hρ]
      exact .next ⟨fly_moveX g hu ρ, h.log, rfl, h.interactions, h3, h4⟩
    | true =>
      simp only [Bool.not_true, Bool.false_eq_true, if_false]
      rcases hu with ⟨r, hr, hu⟩ | hu
      swap
      · obtain ⟨w, hw1, hw2⟩ := scan_nan hw hu s.remaining optics (fun _ h => h) ⟨false, none, s.selected, s.sfo⟩ rfl
        rw [hv] at hw1
        cases hw1
        rw [hi] at hw2
        cases hw2
      have hp : s.ray.Proper := .inl ⟨r, hr, hu⟩
      obtain ⟨sel, res, hsel, hsfo, hc⟩ := scan_chosen hfin hv hi
      rw [hr, hρ] at hc
      obtain ⟨sfo, hsfo⟩ := Option.ne_none_iff_exists'.mp hsfo
      rw [hsfo] at h3
      rw [hsel] at h4
      generalize hs' : v'.selected = S' at h4
      cases h4 with
      | @some o ho pt n =>
        obtain ⟨x, m, hk, e2, e3, hF, hd1, hd2, hd3, hres⟩ := sane_chosen_at hw hu hc ho rfl
        simp only at e2 e3
        subst e2 e3
        have hd3' : distanceBetween s.ray.position x.lift = .fin (dist r.position.toE x.toE) := by rw [hr]; exact hd3
        have hd4 : distanceBetween (s.ray.moveX g).position (g.ptX x.lift) = .fin (dist r.position.toE x.toE) := by
          rw [← hd3']; exact g.distX _ _
        simp only [hsel, hsfo, h3, hd3', hd4, fly_moveX g hp, h.interactions]
        have hfl : s.ray.movedTo (s.ray.position + XR.fin (dist r.position.toE x.toE) * s.ray.direction)
            = (r.movedTo (r.at (dist r.position.toE x.toE))).lift := by rw [hr, lift_fly]
        rw [hfl, show ((r.movedTo (r.at (dist r.position.toE x.toE))).lift.moveX g).type
            = (r.movedTo (r.at (dist r.position.toE x.toE))).lift.type from rfl]
        by_cases ht : (r.movedTo (r.at (dist r.position.toE x.toE))).lift.type = "faerie_fire"
        · rw [if_pos ht, if_pos ht]
          exact .next ⟨rfl, h.log, rfl, rfl, rfl, .some ho _ _⟩
        · simp only [ht, if_false]
          have hmv := act_moveX g (hw o ho) (hgo.imp id (fun h => h o ho))
            (ray := r.movedTo (r.at (dist r.position.toE x.toE))) (x := x) (n := m) hu hF.unit sfo
          obtain ⟨out, hdo⟩ : ∃ out, o.lift.doIntersect (r.movedTo (r.at (dist r.position.toE x.toE))).lift x.lift
              (some m.lift) sfo = .ok out := by
            rcases sane_act_kind hw hu ho hF sfo with ⟨d, b, rows, hdo, -⟩ | ⟨-, -, -, hdo⟩ <;> exact ⟨_, hdo⟩
          rw [hdo, ray_lift_move] at hmv
          rw [g.ptX_lift, Option.map_some, g.dirX_lift, hmv, hdo]
          refine .next ⟨rfl, ?_, rfl, rfl, rfl, ?_⟩
          · show s'.log ++ out.2.map (DetHit.moveX g) = _
            rw [h.log, List.map_append]
          · have := SelTwin.some (g := g) ho x.lift (some m.lift)
            rwa [g.ptX_lift, Option.map_some, g.dirX_lift] at this

/-- Two outcomes of a run correspond. -/
inductive RunTwin (g : Motion) (optics : List (Optic ℝ)) : Outcome XR → Outcome XR → Prop
  | finished {s s'} (h : Twin g optics s s') : RunTwin g optics (.finished s) (.finished s')
  | raised {s s'} (e : PyErr) (h : Twin g optics s s') : RunTwin g optics (.raised e s) (.raised e s')
  | outOfFuel {s s'} (h : Twin g optics s s') : RunTwin g optics (.outOfFuel s) (.outOfFuel s')

theorem continues_twin {g : Motion} {optics : List (Optic ℝ)} {s s' : RunState XR}
    (h : Twin g optics s s') (mi : Option Int) : s'.continues mi = s.continues mi := by
  unfold RunState.continues
  rw [h.remaining, h.interactions, h.ray]
  rfl

theorem fate_proper {optics : List (Optic ℝ)} {ray : Ray ℝ} {md : ℝ} {mi : Option Int} {k : Nat} {s : RunState XR}
    (h : Fate optics ray md mi k s) : s.ray.Proper ∧ ∃ ρ, s.remaining = .fin ρ := by
  rcases h with ⟨h, -, -⟩ | ⟨-, -, h1, h2, -⟩ | ⟨-, -, h1, h2, -⟩
  · exact ⟨.inl ⟨_, h.sane.ray, h.sane.unit⟩, _, h.sane.remaining⟩
  · exact ⟨.inr (by rw [h1]), _, h2⟩
  · exact ⟨.inr (by rw [h1]; rfl), _, h2⟩

theorem run_twin (g : Motion) {optics : List (Optic ℝ)} (hw : ∀ o ∈ optics, o.WellFormed)
    (hgo : g.IsTranslation ∨ ∀ o ∈ optics, ¬ o.ThinLens) {md : ℝ} {mi : Option Int} {ray : Ray ℝ}
    (hd : dot ray.direction ray.direction = 1) :
    ∀ (fuel k : Nat) (s s' : RunState XR),
    Passes (.fin md) (optics.map Optic.lift) mi k (RunState.init ray.lift (.fin md)) s → Twin g optics s s' →
    RunTwin g optics (runLoop (.fin md) (optics.map Optic.lift) mi fuel s)
      (runLoop (.fin md) ((optics.map (Optic.move g)).map Optic.lift) mi fuel s')
  | 0, _, _, _, _, h => .outOfFuel h
  | fuel + 1, k, s, s', hp, h => by
    unfold runLoop
    rw [continues_twin h mi]
    cases hc : s.continues mi with
    | false => exact .finished h
    | true =>
      simp only [if_true]
      obtain ⟨hu, ρ, hρ⟩ := fate_proper (fate_passes hw hd hp)
      have hst := step_twin g hw hgo (md := md) hu hρ h
      generalize hr : runStep (.fin md) (optics.map Optic.lift) s = A at hst
      generalize runStep (.fin md) ((optics.map (Optic.move g)).map Optic.lift) s' = B at hst
      cases hst with
      | raised e h => exact .raised e h
      | next h => exact run_twin g hw hgo hd fuel (k + 1) _ _ (.succ hp hc hr) h

end Optics
