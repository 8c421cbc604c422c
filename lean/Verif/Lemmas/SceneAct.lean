import Verif.Lemmas.SceneTest
import Verif.Props.RayOptics
import Verif.Props.IdealLenses
import Verif.Props.Gratings

/-!
# What well-formed optics do to a ray in numpy
-/

namespace Optics
open V3

theorem lift_isclose (a b : ℝ) : isclose (XR.fin a) (XR.fin b) 1e-10 atolDefault = isclose a b 1e-10 atolDefault := by
  unfold isclose atolDefault
  rw [XR.fin_ofScientific, XR.fin_ofScientific]
  simp only [XR.fin_sub, XR.fin_abs, XR.fin_mul, XR.fin_add, XR.fin_le, real_abs]

theorem lift_allclose (u v : V3 ℝ) : allclose u.lift v.lift 1e-10 atolDefault = allclose u v 1e-10 atolDefault := by
  unfold allclose V3.lift
  simp only [lift_isclose]

theorem lift_orientedNormal (n d : V3 ℝ) : orientedNormal n.lift d.lift = (orientedNormal n d).lift := by
  unfold orientedNormal
  simp only [lift_dot, xlit0, XR.fin_lt, lit0, lift_neg]
  split_ifs <;> rfl

theorem lift_normalise {v : V3 ℝ} (h : v ≠ ⟨0, 0, 0⟩) : v.lift / norm v.lift = (unitVector v).lift := lift_unitVector h

/-- `thin_lens` in numpy, for a ray that has arrived at the lens. -/
theorem lift_thinLens {x d P n : V3 ℝ} {f : ℝ} (hd : dot d d = 1) (hn : dot n n = 1) (hf : f ≠ 0)
    (hr : dot (x - P) n = 0) :
    ∃ d', thinLensDirection x.lift d.lift P.lift n.lift (some (.fin f)) x.lift = .ok d'.lift ∧ dot d' d' = 1 ∧
      thinLensDirection x d P n (some f) x = .ok d' := by
  have hm : dot (orientedNormal n d) (orientedNormal n d) = 1 := by rw [orientedNormal_self, hn]
  have hrm : dot (x - P) (orientedNormal n d) = 0 := orientedNormal_perp hr
  have hdm : dot (orientedNormal n d) d = |dot d n| := by rw [dot_comm, orientedNormal_dot n d]
  unfold thinLensDirection
  simp only [lift_orientedNormal, lift_dot, xlit0, lift_isclose, lift_neg, lift_allclose, need, bind, Except.bind, pure,
    Except.pure, lift_smul, lift_add, lift_sub, xlit2, XR.fin_mul, lit0, lit2]
  split_ifs with h1 h2
  · exact ⟨d, rfl, hd, rfl⟩
  · obtain ⟨-, -, h0, -⟩ := thin_forward (d := orientedNormal n d) (x := x) (P := P) hf hm hrm 1 one_ne_zero hm
    have e : P + f * orientedNormal n d - x = f * orientedNormal n d - (x - P) := by
      ext <;> simp only [sub_x, sub_y, sub_z, add_x, add_y, add_z, smul_x, smul_y, smul_z] <;> ring
    rw [e, lift_normalise h0]
    exact ⟨_, rfl, unit_dot h0, rfl⟩
  · have hc : |dot d n| ≠ 0 := by
      intro h0
      rw [hdm, h0] at h1
      apply h1
      simp only [isclose, atolDefault, real_abs, sub_zero, abs_zero, mul_zero, add_zero]
      exact decide_eq_true (by norm_num)
    rw [dot_comm d (orientedNormal n d), hdm, XR.fin_div _ _ hc, lift_smul, lift_add, lift_neg, lift_sub]
    obtain ⟨-, -, -, h0⟩ := thin_forward (d := d) (x := x) (P := P) hf hm hrm |dot d n| hc (orientedNormal_dot n d)
    have e : -(x - P + (2 * f / |dot d n|) * -d) - (x - P) = (2 : ℝ) * ((f / |dot d n|) * d - (x - P)) := by
      ext <;> simp only [sub_x, sub_y, sub_z, add_x, add_y, add_z, smul_x, smul_y, smul_z, neg_x, neg_y, neg_z] <;>
        ring
    have h0' : (2 : ℝ) * ((f / |dot d n|) * d - (x - P)) ≠ ⟨0, 0, 0⟩ := by
      intro e0
      apply h0
      have hx := congrArg V3.x e0
      have hy := congrArg V3.y e0
      have hz := congrArg V3.z e0
      simp only [smul_x, smul_y, smul_z, mul_eq_zero, two_ne_zero, false_or] at hx hy hz
      ext <;> assumption
    rw [e, lift_normalise h0']
    exact ⟨_, rfl, unit_dot h0', rfl⟩

/-- Replacing a ray's direction commutes with `lift`. -/
theorem lift_with_direction (ray : Ray ℝ) (d : V3 ℝ) :
    { ray.lift with direction := d.lift } = { ray with direction := d }.lift := rfl

theorem lift_reflect {ray : Ray ℝ} (hd : dot ray.direction ray.direction = 1) {n : V3 ℝ} (hn : dot n n = 1)
    (optic : OpticAttrs XR) :
    ray.lift.reflect "specular_flat" (some n.lift) optic
      = .ok { ray with direction := specular ray.direction n }.lift ∧
    dot (specular ray.direction n) (specular ray.direction n) = 1 := by
  have hd0 := ne_zero_of_dot_one hd
  have hn0 := ne_zero_of_dot_one hn
  constructor
  · unfold Ray.reflect
    rw [if_pos rfl]
    show Except.ok { ray.lift with direction := specular ray.direction.lift n.lift } = _
    rw [lift_specular hd0 hn0]; rfl
  · rw [specular_eq hd0 hn0]; exact specular_unit hd0 hn0

theorem lift_refract {ray : Ray ℝ} (hd : dot ray.direction ray.direction = 1) {n : V3 ℝ} (hn : dot n n = 1)
    (optic : OpticAttrs XR) (pt : V3 XR) {η₁ η₂ : ℝ} (h1 : 0 < η₁) (h2 : 0 < η₂) :
    ∃ d', ray.lift.refract "snells_law" (some n.lift) optic pt (some (.fin η₁)) (some (.fin η₂))
      = .ok { ray with direction := d' }.lift ∧ dot d' d' = 1 := by
  obtain ⟨d', e, hd'⟩ := C32_finite ray.direction n (by rw [norm_toE, norm_eq_one_iff]; exact hd)
    (by rw [norm_toE, norm_eq_one_iff]; exact hn) η₁ η₂ h1 h2
  rw [norm_toE, norm_eq_one_iff] at hd'
  refine ⟨d', ?_, hd'⟩
  show (do let d ← snellDirection ray.direction.lift n.lift (.fin η₁) (.fin η₂)
           return { ray.lift with direction := d }) = _
  rw [e]; rfl

theorem index_world : (indexOfTheWorld : XR) = .fin 1 := xlit1

/-- What an optic does to the ray: a new unit direction; only a detector blocks, and records. -/
structure Acted (o : Optic ℝ) (ray : Ray ℝ) (x : V3 ℝ) (d : V3 ℝ) (b : Bool) (rows : List (DetHit ℝ)) : Prop where
  unit : dot d d = 1
  det : ∀ D, o = .detector D → d = ray.direction ∧ b = true ∧ rows = [⟨D.id, x, ray.wavelength⟩]
  other : (∀ D, o ≠ .detector D) → b = ray.blocked ∧ rows = []

theorem mirror_new_facts {position : V3 ℝ} {shape : String} {n t : Option (V3 ℝ)} {D w h f : Option ℝ} {type : String}
    {dmd : V3 ℝ} {m : Mirror ℝ} (hm : Mirror.new position shape n D w h f t type (some dmd) = .ok m) :
    m.type = type ∧ m.dmdNormal = unitVector dmd := by
  unfold Mirror.new at hm
  simp only [need, bind, Except.bind, pure, Except.pure] at hm
  split_ifs at hm
  · cases n with
    | none => cases hm
    | some n =>
      simp only at hm
      split at hm
      · cases hm
      · cases hm; exact ⟨rfl, rfl⟩
  · cases n with
    | none => cases hm
    | some n =>
      cases t with
      | none => cases hm
      | some t =>
        simp only at hm
        split at hm
        · cases hm
        · cases hm; exact ⟨rfl, rfl⟩
  · cases n with
    | none => cases hm
    | some n =>
      cases f with
      | none => cases hm
      | some f =>
        simp only at hm
        split at hm
        · cases hm
        · split at hm
          · cases hm
          · cases hm; exact ⟨rfl, rfl⟩
  · split at hm
    · cases hm
    · cases hm; exact ⟨rfl, rfl⟩

theorem lens_new_facts {position : V3 ℝ} {n : Option (V3 ℝ)} {shape : String} {D w h f : Option ℝ} {type : String}
    {index : ℝ} {l : Lens ℝ} (hl : Lens.new position n shape D w h f type index = .ok l) :
    l.type = type ∧ l.index = index ∧ l.f = f ∧ l.position = position ∧ l.normal = n.map unitVector := by
  unfold Lens.new at hl
  simp only [bind, Except.bind, pure, Except.pure] at hl
  split_ifs at hl <;> split at hl <;> cases hl <;> exact ⟨rfl, rfl, rfl, rfl, rfl⟩

/-- A well-formed optic acts without error and with a unit direction, whatever `shooting_from_outside` is. -/
theorem do_good {o : Optic ℝ} (h : o.WellFormed) {ray₀ ray : Ray ℝ} {x n : V3 ℝ} (hf : HitFacts o ray₀ x n)
    (hd : dot ray.direction ray.direction = 1) (land : ∀ t, 0 < t → x = ray₀.at t → ray.position = x)
    (hg : ∀ g, o = .grating g → g.Diffracts ray) (sfo : Sfo) :
    ∃ d b rows, o.lift.doIntersect ray.lift x.lift (some n.lift) sfo
      = .ok ({ ray with direction := d, blocked := b }.lift, rows.map DetHit.lift) ∧ Acted o ray x d b rows := by
  have plain : ∀ d : V3 ℝ, (∀ D, o ≠ .detector D) → dot d d = 1 → Acted o ray x d ray.blocked [] :=
    fun d ho hd => ⟨hd, fun D e => absurd e (ho D), fun _ => ⟨rfl, rfl⟩⟩
  have wrap : ∀ e : Py (Ray XR), (∀ D, o ≠ .detector D) →
      o.lift.doIntersect ray.lift x.lift (some n.lift) sfo = (do return (← e, [])) →
      (∃ d, e = .ok { ray with direction := d }.lift ∧ dot d d = 1) →
      ∃ d b rows, o.lift.doIntersect ray.lift x.lift (some n.lift) sfo
        = .ok ({ ray with direction := d, blocked := b }.lift, rows.map DetHit.lift) ∧ Acted o ray x d b rows := by
    rintro e ho h ⟨d, hd, hu⟩
    refine ⟨d, ray.blocked, [], ?_, plain d ho hu⟩
    rw [h, hd]; rfl
  cases h with
  | annotation => exact ⟨ray.direction, ray.blocked, [], rfl, plain _ (by simp) hd⟩
  | filter => exact ⟨ray.direction, ray.blocked, [], rfl, plain _ (by simp) hd⟩
  | window => exact ⟨ray.direction, ray.blocked, [], rfl, plain _ (by simp) hd⟩
  | detector hn ht hD =>
    refine ⟨ray.direction, true, [⟨_, x, ray.wavelength⟩], rfl, hd, fun D e => ?_, fun ho => absurd rfl (ho _)⟩
    cases e
    exact ⟨rfl, rfl, rfl⟩
  | mirror hn ht hdmd hD hf' hm =>
    rename_i position shape n' t D w hh f type dmd m
    obtain ⟨e1, e2⟩ := mirror_new_facts hm
    refine wrap (m.lift.doIntersect ray.lift x.lift (some n.lift)) (by simp) rfl ?_
    unfold Mirror.doIntersect
    split_ifs with h1 h2
    · obtain ⟨e, hu⟩ := lift_reflect hd hf.unit ⟨x.lift, none, none, none, none⟩
      rw [e]
      exact ⟨_, rfl, hu⟩
    · have hdu : dot m.dmdNormal m.dmdNormal = 1 := by rw [e2]; exact unit_dot hdmd
      obtain ⟨e, hu⟩ := lift_reflect hd hdu ⟨x.lift, none, none, none, none⟩
      show ∃ d, ray.lift.reflect "specular_flat" (some m.dmdNormal.lift) _ = _ ∧ _
      rw [e]
      exact ⟨_, rfl, hu⟩
    · exact ⟨ray.direction, rfl, hd⟩
  | lens hn hn' hD hi hl ideal =>
    rename_i position n' shape D w hh f type index l
    obtain ⟨e1, e2, e3, e4, e5⟩ := lens_new_facts hl
    refine wrap (l.lift.doIntersect ray.lift x.lift (some n.lift) sfo) (by simp) rfl ?_
    unfold Lens.doIntersect
    simp only [show l.lift.type = l.type from rfl, show l.lift.index = XR.fin l.index from rfl, xlit1]
    have hli : 0 < l.index := by rw [e2]; exact hi
    by_cases hid : l.Ideal
    · obtain ⟨m, hm, hmu, hplane, -, t, ht, hxt⟩ := hf.lens l rfl hid
      have ht0 : 0 < t := by norm_num at ht ⊢; linarith
      have hpos := land t ht0 hxt
      obtain ⟨-, f', hf1, hf0⟩ := ideal hid
      have hlf : l.f = some f' := by rw [e3, hf1]
      have a1 : l.lift.normal = some m.lift := by show l.normal.map _ = _; rw [hm]; rfl
      have a2 : l.lift.f = some (XR.fin f') := by show l.f.map _ = _; rw [hlf]; rfl
      have hp : ray.lift.position = ray.position.lift := rfl
      subst hpos
      have hmo : dot (orientedNormal m ray.direction) (orientedNormal m ray.direction) = 1 := by
        rw [orientedNormal_self, hmu]
      have hrm := orientedNormal_perp (d := ray.direction) hplane
      by_cases t1 : l.type = "ideal"
      · obtain ⟨d', ed, hud, -⟩ := lift_thinLens hd hmu hf0 hplane
        simp only [t1, if_true]
        unfold Ray.refract
        rw [if_pos rfl]
        simp only [a1, a2, need, bind, Except.bind]
        rw [hp, show ray.lift.direction = ray.direction.lift from rfl, show l.lift.position = l.position.lift from rfl, ed]
        exact ⟨d', rfl, hud⟩
      · by_cases t2 : l.type = "ideal_collimate"
        · simp only [t2, if_true]
          rw [if_neg (by decide)]
          unfold Ray.refract
          rw [if_neg (by decide), if_pos rfl]
          simp only [a1, need, bind, Except.bind, pure, Except.pure]
          rw [show ray.lift.direction = ray.direction.lift from rfl]
          unfold collimateDirection
          rw [lift_orientedNormal, lift_unitVector (ne_zero_of_dot_one hmo)]
          exact ⟨_, rfl, (unit_dot (ne_zero_of_dot_one hmo))⟩
        · have t3 : l.type = "ideal_focus" := (hid.resolve_left t1).resolve_left t2
          simp only [t3, if_true]
          rw [if_neg (by decide), if_neg (by decide)]
          unfold Ray.refract
          rw [if_neg (by decide), if_neg (by decide), if_pos rfl]
          simp only [a1, a2, need, bind, Except.bind, pure, Except.pure]
          rw [hp, show ray.lift.direction = ray.direction.lift from rfl, show l.lift.position = l.position.lift from rfl]
          unfold focusDirection
          simp only [lift_orientedNormal, lift_smul, lift_add, lift_sub]
          obtain ⟨-, -, h0, -⟩ := thin_forward (d := orientedNormal m ray.direction) (x := ray.position) (P := l.position) hf0 hmo hrm
            1 one_ne_zero hmo
          have e : l.position + f' * orientedNormal m ray.direction - ray.position
              = f' * orientedNormal m ray.direction - (ray.position - l.position) := by
            ext <;> simp only [sub_x, sub_y, sub_z, add_x, add_y, add_z, smul_x, smul_y, smul_z] <;> ring
          rw [e, lift_normalise h0]
          exact ⟨_, rfl, (unit_dot h0)⟩
    · have t1 : ¬ l.type = "ideal" := fun e => hid (.inl e)
      have t2 : ¬ l.type = "ideal_collimate" := fun e => hid (.inr (.inl e))
      have t3 : ¬ l.type = "ideal_focus" := fun e => hid (.inr (.inr e))
      simp only [t1, t2, t3, if_false]
      cases sfo.truthy with
      | true =>
        simp only [if_true]
        obtain ⟨d', e, hu⟩ := lift_refract hd hf.unit ⟨l.lift.position, l.lift.normal, l.lift.f, none, none⟩ x.lift
          one_pos hli
        rw [e]
        exact ⟨d', rfl, hu⟩
      | false =>
        simp only [Bool.false_eq_true, if_false, need, bind, Except.bind]
        obtain ⟨d', e, hu⟩ := lift_refract (n := -n) hd (by rw [dot_neg_left, dot_neg_right, neg_neg]; exact hf.unit)
          ⟨l.lift.position, l.lift.normal, l.lift.f, none, none⟩ x.lift hli one_pos
        rw [lift_neg, e]
        exact ⟨d', rfl, hu⟩
  | compound he hb hi =>
    rename_i e behavior index
    refine wrap ((Compound.mk e.tree.lift behavior (XR.fin index)).doIntersect ray.lift x.lift (some n.lift)) (by simp)
      rfl ?_
    unfold Compound.doIntersect
    rcases hb with rfl | rfl
    · simp only [if_true]
      obtain ⟨e, hu⟩ := lift_reflect hd hf.unit ⟨x.lift, none, none, none, none⟩
      rw [e]
      exact ⟨_, rfl, hu⟩
    · simp only [show ("refract" = "reflect") = False by simp, if_false, if_true]
      unfold Compound.getIndexAtPointIfInside
      obtain ⟨b, eb⟩ := csg_point_returns (x.lift + (1e-8 : XR) * ray.lift.direction) e he
      simp only [eb, bind, Except.bind]
      cases b with
      | true =>
        simp only [pure, Except.pure, index_world]
        obtain ⟨d', e, hu⟩ := lift_refract hd hf.unit ⟨x.lift, none, none, none, none⟩ x.lift one_pos hi
        rw [e]
        exact ⟨d', rfl, hu⟩
      | false =>
        simp only [pure, Except.pure, index_world]
        obtain ⟨d', e, hu⟩ := lift_refract hd hf.unit ⟨x.lift, none, none, none, none⟩ x.lift hi one_pos
        rw [e]
        exact ⟨d', rfl, hu⟩
  | grating hn ht hG =>
    rename_i position n' t shape w hh G g
    refine wrap (g.lift.doIntersect ray.lift x.lift (some n.lift)) (by simp) rfl ?_
    have hnn := hf.unit
    obtain rfl : n = g.normal := hf.grating g rfl
    have htt : dot g.tangent g.tangent = 1 := by
      unfold Grating.new at hG
      simp only [bind, Except.bind, pure, Except.pure] at hG
      split_ifs at hG
      split at hG <;> cases hG
      exact unit_dot ht
    unfold Grating.doIntersect
    rw [show ray.lift.order = XR.fin ray.order from rfl, xlit0, XR.fin_eqb]
    by_cases h0 : ray.order = 0
    · rw [decide_eq_true h0, if_pos rfl]
      obtain ⟨e, hu⟩ := lift_reflect hd hnn ⟨x.lift, none, none, none, none⟩
      rw [e]
      exact ⟨_, rfl, hu⟩
    · rw [decide_eq_false h0, if_neg (by decide)]
      obtain ⟨hperp, hpar, G', hG', hsol⟩ := (hg g rfl).resolve_left h0
      have e := (C38_nan_iff ray.direction g.normal g.tangent (by rw [norm_toE, norm_eq_one_iff]; exact hd)
        (by rw [norm_toE, norm_eq_one_iff]; exact hnn) (by rw [norm_toE, norm_eq_one_iff]; exact htt) hperp hpar G'
        ray.order ray.wavelength).1 hsol
      unfold Ray.reflect
      rw [if_neg (by decide), if_pos rfl]
      simp only [show g.lift.G = some (XR.fin G') by show g.G.map _ = _; rw [hG']; rfl, need, bind, Except.bind, pure,
        Except.pure]
      refine ⟨gratingDirection ray.direction g.normal g.tangent G' ray.order ray.wavelength, ?_, ?_⟩
      · refine congrArg Except.ok ?_
        exact congrArg (fun v : V3 XR => ({ ray.lift with direction := v } : Ray XR)) e
      · rw [inner_toE] at hperp
        have hp : projectOntoPlane ray.direction g.tangent ≠ ⟨0, 0, 0⟩ := by
          intro e
          rw [project_unit _ htt, sub_eq_zero'] at e
          exact hpar _ e
        obtain ⟨e, hs⟩ := grating_eq hd hnn htt hperp hp G' ray.order ray.wavelength
        rw [e, polar_self hnn htt hperp, hs]

theorem mulVec_nan (A : M3 XR) : M3.mulVec A V3.nan = V3.nan := by
  ext <;> simp [M3.mulVec, dot, V3.nan]

theorem unitVector_zero : unitVector (V3.lift ⟨0, 0, 0⟩) = V3.nan := by
  rw [unitVector, lift_norm, show norm (⟨0, 0, 0⟩ : V3 ℝ) = 0 by rw [V3.norm_eq_zero]]
  ext <;> exact XR.zero_div_zero

theorem angle_nan_left (b : V3 XR) (k : V3 XR) : angleBetween V3.nan b (some k) = XR.nan := by
  unfold angleBetween
  simp only [unitVector_nan]
  have : dot (cross (unitVector b) V3.nan) k = XR.nan := by simp [dot, cross, V3.nan]
  rw [this]; rfl

theorem angle_nan_right (a : V3 XR) (k : V3 XR) : angleBetween a V3.nan (some k) = XR.nan := by
  unfold angleBetween
  simp only [unitVector_nan]
  have : dot (cross V3.nan (unitVector a)) k = XR.nan := by simp [dot, cross, V3.nan]
  rw [this]; rfl

/-- The sine of the angle at which the code sends the ray off. -/
noncomputable def gratingSine (d n t : V3 ℝ) (G m wl : ℝ) : ℝ :=
  let α := angleBetween (-unitVector (projectOntoPlane d t)) (unitVector (projectOntoPlane n t)) (some t)
  G / 1e6 * m * wl - Real.sin ((if α < 0 then -1 else 1) * α)

/-- The code finds a direction for the ray. -/
def HasOrder (d n t : V3 ℝ) (G m wl : ℝ) : Prop :=
  projectOntoPlane n t ≠ ⟨0, 0, 0⟩ ∧ projectOntoPlane d t ≠ ⟨0, 0, 0⟩ ∧
    (-1 ≤ gratingSine d n t G m wl ∧ gratingSine d n t G m wl ≤ 1)

/-- A grating returns a unit vector, the same as with real numbers, or `nan`s. -/
theorem grating_cases {d n t : V3 ℝ} (hd : dot d d = 1) (hn : dot n n = 1) (ht : dot t t = 1) (G m wl : ℝ) :
    (¬ HasOrder d n t G m wl ∧ gratingDirection d.lift n.lift t.lift (.fin G) (.fin m) (.fin wl) = V3.nan) ∨
    (HasOrder d n t G m wl ∧
      gratingDirection d.lift n.lift t.lift (.fin G) (.fin m) (.fin wl) = (gratingDirection d n t G m wl).lift ∧
      dot (gratingDirection d n t G m wl) (gratingDirection d n t G m wl) = 1) := by
  have ht0 := ne_zero_of_dot_one ht
  have hd0 := ne_zero_of_dot_one hd
  have hn0 := ne_zero_of_dot_one hn
  unfold gratingDirection HasOrder
  simp only [lift_unitVector hn0, lift_unitVector hd0, unitVector_of_unit hd, unitVector_of_unit hn,
    lift_projectOntoPlane _ ht0]
  have lost : ∀ (σ β : XR) (v : V3 XR), unitVector (M3.mulVec (rotationMatrixAxisAngle t.lift β)
      (unitVector (M3.mulVec (rotationMatrixAxisAngle t.lift (-σ * XR.nan)) v))) = V3.nan := by
    intro σ β v
    rw [XR.mul_nan, nan_axisAngle, unitVector_nan, mulVec_nan, unitVector_nan]
  by_cases hpn : projectOntoPlane n t = ⟨0, 0, 0⟩
  · refine .inl ⟨fun h => h.1 hpn, ?_⟩
    rw [hpn, unitVector_zero]
    simp only [angle_nan_right]
    exact lost _ _ _
  by_cases hpd : projectOntoPlane d t = ⟨0, 0, 0⟩
  · refine .inl ⟨fun h => h.2.1 hpd, ?_⟩
    rw [hpd, unitVector_zero, show -(V3.nan : V3 XR) = V3.nan from rfl]
    simp only [angle_nan_left]
    exact lost _ _ _
  have hi : -unitVector (projectOntoPlane d t) ≠ ⟨0, 0, 0⟩ :=
    ne_zero_of_dot_one (by rw [dot_neg_left, dot_neg_right, neg_neg]; exact unit_dot hpd)
  simp only [lift_unitVector hpn, lift_unitVector hpd, lift_neg, lift_angle_signed hi (ne_zero_of_dot_one (unit_dot hpn)),
    gratingSine]
  generalize angleBetween (-unitVector (projectOntoPlane d t)) (unitVector (projectOntoPlane n t)) (some t) = α
  have hσ : (if XR.fin α < 0.0 then (-1.0 : XR) else 1.0) = XR.fin (if α < 0 then -1 else 1) := by
    simp only [xlit1, xlit0, XR.fin_neg, XR.fin_lt]
    split_ifs <;> rfl
  have hσ' : (if α < 0.0 then (-1.0 : ℝ) else 1.0) = (if α < 0 then -1 else 1) := by norm_num
  rw [hσ, hσ', xlit6, xlit2]
  generalize (if α < 0 then (-1 : ℝ) else 1) = σ
  simp only [XR.fin_div _ _ (show (1e6 : ℝ) ≠ 0 by norm_num), XR.fin_mul, XR.fin_sin, XR.fin_sub,
    XR.fin_neg, lift_dot, lift_smul, lift_sub, lift_axisAngle ht0, lift_mulVec, lit2]
  have hr : dot (d - (2 * dot d n) * n) (d - (2 * dot d n) * n) = 1 := by
    simp only [dot_sub_left, dot_sub_right, dot_smul_left, dot_smul_right, dot_comm n d, hd, hn]; ring
  have h1 := (axisAngle_isRotation ht0 (-σ * α)).dot_mulVec (d - (2 * dot d n) * n) (d - (2 * dot d n) * n)
  rw [hr] at h1
  rw [lift_unitVector (ne_zero_of_dot_one h1), unitVector_of_unit h1]
  simp only [real_sin, real_arcsin]
  generalize G / 1e6 * m * wl - Real.sin (σ * α) = K
  by_cases hK : -1 ≤ K ∧ K ≤ 1
  · refine .inr ⟨⟨hpn, hpd, hK⟩, ?_⟩
    rw [XR.fin_arcsin _ hK, XR.fin_neg, lift_axisAngle ht0, lift_mulVec]
    have h2 := (axisAngle_isRotation ht0 (-Real.arcsin K)).dot_mulVec
      (M3.mulVec (rotationMatrixAxisAngle t (-σ * α)) (d - (2 * dot d n) * n))
      (M3.mulVec (rotationMatrixAxisAngle t (-σ * α)) (d - (2 * dot d n) * n))
    rw [h1] at h2
    rw [lift_unitVector (ne_zero_of_dot_one h2), unitVector_of_unit h2]
    exact ⟨rfl, h2⟩
  · refine .inl ⟨fun h => hK h.2.2, ?_⟩
    rw [XR.arcsin_out _ hK, XR.neg_nan, nan_axisAngle, unitVector_nan]

/-- A grating returns a unit vector or `nan`s. -/
theorem grating_kind {d n t : V3 ℝ} (hd : dot d d = 1) (hn : dot n n = 1) (ht : dot t t = 1) (G m wl : ℝ) :
    gratingDirection d.lift n.lift t.lift (.fin G) (.fin m) (.fin wl) = V3.nan ∨
    ∃ d' : V3 ℝ, gratingDirection d.lift n.lift t.lift (.fin G) (.fin m) (.fin wl) = d'.lift ∧ dot d' d' = 1 :=
  (grating_cases hd hn ht G m wl).imp (·.2) (fun h => ⟨_, h.2⟩)

/-- A well-formed optic acts without error: with a unit direction, or, if it is a grating without an order for the ray,
with a direction of `nan`s. -/
theorem do_kind {o : Optic ℝ} (h : o.WellFormed) {ray₀ ray : Ray ℝ} {x n : V3 ℝ} (hf : HitFacts o ray₀ x n)
    (hd : dot ray.direction ray.direction = 1) (land : ∀ t, 0 < t → x = ray₀.at t → ray.position = x) (sfo : Sfo) :
    (∃ d b rows, o.lift.doIntersect ray.lift x.lift (some n.lift) sfo
      = .ok ({ ray with direction := d, blocked := b }.lift, rows.map DetHit.lift) ∧ Acted o ray x d b rows) ∨
    (∃ g, o = .grating g ∧ ¬ g.Diffracts ray ∧ o.lift.doIntersect ray.lift x.lift (some n.lift) sfo
      = .ok ({ ray.lift with direction := V3.nan }, [])) := by
  by_cases hg : ∀ g, o = .grating g → g.Diffracts ray
  · exact .inl (do_good h hf hd land hg sfo)
  · push Not at hg
    obtain ⟨g, rfl, hg⟩ := hg
    cases h with
    | grating hn ht hG =>
    rename_i position n' t shape w hh G
    have hnn := hf.unit
    obtain rfl : n = g.normal := hf.grating g rfl
    have htt : dot g.tangent g.tangent = 1 ∧ g.G = some G := by
      unfold Grating.new at hG
      simp only [bind, Except.bind, pure, Except.pure] at hG
      split_ifs at hG
      split at hG <;> cases hG
      exact ⟨unit_dot ht, rfl⟩
    have h0 : ray.order ≠ 0 := fun h => hg (.inl h)
    have e : (Optic.grating g).lift.doIntersect ray.lift x.lift (some g.normal.lift) sfo
        = .ok ({ ray.lift with direction := (gratingDirection ray.direction.lift g.normal.lift g.tangent.lift (.fin G)
            (.fin ray.order) (.fin ray.wavelength)) }, []) := by
      show (do return (← g.lift.doIntersect ray.lift x.lift (some g.normal.lift), ([] : List (DetHit XR)))) = _
      unfold Grating.doIntersect
      rw [show ray.lift.order = XR.fin ray.order from rfl, xlit0, XR.fin_eqb, decide_eq_false h0, if_neg (by decide)]
      unfold Ray.reflect
      rw [if_neg (by decide), if_pos rfl]
      simp only [show g.lift.G = some (XR.fin G) by show g.G.map _ = _; rw [htt.2]; rfl, need, bind, Except.bind, pure,
        Except.pure]
      rfl
    rcases grating_kind hd hnn htt.1 G ray.order ray.wavelength with h1 | ⟨d', h1, h2⟩
    · right
      refine ⟨g, rfl, hg, ?_⟩
      rw [e, h1]
    · left
      refine ⟨d', ray.blocked, [], ?_, h2, fun D e => (by cases e), fun _ => ⟨rfl, rfl⟩⟩
      rw [e, h1]; rfl

end Optics
