import Verif.Spec.Routes
import Verif.Lemmas.FlatOptics

/-!
# Runs along routes through flat optics
-/

namespace Optics
open V3

theorem Optic.IsFlat.flat {c n : V3 ℝ} (hn : n ≠ ⟨0, 0, 0⟩) {o : Optic ℝ} (h : o.IsFlat c n) : ∃ Q, FlatOptic o c n Q := by
  cases h with
  | discMirror hD ht hf hdmd hm => exact ⟨_, mirrorDisc_flat hn hD ht hf hdmd hm⟩
  | rectangleMirror ht hw hh hD hf hdmd hm => exact ⟨_, mirror_flat hn ht hw hh hD hf hdmd hm⟩
  | lens hD hf hi hl => exact ⟨_, (benchLens_flat hn hD hf hi hl).1⟩
  | grating ht hw hh hg => exact ⟨_, (grating_flat hn ht hw hh hg).1⟩
  | detector ht hw hh hd => exact ⟨_, (detector_flat hn ht hw hh hd).1⟩

/-- What is known of a reported hit. -/
theorem FlatOptic.facts {o : Optic ℝ} {c n : V3 ℝ} {Q : V3 ℝ → Prop} (h : FlatOptic o c n Q) {r : Ray ℝ}
    (hd : dot r.direction r.direction = 1) {x k : V3 ℝ} (hr : o.Reports r x k) : HitFacts o r x k := by
  obtain ⟨sfo, e⟩ := hr
  obtain ⟨pt, m, e1, e2, h3⟩ := test_good h.wellFormed r hd e rfl
  simp only [Option.some.injEq] at e1 e2
  subst e1 e2
  rcases h3 with h3 | ⟨x', m', h4, h5, h6⟩
  · have := congrArg V3.x h3
    cases this
  · rw [lift_inj h4, lift_inj h5]; exact h6

/-- The reflection by the code is the reflected direction of the law. -/
theorem specular_toE {n : V3 ℝ} (hn : n ≠ ⟨0, 0, 0⟩) {d : V3 ℝ} (hd : dot d d = 1) {d' : E3} (h : Reflected n.toE d.toE d') :
    (specular d (unitVector n)).toE = d' ∧ dot (specular d (unitVector n)) (specular d (unitVector n)) = 1 := by
  have hu : dot (unitVector n) (unitVector n) = 1 := unit_dot hn
  have hr0 : d ≠ ⟨0, 0, 0⟩ := ne_zero_of_dot_one hd
  have a := specular_reflected hr0 (ne_zero_of_dot_one hu)
  have hn0 : n.toE ≠ 0 := by rw [← norm_ne_zero_iff, norm_toE]; exact (norm_pos hn).ne'
  have hd0 : d.toE ≠ 0 := by rw [← norm_ne_zero_iff, norm_toE]; exact (norm_pos hr0).ne'
  rw [show (unitVector n).toE = (1 / norm n) • n.toE by rw [unitVector_eq, toE_smul]] at a
  refine ⟨Reflected.unique hn0 hd0 (Reflected.of_smul ?_ a) h, ?_⟩
  · have := (norm_pos hn).ne'
    positivity
  · rw [specular_eq hr0 (ne_zero_of_dot_one hu)]
    exact specular_unit hr0 (ne_zero_of_dot_one hu)

/-- The axis of the law is the oriented normal of the code. -/
theorem AxisAlong.eq {n d : V3 ℝ} (hn : n ≠ ⟨0, 0, 0⟩) {a : E3} (h : AxisAlong n.toE d.toE a) :
    a = (orientedNormal (unitVector n) d).toE ∧ 0 < |dot d (unitVector n)| := by
  obtain ⟨h1, ⟨k, rfl⟩, h3⟩ := h
  have hN := norm_pos hn
  rw [inner_smul_right, inner_toE] at h3
  rw [_root_.norm_smul, norm_toE, Real.norm_eq_abs] at h1
  have hdn : dot d n ≠ 0 := by intro e; rw [e, mul_zero] at h3; exact lt_irrefl _ h3
  have e0 : dot d (unitVector n) = dot d n / norm n := by rw [unitVector, dot_div_right]
  refine ⟨?_, by rw [e0]; positivity⟩
  unfold orientedNormal
  rw [lit0, dot_comm, e0, unitVector_eq, ← toE_smul]
  congr 1
  rcases lt_or_gt_of_ne hdn with h | h
  · have hk : k < 0 := by by_contra hc; nlinarith [not_lt.mp hc]
    rw [if_pos (div_neg_of_neg_of_pos h hN)]
    rw [abs_of_neg hk] at h1
    have : k = -(1 / norm n) := by field_simp; linarith
    rw [this]; ext <;> simp
  · have hk : 0 < k := by by_contra hc; nlinarith [not_lt.mp hc]
    rw [if_neg (not_lt.mpr (div_pos h hN).le)]
    rw [abs_of_pos hk] at h1
    have : k = 1 / norm n := by field_simp; linarith
    rw [this]

theorem withinTolerance_iff (d a : V3 ℝ) : WithinTolerance d.toE a.toE ↔ allclose d a 1e-10 atolDefault = true := by
  unfold WithinTolerance
  simp only [allclose, isclose, Bool.and_eq_true, decide_eq_true_eq, real_abs, atolDefault, Fin.forall_fin_succ]
  simp only [V3.toE, and_assoc]
  constructor
  · rintro ⟨h1, h2, h3, -⟩
    exact ⟨decide_eq_true h1, decide_eq_true h2, decide_eq_true h3⟩
  · rintro ⟨h1, h2, h3⟩
    exact ⟨of_decide_eq_true h1, of_decide_eq_true h2, of_decide_eq_true h3, fun i => i.elim0⟩

/-- A unit vector with a given multiple. -/
theorem unitVector_of_smul {v u : V3 ℝ} {s : ℝ} (hs : 0 < s) (hu : dot u u = 1) (h : v = s * u) : unitVector v = u := by
  rw [h, unitVector_smul hs, unitVector_of_unit hu]

/-- The lens of the code follows the law. -/
theorem lens_turns {c n : V3 ℝ} (hn : n ≠ ⟨0, 0, 0⟩) {D f' index : ℝ} (hD : D ≠ 0) (hf' : f' ≠ 0) (hi : 0 < index)
    {w h : Option ℝ} {type : String} {l : Lens ℝ}
    (hl : Lens.new c (some n) "spherical_biconvex" (some D) w h (some f') type index = .ok l)
    {ray : Ray ℝ} (hd : dot ray.direction ray.direction = 1) (hplane : dot (ray.position - c) (unitVector n) = 0)
    {wl m : ℝ} {d' : V3 ℝ} (ht : Turns n wl m ray.position ray.direction.toE d'.toE (.lens l)) (k : Option (V3 ℝ)) (sfo : Sfo) :
    l.doIntersect ray ray.position k sfo = .ok { ray with direction := d' } ∧ dot d' d' = 1 := by
  obtain ⟨-, l1, l2, l3, -⟩ := benchLens_flat hn hD hf' hi hl
  have hu := unit_dot hn
  have hmo : dot (orientedNormal (unitVector n) ray.direction) (orientedNormal (unitVector n) ray.direction) = 1 := by
    rw [orientedNormal_self, hu]
  unfold Lens.doIntersect
  cases ht with
  | @lens _ f a ht hf hpos ha hs hclear hT =>
    obtain ⟨rfl, hab⟩ := ha.eq hn
    obtain ⟨g1, g2, g3⟩ := hT
    rw [inner_toE, orientedNormal_dot] at hs
    rw [inner_toE] at g2
    rw [norm_toE, norm_eq_one_iff] at g1
    refine ⟨?_, g1⟩
    rw [if_pos ht]
    unfold Ray.refract
    rw [if_pos rfl]
    simp only [l2, hf, need, bind, Except.bind, pure, Except.pure]
    rw [thinLens_eq hd hu hs]
    have hκ : dot d' (orientedNormal (unitVector n) ray.direction) ≠ 0 := g2.ne'
    -- the vector of the code is a multiple of the outgoing direction
    have key : (f / |dot ray.direction (unitVector n)|) * ray.direction - (ray.position - l.position)
        = (f / dot d' (orientedNormal (unitVector n) ray.direction)) * d' := by
      apply toE_injective
      rw [inner_toE, inner_toE, orientedNormal_dot] at g3
      rw [toE_sub, toE_smul, toE_smul, toE_sub, div_eq_mul_inv f, div_eq_mul_inv f, mul_smul, mul_smul, g3, smul_sub, smul_smul f f⁻¹,
        mul_inv_cancel₀ hpos.ne', one_smul]
    have hmul : 0 < f / dot d' (orientedNormal (unitVector n) ray.direction) := div_pos hpos g2
    split_ifs with hc
    · have e := hclear ((withinTolerance_iff _ _).mpr hc)
      have e' := toE_injective e
      rw [← e']
      have h1 : |dot ray.direction (unitVector n)| = 1 := by
        rw [← orientedNormal_dot, ← e', hd]
      rw [h1, div_one] at key
      rw [unitVector_of_smul hmul g1 key]
    · rw [unitVector_of_smul hmul g1 key]
  | collimator ht ha =>
    obtain ⟨e, -⟩ := ha.eq hn
    have e := toE_injective e
    subst e
    refine ⟨?_, hmo⟩
    rw [if_neg (by rw [ht]; decide), if_pos ht]
    unfold Ray.refract
    rw [if_neg (by decide), if_pos rfl]
    simp only [l2, need, bind, Except.bind, pure, Except.pure]
    unfold collimateDirection
    rw [unitVector_of_unit hmo]
  | @focuser _ f s a ht hf hpos ha hu' hs hT =>
    obtain ⟨rfl, -⟩ := ha.eq hn
    rw [norm_toE, norm_eq_one_iff] at hu'
    refine ⟨?_, hu'⟩
    rw [if_neg (by rw [ht]; decide), if_neg (by rw [ht]; decide), if_pos ht]
    unfold Ray.refract
    rw [if_neg (by decide), if_neg (by decide), if_pos rfl]
    simp only [l2, hf, need, bind, Except.bind, pure, Except.pure]
    unfold focusDirection
    have : l.position + f * orientedNormal (unitVector n) ray.direction - ray.position = s * d' := by
      apply toE_injective
      rw [toE_sub, toE_add, toE_smul, ← hT, toE_smul]
      abel
    change Except.ok { ray with direction := unitVector (l.position + f * orientedNormal (unitVector n) ray.direction - ray.position) } = _
    rw [unitVector_of_smul hs hu' this]

/-- The grating of the code follows the law. -/
theorem grating_turns {c n t : V3 ℝ} (hn : n ≠ ⟨0, 0, 0⟩) (ht : t ≠ ⟨0, 0, 0⟩) {w h G' : ℝ} (hw : 0 < w) (hh : 0 < h)
    {g : Grating ℝ} (hg : Grating.new c n t "rectangular_flat" (some w) (some h) (some G') = .ok g)
    {ray : Ray ℝ} (hd : dot ray.direction ray.direction = 1) {x d' : V3 ℝ}
    (hT : Turns n ray.wavelength ray.order x ray.direction.toE d'.toE (.grating g)) (pt : V3 ℝ) :
    g.Diffracts ray ∧ g.doIntersect ray pt (some (unitVector n)) = .ok { ray with direction := d' } ∧ dot d' d' = 1 := by
  obtain ⟨-, g1, g2, g3⟩ := grating_flat hn ht hw hh hg
  have hu := unit_dot hn
  have hut := unit_dot ht
  cases hT with
  | zeroOrder hm hR =>
    obtain ⟨e1, e2⟩ := specular_toE hn hd hR
    have e1 := toE_injective e1
    subst e1
    refine ⟨.inl hm, ?_, e2⟩
    unfold Grating.doIntersect
    rw [if_pos (by rw [hm, real_eqb, lit0]; simp)]
    rfl
  | @grating _ e e' θ θ' G he he' hm hG hp hu' hgroove hfront hside hi ho hθ' heq =>
    obtain rfl := toE_injective he
    obtain rfl := toE_injective he'
    rw [norm_toE, norm_eq_one_iff] at hu'
    have hM : MeetsGrating ray.direction g.normal g.tangent :=
      ⟨by rw [norm_toE, norm_eq_one_iff]; exact hd, by rw [g1, norm_toE, norm_eq_one_iff]; exact hu,
        by rw [g2, norm_toE, norm_eq_one_iff]; exact hut, hp, hfront⟩
    obtain ⟨-, hnn, htt, hperp, hf, h0⟩ := hM.facts
    obtain ⟨hc, hlo, hhi, hb⟩ := hM.angle
    obtain ⟨hpol, -, -⟩ := direction_polar hnn htt hperp h0
    have hN : 0 < planeLength ray.direction g.tangent := norm_pos h0
    obtain ⟨hE, hsq⟩ := grating_eq hd hnn htt hperp h0 G ray.order ray.wavelength
    have hside' := hside
    rw [inner_toE, hb] at hside'
    have hsin : Real.sin (gratingAlpha ray.direction g.normal g.tangent) ≤ 0 := by
      by_contra hc
      have := mul_pos hN (not_le.mp hc)
      linarith
    have hα : gratingAlpha ray.direction g.normal g.tangent ≤ 0 := by
      by_contra hpos
      have := Real.sin_pos_of_pos_of_lt_pi (not_le.mp hpos) (by linarith [Real.pi_pos])
      linarith
    have hθ : Real.sin θ = Real.sin (gratingAlpha ray.direction g.normal g.tangent) :=
      hi.sin_eq hnn htt hperp ⟨_, _, hN, hpol⟩
    have hval : G / 1e6 * ray.order * ray.wavelength - Real.sin |gratingAlpha ray.direction g.normal g.tangent| = Real.sin (-θ') := by
      rw [← heq, abs_of_nonpos hα]
      simp only [Real.sin_neg, hθ]
      ring
    have hsol : |G / 1e6 * ray.order * ray.wavelength - inPlaneSine g.normal g.tangent ray.direction| ≤ 1 := by
      rw [inPlaneSine_eq hnn htt hperp h0, hval]
      exact Real.abs_sin_le_one _
    have hpar : ∀ c : ℝ, ray.direction ≠ c * g.tangent := by
      intro c e
      rw [e, dot_smul_left, dot_comm, hperp, mul_zero] at hf
      exact lt_irrefl _ hf
    refine ⟨.inr ⟨hp, hpar, G, hG, hsol⟩, ?_, hu'⟩
    unfold Grating.doIntersect
    rw [if_neg (by rw [real_eqb, lit0]; simpa using hm), ← g1, grating_reflect ray g.normal g.tangent G _ rfl hG, hE]
    have hβ : gratingBeta ray.direction g.normal g.tangent (G / 1e6 * ray.order * ray.wavelength) = -θ' := by
      unfold gratingBeta
      rw [hval]
      have := abs_le.mp hθ'
      exact Real.arcsin_sin (by linarith) (by linarith)
    rw [hβ, abs_of_nonpos hα]
    obtain ⟨a, ρ, hρ, e⟩ := ho
    have ha : a = dot ray.direction g.tangent := by
      rw [inner_toE, inner_toE, e, polar_dot_t htt hperp] at hgroove
      exact hgroove
    have hρ' : ρ = planeLength ray.direction g.tangent := by
      rw [e, polar_self hnn htt hperp, ha] at hu'
      have : ρ ^ 2 = planeLength ray.direction g.tangent ^ 2 := by linarith
      have := abs_eq_abs.mpr (sq_eq_sq_iff_eq_or_eq_neg.mp this)
      rwa [abs_of_pos hρ, abs_of_pos hN] at this
    rw [e, ha, hρ']
    congr 4
    ring

/-- What the optic at an inner corner does to the ray. -/
theorem turn_acts {optics : List (Optic ℝ)} {u v w : Vertex} {o : Optic ℝ} {n : V3 ℝ} (hM : Meets optics u v o n) {r : Ray ℝ}
    (hn : n ≠ ⟨0, 0, 0⟩) (hd : dot r.direction r.direction = 1) (hdir : r.direction.toE = heading u v)
    (hT : Turns n r.wavelength r.order v.point (heading u v) (heading v w) o) (hr : o.Reports r v.point (unitVector n)) (sfo : Sfo) :
    ∃ d', d'.toE = heading v w ∧ dot d' d' = 1 ∧
      o.lift.doIntersect (r.movedTo v.point).lift v.point.lift (some (unitVector n).lift) sfo
        = .ok ({ r.movedTo v.point with direction := d' }.lift, []) := by
  obtain ⟨c, hc⟩ := hM.flat
  obtain ⟨Q, hF⟩ := hc.flat hn
  have hfacts := hF.facts hd hr
  obtain ⟨hon, -⟩ := (hF.canBeHit_iff hn _).mp hM.hit
  obtain ⟨d', hd'⟩ := toE_surjective (heading v w)
  rw [← hdir, ← hd'] at hT
  refine ⟨d', hd', ?_⟩
  have fin : dot d' d' = 1 → (∀ g, o = .grating g → g.Diffracts (r.movedTo v.point)) →
      o.doIntersect (r.movedTo v.point) v.point (some (unitVector n)) sfo = .ok ({ r.movedTo v.point with direction := d' }, []) →
      dot d' d' = 1 ∧ o.lift.doIntersect (r.movedTo v.point).lift v.point.lift (some (unitVector n).lift) sfo
        = .ok ({ r.movedTo v.point with direction := d' }.lift, []) := by
    intro h1 h2 h3
    refine ⟨h1, ?_⟩
    rw [act_lift hF.wellFormed (ray := r.movedTo v.point) hfacts hd (fun _ _ _ => rfl) h2, h3]
    rfl
  cases hc with
  | @discMirror D t w' h f type dmd m hD ht hf hdmd hm =>
    obtain ⟨e1, e2⟩ := mirror_new_facts hm
    cases hT with
    | mirror ht hR =>
      obtain ⟨k1, k2⟩ := specular_toE hn hd hR
      obtain rfl := toE_injective k1
      refine fin k2 (fun g e => by cases e) ?_
      show (do return (← m.doIntersect _ _ _, [])) = _
      unfold Mirror.doIntersect
      rw [if_pos ht]; rfl
    | micromirrors ht hR =>
      have hdu : dot m.dmdNormal m.dmdNormal = 1 := by rw [e2]; exact unit_dot hdmd
      obtain ⟨k1, k2⟩ := specular_toE (ne_zero_of_dot_one hdu) hd hR
      rw [unitVector_of_unit hdu] at k1 k2
      obtain rfl := toE_injective k1
      refine fin k2 (fun g e => by cases e) ?_
      show (do return (← m.doIntersect _ _ _, [])) = _
      unfold Mirror.doIntersect
      rw [if_neg (by rw [ht]; decide), if_pos ht]; rfl
  | @rectangleMirror t w' h D f type dmd m ht hw hh hD hf hdmd hm =>
    obtain ⟨e1, e2⟩ := mirror_new_facts hm
    cases hT with
    | mirror ht hR =>
      obtain ⟨k1, k2⟩ := specular_toE hn hd hR
      obtain rfl := toE_injective k1
      refine fin k2 (fun g e => by cases e) ?_
      show (do return (← m.doIntersect _ _ _, [])) = _
      unfold Mirror.doIntersect
      rw [if_pos ht]; rfl
    | micromirrors ht hR =>
      have hdu : dot m.dmdNormal m.dmdNormal = 1 := by rw [e2]; exact unit_dot hdmd
      obtain ⟨k1, k2⟩ := specular_toE (ne_zero_of_dot_one hdu) hd hR
      rw [unitVector_of_unit hdu] at k1 k2
      obtain rfl := toE_injective k1
      refine fin k2 (fun g e => by cases e) ?_
      show (do return (← m.doIntersect _ _ _, [])) = _
      unfold Mirror.doIntersect
      rw [if_neg (by rw [ht]; decide), if_pos ht]; rfl
  | @lens D f index w' h type l hD hf hi hl =>
    obtain ⟨k1, k2⟩ := lens_turns hn hD hf hi hl (ray := r.movedTo v.point) hd hon hT (some (unitVector n)) sfo
    refine fin k2 (fun g e => by cases e) ?_
    show (do return (← l.doIntersect (r.movedTo v.point) (r.movedTo v.point).position (some (unitVector n)) sfo, [])) = _
    rw [k1]; rfl
  | @grating t w' h G g ht hw hh hg =>
    obtain ⟨k1, k2, k3⟩ := grating_turns hn ht hw hh hg (ray := r.movedTo v.point) hd hT v.point
    refine fin k3 (fun g' e => by cases e; exact k1) ?_
    show (do return (← g.doIntersect _ _ _, [])) = _
    rw [k2]; rfl
  | detector ht hw hh hd' => cases hT

end Optics
