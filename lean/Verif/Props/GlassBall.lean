import Verif.Lemmas.BallHit

/-!
# C56: a glass ball
-/

namespace Optics
open V3

theorem sinIncidence_smul {a d : E3} {c : ℝ} (hc : c ≠ 0) : sinIncidence (c • a) d = sinIncidence a d := by
  unfold sinIncidence
  rcases lt_or_gt_of_ne hc with h | h
  · rw [InnerProductGeometry.angle_smul_right_of_neg _ _ h, InnerProductGeometry.angle_neg_right, Real.sin_pi_sub]
  · rw [InnerProductGeometry.angle_smul_right_of_pos _ _ h]

theorem Refracted.neg {η₁ η₂ : ℝ} {n d d' : E3} (h : Refracted η₁ η₂ (-n) d d') : Refracted η₁ η₂ n d d' where
  unit := h.unit
  surface := by
    have := h.surface
    simpa only [tangential, inner_neg_right, neg_smul_neg] using this
  farSide := by
    have := h.farSide
    simpa only [inner_neg_right, neg_mul_neg] using this

/-- Snell's law as implemented, handed a normal along `± a`. -/
theorem snell_glass (ray : Ray ℝ) (hd : ‖ray.direction.toE‖ = 1) (attrs : OpticAttrs ℝ) (pt k a : V3 ℝ)
    (η₁ η₂ : ℝ) (h1 : 0 < η₁) (h2 : 0 < η₂) (ha : a ≠ ⟨0, 0, 0⟩) (hk : k = unitVector a ∨ k = -unitVector a) :
    ∃ d', ray.refract "snells_law" (some k) attrs pt (some η₁) (some η₂) = .ok { ray with direction := d' } ∧
      GlassLaw η₁ η₂ a.toE ray.direction.toE d'.toE := by
  have hu := unit_dot ha
  have hk1 : ‖k.toE‖ = 1 := by
    rw [norm_toE, norm_eq_one_iff]
    rcases hk with rfl | rfl
    · exact hu
    · rw [dot_neg_left, dot_neg_right, neg_neg]; exact hu
  have h0 : ‖a.toE‖ ≠ 0 := by rw [norm_toE]; exact (norm_pos ha).ne'
  have hU : (unitVector a).toE = ‖a.toE‖⁻¹ • a.toE := by rw [unitVector_eq, toE_smul, ← norm_toE, one_div]
  obtain ⟨c, hc, hkc⟩ : ∃ c : ℝ, c ≠ 0 ∧ k.toE = c • a.toE := by
    rcases hk with rfl | rfl
    · exact ⟨_, inv_ne_zero h0, hU⟩
    · exact ⟨_, neg_ne_zero.mpr (inv_ne_zero h0), by rw [toE_neg, hU, neg_smul]⟩
  obtain ⟨d', e, hu', hrefl, hrefr⟩ := C32_total_internal_reflection ray k attrs pt η₁ η₂ h1 h2 hd hk1
  have hs : sinIncidence k.toE ray.direction.toE = sinIncidence a.toE ray.direction.toE := by
    rw [hkc, sinIncidence_smul hc]
  rw [hs] at hrefl hrefr
  refine ⟨d', e, hu', fun h => ?_, fun h => ?_⟩
  · have := hrefr (by rw [div_mul_eq_mul_div, div_le_one h2]; exact h)
    rw [← hU]
    rcases hk with rfl | rfl
    · exact this
    · rw [toE_neg] at this; exact this.neg
  · have := hrefl (by rw [div_mul_eq_mul_div, one_lt_div h2]; exact h)
    rw [hkc] at this
    exact this.of_smul hc

/-- The unit normal of a sphere at one of its points is along the radius. -/
theorem sphere_normal_unitVector (s : Sphere ℝ) (hR : s.R ≠ 0) {x : V3 ℝ} (h : OnSphere s.center s.R x) :
    x - s.center ≠ ⟨0, 0, 0⟩ ∧ -s.normal x = unitVector (x - s.center) := by
  have hn : V3.norm (x - s.center) = |s.R| := by
    have : ‖(x - s.center).toE‖ = |s.R| := by
      rw [norm_toE, ← dist_toE_eq]; exact h
    rwa [norm_toE] at this
  refine ⟨fun e => ?_, ?_⟩
  · rw [e] at hn
    have : V3.norm (⟨0, 0, 0⟩ : V3 ℝ) = 0 := by simp [V3.norm, dot]
    exact hR (abs_eq_zero.mp (by rw [← hn, this]))
  · rw [sphere_normal s x h, unitVector_eq, hn]
    ext <;> simp only [neg_x, neg_y, neg_z, smul_x, smul_y, smul_z, sub_x, sub_y, sub_z] <;> ring

theorem FirstOnSphere.unique {c : V3 ℝ} {R : ℝ} {p d : V3 ℝ} {t u : ℝ} (h : FirstOnSphere c R p d t)
    (h' : FirstOnSphere c R p d u) : t = u :=
  le_antisymm (h.first u h'.ahead h'.on) (h'.first t h.ahead h.on)

/-- The `Lens` made of one ball. -/
structure IsBallLens (l : Lens ℝ) (c : V3 ℝ) (D index : ℝ) : Prop where
  shape : l.shape = "spherical"
  surfaces : l.surfaces = [.sphere ⟨c, D / 2, D⟩]
  index : l.index = index

theorem ballLens_new {c : V3 ℝ} {n : Option (V3 ℝ)} {D : ℝ} {w h f : Option ℝ} {type : String} {index : ℝ} {l : Lens ℝ}
    (hl : Lens.new c n "spherical" (some D) w h f type index = .ok l) :
    l.type = type ∧ IsBallLens l c D index := by
  simp only [Lens.new, bind, Except.bind, pure, Except.pure, Sphere.new, checkRAndD, lit2] at hl
  rw [if_neg (by decide), if_pos trivial] at hl
  obtain rfl := Except.ok.inj hl
  exact ⟨rfl, rfl, rfl, rfl⟩

theorem ballLens_test {l : Lens ℝ} {c : V3 ℝ} {D index : ℝ} (hl : IsBallLens l c D index) (ray : Ray ℝ)
    (hd : dot ray.direction ray.direction = 1) (hT : ¬ Tangent c (D / 2) ray.position ray.direction) :
    ((∀ t, 1e-12 < t → ¬ OnSphere c (D / 2) (lineAt ray.position ray.direction t)) ∧
      ∃ b, l.testIntersect ray = .ok ⟨false, none, none, .bool b⟩) ∨
    ∃ t, FirstOnSphere c (D / 2) ray.position ray.direction t ∧
      ∃ b, l.testIntersect ray = .ok ⟨true, some (lineAt ray.position ray.direction t),
          some (-(⟨c, D / 2, D⟩ : Sphere ℝ).normal (lineAt ray.position ray.direction t)), .bool b⟩ ∧
        (b = true ↔ inner ℝ (lineAt ray.position ray.direction t - c).toE ray.direction.toE < 0) ∧
        (b = false ↔ 0 < inner ℝ (lineAt ray.position ray.direction t - c).toE ray.direction.toE) := by
  have e : ∀ v, [Shape.sphere (⟨c, D / 2, D⟩ : Sphere ℝ)].foldlM (lensSphereStep ray) v
      = lensSphereStep ray v (.sphere ⟨c, D / 2, D⟩) := by
    intro v
    rw [List.foldlM_cons]
    cases lensSphereStep ray v (.sphere ⟨c, D / 2, D⟩) <;> rfl
  have h0 : ¬ l.shape = "spherical_biconvex" := by rw [hl.shape]; decide
  unfold Lens.testIntersect
  rw [if_neg h0, if_pos hl.shape, hl.surfaces]
  simp only [e, lensSphereStep, bind, Except.bind, pure, Except.pure, bound]
  rcases ball_hit ⟨c, D / 2, D⟩ ray hd hT with ⟨hs, hno⟩ | ⟨t, far, mm, ht, hi, hs, hf⟩ | ⟨t, ht, hi, hs⟩
  · rw [hs]
    exact .inl ⟨hno, _, rfl⟩
  · rw [hs, if_pos (show (Hit6.two _ _ _ _ _).hit = true from rfl), sphereUpdate_enter _ _ _ _ _ _ hf]
    exact .inr ⟨t, ht, true, by simp [Hit6.two], ⟨fun _ => hi, fun _ => rfl⟩, ⟨fun h => (by cases h), fun h => absurd h hi.not_gt⟩⟩
  · rw [hs, if_pos (show (Hit6.one _ _ _).hit = true from rfl), sphereUpdate_leave]
    exact .inr ⟨t, ht, false, rfl, ⟨fun h => (by cases h), fun h => absurd h hi.not_gt⟩, ⟨fun _ => hi, fun _ => rfl⟩⟩

theorem distance_lineAt {p d : V3 ℝ} (hd : dot d d = 1) {t : ℝ} (ht : 0 ≤ t) : distanceBetween p (lineAt p d t) = t := by
  rw [distanceBetween, norm_sub_comm, lineAt, add_sub_cancel', V3.norm_smul, norm_eq_one_iff.mpr hd,
        abs_of_nonneg ht, mul_one]

/-- C56: one pass of `run` over a glass ball alone, for a ray whose line does not touch it and whose first point on
it is within the remaining distance: the ray is moved to that point, counted as one interaction, and bent by Snell's
law about the radius there, from index 1 to the ball's if it goes inwards and back if it goes outwards (it does one
or the other). -/
theorem C56_ball (c : V3 ℝ) (n : Option (V3 ℝ)) (D : ℝ) (hD : D ≠ 0) (w h f : Option ℝ) (type : String)
    (hty : type ≠ "ideal" ∧ type ≠ "ideal_collimate" ∧ type ≠ "ideal_focus") (index : ℝ) (hi : 0 < index)
    (l : Lens ℝ) (hl : Lens.new c n "spherical" (some D) w h f type index = .ok l) (md : ℝ) (s : RunState ℝ)
    (hd : ‖s.ray.direction.toE‖ = 1) (hf : s.ray.type ≠ "faerie_fire")
    (hT : ¬ Tangent c (D / 2) s.ray.position s.ray.direction) (t : ℝ)
    (ht : FirstOnSphere c (D / 2) s.ray.position s.ray.direction t) (hrem : t ≤ s.remaining) :
    let x := lineAt s.ray.position s.ray.direction t
    ∃ s', runStep md [.lens l] s = .next s' ∧
      s'.remaining = s.remaining - t ∧ s'.interactions = s.interactions + 1 ∧ s'.log = s.log ∧
      s'.ray = { s.ray.movedTo x with direction := s'.ray.direction } ∧
      (inner ℝ (x - c).toE s.ray.direction.toE < 0 ∨ 0 < inner ℝ (x - c).toE s.ray.direction.toE) ∧
      (inner ℝ (x - c).toE s.ray.direction.toE < 0 →
        GlassLaw 1 index (x - c).toE s.ray.direction.toE s'.ray.direction.toE) ∧
      (0 < inner ℝ (x - c).toE s.ray.direction.toE →
        GlassLaw index 1 (x - c).toE s.ray.direction.toE s'.ray.direction.toE) := by
  intro x
  have hd' : dot s.ray.direction s.ray.direction = 1 := by rwa [norm_toE, norm_eq_one_iff] at hd
  obtain ⟨hlt, hball⟩ := ballLens_new hl
  have hR : (⟨c, D / 2, D⟩ : Sphere ℝ).R ≠ 0 := by simp [hD]
  have h12 : (0 : ℝ) < 1e-12 := by norm_num
  rcases ballLens_test hball s.ray hd' hT with ⟨hno, -⟩ | ⟨u, hu, b, e, hb1, hb2⟩
  · exact absurd ht.on (hno t ht.ahead)
  obtain rfl := ht.unique hu
  have hdist : distanceBetween s.ray.position x = t := distance_lineAt hd' (by linarith [ht.ahead])
  have hscan : scan [.lens l] s = .ok ⟨true, some (distanceBetween s.ray.position x),
      some ⟨.lens l, x, some (-(⟨c, D / 2, D⟩ : Sphere ℝ).normal x)⟩, some (.bool b)⟩ := by
    rw [scan_one]
    exact scanStep_new (o := .lens l) rfl e rfl rfl (by rw [hdist]; exact not_lt.mpr hrem)
      (by rw [hdist, clippingFloor_eq]; exact ht.ahead) (ltMin_none _)
  have hfl : s.flown x = s.ray.movedTo x := by
    unfold RunState.flown
    rw [hdist]; rfl
  obtain ⟨hne, hnu⟩ := sphere_normal_unitVector _ hR ht.on
  obtain ⟨d', hd'', hg⟩ : ∃ d', l.doIntersect (s.ray.movedTo x) x (some (-(⟨c, D / 2, D⟩ : Sphere ℝ).normal x))
      (.bool b) = .ok { s.ray.movedTo x with direction := d' } ∧
      GlassLaw (if b then 1 else index) (if b then index else 1) (x - c).toE s.ray.direction.toE d'.toE := by
    unfold Lens.doIntersect
    simp only [hlt, if_neg hty.1, if_neg hty.2.1, if_neg hty.2.2, Sfo.truthy]
    cases b with
    | true =>
      simp only [if_true, lit1, hball.index]
      exact snell_glass (s.ray.movedTo x) hd _ _ _ (x - c) 1 index one_pos hi hne (.inl hnu)
    | false =>
      simp only [Bool.false_eq_true, if_false, lit1, hball.index, need, bind, Except.bind]
      exact snell_glass (s.ray.movedTo x) hd _ _ _ (x - c) index 1 hi one_pos hne (.inr (by rw [hnu]))
  have hstep := runStep_act (md := md) (ray' := { s.ray.movedTo x with direction := d' }) (hits := []) hscan rfl rfl rfl
    hf (by
      rw [hfl]
      show (do return (← l.doIntersect _ _ _ _, [])) = _
      rw [hd'']; rfl)
  refine ⟨_, hstep, by rw [hdist], rfl, List.append_nil _, rfl, ?_, fun h => ?_, fun h => ?_⟩
  · cases b with
    | true => exact .inl (hb1.mp rfl)
    | false => exact .inr (hb2.mp rfl)
  · rw [hb1.mpr h] at hg; exact hg
  · rw [hb2.mpr h] at hg; exact hg

/-- C56: a ray never undergoes total reflection on its way into a ball of index at least 1: it is refracted. -/
theorem C56_enter_refracts {index : ℝ} (hi : 1 ≤ index) {a d d' : E3} (h : GlassLaw 1 index a d d') :
    Refracted 1 index (‖a‖⁻¹ • a) d d' :=
  h.refracts (by rw [one_mul]; exact (Real.sin_le_one _).trans hi)

/-- C56: and a ray that does not reach the ball within the remaining distance flies freely to its end. -/
theorem C56_ball_missed (c : V3 ℝ) (n : Option (V3 ℝ)) (D : ℝ) (w h f : Option ℝ) (type : String)
    (index : ℝ) (l : Lens ℝ) (hl : Lens.new c n "spherical" (some D) w h f type index = .ok l) (md : ℝ)
    (s : RunState ℝ) (hd : ‖s.ray.direction.toE‖ = 1) (hT : ¬ Tangent c (D / 2) s.ray.position s.ray.direction)
    (hmiss : ∀ t, 1e-12 < t → t ≤ s.remaining → ¬ OnSphere c (D / 2) (lineAt s.ray.position s.ray.direction t)) :
    ∃ s', runStep md [.lens l] s = .next s' ∧
      s'.ray = s.ray.movedTo (lineAt s.ray.position s.ray.direction s.remaining) ∧
      s'.remaining = s.remaining - md ∧ s'.interactions = s.interactions ∧ s'.log = s.log := by
  have hd' : dot s.ray.direction s.ray.direction = 1 := by rwa [norm_toE, norm_eq_one_iff] at hd
  have h12 : (0 : ℝ) < 1e-12 := by norm_num
  obtain ⟨v, hv, hi⟩ : ∃ v, scan [.lens l] s = .ok v ∧ v.intersected = false := by
    rw [scan_one]
    rcases ballLens_test (ballLens_new hl).2 s.ray hd' hT with ⟨-, b, e⟩ | ⟨u, hu, b, e, -⟩
    · exact ⟨_, scanStep_miss (o := .lens l) rfl e rfl, rfl⟩
    · refine ⟨_, scanStep_far (o := .lens l) rfl e rfl rfl (.inl ?_), rfl⟩
      rw [distance_lineAt hd' (by linarith [hu.ahead])]
      by_contra hc
      exact hmiss u hu.ahead (not_lt.mp hc) hu.on
  exact ⟨_, runStep_free hv hi, rfl, rfl, rfl, rfl⟩

/-- `cos² = 1 - sin²` for the angle to the normal. -/
theorem inner_sq {n d : E3} (hn : ‖n‖ = 1) (hd : ‖d‖ = 1) : inner ℝ d n ^ 2 = 1 - sinIncidence n d ^ 2 := by
  rw [← norm_tangential hn hd, tangential, norm_sub_sq_real, inner_smul_right, hd, _root_.norm_smul, hn,
    Real.norm_eq_abs, mul_one, sq_abs]
  ring

/-- A refracted ray that came in at less than grazing incidence goes on at less than grazing, on the same side. -/
theorem Refracted.transversal {η₁ η₂ : ℝ} (h1 : 0 < η₁) (h2 : η₁ ≤ η₂) {n d d' : E3} (h : Refracted η₁ η₂ n d d')
    (hn : ‖n‖ = 1) (hd : ‖d‖ = 1) (hi : inner ℝ d n < 0) : inner ℝ d' n < 0 := by
  have hs := h.sines hn hd h1.le (h1.le.trans h2)
  have e := inner_sq hn hd
  have e' := inner_sq hn h.unit
  have hf := h.farSide
  have n1 := sinIncidence_nonneg n d
  have n2 := sinIncidence_nonneg n d'
  have hle : sinIncidence n d' ≤ sinIncidence n d := by
    by_contra hc
    have : η₁ * sinIncidence n d < η₂ * sinIncidence n d' := by
      have := mul_lt_mul_of_pos_left (not_le.mp hc) h1
      have := mul_le_mul_of_nonneg_right h2 n2
      linarith
    linarith
  have hpos : 0 < inner ℝ d' n ^ 2 := by
    have : 0 < inner ℝ d n ^ 2 := by have := hi.ne; positivity
    have : sinIncidence n d' ^ 2 ≤ sinIncidence n d ^ 2 := by gcongr
    linarith
  rcases lt_trichotomy (inner ℝ d' n) 0 with h | h | h
  · exact h
  · rw [h] at hpos; norm_num at hpos
  · have := mul_neg_of_neg_of_pos hi h
    linarith

/-- Where a line that starts on a sphere meets it again. -/
theorem onSphere_again (c x d : V3 ℝ) (R : ℝ) (hd : dot d d = 1) (hx : OnSphere c R x) (t : ℝ) :
    OnSphere c R (lineAt x d t) ↔ t = 0 ∨ t = -2 * inner ℝ (x - c).toE d.toE := by
  have h0 : lineAt x d 0 = x := by ext <;> simp [lineAt]
  rw [← h0, onSphere_line _ _ _ _ _ hd] at hx
  rw [onSphere_line _ _ _ _ _ hd, ← hx, inner_toE]
  have : dot d (c - x) = -dot (x - c) d := by simp only [dot, sub_x, sub_y, sub_z]; ring
  rw [this]
  constructor
  · intro h
    have : t * (t - -2 * dot (x - c) d) = 0 := by linear_combination h
    rcases mul_eq_zero.mp this with h | h
    · exact .inl h
    · exact .inr (by linarith)
  · rintro (rfl | rfl) <;> ring

theorem normalised {a : E3} (h : a ≠ 0) : ‖‖a‖⁻¹ • a‖ = 1 := by
  rw [_root_.norm_smul, norm_inv, norm_norm, inv_mul_cancel₀ (norm_ne_zero_iff.mpr h)]

/-- C72: a ray that enters a glass ball of index at least 1 from outside is refracted into it, meets its surface
again, and (if the chord is longer than the clipping floor and within the remaining distance) is refracted out of it
there; it is never totally reflected, and it leaves at the angle at which it came in. -/
theorem C72_through_ball (c : V3 ℝ) (n : Option (V3 ℝ)) (D : ℝ) (hD : D ≠ 0) (w h f : Option ℝ) (type : String)
    (hty : type ≠ "ideal" ∧ type ≠ "ideal_collimate" ∧ type ≠ "ideal_focus") (index : ℝ) (hi : 1 ≤ index)
    (l : Lens ℝ) (hl : Lens.new c n "spherical" (some D) w h f type index = .ok l) (md : ℝ) (s : RunState ℝ)
    (hd : ‖s.ray.direction.toE‖ = 1) (hf : s.ray.type ≠ "faerie_fire")
    (hT : ¬ Tangent c (D / 2) s.ray.position s.ray.direction) (t : ℝ)
    (ht : FirstOnSphere c (D / 2) s.ray.position s.ray.direction t) (hrem : t ≤ s.remaining)
    (hin : inner ℝ (lineAt s.ray.position s.ray.direction t - c).toE s.ray.direction.toE < 0) :
    let x := lineAt s.ray.position s.ray.direction t
    let d := s.ray.direction
    ∃ (s₁ : RunState ℝ) (d₁ : V3 ℝ), runStep md [.lens l] s = .next s₁ ∧ s₁.ray.position = x ∧ s₁.ray.direction = d₁ ∧
      s₁.remaining = s.remaining - t ∧
      Refracted 1 index (‖(x - c).toE‖⁻¹ • (x - c).toE) d.toE d₁.toE ∧
      let t₁ := -2 * inner ℝ (x - c).toE d₁.toE
      let x₁ := lineAt x d₁ t₁
      0 < t₁ ∧ OnSphere c (D / 2) x₁ ∧
      (1e-12 < t₁ → t₁ ≤ s₁.remaining →
        ∃ (s₂ : RunState ℝ) (d₂ : V3 ℝ), runStep md [.lens l] s₁ = .next s₂ ∧ s₂.ray.position = x₁ ∧
          s₂.ray.direction = d₂ ∧ s₂.remaining = s.remaining - t - t₁ ∧ s₂.interactions = s.interactions + 2 ∧
          s₂.ray.pointHistory = s.ray.pointHistory ++ [x, x₁] ∧
          Refracted index 1 (‖(x₁ - c).toE‖⁻¹ • (x₁ - c).toE) d₁.toE d₂.toE ∧
          sinIncidence (x₁ - c).toE d₂.toE = sinIncidence (x - c).toE d.toE ∧
          0 < inner ℝ (x₁ - c).toE d₂.toE) := by
  intro x d
  have hi0 : 0 < index := by linarith
  obtain ⟨s₁, hs₁, hrem₁, hint₁, hlog₁, hray₁, -, hg, -⟩ := C56_ball c n D hD w h f type hty index hi0 l hl md s hd hf
    hT t ht hrem
  have hR : (⟨c, D / 2, D⟩ : Sphere ℝ).R ≠ 0 := by simp [hD]
  have hr₁ := C56_enter_refracts hi (hg hin)
  have hpos₁ : s₁.ray.position = x := by rw [hray₁]; rfl
  have hty₁ : s₁.ray.type = s.ray.type := by rw [hray₁]; rfl
  have hph₁ : s₁.ray.pointHistory = s.ray.pointHistory ++ [x] := by rw [hray₁]; rfl
  have ha := (sphere_normal_unitVector ⟨c, D / 2, D⟩ hR ht.on).1
  have haE : (x - c).toE ≠ 0 := by
    intro e; exact ha (toE_injective (by rw [e]; ext i; fin_cases i <;> rfl))
  have hnu := normalised haE
  have hna := norm_pos_iff.mpr haE
  have hinv : (0 : ℝ) < ‖(x - c).toE‖⁻¹ := inv_pos.mpr hna
  have hin' : inner ℝ d.toE (‖(x - c).toE‖⁻¹ • (x - c).toE) < 0 := by
    rw [inner_smul_right, real_inner_comm]; exact mul_neg_of_pos_of_neg hinv hin
  have htr := hr₁.transversal one_pos hi hnu hd hin'
  rw [inner_smul_right] at htr
  have hin₁ : inner ℝ (x - c).toE s₁.ray.direction.toE < 0 := by
    rw [real_inner_comm]
    by_contra hc
    exact absurd htr (not_lt.mpr (mul_nonneg hinv.le (not_lt.mp hc)))
  refine ⟨s₁, s₁.ray.direction, hs₁, hpos₁, rfl, hrem₁, hr₁, ?_⟩
  intro t₁ x₁
  have hd₁ : dot s₁.ray.direction s₁.ray.direction = 1 := by
    have := hr₁.unit; rwa [norm_toE, norm_eq_one_iff] at this
  have hagain := onSphere_again c x s₁.ray.direction (D / 2) hd₁ ht.on
  have ht₁ : 0 < t₁ := by simp only [t₁]; linarith
  have hon₁ : OnSphere c (D / 2) x₁ := (hagain t₁).mpr (.inr rfl)
  refine ⟨ht₁, hon₁, fun hclip hrem₂ => ?_⟩
  have hT₁ : ¬ Tangent c (D / 2) s₁.ray.position s₁.ray.direction := by
    rw [tangent_iff _ _ _ _ hd₁, hpos₁]
    intro e
    have h0 : lineAt x s₁.ray.direction 0 = x := by ext <;> simp [lineAt]
    have := ht.on
    rw [← show lineAt x s₁.ray.direction 0 = lineAt s.ray.position s.ray.direction t from h0,
      onSphere_line _ _ _ _ _ hd₁, e] at this
    have h1 : dot s₁.ray.direction (c - x) = -inner ℝ (x - c).toE s₁.ray.direction.toE := by
      rw [inner_toE]; simp only [dot, sub_x, sub_y, sub_z]; ring
    rw [h1] at this
    have := hin₁.ne
    nlinarith [sq_nonneg (inner ℝ (x - c).toE s₁.ray.direction.toE)]
  have hfirst : FirstOnSphere c (D / 2) s₁.ray.position s₁.ray.direction t₁ := by
    rw [hpos₁]
    refine ⟨hclip, hon₁, fun u hu ho => ?_⟩
    rcases (hagain u).mp ho with e | e
    · rw [e] at hu; norm_num at hu
    · exact e.ge
  obtain ⟨s₂, hs₂, hrem₃, hint₂, -, hray₂, -, -, hg₂⟩ := C56_ball c n D hD w h f type hty index hi0 l hl md s₁ hr₁.unit
    (by rw [hty₁]; exact hf) hT₁ t₁ hfirst hrem₂
  rw [hpos₁] at hray₂ hg₂
  have hout : inner ℝ (x₁ - c).toE s₁.ray.direction.toE = -inner ℝ (x - c).toE s₁.ray.direction.toE := by
    rw [inner_toE, dot_radius _ _ _ hd₁]
    simp only [t₁]
    rw [inner_toE]
    simp only [dot, sub_x, sub_y, sub_z]; ring
  have hgl := hg₂ (by show 0 < inner ℝ (x₁ - c).toE _; rw [hout]; linarith)
  have ha₁ := (sphere_normal_unitVector ⟨c, D / 2, D⟩ hR hon₁).1
  have haE₁ : (x₁ - c).toE ≠ 0 := by
    intro e; exact ha₁ (toE_injective (by rw [e]; ext i; fin_cases i <;> rfl))
  have hnu₁ := normalised haE₁
  have hnorm : ‖(x₁ - c).toE‖ = ‖(x - c).toE‖ := by
    have h1 : ‖(x₁ - c).toE‖ = |D / 2| := by rw [norm_toE, ← dist_toE_eq]; exact hon₁
    have h2 : ‖(x - c).toE‖ = |D / 2| := by rw [norm_toE, ← dist_toE_eq]; exact ht.on
    rw [h1, h2]
  have sc : ∀ v : E3, sinIncidence (‖(x - c).toE‖⁻¹ • (x - c).toE) v = sinIncidence (x - c).toE v :=
    fun v => sinIncidence_smul hinv.ne'
  have hinv₁ : (0 : ℝ) < ‖(x₁ - c).toE‖⁻¹ := inv_pos.mpr (norm_pos_iff.mpr haE₁)
  have sc₁ : ∀ v : E3, sinIncidence (‖(x₁ - c).toE‖⁻¹ • (x₁ - c).toE) v = sinIncidence (x₁ - c).toE v :=
    fun v => sinIncidence_smul hinv₁.ne'
  -- the angle inside is the same at both ends of the chord
  have hsame : sinIncidence (x₁ - c).toE s₁.ray.direction.toE = sinIncidence (x - c).toE s₁.ray.direction.toE := by
    rw [← sc₁, ← sc]
    have e1 := inner_sq hnu hr₁.unit
    have e2 := inner_sq hnu₁ hr₁.unit
    rw [inner_smul_right, real_inner_comm] at e1 e2
    rw [hout, hnorm] at e2
    have : sinIncidence (‖(x₁ - c).toE‖⁻¹ • (x₁ - c).toE) s₁.ray.direction.toE ^ 2
        = sinIncidence (‖(x - c).toE‖⁻¹ • (x - c).toE) s₁.ray.direction.toE ^ 2 := by
      rw [hnorm]
      linear_combination e2 - e1
    exact (sq_eq_sq₀ (sinIncidence_nonneg _ _) (sinIncidence_nonneg _ _)).mp this
  have hsn := hr₁.sines hnu hd zero_le_one hi0.le
  rw [one_mul, sc, sc] at hsn
  have hle : index * sinIncidence (x₁ - c).toE s₁.ray.direction.toE ≤ 1 := by
    rw [hsame, ← hsn]; exact Real.sin_le_one _
  have hr₂ := hgl.refracts hle
  have hsn₂ := hr₂.sines hnu₁ hr₁.unit hi0.le zero_le_one
  rw [one_mul, sc₁, sc₁, hsame, ← hsn] at hsn₂
  refine ⟨s₂, s₂.ray.direction, hs₂, by rw [hray₂]; rfl, rfl, by rw [hrem₃, hrem₁], by rw [hint₂, hint₁], ?_, hr₂,
    hsn₂.symm, ?_⟩
  · rw [hray₂]
    show s₁.ray.pointHistory ++ [x₁] = _
    rw [hph₁, List.append_assoc]; rfl
  · have hfar := hr₂.farSide
    have e1 := inner_sq hnu hd
    have e2 := inner_sq hnu₁ hr₂.unit
    rw [sc] at e1
    rw [sc₁, ← hsn₂] at e2
    have hne : inner ℝ s₂.ray.direction.toE (‖(x₁ - c).toE‖⁻¹ • (x₁ - c).toE) ≠ 0 := by
      intro e0
      rw [e0] at e2
      have := hin'.ne
      have : 0 < inner ℝ d.toE (‖(x - c).toE‖⁻¹ • (x - c).toE) ^ 2 := by positivity
      rw [e1] at this
      linarith
    rw [inner_smul_right, inner_smul_right] at hfar
    rw [inner_smul_right] at hne
    rw [real_inner_comm]
    have hp : 0 < inner ℝ s₁.ray.direction.toE (x₁ - c).toE := by rw [real_inner_comm, hout]; linarith
    rcases lt_trichotomy (inner ℝ s₂.ray.direction.toE (x₁ - c).toE) 0 with h | h | h
    · have := mul_neg_of_pos_of_neg (mul_pos hinv₁ hp) (mul_neg_of_pos_of_neg hinv₁ h)
      linarith
    · rw [h, mul_zero] at hne; exact absurd rfl hne
    · exact h

/-! ## A case meeting the hypotheses -/

/-- A ray that meets a ball of radius 5 about the origin at `(4, 0, 3)`. -/
noncomputable def ballStart : RunState ℝ :=
  ⟨⟨⟨4, 0, 20⟩, ⟨0, 0, -1⟩, 532, 0, [⟨4, 0, 20⟩], false, "normal"⟩, 100, 0, none, none, []⟩

/-- With index 4/3 it goes through the ball on a chord of length 8, in two passes of the loop. -/
example : ∃ l s₁ s₂, Lens.new (⟨0, 0, 0⟩ : V3 ℝ) none "spherical" (some 10) none none none "normal" (4 / 3) = .ok l ∧
    runStep 100 [.lens l] ballStart = .next s₁ ∧ runStep 100 [.lens l] s₁ = .next s₂ ∧ s₂.remaining = 75 ∧
    s₂.interactions = 2 := by
  have hd : dot ballStart.ray.direction ballStart.ray.direction = 1 := by norm_num [ballStart, dot]
  have hd' : ‖ballStart.ray.direction.toE‖ = 1 := by rw [norm_toE, norm_eq_one_iff]; exact hd
  have hD : sphDisc ⟨0, 0, 0⟩ ballStart.ray.position ballStart.ray.direction (10 / 2) = 9 := by
    norm_num [sphDisc, ballStart, dot]
  have hq : dot ballStart.ray.direction (⟨0, 0, 0⟩ - ballStart.ray.position) = 20 := by norm_num [ballStart, dot]
  have hon := fun t => onSphere_line ⟨0, 0, 0⟩ ballStart.ray.position ballStart.ray.direction (10 / 2) t hd
  rw [hD, hq] at hon
  have hx : lineAt ballStart.ray.position ballStart.ray.direction 17 = ⟨4, 0, 3⟩ := by
    ext <;> norm_num [lineAt, ballStart]
  have hx0 : (⟨4, 0, 3⟩ : V3 ℝ) - ⟨0, 0, 0⟩ = ⟨4, 0, 3⟩ := by ext <;> norm_num
  have hn5 : ‖(⟨4, 0, 3⟩ : V3 ℝ).toE‖ = 5 := by
    rw [norm_toE, V3.norm, real_sqrt, show dot (⟨4, 0, 3⟩ : V3 ℝ) ⟨4, 0, 3⟩ = 5 * 5 by norm_num [dot]]
    exact Real.sqrt_mul_self (by norm_num)
  have hid : inner ℝ (⟨4, 0, 3⟩ : V3 ℝ).toE ballStart.ray.direction.toE = -3 := by
    rw [inner_toE]; norm_num [ballStart, dot]
  obtain ⟨l, hl⟩ : ∃ l, Lens.new (⟨0, 0, 0⟩ : V3 ℝ) none "spherical" (some 10) none none none "normal" (4 / 3) = .ok l :=
    ⟨_, rfl⟩
  have key := C72_through_ball ⟨0, 0, 0⟩ none 10 (by norm_num) none none none "normal" ⟨by decide, by decide, by decide⟩
    (4 / 3) (by norm_num) l hl 100 ballStart hd' (show "normal" ≠ "faerie_fire" by decide)
    (by rw [tangent_iff _ _ _ _ hd, hD]; norm_num) 17
    ⟨by norm_num, by rw [hon]; norm_num, fun u _ hu => by rw [hon] at hu; nlinarith⟩
    (show (17 : ℝ) ≤ 100 by norm_num) (by rw [hx, hx0, hid]; norm_num)
  simp only [hx, hx0] at key
  obtain ⟨s₁, d₁, hs₁, -, -, hrem, hr, hpos, -, hrest⟩ := key
  have hnu : ‖‖(⟨4, 0, 3⟩ : V3 ℝ).toE‖⁻¹ • (⟨4, 0, 3⟩ : V3 ℝ).toE‖ = 1 :=
    normalised (by rw [← norm_ne_zero_iff, hn5]; norm_num)
  have e1 := inner_sq hnu hd'
  have e2 := inner_sq hnu hr.unit
  have e3 := hr.sines hnu hd' zero_le_one (by norm_num)
  rw [inner_smul_right, real_inner_comm, hn5] at e1 e2
  rw [hid] at e1
  rw [hn5] at e3
  have h8 : -2 * inner ℝ (⟨4, 0, 3⟩ : V3 ℝ).toE d₁.toE = 8 := by
    have : (-2 * inner ℝ (⟨4, 0, 3⟩ : V3 ℝ).toE d₁.toE) ^ 2 = 8 ^ 2 := by
      rw [show sinIncidence ((5 : ℝ)⁻¹ • (⟨4, 0, 3⟩ : V3 ℝ).toE) d₁.toE
        = 3 / 4 * sinIncidence ((5 : ℝ)⁻¹ • (⟨4, 0, 3⟩ : V3 ℝ).toE) ballStart.ray.direction.toE by linarith] at e2
      linear_combination 100 * e2 - 100 * 9 / 16 * e1
    exact (sq_eq_sq₀ hpos.le (by norm_num)).mp this
  rw [h8] at hrest
  have hrem' : s₁.remaining = 83 := by rw [hrem]; norm_num [ballStart]
  obtain ⟨s₂, d₂, hs₂, -, -, hr2, hi2, -⟩ := hrest (by norm_num) (by rw [hrem']; norm_num)
  exact ⟨l, s₁, s₂, hl, hs₁, hs₂, by rw [hr2]; norm_num [ballStart], hi2⟩

end Optics
