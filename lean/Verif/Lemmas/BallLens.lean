import Verif.Props.GlassBall
import Verif.Props.RoundMirrors
import Verif.Props.RealRun

/-!
# Lemmas for C90: light through a glass ball
-/

namespace Optics
open V3

theorem norm_radius {a : V3 ℝ} {R : ℝ} (hR : 0 < R) (ha : dot a a = R ^ 2) : ‖a.toE‖ = R := by
  rw [norm_toE]
  have := norm_sq a
  rw [ha] at this
  exact (sq_eq_sq₀ (V3.norm_nonneg a) hR.le).mp this

/-- The refracted direction, for a normal along the radius `a`. -/
theorem refracted_radius {a d e : V3 ℝ} {R η₁ η₂ : ℝ} (hR : 0 < R) (ha : dot a a = R ^ 2)
    (h2 : 0 < η₂) (h : Refracted η₁ η₂ (‖a.toE‖⁻¹ • a.toE) d.toE e.toE) :
    e = (η₁ / η₂) * d + ((dot e a - η₁ / η₂ * dot d a) / R ^ 2) * a := by
  have hs := h.surface
  rw [norm_radius hR ha] at hs
  simp only [tangential, inner_smul_right, inner_toE] at hs
  simp only [← toE_smul, ← toE_sub] at hs
  have hs := toE_injective hs
  rw [V3.ext_iff] at hs ⊢
  simp only [add_x, add_y, add_z, sub_x, sub_y, sub_z, smul_x, smul_y, smul_z] at hs ⊢
  obtain ⟨hx, hy, hz⟩ := hs
  field_simp at hx hy hz ⊢
  exact ⟨by linarith, by linarith, by linarith⟩

/-- Snell's law at a sphere, solved: `Q` is the component of the new direction along the radius. -/
theorem glass_radius {a d e : V3 ℝ} {R η₁ η₂ Q : ℝ} (hR : 0 < R) (ha : dot a a = R ^ 2) (hd : dot d d = 1)
    (h1 : 0 < η₁) (h2 : 0 < η₂) (h : GlassLaw η₁ η₂ a.toE d.toE e.toE)
    (hQ : Q ^ 2 = R ^ 2 - (η₁ / η₂) ^ 2 * (R ^ 2 - dot d a ^ 2)) (hs : 0 < dot d a * Q) :
    Refracted η₁ η₂ (R⁻¹ • a.toE) d.toE e.toE ∧ dot e e = 1 ∧ dot e a = Q ∧ e = (η₁ / η₂) * d + ((Q - η₁ / η₂ * dot d a) / R ^ 2) * a := by
  have hn := norm_radius hR ha
  have ha0 : a.toE ≠ 0 := by intro e; rw [e, _root_.norm_zero] at hn; exact hR.ne hn
  have hu := normalised ha0
  have hdE : ‖d.toE‖ = 1 := by rw [norm_toE, norm_eq_one_iff]; exact hd
  have hsin := inner_sq hu hdE
  rw [inner_smul_right, inner_toE, hn, sinIncidence_smul (inv_ne_zero hR.ne')] at hsin
  have hsn : η₁ * sinIncidence a.toE d.toE ≤ η₂ := by
    refine le_of_sq_le_sq ?_ h2.le
    have e1 : R ^ 2 * sinIncidence a.toE d.toE ^ 2 = R ^ 2 - dot d a ^ 2 := by
      have : R ^ 2 * (R⁻¹ * dot d a) ^ 2 = dot d a ^ 2 := by field_simp
      nlinarith
    have e2 : η₁ ^ 2 * (R ^ 2 - dot d a ^ 2) ≤ η₂ ^ 2 * R ^ 2 := by
      have : 0 ≤ η₂ ^ 2 * Q ^ 2 := by positivity
      rw [hQ] at this
      have e3 : η₂ ^ 2 * (R ^ 2 - (η₁ / η₂) ^ 2 * (R ^ 2 - dot d a ^ 2))
          = η₂ ^ 2 * R ^ 2 - η₁ ^ 2 * (R ^ 2 - dot d a ^ 2) := by field_simp
      linarith
    rw [← e1] at e2
    have hR2 : 0 < R ^ 2 := by positivity
    by_contra hc
    have := mul_lt_mul_of_pos_left (not_le.mp hc) hR2
    linarith
  have hr := h.refracts hsn
  have he : dot e e = 1 := by have := h.unit; rwa [norm_toE, norm_eq_one_iff] at this
  have hform := refracted_radius hR ha h2 hr
  have hsq : dot e a ^ 2 = Q ^ 2 := by
    have h3 : dot e e = dot ((η₁ / η₂) * d + ((dot e a - η₁ / η₂ * dot d a) / R ^ 2) * a)
        ((η₁ / η₂) * d + ((dot e a - η₁ / η₂ * dot d a) / R ^ 2) * a) := by rw [← hform]
    rw [he] at h3
    generalize dot e a = q at *
    simp only [dot_add_left, dot_add_right, dot_smul_left, dot_smul_right, hd, ha, dot_comm a d] at h3
    rw [hQ]
    field_simp at h3 ⊢
    linarith
  have hfar := hr.farSide
  rw [inner_smul_right, inner_smul_right, inner_toE, inner_toE, hn] at hfar
  have hfar : 0 ≤ dot d a * dot e a := by
    have : dot d a * dot e a = R ^ 2 * (R⁻¹ * dot d a * (R⁻¹ * dot e a)) := by field_simp
    rw [this]; positivity
  have hea : dot e a = Q := by
    rcases sq_eq_sq_iff_eq_or_eq_neg.mp hsq with e | e
    · exact e
    · rw [e] at hfar; linarith
  refine ⟨by rw [hn] at hr; exact hr, he, hea, ?_⟩
  rw [hea] at hform
  exact hform

/-- A ray that leaves a sphere outwards or inwards does not touch it. -/
theorem not_tangent_of_on {c x d : V3 ℝ} {R : ℝ} (hd : dot d d = 1) (hx : OnSphere c R x) (hq : dot d (x - c) ≠ 0) :
    ¬ Tangent c R x d := by
  have hagain := onSphere_again c x d R hd hx
  rw [inner_toE, dot_comm] at hagain
  rintro ⟨s, h1, h2⟩
  have e1 : lineAt x d s - c = (x - c) + s * d := by
    unfold lineAt
    ext <;> simp only [sub_x, sub_y, sub_z, add_x, add_y, add_z, smul_x, smul_y, smul_z] <;> ring
  rw [inner_toE, e1, dot_add_left, dot_smul_left, hd, dot_comm] at h2
  rcases (hagain s).mp h1 with h3 | h3
  · rw [h3] at h2; exact hq (by linarith)
  · rw [h3] at h2; exact hq (by linarith)

theorem real_continues {s : RunState ℝ} (h : 0 < s.remaining) (hb : s.ray.blocked = false) : s.continues none = true := by
  unfold RunState.continues
  rw [lit0, decide_eq_true (show s.remaining > 0 from h), hb]; rfl

theorem real_stops {s : RunState ℝ} (h : s.remaining ≤ 0) : s.continues none = false := by
  unfold RunState.continues
  rw [lit0, decide_eq_false (show ¬ s.remaining > 0 from not_lt.mpr h)]; rfl

/-- The run of a ray through a ball: in at `x`, out at `x₁`, and on. -/
theorem run_ball {c : V3 ℝ} {n : Option (V3 ℝ)} (hn : n ≠ some ⟨0, 0, 0⟩) {R : ℝ} (hR : 0 < R) {w h f : Option ℝ}
    {type : String} (hty : type ≠ "ideal" ∧ type ≠ "ideal_collimate" ∧ type ≠ "ideal_focus") {index : ℝ} (hi : 1 ≤ index)
    {l : Lens ℝ} (hl : Lens.new c n "spherical" (some (2 * R)) w h f type index = .ok l)
    {ray : Ray ℝ} (hd : dot ray.direction ray.direction = 1) {x : V3 ℝ} {t C P : ℝ} (hx : x = lineAt ray.position ray.direction t)
    (ht : FirstOnSphere c R ray.position ray.direction t) (hC : 0 < C) (hP : 0 < P)
    (hq : dot ray.direction (x - c) = -C) (hPC : P ^ 2 = index ^ 2 * R ^ 2 - (R ^ 2 - C ^ 2))
    (hT : ¬ Tangent c R ray.position ray.direction)
    (hf : ray.type ≠ "faerie_fire") (hbl : ray.blocked = false) {md : ℝ} (hfloor : 1e-12 < 2 * P / index)
    (hmd : t + 2 * P / index < md) {fuel : Nat} (hfu : 4 ≤ fuel) :
    ∃ (s : RunState XR) (d₁ x₁ d₂ : V3 ℝ) (L : ℝ),
      ray.lift.run (.fin md) [(Optic.lens l).lift] none fuel = .finished s ∧
      s.ray = { ray with position := lineAt x₁ d₂ L, direction := d₂,
                         pointHistory := ray.pointHistory ++ [x, x₁, lineAt x₁ d₂ L] }.lift ∧
      s.log = [] ∧ s.interactions = 2 ∧
      Refracted 1 index (R⁻¹ • (x - c).toE) ray.direction.toE d₁.toE ∧
      Refracted index 1 (R⁻¹ • (x₁ - c).toE) d₁.toE d₂.toE ∧
      OnSphere c R x ∧ OnSphere c R x₁ ∧
      d₁ = (1 / index) * ray.direction + ((C - P) / (index * R ^ 2)) * (x - c) ∧
      x₁ = lineAt x d₁ (2 * P / index) ∧
      d₂ = index * d₁ + ((C - P) / R ^ 2) * (x₁ - c) ∧ dot d₂ d₂ = 1 ∧
      L = md - t - 2 * P / index := by
  have hi0 : 0 < index := by linarith
  have hD2 : 2 * R / 2 = R := by ring
  have hon : OnSphere c R x := by rw [hx]; exact ht.on
  have ha := (onSphere_iff _ _ _).mp hon
  have ht0 : 0 < t := by have := ht.ahead; norm_num at this; linarith
  have hdE : ‖ray.direction.toE‖ = 1 := by rw [norm_toE, norm_eq_one_iff]; exact hd
  have hL := div_pos (mul_pos two_pos hP) hi0
  -- into the ball
  obtain ⟨s₁, hs₁, hrem₁, hint₁, hlog₁, hray₁, -, hg₁, -⟩ := C56_ball c n (2 * R) (by positivity) w h f type hty index hi0 l hl md
    (RunState.init ray md) hdE hf (by rw [hD2]; exact hT) t (by rw [hD2]; exact ht) (by show t ≤ md; linarith)
  have hg₁ := hg₁ (by
    rw [inner_toE, dot_comm]
    show dot ray.direction (lineAt ray.position ray.direction t - c) < 0
    rw [← hx, hq]; linarith)
  change GlassLaw 1 index (lineAt ray.position ray.direction t - c).toE ray.direction.toE _ at hg₁
  rw [← hx] at hg₁
  change s₁.ray = { ray.movedTo (lineAt ray.position ray.direction t) with direction := s₁.ray.direction } at hray₁
  rw [← hx] at hray₁
  obtain ⟨d₁, hd₁⟩ : ∃ d₁, d₁ = s₁.ray.direction := ⟨_, rfl⟩
  rw [← hd₁] at hray₁ hg₁
  obtain ⟨hr₁, hu₁, hq₁, hf₁⟩ := glass_radius (Q := -(P / index)) hR ha hd one_pos hi0 hg₁ (by
    rw [hq]; field_simp; linarith) (by rw [hq]; have := mul_pos hC (div_pos hP hi0); linarith)
  have hpos₁ : s₁.ray.position = x := by rw [hray₁]; rfl
  -- out of it
  obtain ⟨x₁, hx₁⟩ : ∃ x₁, x₁ = lineAt x d₁ (2 * P / index) := ⟨_, rfl⟩
  have hagain := onSphere_again c x d₁ R hu₁ hon
  rw [inner_toE, dot_comm, hq₁] at hagain
  have e2 : -2 * -(P / index) = 2 * P / index := by ring
  rw [e2] at hagain
  have hon₁ : OnSphere c R x₁ := by rw [hx₁]; exact (hagain _).mpr (.inr rfl)
  have ha₁ := (onSphere_iff _ _ _).mp hon₁
  have hfirst : FirstOnSphere c R x d₁ (2 * P / index) := by
    refine ⟨hfloor, (hagain _).mpr (.inr rfl), fun u hu ho => ?_⟩
    rcases (hagain u).mp ho with e | e
    · rw [e] at hu; norm_num at hu
    · exact e.ge
  have hrem₁' : s₁.remaining = md - t := hrem₁
  have hq₁' : dot d₁ (x₁ - c) = P / index := by
    rw [hx₁, dot_comm, dot_radius _ _ _ hu₁]
    have : dot d₁ (c - x) = -dot d₁ (x - c) := by simp only [dot, sub_x, sub_y, sub_z]; ring
    rw [this, hq₁]; ring
  have hty₁ : s₁.ray.type = ray.type := by rw [hray₁]; rfl
  have hT₁ : ¬ Tangent c (2 * R / 2) s₁.ray.position s₁.ray.direction := by
    rw [hD2, hpos₁, ← hd₁]
    exact not_tangent_of_on hu₁ hon (by rw [hq₁]; have := div_pos hP hi0; linarith)
  obtain ⟨s₂, hs₂, hrem₂, hint₂, hlog₂, hray₂, -, -, hg₂⟩ := C56_ball c n (2 * R) (by positivity) w h f type hty index hi0 l hl md
    s₁ (by rw [← hd₁]; exact hg₁.unit) (by rw [hty₁]; exact hf) hT₁ (2 * P / index)
    (by rw [hD2, hpos₁, ← hd₁]; exact hfirst) (by rw [hrem₁']; linarith)
  rw [hpos₁, ← hd₁, ← hx₁] at hray₂ hg₂
  have hg₂ := hg₂ (by rw [inner_toE, dot_comm, hq₁']; exact div_pos hP hi0)
  obtain ⟨d₂, hd₂⟩ : ∃ d₂, d₂ = s₂.ray.direction := ⟨_, rfl⟩
  rw [← hd₂] at hray₂ hg₂
  obtain ⟨hr₂, hu₂, hq₂, hf₂⟩ := glass_radius (Q := C) hR ha₁ hu₁ hi0 one_pos hg₂ (by
    rw [hq₁']; field_simp; linarith) (by rw [hq₁']; exact mul_pos (div_pos hP hi0) hC)
  rw [hq₁'] at hf₂
  rw [hq] at hf₁
  -- and on
  have hpos₂ : s₂.ray.position = x₁ := by rw [hray₂]; rfl
  have hrem₂' : s₂.remaining = md - t - 2 * P / index := by rw [hrem₂, hrem₁']
  obtain ⟨s₃, hs₃, hray₃, hrem₃, hint₃, hlog₃⟩ := C56_ball_missed c n (2 * R) w h f type index l hl md s₂
    (by rw [← hd₂]; exact hg₂.unit)
    (by rw [hD2, hpos₂, ← hd₂]; exact not_tangent_of_on hu₂ hon₁ (by rw [hq₂]; exact hC.ne'))
    (by
      rw [hD2, hpos₂, ← hd₂]
      intro u hu _ ho
      rcases (onSphere_again c x₁ d₂ R hu₂ hon₁ u).mp ho with e | e
      · rw [e] at hu; norm_num at hu
      · rw [inner_toE, dot_comm, hq₂] at e
        norm_num at hu; linarith)
  rw [hpos₂, ← hd₂, hrem₂'] at hray₃
  obtain ⟨g, rfl⟩ : ∃ g, fuel = g + 1 + 1 + 1 + 1 := ⟨fuel - 4, by omega⟩
  have hb₁ : s₁.ray.blocked = false := by rw [hray₁]; exact hbl
  have hb₂ : s₂.ray.blocked = false := by rw [hray₂]; exact hb₁
  have hrun : ray.run md [.lens l] none (g + 1 + 1 + 1 + 1) = .finished s₃ := by
    show runLoop md [.lens l] none (g + 1 + 1 + 1 + 1) (RunState.init ray md) = _
    rw [runLoop_next _ (real_continues (show 0 < md by linarith) hbl) hs₁,
      runLoop_next _ (real_continues (by rw [hrem₁']; linarith) hb₁) hs₂,
      runLoop_next _ (real_continues (by rw [hrem₂']; linarith) hb₂) hs₃,
      runLoop_stop _ (real_stops (by rw [hrem₃, hrem₂']; linarith))]
  have hw : (Optic.lens l).WellFormed := by
    obtain ⟨hlt, -⟩ := ballLens_new hl
    refine .lens hn (fun e => absurd e (by decide)) (by simp [NonZero, hR.ne']) hi0 hl fun hid => ?_
    unfold Lens.Ideal at hid
    rw [hlt] at hid
    exact absurd hid (by simp [hty])
  have hlift := C89_without_cylinders_and_gratings (optics := [.lens l]) (by simpa using hw) (by
    obtain ⟨-, hb⟩ := ballLens_new hl
    intro o ho c' hc'
    cases List.mem_singleton.mp ho
    simp [Optic.prims, hb.surfaces, Shape.prims] at hc') (by intro g hg; cases List.mem_singleton.mp hg) ray hdE md none (g + 1 + 1 + 1 + 1)
  rw [hrun] at hlift
  refine ⟨s₃.lift, d₁, x₁, d₂, _, hlift, ?_, ?_, ?_, hr₁, hr₂, hon, hon₁, ?_, hx₁, ?_, hu₂, rfl⟩
  · show s₃.ray.lift = _
    rw [hray₃, hray₂, hray₁]
    simp [Ray.movedTo, Ray.lift]
  · show s₃.log.map _ = []
    rw [hlog₃, hlog₂, hlog₁]; rfl
  · show s₃.interactions = 2
    rw [hint₃, hint₂, hint₁]; rfl
  · rw [hf₁]
    congr 2
    field_simp; ring
  · rw [hf₂, div_one]
    congr 2
    field_simp

end Optics
