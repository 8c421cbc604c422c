import Verif.Lemmas.TelescopeEnd
import Verif.Props.RoundedCollimators
import Verif.Props.RoundedRelay

/-!
# C121: the telescope of script_testIdealLenses.py with doubles
-/

namespace Optics
open V3

theorem upright {w : V3 ℝ} (hw : ‖w.toE - (⟨0, 1, 0⟩ : V3 ℝ).toE‖ ≤ 15 * binary64.u) : 98 / 100 ≤ w.y := by
  have hu : binary64.u = 1 / 2 ^ 53 := rfl
  rw [← toE_sub] at hw
  obtain ⟨-, c2, -⟩ := comp_le (w - ⟨0, 1, 0⟩)
  have d2 := abs_le.mp (c2.trans hw)
  simp only [sub_y] at d2
  rw [hu] at d2
  norm_num at d2
  linarith

/-- **C121: the telescope of `script_testIdealLenses.py` with doubles.**  The scene is built, and every ray from an object point up to
5.1 mm off the axis with slopes up to 1/15 meets three optics, is absorbed and is recorded exactly once.  The record is within `2e-10` mm of
the mirror image, in the axis, of the place where the ray met the first lens.  The passes through the two lenses are passes of
the kind `C121_collimate` and `C121_focus` are about. -/
theorem C121_telescope : ∃ optics, telescopeScene (α := D64) = .ok optics ∧ ∀ (x z : ℝ) (D : V3 ℝ) (wl order : D64) (type : String) (fuel : ℕ),
    |x| ≤ 51 / 10 → |z| ≤ 51 / 10 → SaneLength D → 0 < D.y → |D.x| ≤ D.y / 15 → |D.z| ≤ D.y / 15 → type ≠ "faerie_fire" → 4 ≤ fuel →
    ∃ (s : RunState D64) (q : V3 ℝ), (Ray.new (V3.fl ⟨x, 0, z⟩) D.fl wl order type).run 150.0 optics none fuel = .finished s ∧
      s.interactions = 3 ∧ s.ray.blocked = true ∧ s.log = [⟨0, q.fl, wl⟩] ∧
      ‖q.toE - (⟨-(x + 50 * (D.x / D.y)), 125, -(z + 50 * (D.z / D.y))⟩ : V3 ℝ).toE‖ ≤ 2 / 10 ^ 10 ∧
      ∃ (s₁ s₂ : RunState D64) (w P d : V3 ℝ) (r : ℝ),
        RoundPass "ideal_collimate" (some (Fl.fin 50)) 150.0 optics (RunState.init (Ray.new (V3.fl ⟨x, 0, z⟩) D.fl wl order type) 150.0) s₁
          ⟨x, 0, z⟩ w ⟨0, 50, 0⟩ ⟨0, -1, 0⟩ 1000 150 ∧
        RoundPass "ideal_focus" (some (Fl.fin 25)) 150.0 optics s₁ s₂ P d ⟨0, 75, 0⟩ ⟨0, -1, 0⟩ 1000 r := by
  obtain ⟨l₁, l₂, d, hl₁, hl₂, hd, hscene⟩ := telescopeScene64
  refine ⟨_, hscene, ?_⟩
  intro x z D wl order type fuel hx hz hD hy hDx hDz htype hfuel
  obtain ⟨fuel, rfl⟩ := Nat.exists_eq_add_of_le' hfuel
  have l150 : (150.0 : D64) = Fl.fin 150 := by rw [whole64 150 (by norm_num) (by norm_num)]; norm_num
  rw [l150]
  obtain ⟨s₁, P₁, d₁, a1, a2, a3, a4, a5, a6, sel₁, a7, a8⟩ := telescope_first (wl := wl) (order := order) hx hz hD hy hDx hDz htype (Fl.fin 150) hl₁ hl₂ hd
  have small : ∀ u v : ℝ, |u| ≤ 51 / 10 → |v| ≤ D.y / 15 → |u + 50 * (v / D.y)| ≤ 85 / 10 := by
    intro u v hu hv
    have h1 : |v / D.y| ≤ 1 / 15 := by rw [abs_div, abs_of_pos hy, div_le_iff₀ hy]; linarith
    have h2 := abs_add_le u (50 * (v / D.y))
    rw [abs_mul, abs_of_pos (by norm_num : (0 : ℝ) < 50)] at h2
    linarith
  have hX := small _ _ hx hDx
  have hZ := small _ _ hz hDz
  obtain ⟨s₂, P₂, d₂, b1, b2, b3, b4, b5, b6, sel₂, b7, b8⟩ := telescope_second hX hZ (Fl.fin 150) hl₁ hl₂ hd a5 a6
  obtain ⟨s₃, q, c1, c2, c3, c4, c5⟩ := telescope_last hX hZ (Fl.fin 150) hl₁ hl₂ hd b5 b6
  obtain ⟨y₁, hy₁, hy₁', hy₁u⟩ := a5.rem
  obtain ⟨y₂, hy₂, hy₂', -⟩ := b5.rem
  have hu : binary64.u = 1 / 2 ^ 53 := rfl
  obtain ⟨w, τ, hw, hwu, hwy, -⟩ := telescope_aim hx hz hD hy hDx hDz
  have hO : ‖(⟨x, 0, z⟩ : V3 ℝ).toE‖ ≤ 100 := (bench_norm (Y := 0) (ρ := 18) (by simp) (hx.trans (by norm_num)) (hz.trans (by norm_num)) le_rfl
    (by norm_num) (by norm_num)).trans (by norm_num)
  have hP₁ : ‖P₁.toE‖ ≤ 90 := by
    have k : ∀ v V : ℝ, |V| ≤ 85 / 10 → |v - V| ≤ 21 / 10 ^ 12 → |v| ≤ 18 := by
      intro v V h1 h2
      have := abs_add_le (v - V) V
      rw [sub_add_cancel] at this
      norm_num at h2
      linarith
    exact bench_norm (Y := 50) (ρ := 18) (a5.here.trans (by norm_num)) (k _ _ hX a5.near_x) (k _ _ hZ a5.near_z) (by norm_num) (by norm_num) (by norm_num)
  have hd₁ : 98 / 100 ≤ d₁.y := upright a6
  have hcos : ∀ v : V3 ℝ, 98 / 100 ≤ v.y → 1 / 1000 ≤ |inner ℝ (axisOf ⟨0, -1, 0⟩) v.toE| := by
    intro v hv
    rw [bench_inner, abs_neg, abs_of_pos (by linarith)]; linarith
  have hgrid : binary64.u * 1000 ≤ 1 / 10 ^ 10 := by rw [hu]; norm_num
  have hbig : (1000 : ℝ) ≤ 10 ^ 50 := by norm_num
  have r1 : ‖(⟨x, 0, z⟩ : V3 ℝ).toE‖ + 150 + ‖(⟨0, 50, 0⟩ : V3 ℝ).toE‖ ≤ 9 / 10 * 1000 := by
    rw [bench_height, abs_of_pos (by norm_num : (0 : ℝ) < 50)]; linarith
  have r2 : ‖P₁.toE‖ + y₁ + ‖(⟨0, 75, 0⟩ : V3 ℝ).toE‖ ≤ 9 / 10 * 1000 := by
    rw [bench_height, abs_of_pos (by norm_num : (0 : ℝ) < 75)]; linarith
  refine ⟨s₃, q, ?_, ?_, c3, ?_, c5, s₁, s₂, w, P₁, d₁, y₁, ?_, ?_⟩
  · unfold Ray.run
    rw [loop_step rfl rfl (by norm_num) a1, loop_step a5.free hy₁ (by linarith) b1, loop_step b5.free hy₂ (by linarith) c1, loop_blocked c3]
  · rw [c2, b2, a2]
  · rw [c4, b3, a3, b4, a4]; rfl
  · exact { one_le := by norm_num, le_big := hbig, grid := hgrid, pos := rfl, dir := hw, unit := hwu, rem := rfl, rem_nonneg := by norm_num, room := r1,
            cos := hcos w hwy, kind := htype, step := a1, hit := a2, lens := ⟨sel₁, a7, by rw [a8]; exact .mk bench_sane hl₁⟩ }
  · exact { one_le := by norm_num, le_big := hbig, grid := hgrid, pos := a5.pos, dir := a5.dir, unit := a5.unit, rem := hy₁, rem_nonneg := by linarith,
            room := r2, cos := hcos d₁ hd₁, kind := a5.kind, step := b1, hit := b2, lens := ⟨sel₂, b7, by rw [b8]; exact .mk bench_sane hl₂⟩ }

end Optics
