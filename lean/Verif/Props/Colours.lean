import Verif.Model.General
import Verif.Lemmas.Vec
import Mathlib.Topology.Order.OrderClosed
import Mathlib.Topology.Piecewise
import Mathlib.Analysis.SpecialFunctions.Pow.Continuity

/-!
# C58: `wavelength_to_rgb`
-/

namespace Optics

/-- A colour as matplotlib accepts it. -/
def IsColour (c : ℝ × ℝ × ℝ) : Prop := c.1 ∈ Set.Icc (0 : ℝ) 1 ∧ c.2.1 ∈ Set.Icc (0 : ℝ) 1 ∧ c.2.2 ∈ Set.Icc (0 : ℝ) 1

theorem pyPow_real {x y : ℝ} (h : ¬ (x = 0 ∧ y < 0)) : pyPow x y = .ok (x ^ y) := by
  unfold pyPow
  rw [if_neg]
  · rfl
  · simpa [lit0] using h

theorem pyPow_zero_neg {y : ℝ} (h : y < 0) : pyPow (0 : ℝ) y = .error .zeroDivisionError := by
  unfold pyPow
  rw [if_pos]
  simpa [lit0] using h

/-- The red component of the visible spectrum, piece by piece. -/
noncomputable def rampR (γ w : ℝ) : ℝ :=
  if w ≤ 440 then ((440 - w) / 60 * (3 / 10 + 7 / 10 * (w - 380) / 60)) ^ γ
  else if w ≤ 510 then 0 else if w ≤ 580 then ((w - 510) / 70) ^ γ else if w ≤ 645 then 1
  else (3 / 10 + 7 / 10 * (750 - w) / 105) ^ γ

/-- The green component. -/
noncomputable def rampG (γ w : ℝ) : ℝ :=
  if w ≤ 440 then 0 else if w ≤ 490 then ((w - 440) / 50) ^ γ else if w ≤ 580 then 1
  else if w ≤ 645 then ((645 - w) / 65) ^ γ else 0

/-- The blue component. -/
noncomputable def rampB (γ w : ℝ) : ℝ :=
  if w ≤ 440 then (3 / 10 + 7 / 10 * (w - 380) / 60) ^ γ else if w ≤ 490 then 1
  else if w ≤ 510 then ((510 - w) / 20) ^ γ else 0

/-- The code's value inside the visible range. -/
theorem rgb_visible {γ : ℝ} (hγ : 0 < γ) {w : ℝ} (h1 : 380 ≤ w) (h2 : w ≤ 750) :
    wavelengthToRgb w γ 380.0 750.0 = .ok (rampR γ w, rampG γ w, rampB γ w) := by
  have hp : ∀ x : ℝ, pyPow x γ = .ok (x ^ γ) := fun x => pyPow_real (fun h => absurd h.2 hγ.le.not_gt)
  have z : (0 : ℝ) ^ γ = 0 := Real.zero_rpow hγ.ne'
  unfold wavelengthToRgb
  rw [if_neg (show ¬ w < 380.0 by norm_num; exact h1)]
  dsimp only
  rw [if_neg (show ¬ w > 750.0 by norm_num; exact h2), if_neg (show ¬ w < 380.0 by norm_num; exact h1)]
  simp only [hp, bind, Except.bind, pure, Except.pure]
  norm_num only
  unfold rampR rampG rampB
  by_cases a1 : w ≤ 440
  · rw [if_pos ⟨h1, a1⟩, if_pos a1, if_pos a1, if_pos a1]
    ring_nf
  rw [if_neg (fun h => a1 h.2), if_neg a1, if_neg a1, if_neg a1]
  by_cases a2 : w ≤ 490
  · rw [if_pos ⟨by linarith, a2⟩, if_pos (by linarith), if_pos a2, if_pos a2]
  rw [if_neg (fun h => a2 h.2), if_neg a2, if_neg a2]
  by_cases a3 : w ≤ 510
  · rw [if_pos ⟨by linarith, a3⟩, if_pos a3, if_pos (by linarith), if_pos a3]
    ring_nf
  rw [if_neg (fun h => a3 h.2), if_neg a3, if_neg a3]
  by_cases a4 : w ≤ 580
  · rw [if_pos ⟨by linarith, a4⟩, if_pos a4, if_pos a4]
  rw [if_neg (fun h => a4 h.2), if_neg a4, if_neg a4]
  by_cases a5 : w ≤ 645
  · rw [if_pos ⟨by linarith, a5⟩, if_pos a5, if_pos a5]
    ring_nf
  rw [if_neg (fun h => a5 h.2), if_neg a5, if_neg a5, if_pos ⟨by linarith, h2⟩]
  ring_nf

/-- The wavelength `w` moved to the nearest point of `[380, 750]`. -/
noncomputable def visible (w : ℝ) : ℝ := max 380 (min w 750)

theorem rgb_eq {γ : ℝ} (hγ : 0 < γ) (w : ℝ) :
    wavelengthToRgb w γ 380.0 750.0 = .ok (rampR γ (visible w), rampG γ (visible w), rampB γ (visible w)) := by
  rw [← rgb_visible hγ (w := visible w) (le_max_left _ _) (max_le (by norm_num) (min_le_right _ _))]
  rcases lt_or_ge w 380 with h | h
  · rw [show visible w = 380.0 by
      unfold visible
      rw [max_eq_left ((min_le_left _ _).trans h.le)]; norm_num]
    unfold wavelengthToRgb
    rw [if_pos (show w < 380.0 by norm_num; exact h), if_neg (lt_irrefl _)]
  · rcases lt_or_ge 750 w with h' | h'
    · rw [show visible w = 750.0 by unfold visible; rw [min_eq_right h'.le]; norm_num]
      unfold wavelengthToRgb
      rw [if_neg (show ¬ w < 380.0 by norm_num; exact h), if_neg (show ¬ (750.0 : ℝ) < 380.0 by norm_num)]
      dsimp only
      rw [if_pos (show w > 750.0 by norm_num; exact h'), if_neg (show ¬ (750.0 : ℝ) > 750.0 from lt_irrefl _)]
    · rw [show visible w = w by unfold visible; rw [min_eq_left h', max_eq_right h]]

/-- C58: for every wavelength and every positive gamma the result is a colour. -/
theorem C58_is_colour (w : ℝ) {γ : ℝ} (hγ : 0 < γ) :
    ∃ c, wavelengthToRgb w γ 380.0 750.0 = .ok c ∧ IsColour c := by
  refine ⟨_, rgb_eq hγ w, ?_⟩
  have h1 : 380 ≤ visible w := le_max_left _ _
  have h2 : visible w ≤ 750 := max_le (by norm_num) (min_le_right _ _)
  generalize visible w = u at h1 h2
  have key : ∀ x : ℝ, 0 ≤ x → x ≤ 1 → x ^ γ ∈ Set.Icc (0 : ℝ) 1 := fun x a b =>
    ⟨Real.rpow_nonneg a _, Real.rpow_le_one a b hγ.le⟩
  have k0 : (0 : ℝ) ∈ Set.Icc (0 : ℝ) 1 := ⟨le_refl _, zero_le_one⟩
  have k1 : (1 : ℝ) ∈ Set.Icc (0 : ℝ) 1 := ⟨zero_le_one, le_refl _⟩
  refine ⟨?_, ?_, ?_⟩
  · show rampR γ u ∈ _
    unfold rampR
    split_ifs with a b c d
    · refine key _ (mul_nonneg (by linarith) (by linarith)) (mul_le_one₀ (by linarith) (by linarith) (by linarith))
    · exact k0
    · exact key _ (by linarith) (by linarith)
    · exact k1
    · exact key _ (by linarith) (by linarith)
  · show rampG γ u ∈ _
    unfold rampG
    split_ifs with a b c d
    · exact k0
    · exact key _ (by linarith) (by linarith)
    · exact k1
    · exact key _ (by linarith) (by linarith)
    · exact k0
  · show rampB γ u ∈ _
    unfold rampB
    split_ifs with a b c
    · exact key _ (by linarith) (by linarith)
    · exact k1
    · exact key _ (by linarith) (by linarith)
    · exact k0

/-- C58: outside `[380, 750]` the colour is that of the nearer end. -/
theorem C58_clamped {γ : ℝ} (hγ : 0 < γ) (w : ℝ) :
    (w ≤ 380 → wavelengthToRgb w γ 380.0 750.0 = wavelengthToRgb 380 γ 380.0 750.0) ∧
    (750 ≤ w → wavelengthToRgb w γ 380.0 750.0 = wavelengthToRgb 750 γ 380.0 750.0) := by
  constructor
  · intro h
    rw [rgb_eq hγ, rgb_eq hγ, show visible w = visible 380 by
      unfold visible; rw [min_eq_left (by linarith), min_eq_left (by norm_num), max_eq_left h, max_self]]
  · intro h
    rw [rgb_eq hγ, rgb_eq hγ, show visible w = visible 750 by
      unfold visible; rw [min_eq_right h, min_self]]

theorem ramps_continuous {γ : ℝ} (hγ : 0 < γ) : Continuous (rampR γ) ∧ Continuous (rampG γ) ∧ Continuous (rampB γ) := by
  have z : (0 : ℝ) ^ γ = 0 := Real.zero_rpow hγ.ne'
  have pw : ∀ f : ℝ → ℝ, Continuous f → Continuous fun w => f w ^ γ :=
    fun f hf => hf.rpow_const fun _ => .inr hγ.le
  have c := fun (f g : ℝ → ℝ) (a : ℝ) (hf : Continuous f) (hg : Continuous g) (h : f a = g a) =>
    Continuous.if_le (f := fun w : ℝ => w) (g := fun _ => a) hf hg continuous_id continuous_const
      (fun w (e : w = a) => by rw [e]; exact h)
  refine ⟨?_, ?_, ?_⟩
  · unfold rampR
    refine c _ _ 440 (pw _ (by fun_prop)) (c _ _ 510 continuous_const (c _ _ 580 (pw _ (by fun_prop))
      (c _ _ 645 continuous_const (pw _ (by fun_prop)) ?_) ?_) ?_) ?_ <;> norm_num [z]
  · unfold rampG
    refine c _ _ 440 continuous_const (c _ _ 490 (pw _ (by fun_prop)) (c _ _ 580 continuous_const
      (c _ _ 645 (pw _ (by fun_prop)) continuous_const ?_) ?_) ?_) ?_ <;> norm_num [z]
  · unfold rampB
    refine c _ _ 440 (pw _ (by fun_prop)) (c _ _ 490 continuous_const (c _ _ 510 (pw _ (by fun_prop))
      continuous_const ?_) ?_) ?_ <;> norm_num [z]

/-- C58: the colour depends continuously on the wavelength. -/
theorem C58_continuous {γ : ℝ} (hγ : 0 < γ) :
    ∃ c : ℝ → ℝ × ℝ × ℝ, Continuous c ∧ ∀ w, wavelengthToRgb w γ 380.0 750.0 = .ok (c w) := by
  obtain ⟨h1, h2, h3⟩ := ramps_continuous hγ
  have hv : Continuous visible := by unfold visible; fun_prop
  exact ⟨_, (h1.comp hv).prodMk ((h2.comp hv).prodMk (h3.comp hv)), fun w => rgb_eq hγ w⟩

/-- C58, which colours: at 440, 510, 645 pure blue, green, red; no red between 440 and 510, no green below 440 and above
645, no blue above 510. -/
theorem C58_primaries {γ : ℝ} (hγ : 0 < γ) :
    wavelengthToRgb 440 γ 380.0 750.0 = .ok (0, 0, 1) ∧ wavelengthToRgb 510 γ 380.0 750.0 = .ok (0, 1, 0) ∧
    wavelengthToRgb 645 γ 380.0 750.0 = .ok (1, 0, 0) ∧
    ∀ w c, wavelengthToRgb w γ 380.0 750.0 = .ok c → (440 ≤ w → w ≤ 510 → c.1 = 0) ∧
      (w ≤ 440 ∨ 645 ≤ w → c.2.1 = 0) ∧ (510 ≤ w → c.2.2 = 0) := by
  have z : (0 : ℝ) ^ γ = 0 := Real.zero_rpow hγ.ne'
  refine ⟨?_, ?_, ?_, ?_⟩
  · rw [rgb_eq hγ]; norm_num [visible, rampR, rampG, rampB, z]
  · rw [rgb_eq hγ]; norm_num [visible, rampR, rampG, rampB, z]
  · rw [rgb_eq hγ]; norm_num [visible, rampR, rampG, rampB, z]
  · intro w c hc
    rw [rgb_eq hγ] at hc
    injection hc with hc
    subst hc
    refine ⟨fun h1 h2 => ?_, fun h => ?_, fun h => ?_⟩
    · show rampR γ (visible w) = 0
      rw [show visible w = w by unfold visible; rw [min_eq_left (by linarith), max_eq_right (by linarith)]]
      unfold rampR
      split_ifs with a
      · rw [show w = 440 by linarith]; norm_num [z]
      · rfl
    · show rampG γ (visible w) = 0
      unfold rampG
      rcases h with h | h
      · rw [if_pos (show visible w ≤ 440 from max_le (by norm_num) ((min_le_left _ _).trans h))]
      · have : 645 ≤ visible w := (le_min h (by norm_num)).trans (le_max_right _ _)
        rw [if_neg (by linarith), if_neg (by linarith), if_neg (by linarith)]
        split_ifs with a
        · rw [show visible w = 645 by linarith]; norm_num [z]
        · rfl
    · show rampB γ (visible w) = 0
      have : 510 ≤ visible w := (le_min h (by norm_num)).trans (le_max_right _ _)
      unfold rampB
      rw [if_neg (by linarith), if_neg (by linarith)]
      split_ifs with a
      · rw [show visible w = 510 by linarith]; norm_num [z]
      · rfl

/-- C58, why gamma must be positive: with a negative gamma the wavelength 440 raises `ZeroDivisionError`. -/
theorem C58_negative_gamma {γ : ℝ} (hγ : γ < 0) :
    wavelengthToRgb 440 γ 380.0 750.0 = .error .zeroDivisionError := by
  unfold wavelengthToRgb
  rw [if_neg (show ¬ (440 : ℝ) < 380.0 by norm_num)]
  dsimp only
  rw [if_neg (show ¬ (440 : ℝ) > 750.0 by norm_num), if_neg (show ¬ (440 : ℝ) < 380.0 by norm_num),
    if_pos (show (440 : ℝ) ≥ 380.0 ∧ (440 : ℝ) ≤ 440.0 by norm_num),
    show -((440 : ℝ) - 440.0) / (440.0 - 380.0) * (0.3 + 0.7 * (440 - 380.0) / (440.0 - 380.0)) = 0 by norm_num,
    pyPow_zero_neg hγ]
  rfl

/-- C58, other limits: the wavelength is moved between the limits; there the colour is the one for the default limits
if it is visible, dark violet below 380 and dark red above 750. -/
theorem C58_limits (γ w lo hi : ℝ) :
    (min (max w lo) hi < 380 → wavelengthToRgb w γ lo hi = .ok (3 / 10, 0, 3 / 10)) ∧
    (750 < min (max w lo) hi → wavelengthToRgb w γ lo hi = .ok (3 / 10, 0, 0)) ∧
    (380 ≤ min (max w lo) hi → min (max w lo) hi ≤ 750 →
      wavelengthToRgb w γ lo hi = wavelengthToRgb (min (max w lo) hi) γ 380.0 750.0) := by
  have e1 : (if w < lo then lo else w) = max w lo := by
    split_ifs with h
    · rw [max_eq_right h.le]
    · rw [max_eq_left (not_lt.mp h)]
  have e2 : ∀ v : ℝ, (if v > hi then hi else v) = min v hi := by
    intro v
    split_ifs with h
    · rw [min_eq_right (le_of_lt h)]
    · rw [min_eq_left (not_lt.mp h)]
  refine ⟨fun h => ?_, fun h => ?_, fun h h' => ?_⟩
  · unfold wavelengthToRgb
    simp only [e1, e2]
    rw [if_pos (show min (max w lo) hi < 380.0 by norm_num only; exact h)]
    norm_num [pure, Except.pure]
  · unfold wavelengthToRgb
    simp only [e1, e2]
    generalize min (max w lo) hi = u at h
    norm_num only
    rw [if_neg (by linarith), if_neg (by rintro ⟨-, h⟩; linarith), if_neg (by rintro ⟨-, h⟩; linarith),
      if_neg (by rintro ⟨-, h⟩; linarith), if_neg (by rintro ⟨-, h⟩; linarith), if_neg (by rintro ⟨-, h⟩; linarith),
      if_neg (by rintro ⟨-, h⟩; linarith)]
    rfl
  · unfold wavelengthToRgb
    simp only [e1, e2]
    generalize min (max w lo) hi = u at h h'
    have a : (if u < 380.0 then (380.0 : ℝ) else u) = u := if_neg (by norm_num; exact h)
    have b : (if u > 750.0 then (750.0 : ℝ) else u) = u := if_neg (by norm_num; exact h')
    simp only [a, b]

/-- C58: a `nan` wavelength fails every comparison and gives dark red. -/
theorem C58_nan (γ : XR) : wavelengthToRgb XR.nan γ 380.0 750.0 = .ok (0.3, 0.0, 0.0) := by
  unfold wavelengthToRgb
  simp [GT.gt, GE.ge, pure, Except.pure]

/-- A concrete colour: 545 nm. -/
example : wavelengthToRgb 545 1 380.0 750.0 = .ok ((1 / 2 : ℝ), 1, 0) := by
  rw [rgb_eq one_pos]
  norm_num [visible, rampR, rampG, rampB]

end Optics
