import Verif.Lemmas.RoundPassed

/-!
# C121: collimating and focusing lenses with rounded arithmetic
-/

namespace Optics
open V3

variable {R : Rounding}

theorem side_of {N w : V3 ℝ} {σ : ℝ} (hσ : σ = 1 ∨ σ = -1) (h : 0 < inner ℝ (σ • axisOf N) w.toE) : sideOf N w = σ := by
  rw [real_inner_smul_left] at h
  unfold sideOf
  rcases hσ with rfl | rfl
  · rw [if_pos (by linarith)]
  · rw [if_neg (by linarith)]

/-- **C121: what an `ideal_collimate` lens does with rounded arithmetic**, in any scene: the ray leaves from a point of its own line on the
lens, within 15 roundoffs of the direction of the axis, to the side it was going to, wherever it came from. -/
theorem C121_collimate {f : Option (Fl R)} {md : Fl R} {optics : List (Optic (Fl R))} {s s' : RunState (Fl R)} {O w P N : V3 ℝ} {B r : ℝ}
    (H : RoundPass "ideal_collimate" f md optics s s' O w P N B r) :
    ∃ (P' d : V3 ℝ) (x : ℝ), s'.ray.position = P'.fl ∧ s'.ray.direction = d.fl ∧ |‖d.toE‖ - 1| ≤ 5 * R.u ∧ 0 < x ∧ x ≤ r ∧
      ‖P'.toE - (O.toE + x • w.toE)‖ ≤ 32 / 10 * (R.u * B) ∧ |inner ℝ (axisOf N) (P'.toE - P.toE)| ≤ 70 * (R.u * B) ∧
      ‖d.toE - sideOf N w • axisOf N‖ ≤ 15 * R.u := by
  obtain ⟨P', x, l, ray, ray', pt, nn, sfo, hN, b1, b2, -, b4, hdo, hp, hd, e, hx0, hxr, eP, k1, -⟩ := round_passed H
  obtain ⟨n, hn, en⟩ := unitVector_near (R := R) hN
  obtain ⟨d, σ, h1, h2, hσ, hpos, h3⟩ := collimate_near (M := axisOf N) H.unit (dirE_norm hN.pos) en H.cos
  have hr : ray' = { ray with direction := d.fl } := by
    simp only [Lens.doIntersect, b4, show ¬ "ideal_collimate" = "ideal" by decide, if_false, if_true, Ray.refract,
      show ¬ "ideal_collimate" = "thin_lens" by decide, need, b2, bind, Except.bind, pure, Except.pure, hd, hn, h1] at hdo
    exact (Except.ok.inj hdo).symm
  refine ⟨P', d, x, by rw [e, hr]; exact hp, by rw [e, hr], h2, hx0, hxr, eP, k1, ?_⟩
  rw [side_of hσ hpos]; exact h3

/-- **C121: what an `ideal_focus` lens does with rounded arithmetic**, in any scene: the ray leaves from a point of its own line on the
lens and passes within `32uB` of the focal point on the side it was going to, whatever its direction was. -/
theorem C121_focus {f : ℝ} {md : Fl R} {optics : List (Optic (Fl R))} {s s' : RunState (Fl R)} {O w P N : V3 ℝ} {B r : ℝ}
    (H : RoundPass "ideal_focus" (some (Fl.fin f)) md optics s s' O w P N B r) (hf0 : 1 / 10 ^ 90 ≤ f) (hfB : f ≤ B)
    (hfine : 1000 * (R.u * B) ≤ f) :
    ∃ (P' d : V3 ℝ) (x t : ℝ), s'.ray.position = P'.fl ∧ s'.ray.direction = d.fl ∧ |‖d.toE‖ - 1| ≤ 5 * R.u ∧ 0 < x ∧ x ≤ r ∧
      ‖P'.toE - (O.toE + x • w.toE)‖ ≤ 32 / 10 * (R.u * B) ∧ |inner ℝ (axisOf N) (P'.toE - P.toE)| ≤ 70 * (R.u * B) ∧ 0 < t ∧
      t = ‖P.toE + (f * sideOf N w) • axisOf N - P'.toE‖ ∧
      ‖P'.toE + t • d.toE - (P.toE + (f * sideOf N w) • axisOf N)‖ ≤ 32 * (R.u * B) := by
  obtain ⟨P', x, l, ray, ray', pt, nn, sfo, hN, b1, b2, b3, b4, hdo, hp, hd, e, hx0, hxr, eP, k1, nP⟩ := round_passed H
  have hu := R.u_pos
  have hs : ThinSizes R f B 1 := ⟨hf0, hfB, H.one_le, H.le_big, by norm_num, by norm_num, by rw [one_pow, div_one]; exact hfine⟩
  have hP : ‖P.toE‖ ≤ B := by
    have := H.room; have := H.rem_nonneg; have := H.one_le; have := _root_.norm_nonneg O.toE; linarith
  have huB0 : 0 < R.u * B := mul_pos hu (by linarith [H.one_le])
  obtain ⟨n, hn, en⟩ := unitVector_near (R := R) hN
  obtain ⟨d, σ, h1, h2, hσ, hpos, hlo, h3⟩ := focus_near (M := axisOf N) (pos := P') H.unit (dirE_norm hN.pos) en H.cos hs hP nP (by linarith)
  have hr : ray' = { ray with direction := d.fl } := by
    simp only [Lens.doIntersect, b4, show ¬ "ideal_focus" = "ideal" by decide, show ¬ "ideal_focus" = "ideal_collimate" by decide, if_false,
      if_true, Ray.refract, show ¬ "ideal_focus" = "thin_lens" by decide, need, b1, b2, b3, bind, Except.bind, pure, Except.pure, hd, hn, hp,
      h1] at hdo
    rw [← Except.ok.inj hdo, hp]
  rw [← side_of hσ hpos] at hlo h3
  refine ⟨P', d, x, _, by rw [e, hr]; exact hp, by rw [e, hr], h2, hx0, hxr, eP, k1, ?_, rfl, ?_⟩
  · have : 0 < f := lt_of_lt_of_le (by positivity) hf0
    linarith
  · refine le_trans (le_of_eq ?_) h3
    congr 1; abel

end Optics
