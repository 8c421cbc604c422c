import Verif.Lemmas.LinearSpline
import Mathlib.Analysis.SpecialFunctions.Pow.Real

/-!
# `log_interp1d`
-/

namespace Optics

/-- A table `log_interp1d` accepts. -/
structure LogTable (xs ys : List ℝ) : Prop where
  posx : ∀ x ∈ xs, 0 < x
  posy : ∀ y ∈ ys, 0 < y
  len : ys.length = xs.length
  two : 2 ≤ xs.length
  inc : xs.Pairwise (· < ·)

theorem logb_ten_lt {x y : ℝ} (hx : 0 < x) (h : x < y) : Real.logb 10 x < Real.logb 10 y := Real.logb_lt_logb (by norm_num) hx h

theorem pairwise_logb {xs : List ℝ} (h0 : ∀ x ∈ xs, 0 < x) (h : xs.Pairwise (· < ·)) : (xs.map (Real.logb 10)).Pairwise (· < ·) := by
  rw [List.pairwise_map]
  exact h.imp_of_mem fun ha _ hab => logb_ten_lt (h0 _ ha) hab

theorem pairwise_of_logb {xs : List ℝ} (h0 : ∀ x ∈ xs, 0 < x) (h : (xs.map (Real.logb 10)).Pairwise (· < ·)) : xs.Pairwise (· < ·) := by
  rw [List.pairwise_map] at h
  exact h.imp_of_mem fun ha hb hab => (Real.logb_lt_logb_iff (by norm_num) (h0 _ ha) (h0 _ hb)).1 hab

/-- The points of the spline. -/
theorem LogTable.points {xs ys : List ℝ} (h : LogTable xs ys) : ∃ p q rest,
    (xs.map (Real.logb 10)).zip (ys.map (Real.logb 10)) = p :: q :: rest ∧ ((p :: q :: rest).map Prod.fst) = xs.map (Real.logb 10) ∧
      ((p :: q :: rest).map Prod.snd) = ys.map (Real.logb 10) ∧
      ∀ kind, logInterp1d xs ys kind = .ok fun zz => (10 : ℝ) ^ linearSpline p q rest (Real.logb 10 zz) := by
  have hl : (xs.map (Real.logb 10)).length = (ys.map (Real.logb 10)).length := by simp [h.len]
  have hz : 2 ≤ ((xs.map (Real.logb 10)).zip (ys.map (Real.logb 10))).length := by
    simp [h.len, h.two]
  rcases hL : (xs.map (Real.logb 10)).zip (ys.map (Real.logb 10)) with _ | ⟨p, _ | ⟨q, rest⟩⟩
  · rw [hL] at hz; simp at hz
  · rw [hL] at hz; simp at hz
  · refine ⟨p, q, rest, rfl, ?_, ?_, ?_⟩
    · rw [← hL, List.map_fst_zip (by rw [hl])]
    · rw [← hL, List.map_snd_zip (by rw [hl])]
    · intro kind
      have hi : increasing (xs.map (Real.logb 10)) = true := (increasing_iff _).2 (pairwise_logb h.posx h.inc)
      unfold logInterp1d interpolatedSpline
      rw [if_neg (by simpa using hl), if_neg (by rw [hi]; simp), hL]
      rfl

theorem getElem_of_map_fst {l : List (ℝ × ℝ)} {xs : List ℝ} {f : ℝ → ℝ} (h : l.map Prod.fst = xs.map f) (i : ℕ) (hi : i < xs.length)
    (hi' : i < l.length) : (l[i]).1 = f xs[i] := by
  have := List.getElem_of_eq h (i := i) (by simpa using hi')
  simpa using this

theorem getElem_of_map_snd {l : List (ℝ × ℝ)} {xs : List ℝ} {f : ℝ → ℝ} (h : l.map Prod.snd = xs.map f) (i : ℕ) (hi : i < xs.length)
    (hi' : i < l.length) : (l[i]).2 = f xs[i] := by
  have := List.getElem_of_eq h (i := i) (by simpa using hi')
  simpa using this

theorem ten_pow_logb {x : ℝ} (h : 0 < x) : (10 : ℝ) ^ Real.logb 10 x = x := Real.rpow_logb (by norm_num) (by norm_num) h

/-- Ten to the line through the logarithms of two points. -/
theorem ten_pow_line {x0 x1 y0 y1 z : ℝ} (hx0 : 0 < x0) (hx : x0 < x1) (hy0 : 0 < y0) (hy1 : 0 < y1) (hz : 0 < z) :
    (10 : ℝ) ^ lineThrough (Real.logb 10 x0, Real.logb 10 y0) (Real.logb 10 x1, Real.logb 10 y1) (Real.logb 10 z) =
      y0 * (y1 / y0) ^ (Real.log (z / x0) / Real.log (x1 / x0)) := by
  have hx1 : 0 < x1 := hx0.trans hx
  unfold lineThrough
  simp only
  rw [Real.rpow_add (by norm_num), ten_pow_logb hy0]
  congr 1
  rw [← Real.logb_div hy1.ne' hy0.ne', ← Real.logb_div hx1.ne' hx0.ne', ← Real.logb_div hz.ne' hx0.ne']
  have e : Real.logb 10 (y1 / y0) / Real.logb 10 (x1 / x0) * Real.logb 10 (z / x0) =
      Real.logb 10 (y1 / y0) * (Real.log (z / x0) / Real.log (x1 / x0)) := by
    have h10 : Real.log 10 ≠ 0 := (Real.log_pos (by norm_num)).ne'
    have hq : Real.log (x1 / x0) ≠ 0 := (Real.log_pos ((one_lt_div hx0).2 hx)).ne'
    unfold Real.logb
    field_simp
  rw [e, Real.rpow_mul (by norm_num), ten_pow_logb (div_pos hy1 hy0)]

/-- Every number is on one of the pieces. -/
theorem pieces_cover {xs : List ℝ} (h2 : 2 ≤ xs.length) (z : ℝ) :
    ∃ (i : ℕ) (hi : i + 1 < xs.length), (i = 0 ∨ xs[i] ≤ z) ∧ (i + 2 = xs.length ∨ z ≤ xs[i + 1]) := by
  by_contra hno
  push Not at hno
  have key : ∀ (i : ℕ) (hi : i + 1 < xs.length), xs[i + 1] < z ∧ i + 2 ≠ xs.length := by
    intro i
    induction i with
    | zero =>
      intro hi
      have := hno 0 hi (Or.inl rfl)
      exact ⟨this.2, this.1⟩
    | succ n ih =>
      intro hi
      have h1 := ih (by omega)
      have := hno (n + 1) hi (Or.inr h1.1.le)
      exact ⟨this.2, this.1⟩
  exact (key (xs.length - 2) (by omega)).2 (by omega)

end Optics
