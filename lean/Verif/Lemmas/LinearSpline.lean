import Verif.Model.Tables

/-!
# Linear splines
-/

namespace Optics

theorem lineThrough_left (p q : ℝ × ℝ) : lineThrough p q p.1 = p.2 := by simp [lineThrough]

theorem lineThrough_right {p q : ℝ × ℝ} (h : p.1 < q.1) : lineThrough p q q.1 = q.2 := by
  have : q.1 - p.1 ≠ 0 := by linarith
  unfold lineThrough
  field_simp
  ring

theorem lineThrough_strictMono {p q : ℝ × ℝ} (h1 : p.1 < q.1) (h2 : p.2 < q.2) : StrictMono (lineThrough p q) := by
  intro x y hxy
  unfold lineThrough
  have : 0 < (q.2 - p.2) / (q.1 - p.1) := div_pos (by linarith) (by linarith)
  nlinarith [mul_lt_mul_of_pos_left hxy this]

theorem lineThrough_swap {p q : ℝ × ℝ} (h1 : p.1 < q.1) (h2 : p.2 < q.2) (x : ℝ) :
    lineThrough p.swap q.swap (lineThrough p q x) = x := by
  have h1' : q.1 - p.1 ≠ 0 := by linarith
  have h2' : q.2 - p.2 ≠ 0 := by linarith
  unfold lineThrough
  simp only [Prod.fst_swap, Prod.snd_swap]
  field_simp
  ring

/-- Which piece of the spline is used. -/
theorem linearSpline_piece (rest : List (ℝ × ℝ)) : ∀ (p q : ℝ × ℝ) (_ : ((p :: q :: rest).map Prod.fst).Pairwise (· < ·)) (x : ℝ) (i : ℕ)
    (hi : i + 1 < (p :: q :: rest).length), (i = 0 ∨ ((p :: q :: rest)[i]).1 ≤ x) → (i + 2 = (p :: q :: rest).length ∨ x ≤ ((p :: q :: rest)[i + 1]).1) →
    linearSpline p q rest x = lineThrough ((p :: q :: rest)[i]) ((p :: q :: rest)[i + 1]) x := by
  induction rest with
  | nil =>
    intro p q _ x i hi _ _
    have : i = 0 := by simp at hi; omega
    subst this
    rfl
  | cons r rest ih =>
    intro p q hs x i hi hl hr
    have hs' : ((q :: r :: rest).map Prod.fst).Pairwise (· < ·) := by
      simp only [List.map_cons] at hs ⊢
      exact (List.pairwise_cons.1 hs).2
    have hqr : q.1 < r.1 := by
      simp only [List.map_cons] at hs'
      exact (List.pairwise_cons.1 hs').1 _ (by simp)
    have hpq : p.1 < q.1 := by
      simp only [List.map_cons] at hs
      exact (List.pairwise_cons.1 hs).1 _ (by simp)
    rcases i with _ | j
    · have hx : x ≤ q.1 := by
        rcases hr with h | h
        · simp at h
        · simpa using h
      rcases hx.lt_or_eq with h | h
      · simp [linearSpline, h]
      · have := ih q r hs' x 0 (by simp) (Or.inl rfl) (Or.inr (by simp; linarith))
        have e : linearSpline p q (r :: rest) x = linearSpline q r rest x := by simp [linearSpline, h]
        rw [e, this]
        simp only [List.getElem_cons_zero, List.getElem_cons_succ, h]
        rw [lineThrough_left, lineThrough_right hpq]
    · have hx : q.1 ≤ x := by
        have h1 : ((q :: r :: rest)[j]'(by simp at hi ⊢; omega)).1 ≤ x := by
          rcases hl with h | h
          · omega
          · simpa using h
        rcases j with _ | k
        · simpa using h1
        · refine le_trans (le_of_lt ?_) h1
          simp only [List.map_cons] at hs'
          refine (List.pairwise_cons.1 hs').1 _ ?_
          rw [← List.map_cons]
          exact List.mem_map_of_mem (List.getElem_mem _)
      have e : linearSpline p q (r :: rest) x = linearSpline q r rest x := by simp [linearSpline, not_lt.2 hx]
      rw [e]
      have := ih q r hs' x j (by simp at hi ⊢; omega) ?_ ?_
      · simpa using this
      · rcases hl with h | h
        · omega
        · right; simpa using h
      · rcases hr with h | h
        · left; simp at h ⊢; omega
        · right; simpa using h

theorem linearSpline_first {rest : List (ℝ × ℝ)} {p q : ℝ × ℝ} (h : ((p :: q :: rest).map Prod.fst).Pairwise (· < ·)) :
    linearSpline p q rest p.1 = p.2 := by
  have hpq : p.1 < q.1 := by
    simp only [List.map_cons] at h
    exact (List.pairwise_cons.1 h).1 _ (by simp)
  have := linearSpline_piece rest p q h p.1 0 (by simp) (Or.inl rfl) (Or.inr (by simpa using hpq.le))
  rw [this]
  exact lineThrough_left _ _

theorem linearSpline_strictMono (rest : List (ℝ × ℝ)) : ∀ (p q : ℝ × ℝ) (_ : ((p :: q :: rest).map Prod.fst).Pairwise (· < ·))
    (_ : ((p :: q :: rest).map Prod.snd).Pairwise (· < ·)), StrictMono (linearSpline p q rest) := by
  induction rest with
  | nil =>
    intro p q h1 h2
    exact lineThrough_strictMono (by simpa using h1) (by simpa using h2)
  | cons r rest ih =>
    intro p q h1 h2 x y hxy
    have h1' : ((q :: r :: rest).map Prod.fst).Pairwise (· < ·) := by
      simp only [List.map_cons] at h1 ⊢
      exact (List.pairwise_cons.1 h1).2
    have h2' : ((q :: r :: rest).map Prod.snd).Pairwise (· < ·) := by
      simp only [List.map_cons] at h2 ⊢
      exact (List.pairwise_cons.1 h2).2
    have a1 : p.1 < q.1 := by
      simp only [List.map_cons] at h1
      exact (List.pairwise_cons.1 h1).1 _ (by simp)
    have a2 : p.2 < q.2 := by
      simp only [List.map_cons] at h2
      exact (List.pairwise_cons.1 h2).1 _ (by simp)
    have m := ih q r h1' h2'
    simp only [linearSpline]
    split_ifs with hx hy hy
    · exact lineThrough_strictMono a1 a2 hxy
    · have := lineThrough_strictMono a1 a2 hx
      rw [lineThrough_right a1] at this
      have h3 := m.monotone (not_lt.1 hy)
      rw [linearSpline_first h1'] at h3
      linarith
    · linarith
    · exact m hxy

theorem linearSpline_swap (rest : List (ℝ × ℝ)) : ∀ (p q : ℝ × ℝ) (_ : ((p :: q :: rest).map Prod.fst).Pairwise (· < ·))
    (_ : ((p :: q :: rest).map Prod.snd).Pairwise (· < ·)) (x : ℝ),
    linearSpline p.swap q.swap (rest.map Prod.swap) (linearSpline p q rest x) = x := by
  induction rest with
  | nil =>
    intro p q h1 h2 x
    exact lineThrough_swap (by simpa using h1) (by simpa using h2) x
  | cons r rest ih =>
    intro p q h1 h2 x
    have h1' : ((q :: r :: rest).map Prod.fst).Pairwise (· < ·) := by
      simp only [List.map_cons] at h1 ⊢
      exact (List.pairwise_cons.1 h1).2
    have h2' : ((q :: r :: rest).map Prod.snd).Pairwise (· < ·) := by
      simp only [List.map_cons] at h2 ⊢
      exact (List.pairwise_cons.1 h2).2
    have a1 : p.1 < q.1 := by
      simp only [List.map_cons] at h1
      exact (List.pairwise_cons.1 h1).1 _ (by simp)
    have a2 : p.2 < q.2 := by
      simp only [List.map_cons] at h2
      exact (List.pairwise_cons.1 h2).1 _ (by simp)
    simp only [List.map_cons, linearSpline, Prod.fst_swap]
    by_cases hx : x < q.1
    · have := lineThrough_strictMono a1 a2 hx
      rw [lineThrough_right a1] at this
      rw [if_pos hx, if_pos this, lineThrough_swap a1 a2]
    · have h3 := (linearSpline_strictMono rest q r h1' h2').monotone (not_lt.1 hx)
      rw [linearSpline_first h1'] at h3
      rw [if_neg hx, if_neg (not_lt.2 h3), ih q r h1' h2' x]

theorem increasing_iff (l : List ℝ) : increasing l = true ↔ l.Pairwise (· < ·) := by
  induction l with
  | nil => simp [increasing]
  | cons x rest ih =>
    rcases rest with _ | ⟨y, rest⟩
    · simp [increasing]
    · rw [increasing, Bool.and_eq_true, ih, decide_eq_true_iff, List.pairwise_cons (a := x)]
      constructor
      · rintro ⟨h, hp⟩
        refine ⟨fun z hz => ?_, hp⟩
        rcases List.mem_cons.1 hz with rfl | hz
        · linarith
        · have := (List.pairwise_cons.1 hp).1 z hz
          linarith
      · rintro ⟨h, hp⟩
        exact ⟨by have := h y (by simp); linarith, hp⟩

end Optics
