import Verif.Lemmas.LogTables

/-!
# C117: interpolating a table on logarithmic axes
-/

namespace Optics

/-- C117.  Between two points of the table, and beyond the first and the last, the value follows the power law through the two points. -/
theorem C117_pieces {xs ys : List ℝ} (kind : String) (h : LogTable xs ys) :
    ∃ f, logInterp1d xs ys kind = .ok f ∧ ∀ (i : ℕ) (hi : i + 1 < xs.length) (z : ℝ), 0 < z → (i = 0 ∨ xs[i] ≤ z) →
      (i + 2 = xs.length ∨ z ≤ xs[i + 1]) →
      f z = ys[i]'(by rw [h.len]; omega) * (ys[i + 1]'(by rw [h.len]; omega) / ys[i]'(by rw [h.len]; omega)) ^
        (Real.log (z / xs[i]) / Real.log (xs[i + 1] / xs[i])) := by
  obtain ⟨p, q, rest, hL, h1, h2, hf⟩ := h.points
  refine ⟨_, hf kind, fun i hi z hz hl hr => ?_⟩
  have hlen : (p :: q :: rest).length = xs.length := by simpa using congrArg List.length h1
  have hs : ((p :: q :: rest).map Prod.fst).Pairwise (· < ·) := by rw [h1]; exact pairwise_logb h.posx h.inc
  have hpx : ∀ (j : ℕ) (hj : j < xs.length), 0 < xs[j] := fun j hj => h.posx _ (List.getElem_mem hj)
  have hpy : ∀ (j : ℕ) (hj : j < ys.length), 0 < ys[j] := fun j hj => h.posy _ (List.getElem_mem hj)
  have a1 := getElem_of_map_fst h1 i (by omega) (by omega)
  have a2 := getElem_of_map_fst h1 (i + 1) (by omega) (by omega)
  have b1 := getElem_of_map_snd h2 i (by rw [h.len]; omega) (by omega)
  have b2 := getElem_of_map_snd h2 (i + 1) (by rw [h.len]; omega) (by omega)
  have hxx : xs[i] < xs[i + 1] := List.pairwise_iff_getElem.1 h.inc i (i + 1) (by omega) hi (by omega)
  have key := linearSpline_piece rest p q hs (Real.logb 10 z) i (by omega)
    (hl.imp_right fun hl => by
      rw [a1]
      exact (Real.logb_le_logb (by norm_num) (hpx i (by omega)) hz).2 hl)
    (hr.imp (fun hr => by omega) fun hr => by
      rw [a2]
      exact (Real.logb_le_logb (by norm_num) hz (hpx _ hi)).2 hr)
  have e1 : (p :: q :: rest)[i] = (Real.logb 10 xs[i], Real.logb 10 (ys[i]'(by rw [h.len]; omega))) := Prod.ext a1 b1
  have e2 : (p :: q :: rest)[i + 1] = (Real.logb 10 xs[i + 1], Real.logb 10 (ys[i + 1]'(by rw [h.len]; omega))) := Prod.ext a2 b2
  rw [key, e1, e2]
  exact ten_pow_line (hpx _ _) hxx (hpy _ _) (hpy _ _) hz

/-- C117.  The table itself is reproduced. -/
theorem C117_points {xs ys : List ℝ} (kind : String) (h : LogTable xs ys) :
    ∃ f, logInterp1d xs ys kind = .ok f ∧ ∀ (i : ℕ) (hi : i < xs.length), f xs[i] = ys[i]'(by rw [h.len]; exact hi) := by
  obtain ⟨f, hf, hp⟩ := C117_pieces kind h
  refine ⟨f, hf, fun i hi => ?_⟩
  have h2 := h.two
  have hpx : ∀ (j : ℕ) (hj : j < xs.length), 0 < xs[j] := fun j hj => h.posx _ (List.getElem_mem hj)
  have hpy : ∀ (j : ℕ) (hj : j < ys.length), 0 < ys[j] := fun j hj => h.posy _ (List.getElem_mem hj)
  have hlt : ∀ (i j : ℕ) (hi : i < xs.length) (hj : j < xs.length), i < j → xs[i] < xs[j] := fun i j hi hj => List.pairwise_iff_getElem.1 h.inc i j hi hj
  rcases Nat.lt_or_ge (i + 1) xs.length with hlast | hlast
  · rw [hp i hlast _ (hpx i hi) (Or.inr le_rfl) (Or.inr (hlt i (i + 1) hi hlast (by omega)).le), div_self (hpx i hi).ne']
    simp
  · obtain ⟨j, rfl⟩ : ∃ j, i = j + 1 := ⟨i - 1, by omega⟩
    rw [hp j hi _ (hpx _ hi) (Or.inr (hlt j (j + 1) (by omega) hi (by omega)).le) (Or.inr le_rfl), div_self, Real.rpow_one]
    · have := hpy j (by rw [h.len]; omega)
      field_simp
    · exact (Real.log_pos ((one_lt_div (hpx j (by omega))).2 (hlt j (j + 1) (by omega) hi (by omega)))).ne'

/-- C117.  A table of a power law gives the power law, inside and outside the table. -/
theorem C117_power_law {xs : List ℝ} (kind : String) (c a : ℝ) (hc : 0 < c) (h0 : ∀ x ∈ xs, 0 < x) (h2 : 2 ≤ xs.length) (hi : xs.Pairwise (· < ·)) :
    ∃ f, logInterp1d xs (xs.map fun x => c * x ^ a) kind = .ok f ∧ ∀ z, 0 < z → f z = c * z ^ a := by
  have h : LogTable xs (xs.map fun x => c * x ^ a) :=
    ⟨h0, fun y hy => by
      obtain ⟨x, hx, rfl⟩ := List.mem_map.1 hy
      exact mul_pos hc (Real.rpow_pos_of_pos (h0 x hx) a), by simp, h2, hi⟩
  obtain ⟨f, hf, hp⟩ := C117_pieces kind h
  refine ⟨f, hf, fun z hz => ?_⟩
  obtain ⟨i, hi', hl, hr⟩ := pieces_cover h2 z
  rw [hp i hi' z hz hl hr]
  simp only [List.getElem_map]
  have hx0 : 0 < xs[i] := h0 _ (List.getElem_mem _)
  have hx1 : 0 < xs[i + 1] := h0 _ (List.getElem_mem _)
  have hxx : xs[i] < xs[i + 1] := List.pairwise_iff_getElem.1 hi i (i + 1) (by omega) hi' (by omega)
  have e : c * xs[i + 1] ^ a / (c * xs[i] ^ a) = (xs[i + 1] / xs[i]) ^ a := by
    rw [Real.div_rpow hx1.le hx0.le, mul_div_mul_left _ _ hc.ne']
  have hq : 0 < xs[i + 1] / xs[i] := div_pos hx1 hx0
  have hl : Real.log (xs[i + 1] / xs[i]) ≠ 0 := (Real.log_pos ((one_lt_div hx0).2 hxx)).ne'
  have e2 : ((xs[i + 1] / xs[i]) ^ a) ^ (Real.log (z / xs[i]) / Real.log (xs[i + 1] / xs[i])) = (z / xs[i]) ^ a := by
    rw [← Real.rpow_mul hq.le, Real.rpow_def_of_pos hq, Real.rpow_def_of_pos (div_pos hz hx0)]
    congr 1
    field_simp
  rw [e, e2, Real.div_rpow hz.le hx0.le]
  have : xs[i] ^ a ≠ 0 := (Real.rpow_pos_of_pos hx0 a).ne'
  field_simp

/-- C117.  A rising table gives a rising function of the positive numbers, and interpolating the table with its columns exchanged gives its inverse. -/
theorem C117_inverse {xs ys : List ℝ} (kind kind' : String) (h : LogTable xs ys) (hy : ys.Pairwise (· < ·)) :
    ∃ f g, logInterp1d xs ys kind = .ok f ∧ logInterp1d ys xs kind' = .ok g ∧
      (∀ z, 0 < z → 0 < f z ∧ g (f z) = z) ∧ (∀ y, 0 < y → 0 < g y ∧ f (g y) = y) ∧ ∀ z w, 0 < z → z < w → f z < f w := by
  have h' : LogTable ys xs := ⟨h.posy, h.posx, h.len.symm, by rw [h.len]; exact h.two, hy⟩
  obtain ⟨p, q, rest, hL, h1, h2, hf⟩ := h.points
  obtain ⟨p', q', rest', hL', h1', h2', hf'⟩ := h'.points
  have hsw : p' :: q' :: rest' = (p :: q :: rest).map Prod.swap := by
    rw [← hL, ← hL', List.zip_swap]
  have hp' : p' = p.swap ∧ q' = q.swap ∧ rest' = rest.map Prod.swap := by simpa using hsw
  have hp : p = p'.swap ∧ q = q'.swap ∧ rest = rest'.map Prod.swap := by
    obtain ⟨rfl, rfl, rfl⟩ := hp'
    simp
  have s1 : ((p :: q :: rest).map Prod.fst).Pairwise (· < ·) := by rw [h1]; exact pairwise_logb h.posx h.inc
  have s2 : ((p :: q :: rest).map Prod.snd).Pairwise (· < ·) := by rw [h2]; exact pairwise_logb h.posy hy
  have s1' : ((p' :: q' :: rest').map Prod.fst).Pairwise (· < ·) := by rw [h1']; exact pairwise_logb h.posy hy
  have s2' : ((p' :: q' :: rest').map Prod.snd).Pairwise (· < ·) := by rw [h2']; exact pairwise_logb h.posx h.inc
  refine ⟨_, _, hf kind, hf' kind', fun z hz => ⟨Real.rpow_pos_of_pos (by norm_num) _, ?_⟩, fun y hy' => ⟨Real.rpow_pos_of_pos (by norm_num) _, ?_⟩, ?_⟩
  · rw [Real.logb_rpow (by norm_num) (by norm_num), hp'.1, hp'.2.1, hp'.2.2, linearSpline_swap rest p q s1 s2, ten_pow_logb hz]
  · rw [Real.logb_rpow (by norm_num) (by norm_num), hp.1, hp.2.1, hp.2.2, linearSpline_swap rest' p' q' s1' s2', ten_pow_logb hy']
  · intro z w hz hzw
    exact Real.rpow_lt_rpow_of_exponent_lt (by norm_num) (linearSpline_strictMono rest p q s1 s2 (logb_ten_lt hz hzw))

/-- C117.  With positive numbers it raises exactly if the columns differ in length, the first one does not rise, or there are fewer than two rows. -/
theorem C117_raises {xs ys : List ℝ} (kind : String) (h0 : ∀ x ∈ xs, 0 < x) (h1 : ∀ y ∈ ys, 0 < y) :
    logInterp1d xs ys kind = .error .valueError ↔ ¬ (ys.length = xs.length ∧ xs.Pairwise (· < ·) ∧ 2 ≤ xs.length) := by
  constructor
  · rintro he ⟨hl, hi, h2⟩
    obtain ⟨p, q, rest, -, -, -, hf⟩ := LogTable.points ⟨h0, h1, hl, h2, hi⟩
    rw [hf kind] at he
    cases he
  · intro hno
    unfold logInterp1d interpolatedSpline
    by_cases hl : xs.length = ys.length
    · rw [if_neg (by simpa using hl)]
      by_cases hi : increasing (xs.map (Real.logb 10)) = true
      · rw [if_neg (by rw [hi]; simp)]
        have hi' := pairwise_of_logb h0 ((increasing_iff _).1 hi)
        have h2 : xs.length < 2 := by
          by_contra h2
          exact hno ⟨hl.symm, hi', by omega⟩
        have hz : ((xs.map (Real.logb 10)).zip (ys.map (Real.logb 10))).length < 2 := by simp; omega
        rcases hL : (xs.map (Real.logb 10)).zip (ys.map (Real.logb 10)) with _ | ⟨p, _ | ⟨q, rest⟩⟩
        · rfl
        · rfl
        · rw [hL] at hz; simp at hz
      · rw [if_pos (by simpa using hi)]
        rfl
    · rw [if_pos (by simpa using hl)]
      rfl

/-- The hypotheses are met: a table with three rows that is not a power law. -/
example : LogTable [1, 10, 1000] [2, 3, 50] ∧ ([2, 3, 50] : List ℝ).Pairwise (· < ·) := by
  refine ⟨⟨?_, ?_, rfl, by simp, ?_⟩, ?_⟩ <;> norm_num

end Optics
