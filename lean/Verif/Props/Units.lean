import Verif.Model.General
import Verif.Lemmas.Vec
import Mathlib.Algebra.Order.Field.Basic

/-!
# C59, C60, C62: unit conversion, `find_nearest`, `set_axes_equal`
-/

namespace Optics

/-! ## C59 -/

/-- `1e9 h c / e`, in eV nm. -/
noncomputable def hcOverE : ℝ := 1e9 * 6.62606957e-34 * 2.99792458e8 / 1.60217657e-19

theorem hcOverE_pos : 0 < hcOverE := by norm_num [hcOverE]

theorem pyDiv_real {x y : ℝ} (h : y ≠ 0) : pyDiv x y = .ok (x / y) := by
  unfold pyDiv
  rw [if_neg]
  simpa [lit0] using h

/-- C59: energy times wavelength is the same constant, close to 1239.84 eV nm, both ways. -/
theorem C59_product {x : ℝ} (hx : x ≠ 0) :
    (∃ E, wavelengthToEnergy x = .ok E ∧ E * x = hcOverE) ∧ (∃ w, energyToWavelength x = .ok w ∧ w * x = hcOverE) ∧
    |hcOverE - 1239.842| < 0.001 :=
  ⟨⟨_, pyDiv_real hx, div_mul_cancel₀ _ hx⟩, ⟨_, pyDiv_real hx, div_mul_cancel₀ _ hx⟩, by
    rw [abs_lt]; norm_num [hcOverE]⟩

/-- C59: the two conversions are inverse to each other. -/
theorem C59_inverse {x : ℝ} (hx : x ≠ 0) :
    (wavelengthToEnergy x >>= energyToWavelength) = .ok x ∧ (energyToWavelength x >>= wavelengthToEnergy) = .ok x := by
  have h : hcOverE / x ≠ 0 := div_ne_zero hcOverE_pos.ne' hx
  have key : pyDiv hcOverE (hcOverE / x) = .ok x := by
    rw [pyDiv_real h]
    congr 1
    have := hcOverE_pos.ne'
    field_simp
  have e1 : wavelengthToEnergy x = .ok (hcOverE / x) := pyDiv_real hx
  have e2 : energyToWavelength x = .ok (hcOverE / x) := pyDiv_real hx
  exact ⟨by rw [e1]; exact key, by rw [e2]; exact key⟩

/-- C59: on positive numbers they reverse the order. -/
theorem C59_antitone {x y : ℝ} (hx : 0 < x) (hxy : x < y) :
    (∃ a b, wavelengthToEnergy x = .ok a ∧ wavelengthToEnergy y = .ok b ∧ 0 < b ∧ b < a) ∧
    (∃ a b, energyToWavelength x = .ok a ∧ energyToWavelength y = .ok b ∧ 0 < b ∧ b < a) := by
  have hy := hx.trans hxy
  have h : 0 < hcOverE / y ∧ hcOverE / y < hcOverE / x :=
    ⟨div_pos hcOverE_pos hy, (div_lt_div_iff_of_pos_left hcOverE_pos hy hx).mpr hxy⟩
  exact ⟨⟨_, _, pyDiv_real hx.ne', pyDiv_real hy.ne', h.1, h.2⟩, ⟨_, _, pyDiv_real hx.ne', pyDiv_real hy.ne', h.1, h.2⟩⟩

/-- C59: a Python zero raises. -/
theorem C59_zero : wavelengthToEnergy (0 : ℝ) = .error .zeroDivisionError ∧
    energyToWavelength (0 : ℝ) = .error .zeroDivisionError := by
  constructor <;> simp [wavelengthToEnergy, energyToWavelength, pyDiv, lit0]

/-! ## C60 -/

theorem isNan_real (x : ℝ) : isNan x = false := by simp [isNan]

/-- `i` is the first position of a smallest element. -/
def FirstMin (l : List ℝ) (i : ℕ) (v : ℝ) : Prop :=
  l[i]? = some v ∧ (∀ x ∈ l, v ≤ x) ∧ ∀ j w, j < i → l[j]? = some w → v < w

theorem argminFrom_spec (done rest : List ℝ) (best : ℝ) (k : ℕ) (h : FirstMin done k best) :
    ∃ v, FirstMin (done ++ rest) (argminFrom rest done.length best k) v := by
  induction rest generalizing done best k with
  | nil => exact ⟨best, by rwa [List.append_nil]⟩
  | cons x rest ih =>
    obtain ⟨hk, hmin, hfirst⟩ := h
    have hlt : k < done.length := (List.getElem?_eq_some_iff.mp hk).1
    unfold argminFrom
    rw [isNan_real, isNan_real, List.append_cons]
    simp only [Bool.false_eq_true, if_false, false_or]
    have hlen : done.length + 1 = (done ++ [x]).length := by simp
    rw [hlen]
    split_ifs with hx
    · refine ih _ _ _ ⟨by simp, ?_, ?_⟩
      · intro y hy
        rcases List.mem_append.mp hy with hy | hy
        · exact hx.le.trans (hmin y hy)
        · rw [List.mem_singleton.mp hy]
      · intro j w hj hw
        rw [List.getElem?_append_left hj] at hw
        exact hx.trans_le (hmin w (List.mem_of_getElem? hw))
    · refine ih _ _ _ ⟨by rwa [List.getElem?_append_left hlt], ?_, ?_⟩
      · intro y hy
        rcases List.mem_append.mp hy with hy | hy
        · exact hmin y hy
        · rw [List.mem_singleton.mp hy]; exact not_lt.mp hx
      · intro j w hj hw
        rw [List.getElem?_append_left (hj.trans hlt)] at hw
        exact hfirst j w hj hw

/-- C60: for a non-empty array `find_nearest` returns the first position whose element is at minimal distance from
the value, and that element. -/
theorem C60_nearest (a : List ℝ) (v : ℝ) (h : a ≠ []) :
    ∃ i x, findNearest a v = .ok (i, x) ∧ a[i]? = some x ∧ (∀ y ∈ a, |x - v| ≤ |y - v|) ∧
      ∀ j y, j < i → a[j]? = some y → |x - v| < |y - v| := by
  cases a with
  | nil => exact absurd rfl h
  | cons a0 rest =>
    obtain ⟨m, hm, hmin, hfirst⟩ := argminFrom_spec [|a0 - v|] (rest.map fun a => |a - v|) |a0 - v| 0
      ⟨rfl, fun x hx => by rw [List.mem_singleton.mp hx], fun j w hj => absurd hj (Nat.not_lt_zero _)⟩
    simp only [List.length_cons, List.length_nil, List.cons_append, List.nil_append] at hm hmin hfirst
    have hmap : ∀ j : ℕ, (|a0 - v| :: rest.map fun a => |a - v|)[j]? = ((a0 :: rest)[j]?).map fun a => |a - v| := by
      intro j
      rw [← List.getElem?_map]
      rfl
    have e : argmin ((a0 :: rest).map fun a => PyNum.abs (a - v)) =
        .ok (argminFrom (rest.map fun a => |a - v|) (0 + 1) |a0 - v| 0) := rfl
    generalize argminFrom (rest.map fun a => |a - v|) (0 + 1) |a0 - v| 0 = i at *
    rw [hmap] at hm
    obtain ⟨x, hx, hxm⟩ := Option.map_eq_some_iff.mp hm
    refine ⟨i, x, ?_, hx, ?_, ?_⟩
    · unfold findNearest
      simp only [e, bind, Except.bind, hx, pure, Except.pure]
    · intro y hy
      rw [hxm]
      exact hmin _ (List.mem_map_of_mem (f := fun a => |a - v|) hy)
    · intro j y hj hy
      rw [hxm]
      refine hfirst j _ hj ?_
      rw [hmap, hy]
      rfl

/-- C60: an empty array raises `ValueError`, whatever the number type. -/
theorem C60_empty {α : Type} [PyNum α] (v : α) : findNearest ([] : List α) v = .error .valueError := rfl

theorem argminFrom_nan {α : Type} [PyNum α] (pre post : List α) (x best : α) (i k : ℕ) (hb : isNan best = false)
    (hpre : ∀ y ∈ pre, isNan y = false) (hx : isNan x = true) :
    argminFrom (pre ++ x :: post) i best k = i + pre.length := by
  induction pre generalizing best i k with
  | nil =>
    show argminFrom (x :: post) i best k = i
    unfold argminFrom
    rw [hb, if_neg (by simp), if_pos (.inl hx)]
    cases post with
    | nil => rfl
    | cons z post => unfold argminFrom; rw [if_pos hx]
  | cons y pre ih =>
    show argminFrom (y :: (pre ++ x :: post)) i best k = _
    unfold argminFrom
    have hy := hpre y List.mem_cons_self
    rw [hb, if_neg (by simp), List.length_cons]
    have h := fun b k hb => ih b (i + 1) k hb (fun z hz => hpre z (List.mem_cons_of_mem _ hz))
    split_ifs
    · rw [h _ _ hy]; omega
    · rw [h _ _ hb]; omega

/-- C60, where the claim fails: an element at a `nan` distance wins over every other one; `find_nearest` returns the
first such element, for any number type. -/
theorem C60_nan {α : Type} [PyNum α] (pre post : List α) (x v : α)
    (hpre : ∀ y ∈ pre, isNan (PyNum.abs (y - v)) = false) (hx : isNan (PyNum.abs (x - v)) = true) :
    findNearest (pre ++ x :: post) v = .ok (pre.length, x) := by
  have e : argmin ((pre ++ x :: post).map fun a => PyNum.abs (a - v)) = .ok pre.length := by
    cases pre with
    | nil =>
      show Except.ok (argminFrom (post.map _) 1 (PyNum.abs (x - v)) 0) = _
      cases post with
      | nil => rfl
      | cons z post => rw [List.map_cons]; unfold argminFrom; rw [if_pos hx]; rfl
    | cons y pre =>
      show Except.ok (argminFrom ((pre ++ x :: post).map _) 1 (PyNum.abs (y - v)) 0) = _
      rw [List.map_append, List.map_cons, argminFrom_nan _ _ _ _ _ _ (hpre y List.mem_cons_self) _ hx, List.length_map,
        List.length_cons, Nat.add_comm]
      intro z hz
      obtain ⟨w, hw, rfl⟩ := List.mem_map.mp hz
      exact hpre w (List.mem_cons_of_mem _ hw)
  unfold findNearest
  simp only [e, bind, Except.bind, pure, Except.pure]
  rw [List.getElem?_append_right (le_refl _), Nat.sub_self]
  rfl

/-- A case of `C60_nearest` with a tie (the first of the two wins) and one of `C60_nan`. -/
example : findNearest [(5 : ℝ), 1, 3] 2 = .ok (1, 1) ∧
    findNearest [XR.fin 5, XR.nan, XR.fin 2] (.fin 2) = .ok (1, XR.nan) := by
  constructor
  · have : argmin [|(5 : ℝ) - 2|, |1 - 2|, |3 - 2|] = .ok 1 := by
      norm_num [argmin, argminFrom, isNan]
    show (argmin [|(5 : ℝ) - 2|, |1 - 2|, |3 - 2|] >>= _) = _
    rw [this]
    rfl
  · exact C60_nan [XR.fin 5] [XR.fin 2] .nan (.fin 2) (by simp [isNan]) (by simp [isNan, PyNum.eqb, XR.eqb])

/-! ## C62 -/

/-- The midpoint and the length of a range (the two ends in either order). -/
noncomputable def mid (r : ℝ × ℝ) : ℝ := (r.1 + r.2) / 2
/-- see `mid` -/
noncomputable def extent (r : ℝ × ℝ) : ℝ := |r.2 - r.1|

/-- The three ranges of the axes. -/
def Axes.ranges (ax : Axes ℝ) : List (ℝ × ℝ) := [ax.x, ax.y, ax.z]

theorem max3_eq (a b c : ℝ) : max3 a b c = max (max a b) c := by
  unfold max3
  simp only [max_def]
  split_ifs <;> linarith

/-- C62: afterwards the three ranges have one common length, which is the largest of the old lengths, and the old
midpoints; each contains the old range. -/
theorem C62_cube (ax : Axes ℝ) : ∃ L, (∀ r ∈ (setAxesEqual ax).ranges, r.2 - r.1 = L) ∧
    (∀ r ∈ ax.ranges, extent r ≤ L) ∧ (∃ r ∈ ax.ranges, extent r = L) ∧
    (setAxesEqual ax).ranges.map mid = ax.ranges.map mid ∧
    ∀ (i : Fin 3) (t : ℝ), t ∈ Set.uIcc (ax.ranges[i]).1 (ax.ranges[i]).2 →
      t ∈ Set.Icc ((setAxesEqual ax).ranges[i]).1 ((setAxesEqual ax).ranges[i]).2 := by
  obtain ⟨⟨x1, x2⟩, ⟨y1, y2⟩, ⟨z1, z2⟩⟩ := ax
  have hx : |x2 - x1| ≤ max (max |x2 - x1| |y2 - y1|) |z2 - z1| := (le_max_left _ _).trans (le_max_left _ _)
  have hy : |y2 - y1| ≤ max (max |x2 - x1| |y2 - y1|) |z2 - z1| := (le_max_right _ _).trans (le_max_left _ _)
  have hz : |z2 - z1| ≤ max (max |x2 - x1| |y2 - y1|) |z2 - z1| := le_max_right _ _
  have hw : max (max |x2 - x1| |y2 - y1|) |z2 - z1| = |x2 - x1| ∨ max (max |x2 - x1| |y2 - y1|) |z2 - z1| = |y2 - y1| ∨
      max (max |x2 - x1| |y2 - y1|) |z2 - z1| = |z2 - z1| := by
    rcases max_choice (max |x2 - x1| |y2 - y1|) |z2 - z1| with h | h
    · rcases max_choice |x2 - x1| |y2 - y1| with h' | h'
      · exact .inl (h.trans h')
      · exact .inr (.inl (h.trans h'))
    · exact .inr (.inr h)
  have hin : ∀ a b L t : ℝ, |b - a| ≤ L → t ∈ Set.uIcc a b →
      t ∈ Set.Icc ((a + b) / 2 - 1 / 2 * L) ((a + b) / 2 + 1 / 2 * L) := by
    intro a b L t h ht
    rw [abs_le] at h
    rcases Set.mem_uIcc.mp ht with ⟨h1, h2⟩ | ⟨h1, h2⟩
    · exact ⟨by linarith, by linarith⟩
    · exact ⟨by linarith, by linarith⟩
  have e : setAxesEqual (⟨(x1, x2), (y1, y2), (z1, z2)⟩ : Axes ℝ) =
      ⟨((x1 + x2) / 2 - 1 / 2 * max (max |x2 - x1| |y2 - y1|) |z2 - z1|,
          (x1 + x2) / 2 + 1 / 2 * max (max |x2 - x1| |y2 - y1|) |z2 - z1|),
        ((y1 + y2) / 2 - 1 / 2 * max (max |x2 - x1| |y2 - y1|) |z2 - z1|,
          (y1 + y2) / 2 + 1 / 2 * max (max |x2 - x1| |y2 - y1|) |z2 - z1|),
        ((z1 + z2) / 2 - 1 / 2 * max (max |x2 - x1| |y2 - y1|) |z2 - z1|,
          (z1 + z2) / 2 + 1 / 2 * max (max |x2 - x1| |y2 - y1|) |z2 - z1|)⟩ := by
    simp only [setAxesEqual, setAxesRadius, max3_eq, real_abs, lit2, show (0.5 : ℝ) = 1 / 2 by norm_num]
  rw [e]
  generalize max (max |x2 - x1| |y2 - y1|) |z2 - z1| = L at *
  refine ⟨L, ?_, ?_, ?_, ?_, ?_⟩
  · simp only [Axes.ranges, List.mem_cons, List.not_mem_nil, or_false, forall_eq_or_imp, forall_eq]
    exact ⟨by ring, by ring, by ring⟩
  · simp only [Axes.ranges, extent, List.mem_cons, List.not_mem_nil, or_false, forall_eq_or_imp, forall_eq]
    exact ⟨hx, hy, hz⟩
  · simp only [Axes.ranges, extent, List.mem_cons, List.not_mem_nil, or_false, exists_eq_or_imp, exists_eq_left]
    exact hw.imp Eq.symm (Or.imp Eq.symm Eq.symm)
  · simp only [Axes.ranges, mid, List.map_cons, List.map_nil]
    ring_nf
  · intro i t
    fin_cases i
    · exact hin _ _ _ _ hx
    · exact hin _ _ _ _ hy
    · exact hin _ _ _ _ hz

/-- C62, smallest: any ranges of one common length around the same midpoints that contain the old ones are at least as
long. -/
theorem C62_smallest (ax : Axes ℝ) (L L' : ℝ) (h : ∀ r ∈ (setAxesEqual ax).ranges, r.2 - r.1 = L)
    (h' : ∀ r ∈ ax.ranges, r.1 ∈ Set.Icc (mid r - L' / 2) (mid r + L' / 2) ∧ r.2 ∈ Set.Icc (mid r - L' / 2) (mid r + L' / 2)) :
    L ≤ L' := by
  obtain ⟨M, hM, -, ⟨r, hr, he⟩, -⟩ := C62_cube ax
  have : L = M := by rw [← h (setAxesEqual ax).x (by simp [Axes.ranges]), hM _ (by simp [Axes.ranges])]
  rw [this, ← he]
  obtain ⟨⟨h1, h2⟩, h3, h4⟩ := h' r hr
  unfold extent
  rw [abs_le]
  constructor <;> linarith

/-- The ranges of a plot twice as wide as deep. -/
example : setAxesEqual (⟨(0, 4), (1, 3), (5, 4)⟩ : Axes ℝ) = ⟨(0, 4), (0, 4), (5 / 2, 13 / 2)⟩ := by
  have : max3 |(4 : ℝ) - 0| |3 - 1| |4 - 5| = 4 := by rw [max3_eq]; norm_num
  simp only [setAxesEqual, setAxesRadius, real_abs, this]
  norm_num

end Optics
