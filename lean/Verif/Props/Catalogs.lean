import Verif.Lemmas.CatalogDraw

/-!
# C108: `script_sketchconcavegratings.py`
-/

namespace Optics

section reading
variable {α : Type} [PyNum α] (parse : Text → Option α)

/-- C108: a table with different names and different labels is read as it is, whatever the line ends are and whether or not the last
line has one: one entry for each row, in order, with the value of every cell under its label. -/
theorem C108_read {T : GratingTable} (hT : T.Plain) {eol : Text} (he : IsEol eol) (closed : Bool)
    (hlabels : (T.labels.tail.map unmarked).Nodup) (hnames : (T.rows.map rowName).Nodup) (hshort : ∀ r ∈ T.rows, r.length ≤ T.labels.length) :
    ∃ data, readCatalog parse (T.file eol closed) = .ok data ∧ List.Forall₂ (RowMeans parse T.labels) T.rows data := by
  refine ⟨_, by rw [readCatalog_eq parse hT he, if_pos hshort], ?_⟩
  rw [dict_sets_new (by rw [List.map_map]; exact hnames), List.nil_append, List.forall₂_map_right_iff, List.forall₂_same]
  exact fun r _ => rowEntry_means parse hlabels

/-- C108: the table cannot be read just when a row has more cells than there are labels, and then the error is `IndexError`. -/
theorem C108_long_row {T : GratingTable} (hT : T.Plain) {eol : Text} (he : IsEol eol) (closed : Bool) :
    (∃ e, readCatalog parse (T.file eol closed) = .error e) ↔ ∃ r ∈ T.rows, T.labels.length < r.length := by
  rw [readCatalog_eq parse hT he]
  by_cases h : ∀ r ∈ T.rows, r.length ≤ T.labels.length
  · rw [if_pos h]
    exact ⟨fun ⟨e, he⟩ => (by cases he), fun ⟨r, hr, hl⟩ => absurd (h r hr) hl.not_ge⟩
  · rw [if_neg h]
    refine ⟨fun _ => ?_, fun _ => ⟨_, rfl⟩⟩
    by_contra hh
    exact h fun r hr => not_lt.mp fun hl => hh ⟨r, hr, hl⟩

theorem C108_long_row_error {T : GratingTable} (hT : T.Plain) {eol : Text} (he : IsEol eol) (closed : Bool) {e : PyErr}
    (h : readCatalog parse (T.file eol closed) = .error e) : e = .indexError := by
  rw [readCatalog_eq parse hT he] at h
  split_ifs at h
  exact (Except.error.inj h).symm

/-- C108: where a name or a label is repeated, the last row with the name counts, and in it the last cell with the label. -/
theorem C108_repeated {T : GratingTable} (hT : T.Plain) {eol : Text} (he : IsEol eol) (closed : Bool)
    {data : Dict (Dict (Field α))} (h : readCatalog parse (T.file eol closed) = .ok data) :
    (data.map Prod.fst).Nodup ∧ (∀ k, k ∈ data.map Prod.fst ↔ ∃ r ∈ T.rows, rowName r = k) ∧
    ∀ {pre : List (List Text)} {row : List Text} {post : List (List Text)}, T.rows = pre ++ row :: post →
      (∀ r ∈ post, rowName r ≠ rowName row) →
      ∃ g, data.get (rowName row) = .ok g ∧ (g.map Prod.fst).Nodup ∧
        (∀ k, k ∈ g.map Prod.fst ↔ k ∈ (rowCells T.labels row).map Prod.fst) ∧
        ∀ {pre' : List (Text × Text)} {p : Text × Text} {post' : List (Text × Text)}, rowCells T.labels row = pre' ++ p :: post' →
          (∀ q ∈ post', q.1 ≠ p.1) → ∃ f, g.get p.1 = .ok f ∧ CellMeans parse p.2 f := by
  rw [readCatalog_eq parse hT he] at h
  split_ifs at h with hs
  have h := Except.ok.inj h
  subst h
  have hk := dict_sets_keys (es := T.rows.map (rowEntry parse T.labels)) (d := []) List.nodup_nil
  refine ⟨hk.1, fun k => ?_, ?_⟩
  · rw [hk.2, List.map_map]
    simp only [List.map_nil, List.not_mem_nil, false_or, List.mem_map]
    rfl
  · intro pre row post hrows hpost
    refine ⟨(rowEntry parse T.labels row).2, ?_, ?_⟩
    · rw [hrows, List.map_append, List.map_cons]
      refine dict_sets_last [] ?_
      rw [List.map_map]
      intro hm
      obtain ⟨r, hr, he⟩ := List.mem_map.mp hm
      exact hpost r hr he
    · have hk' := dict_sets_keys (es := (rowCells T.labels row).map fun p => (p.1, fieldValue parse p.2)) (d := []) List.nodup_nil
      refine ⟨hk'.1, fun k => ?_, ?_⟩
      · refine (hk'.2 k).trans ?_
        rw [List.map_map]
        simp only [List.map_nil, List.not_mem_nil, false_or]
        rfl
      · intro pre' p post' hcells hpost'
        refine ⟨fieldValue parse p.2, ?_, cell_means parse p.2⟩
        show (Dict.sets [] ((rowCells T.labels row).map fun p => (p.1, fieldValue parse p.2))).get p.1 = _
        rw [hcells, List.map_append, List.map_cons]
        refine dict_sets_last [] ?_
        rw [List.map_map]
        intro hm
        obtain ⟨q, hq, he⟩ := List.mem_map.mp hm
        exact hpost' q hq he

end reading

/-! ## Diagrams -/

/-- C108: the script comes to its end just when the table can be read and every grating has its numbers, and then it has saved one
diagram for each grating, in the order of the table. -/
theorem C108_finishes (parse : Text → Option ℝ) (file : Text) (out : List (Text × List (Curve ℝ))) :
    sketchScript parse file = (out, none) ↔
      ∃ data, readCatalog parse file = .ok data ∧ List.Forall₂ (fun e o => o.1 = e.1 ∧ IsSketch e.2 o.2) data out := by
  unfold sketchScript
  cases hd : readCatalog parse file with
  | error e => exact ⟨fun h => (by cases h), fun ⟨_, h, _⟩ => (by cases h)⟩
  | ok data =>
    simp only
    rw [script_finishes data out]
    exact ⟨fun h => ⟨data, rfl, h⟩, fun ⟨d, h1, h2⟩ => by rw [Except.ok.inj h1]; exact h2⟩

/-- C108: every grating has just one diagram, so the script's output is determined by the table. -/
theorem C108_one_sketch {g : Dict (Field ℝ)} {d d' : List (Curve ℝ)} (h : IsSketch g d) (h' : IsSketch g d') : d = d' :=
  isSketch_unique h h'

/-- C108: whatever happens, the diagrams saved are those of the first gratings of the table; if it cannot be read, or a grating lacks
one of the numbers for the layout, there is none. -/
theorem C108_prefix (parse : Text → Option ℝ) (file : Text) :
    (∃ data, readCatalog parse file = .ok data ∧
      List.Forall₂ (fun e o => o.1 = e.1 ∧ IsSketch e.2 o.2) (data.take (sketchScript parse file).1.length) (sketchScript parse file).1 ∧
      ((sketchScript parse file).1 ≠ [] → ∀ e ∈ data, ∃ r α r₁ β₁ r₂ β₂, HasLayout e.2 r α r₁ β₁ r₂ β₂)) ∨
    (sketchScript parse file).1 = [] := by
  cases hd : readCatalog parse file with
  | error e => right; unfold sketchScript; rw [hd]
  | ok data =>
    left
    refine ⟨data, rfl, ?_⟩
    unfold sketchScript
    rw [hd]
    exact script_prefix data

/-- C108: the script can fail only with `IndexError`, `KeyError` or `TypeError`. -/
theorem C108_errors (parse : Text → Option ℝ) {T : GratingTable} (hT : T.Plain) {eol : Text} (he : IsEol eol) (closed : Bool) {e : PyErr}
    (h : (sketchScript parse (T.file eol closed)).2 = some e) : e = .indexError ∨ e = .keyError ∨ e = .typeError := by
  unfold sketchScript at h
  cases hd : readCatalog parse (T.file eol closed) with
  | error e' =>
    rw [hd] at h
    exact Or.inl ((Option.some.inj h).symm.trans (C108_long_row_error parse hT he closed hd))
  | ok data =>
    rw [hd] at h
    exact Or.inr (script_error data h)

/-- C108: an empty line after the table, which an editor may well leave there, is a grating without a name and without numbers: the
script fails before it draws anything. -/
theorem C108_empty_line (parse : Text → Option ℝ) {T : GratingTable} (hT : T.Plain) :
    (sketchScript parse (T.file ['\n'] true ++ ['\n'])).1 = [] ∧ (sketchScript parse (T.file ['\n'] true ++ ['\n'])).2 ≠ none := by
  unfold sketchScript
  rw [readCatalog_blank parse hT]
  by_cases h : ∀ r ∈ T.rows, r.length ≤ T.labels.length
  · rw [if_pos h]
    exact script_nameless _ ⟨[], dict_set_get_mem _ _ _⟩
  · rw [if_neg h]
    exact ⟨rfl, by simp⟩

/-- C108: the slit and the images are at the distances and directions of the table, and the detector is as long as the images are
apart, by the law of cosines. -/
theorem C108_layout {g : Dict (Field ℝ)} {r α r₁ β₁ r₂ β₂ : ℝ} (h : HasLayout g r α r₁ β₁ r₂ β₂) :
    ∃ l, layoutOf g = .ok l ∧ l.input = atPolar r α ∧ l.output1 = atPolar r₁ β₁ ∧ l.output2 = atPolar r₂ β₂ ∧
      planeDist (0, 0) l.input = |r| ∧ planeDist (0, 0) l.output1 = |r₁| ∧ planeDist (0, 0) l.output2 = |r₂| ∧
      l.detector = planeDist l.output1 l.output2 ∧
      l.detector ^ 2 = r₁ ^ 2 + r₂ ^ 2 - 2 * r₁ * r₂ * Real.cos ((β₁ - β₂) * Real.pi / 180) := by
  refine ⟨_, layout_value h, rfl, rfl, rfl, planeDist_polar _ _, planeDist_polar _ _, planeDist_polar _ _, rfl, ?_⟩
  show planeDist _ _ ^ 2 = _
  unfold planeDist atPolar
  rw [Real.sq_sqrt (by positivity), sub_mul, sub_div, Real.cos_sub]
  have h1 := Real.sin_sq_add_cos_sq (β₁ * Real.pi / 180)
  have h2 := Real.sin_sq_add_cos_sq (β₂ * Real.pi / 180)
  linear_combination r₁ ^ 2 * h1 + r₂ ^ 2 * h2

/-- C108: the colours are the ones of the visible spectrum, which matplotlib accepts. -/
theorem C108_colours {g : Dict (Field ℝ)} {d : List (Curve ℝ)} (h : IsSketch g d) : ∀ c ∈ d, ∀ x, c.colour = some x → IsColour x := by
  obtain ⟨r, α, r₁, β₁, r₂, β₂, ruled, w₁, w₂, H, c₁, c₂, k1, k2, rfl⟩ := h
  have key : ∀ {w : ℝ} {c : ℝ × ℝ × ℝ}, wavelengthToRgb w 1 380.0 750.0 = .ok c → IsColour c := by
    intro w c hc
    obtain ⟨c', h1, h2⟩ := C58_is_colour w (γ := 1) one_pos
    rw [hc] at h1
    rw [Except.ok.inj h1]; exact h2
  intro c hc x hx
  simp only [sketchOf, List.mem_cons, List.not_mem_nil, or_false] at hc
  rcases hc with rfl | rfl | rfl | rfl | rfl | rfl | rfl | rfl | rfl | rfl | rfl <;> cases hx
  · exact key k1
  · exact key k1
  · exact key k2
  · exact key k2

/-! ## A table -/

/-- A parser that knows the numbers of the table below. -/
noncomputable def sampleParse (t : Text) : Option ℝ :=
  if t = "28".toList then some 28 else if t = "210".toList then some 210 else if t = "30".toList then some 30
  else if t = "500".toList then some 500 else if t = "700".toList then some 700 else none

/-- A table with one grating, as in `dat_concavegratings.txt`: the name is marked and the ruled area is given as a size. -/
def sampleTable : GratingTable :=
  ⟨["Catalog".toList, "ruled".toList, "r (mm)".toList, "alpha (deg)".toList, "r'1 (mm)".toList, "beta1 (deg)".toList,
      "r'2 (mm)".toList, "beta2 (deg)".toList, "m lambda1".toList, "m lambda2".toList, "f/#".toList],
    [["Ê52A".toList, "28 x 28".toList, "210".toList, "30".toList, "210".toList, "28".toList, "210".toList, "30".toList,
      "500".toList, "700".toList, "f/3.6".toList]]⟩

instance (t : Text) : Decidable (PlainCell t) := by unfold PlainCell; infer_instance

theorem sampleTable_plain : sampleTable.Plain :=
  ⟨by decide, by decide, by decide, by decide, by decide⟩

/-- The table is read whatever the line ends are. -/
example {eol : Text} (he : IsEol eol) (closed : Bool) :
    ∃ data, readCatalog sampleParse (sampleTable.file eol closed) = .ok data ∧
      List.Forall₂ (RowMeans sampleParse sampleTable.labels) sampleTable.rows data :=
  C108_read sampleParse sampleTable_plain he closed (by decide) (by decide) (by decide)

/-- The size `28 x 28` counts as 28, and the f-number stays a text. -/
example : CellMeans sampleParse "28 x 28".toList (.num 28) ∧ CellMeans sampleParse "f/3.6".toList (.text "f/3.6".toList) := by
  refine ⟨.size (a := "28 ".toList) (s := "28".toList) (by simp [sampleParse]) (Or.inr ⟨" 28".toList, by decide⟩) (by decide) ?_ (by simp [sampleParse]), ?_⟩
  · exact ⟨[], [' '], by decide, by decide, by decide, by decide, by decide⟩
  · exact .text (a := "f/3.6".toList) (s := "f/3.6".toList) (by simp [sampleParse]) (Or.inl rfl) (by decide)
      ⟨[], [], by decide, by decide, by decide, by decide, by decide⟩ (by simp [sampleParse])

theorem sample_values :
    fieldValue sampleParse "28 x 28".toList = .num 28 ∧ fieldValue sampleParse "28".toList = .num 28 ∧
    fieldValue sampleParse "210".toList = .num 210 ∧ fieldValue sampleParse "30".toList = .num 30 ∧
    fieldValue sampleParse "500".toList = .num 500 ∧ fieldValue sampleParse "700".toList = .num 700 := by
  refine ⟨?_, ?_, ?_, ?_, ?_, ?_⟩
  · unfold fieldValue
    rw [show sampleParse "28 x 28".toList = none by simp [sampleParse],
      show stripText ("28 x 28".toList.takeWhile (· ≠ 'x')) = "28".toList by decide,
      show sampleParse "28".toList = some 28 by simp [sampleParse]]
  all_goals
    unfold fieldValue
    simp [sampleParse]

/-- The script draws one diagram for the table, and the detector runs between points 210 mm away. -/
example {eol : Text} (he : IsEol eol) (closed : Bool) :
    ∃ d, sketchScript sampleParse (sampleTable.file eol closed) = ([("52A".toList, d)], none) ∧
      ⟨[atPolar 210 28, atPolar 210 30], none⟩ ∈ d ∧ ⟨[(0, 14), (0, -14)], none⟩ ∈ d := by
  obtain ⟨h1, h2, h3, h4, h5, h6⟩ := sample_values
  obtain ⟨c₁, k1, -⟩ := C58_is_colour (drawnWave 500) (γ := 1) one_pos
  obtain ⟨c₂, k2, -⟩ := C58_is_colour (drawnWave 700) (γ := 1) one_pos
  refine ⟨sketchOf (atPolar 210 30) (atPolar 210 28) (atPolar 210 30) 28 c₁ c₂, ?_, ?_, ?_⟩
  · rw [C108_finishes]
    refine ⟨[rowEntry sampleParse sampleTable.labels sampleTable.rows.head!], ?_, .cons ⟨rfl, 210, 30, 210, 28, 210, 30, 28, 500, 700, ?_, c₁, c₂, k1, k2, rfl⟩ .nil⟩
    · rw [readCatalog_eq sampleParse sampleTable_plain he, if_pos (by decide)]; rfl
    · exact ⟨congrArg _ h3, congrArg _ h4, congrArg _ h3, congrArg _ h2, congrArg _ h3, congrArg _ h4, congrArg _ h1, congrArg _ h5, congrArg _ h6,
        _, rfl⟩
  · simp [sketchOf]
  · simp [sketchOf]
    norm_num

/-- A second row with the name `52A` takes the place of the first. -/
example {data : Dict (Dict (Field ℝ))}
    (h : readCatalog sampleParse (GratingTable.file ⟨sampleTable.labels, sampleTable.rows ++ [["52A".toList, "30".toList]]⟩ ['\n'] true) = .ok data) :
    ∃ g f, data.get "52A".toList = .ok g ∧ g.map Prod.fst = ["ruled".toList] ∧ g.get "ruled".toList = .ok f ∧ CellMeans sampleParse "30".toList f := by
  have hT : GratingTable.Plain ⟨sampleTable.labels, sampleTable.rows ++ [["52A".toList, "30".toList]]⟩ :=
    ⟨by decide, by decide, by decide, by decide, by decide⟩
  obtain ⟨-, -, h3⟩ := C108_repeated sampleParse hT (Or.inr (Or.inl rfl)) true h
  obtain ⟨g, g1, g2, g3, g4⟩ := h3 (pre := sampleTable.rows) (row := ["52A".toList, "30".toList]) (post := []) rfl (by simp)
  obtain ⟨f, f1, f2⟩ := g4 (pre' := []) (p := ("ruled".toList, "30".toList)) (post' := []) (by decide) (by simp)
  refine ⟨g, f, g1, ?_, f1, f2⟩
  have hk : ∀ k, k ∈ g.map Prod.fst ↔ k = "ruled".toList := fun k => by
    rw [g3, show (rowCells sampleTable.labels ["52A".toList, "30".toList]).map Prod.fst = ["ruled".toList] by decide, List.mem_singleton]
  match hg : g.map Prod.fst, g2, hk with
  | [], _, hk => exact absurd ((hk _).mpr rfl) (by simp)
  | [a], _, hk => rw [(hk a).mp List.mem_cons_self]
  | a :: b :: l, g2, hk =>
    have ha := (hk a).mp List.mem_cons_self
    have hb := (hk b).mp (List.mem_cons_of_mem _ List.mem_cons_self)
    rw [ha, hb] at g2
    simp at g2

end Optics
