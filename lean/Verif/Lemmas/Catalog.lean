import Verif.Spec.Catalog
import Mathlib.Data.List.TakeWhile

/-! # Reading a table of gratings -/

namespace Optics

/-! ## Text -/

theorem universal_plain {l : Text} (h : '\r' ∉ l) (cs : Text) : universalNewlines (l ++ cs) = l ++ universalNewlines cs := by
  induction l with
  | nil => rfl
  | cons c l ih =>
    have hc : c ≠ '\r' := fun e => h (e ▸ List.mem_cons_self)
    rw [List.cons_append, universalNewlines, ih (fun hm => h (List.mem_cons_of_mem _ hm)), List.cons_append]
    · rintro _ e -; exact hc e
    · exact hc

theorem universal_eol {e cs : Text} (he : IsEol e) (hcs : cs.head? ≠ some '\n') :
    universalNewlines (e ++ cs) = '\n' :: universalNewlines cs := by
  rcases he with rfl | rfl | rfl
  · rfl
  · show universalNewlines ('\n' :: cs) = _
    rw [universalNewlines]
    · rintro - e; exact absurd e (by decide)
    · decide
  · show universalNewlines ('\r' :: cs) = _
    cases cs with
    | nil => rfl
    | cons c cs =>
      rw [universalNewlines]
      rintro d e
      injection e with e1 e2
      exact hcs (by rw [e1]; rfl)

/-- A line: not empty and without line ends. -/
def IsLine (l : Text) : Prop := l ≠ [] ∧ '\n' ∉ l ∧ '\r' ∉ l

theorem fileText_head {e : Text} {b : Bool} {ls : List Text} (h : ∀ l ∈ ls, IsLine l) : (fileText e b ls).head? ≠ some '\n' := by
  match ls, h with
  | [], _ => intro h; cases h
  | [l], h =>
    obtain ⟨h1, h2, -⟩ := h l List.mem_cons_self
    obtain ⟨c, l, rfl⟩ := List.exists_cons_of_ne_nil h1
    intro hh
    have : c = '\n' := Option.some.inj hh
    exact h2 (this ▸ List.mem_cons_self)
  | l :: m :: ls, h =>
    obtain ⟨h1, h2, -⟩ := h l List.mem_cons_self
    obtain ⟨c, l, rfl⟩ := List.exists_cons_of_ne_nil h1
    intro hh
    have : c = '\n' := Option.some.inj hh
    exact h2 (this ▸ List.mem_cons_self)

theorem universal_file {e : Text} (he : IsEol e) {b : Bool} {ls : List Text} (h : ∀ l ∈ ls, IsLine l) :
    universalNewlines (fileText e b ls) = fileText ['\n'] b ls := by
  match ls, h with
  | [], _ => rfl
  | [l], h =>
    obtain ⟨h1, h2, h3⟩ := h l List.mem_cons_self
    cases b with
    | false =>
      show universalNewlines (l ++ []) = l ++ []
      rw [universal_plain h3]; rfl
    | true =>
      show universalNewlines (l ++ e) = l ++ ['\n']
      have := universal_eol (cs := []) he (by intro h; cases h)
      rw [List.append_nil] at this
      rw [universal_plain h3, this]; rfl
  | l :: m :: ls, h =>
    obtain ⟨h1, h2, h3⟩ := h l List.mem_cons_self
    have h' : ∀ l ∈ m :: ls, IsLine l := fun l hl => h l (List.mem_cons_of_mem _ hl)
    show universalNewlines (l ++ e ++ fileText e b (m :: ls)) = l ++ ['\n'] ++ fileText ['\n'] b (m :: ls)
    rw [List.append_assoc, universal_plain h3, universal_eol he (fileText_head h'), universal_file he h', List.append_assoc]
    rfl

theorem fileLines_line {l : Text} (h : '\n' ∉ l) (cs : Text) : fileLines (l ++ '\n' :: cs) = (l ++ ['\n']) :: fileLines cs := by
  induction l with
  | nil => show fileLines ('\n' :: cs) = _; rw [fileLines, if_pos rfl]; rfl
  | cons c l ih =>
    have hc : c ≠ '\n' := fun e => h (e ▸ List.mem_cons_self)
    rw [List.cons_append, fileLines, if_neg hc, ih (fun hm => h (List.mem_cons_of_mem _ hm))]
    rfl

theorem fileLines_last {l : Text} (h : '\n' ∉ l) (hl : l ≠ []) : fileLines l = [l] := by
  induction l with
  | nil => exact absurd rfl hl
  | cons c l ih =>
    have hc : c ≠ '\n' := fun e => h (e ▸ List.mem_cons_self)
    rw [fileLines, if_neg hc]
    cases l with
    | nil => rfl
    | cons d l => rw [ih (fun hm => h (List.mem_cons_of_mem _ hm)) (by simp)]

theorem cleanLine_plain {l : Text} (h : '\n' ∉ l) : cleanLine l = unmarked l := by
  unfold cleanLine unmarked
  generalize hm : l.filter (· ≠ 'Ê') = m
  have hm' : '\n' ∉ m := by rw [← hm]; intro hh; exact h (List.mem_of_mem_filter hh)
  have : m.reverse.dropWhile (· = '\n') = m.reverse := by
    rw [List.dropWhile_eq_self_iff]
    intro hpos
    have hmem : m.reverse[0] ∈ m := List.mem_reverse.mp (List.getElem_mem _)
    intro hh
    have : m.reverse[0] = '\n' := by simpa using hh
    exact hm' (this ▸ hmem)
  rw [this, List.reverse_reverse]

theorem cleanLine_eol {l : Text} (h : '\n' ∉ l) : cleanLine (l ++ ['\n']) = unmarked l := by
  rw [← cleanLine_plain h]
  unfold cleanLine
  rw [List.filter_append, List.reverse_append]
  rfl

theorem clean_file {b : Bool} {ls : List Text} (h : ∀ l ∈ ls, IsLine l) :
    (fileLines (fileText ['\n'] b ls)).map cleanLine = ls.map unmarked := by
  match ls, h with
  | [], _ => rfl
  | [l], h =>
    obtain ⟨h1, h2, h3⟩ := h l List.mem_cons_self
    cases b with
    | false =>
      show (fileLines (l ++ [])).map cleanLine = _
      rw [List.append_nil, fileLines_last h2 h1, List.map_cons, cleanLine_plain h2]; rfl
    | true =>
      show (fileLines (l ++ '\n' :: [])).map cleanLine = _
      rw [fileLines_line h2, List.map_cons, cleanLine_eol h2]; rfl
  | l :: m :: ls, h =>
    obtain ⟨h1, h2, h3⟩ := h l List.mem_cons_self
    have h' : ∀ l ∈ m :: ls, IsLine l := fun l hl => h l (List.mem_cons_of_mem _ hl)
    show (fileLines (l ++ ['\n'] ++ fileText ['\n'] b (m :: ls))).map cleanLine = _
    rw [List.append_assoc]
    show (fileLines (l ++ '\n' :: fileText ['\n'] b (m :: ls))).map cleanLine = _
    rw [fileLines_line h2, List.map_cons, cleanLine_eol h2, clean_file h']; rfl

theorem splitTabs_plain {v : Text} (h : '\t' ∉ v) : splitTabs v = [v] := by
  induction v with
  | nil => rfl
  | cons c v ih =>
    have hc : c ≠ '\t' := fun e => h (e ▸ List.mem_cons_self)
    rw [splitTabs, if_neg hc, ih (fun hm => h (List.mem_cons_of_mem _ hm))]

theorem splitTabs_tab {v : Text} (h : '\t' ∉ v) (cs : Text) : splitTabs (v ++ '\t' :: cs) = v :: splitTabs cs := by
  induction v with
  | nil => show splitTabs ('\t' :: cs) = _; rw [splitTabs, if_pos rfl]
  | cons c v ih =>
    have hc : c ≠ '\t' := fun e => h (e ▸ List.mem_cons_self)
    rw [List.cons_append, splitTabs, if_neg hc, ih (fun hm => h (List.mem_cons_of_mem _ hm))]

theorem splitTabs_tabbed {r : List Text} (h : ∀ c ∈ r, '\t' ∉ c) (hr : r ≠ []) : splitTabs (tabbed r) = r := by
  match r, h, hr with
  | [v], h, _ => exact splitTabs_plain (h v List.mem_cons_self)
  | v :: w :: vs, h, _ =>
    show splitTabs (v ++ '\t' :: tabbed (w :: vs)) = _
    rw [splitTabs_tab (h v List.mem_cons_self), splitTabs_tabbed (fun c hc => h c (List.mem_cons_of_mem _ hc)) (by simp)]

theorem unmarked_tabbed (r : List Text) : unmarked (tabbed r) = tabbed (r.map unmarked) := by
  match r with
  | [] => rfl
  | [v] => rfl
  | v :: w :: vs =>
    show unmarked (v ++ '\t' :: tabbed (w :: vs)) = unmarked v ++ '\t' :: tabbed ((w :: vs).map unmarked)
    rw [← unmarked_tabbed (w :: vs)]
    unfold unmarked
    rw [List.filter_append]; rfl

theorem tabbed_not_mem {a : Char} (ha : a ≠ '\t') {r : List Text} (h : ∀ c ∈ r, a ∉ c) : a ∉ tabbed r := by
  match r, h with
  | [], _ => intro h; cases h
  | [v], h => exact h v List.mem_cons_self
  | v :: w :: vs, h =>
    show a ∉ v ++ '\t' :: tabbed (w :: vs)
    have := tabbed_not_mem ha (r := w :: vs) (fun c hc => h c (List.mem_cons_of_mem _ hc))
    simp only [List.mem_append, List.mem_cons, not_or]
    exact ⟨h v List.mem_cons_self, ha, this⟩

theorem split_unmarked {r : List Text} (h : ∀ c ∈ r, PlainCell c) (hr : r ≠ []) :
    splitTabs (unmarked (tabbed r)) = r.map unmarked := by
  rw [unmarked_tabbed]
  refine splitTabs_tabbed ?_ (by simpa using hr)
  intro c hc
  obtain ⟨d, hd, rfl⟩ := List.mem_map.mp hc
  exact fun hm => (h d hd).1 (List.mem_of_mem_filter hm)

theorem GratingTable.Plain.isLine {T : GratingTable} (h : T.Plain) : ∀ l ∈ (T.labels :: T.rows).map tabbed, IsLine l := by
  intro l hl
  obtain ⟨r, hr, rfl⟩ := List.mem_map.mp hl
  have hp : ∀ c ∈ r, PlainCell c := by
    rcases List.mem_cons.mp hr with rfl | hr
    · exact h.labels
    · exact h.rows r hr
  exact ⟨h.lines r hr, tabbed_not_mem (by decide) fun c hc => (hp c hc).2.1, tabbed_not_mem (by decide) fun c hc => (hp c hc).2.2⟩

/-! ## Cells -/

theorem trim_spec (t : Text) : IsTrimmed t (stripText t) := by
  unfold stripText
  obtain ⟨m, hm⟩ : ∃ m, m = t.dropWhile isSpaceLatin1 := ⟨_, rfl⟩
  rw [← hm]
  refine ⟨t.takeWhile isSpaceLatin1, (m.reverse.takeWhile isSpaceLatin1).reverse, ?_, ?_, ?_, ?_, ?_⟩
  · have h1 : t = t.takeWhile isSpaceLatin1 ++ m := by rw [hm, List.takeWhile_append_dropWhile]
    have h2 : m = (m.reverse.dropWhile isSpaceLatin1).reverse ++ (m.reverse.takeWhile isSpaceLatin1).reverse := by
      rw [← List.reverse_append, List.takeWhile_append_dropWhile, List.reverse_reverse]
    rw [List.append_assoc, ← h2]; exact h1
  · intro c hc; exact List.mem_takeWhile_imp hc
  · intro c hc; exact List.mem_takeWhile_imp (List.mem_reverse.mp hc)
  · intro c hc
    have hpre : (m.reverse.dropWhile isSpaceLatin1).reverse <+: m := by
      have h2 : m = (m.reverse.dropWhile isSpaceLatin1).reverse ++ (m.reverse.takeWhile isSpaceLatin1).reverse := by
        rw [← List.reverse_append, List.takeWhile_append_dropWhile, List.reverse_reverse]
      exact ⟨_, h2.symm⟩
    obtain ⟨b, hb⟩ := hpre
    have hmc : m.head? = some c := by
      rw [← hb, List.head?_append, hc]; rfl
    have := List.head?_dropWhile_not isSpaceLatin1 t
    rw [← hm, hmc] at this
    simpa using this
  · intro c hc
    rw [List.getLast?_reverse] at hc
    have := List.head?_dropWhile_not isSpaceLatin1 m.reverse
    rw [hc] at this
    simpa using this

theorem cell_means {α : Type} [PyNum α] (parse : Text → Option α) (v : Text) : CellMeans parse v (fieldValue parse v) := by
  unfold fieldValue
  have hx : 'x' ∉ v.takeWhile (· ≠ 'x') := fun h => by simpa using List.mem_takeWhile_imp h
  have hv : v = v.takeWhile (· ≠ 'x') ∨ ∃ b, v = v.takeWhile (· ≠ 'x') ++ 'x' :: b := by
    have h1 := List.takeWhile_append_dropWhile (p := (· ≠ 'x')) (l := v)
    have h2 := List.head?_dropWhile_not (fun c : Char => decide (c ≠ 'x')) v
    cases hd : v.dropWhile (· ≠ 'x') with
    | nil => left; rw [hd, List.append_nil] at h1; exact h1.symm
    | cons c b =>
      right
      rw [hd] at h1 h2
      have : c = 'x' := by simpa using h2
      subst this
      exact ⟨b, h1.symm⟩
  cases h : parse v with
  | some x => exact .number h
  | none =>
    simp only
    cases h' : parse (stripText (v.takeWhile (· ≠ 'x'))) with
    | some x => exact .size h hv hx (trim_spec _) h'
    | none => exact .text h hv hx (trim_spec _) h'

/-! ## Dictionaries -/

section dict
variable {β : Type}

theorem dict_get_set (d : Dict β) (k : Text) (v : β) (k' : Text) : (d.set k v).get k' = if k = k' then .ok v else d.get k' := by
  induction d with
  | nil => rfl
  | cons e d ih =>
    show Dict.get (if e.1 = k then (k, v) :: d else e :: Dict.set d k v) k' = _
    by_cases h : e.1 = k
    · rw [if_pos h]
      show (if k = k' then Except.ok v else Dict.get d k') = if k = k' then _ else (if e.1 = k' then _ else _)
      by_cases h' : k = k'
      · rw [if_pos h', if_pos h']
      · rw [if_neg h', if_neg h', if_neg (by rw [h]; exact h')]
    · rw [if_neg h]
      show (if e.1 = k' then Except.ok e.2 else Dict.get (Dict.set d k v) k') = if k = k' then _ else (if e.1 = k' then _ else _)
      rw [ih]
      by_cases h' : e.1 = k'
      · rw [if_pos h', if_pos h', if_neg (by rintro rfl; exact h h')]
      · rw [if_neg h', if_neg h']

theorem dict_set_new {d : Dict β} {k : Text} (h : k ∉ d.map Prod.fst) (v : β) : d.set k v = d ++ [(k, v)] := by
  induction d with
  | nil => rfl
  | cons e d ih =>
    rw [List.map_cons, List.mem_cons, not_or] at h
    show (if e.1 = k then (k, v) :: d else e :: Dict.set d k v) = _
    rw [if_neg (fun hh => h.1 hh.symm), ih h.2]; rfl

theorem dict_set_keys (d : Dict β) (k : Text) (v : β) :
    (d.set k v).map Prod.fst = if k ∈ d.map Prod.fst then d.map Prod.fst else d.map Prod.fst ++ [k] := by
  by_cases h : k ∈ d.map Prod.fst
  · rw [if_pos h]
    induction d with
    | nil => cases h
    | cons e d ih =>
      show List.map Prod.fst (if e.1 = k then (k, v) :: d else e :: Dict.set d k v) = _
      by_cases h' : e.1 = k
      · rw [if_pos h', List.map_cons, List.map_cons, h']
      · rw [if_neg h', List.map_cons, List.map_cons, ih]
        rw [List.map_cons, List.mem_cons] at h
        exact h.resolve_left (fun hh => h' hh.symm)
  · rw [if_neg h, dict_set_new h, List.map_append]; rfl

/-- Writing several entries. -/
def Dict.sets (d : Dict β) (es : List (Text × β)) : Dict β := es.foldl (fun d e => d.set e.1 e.2) d

theorem dict_sets_new {es : List (Text × β)} {d : Dict β} (h : (d.map Prod.fst ++ es.map Prod.fst).Nodup) : d.sets es = d ++ es := by
  induction es generalizing d with
  | nil => rw [List.append_nil]; rfl
  | cons e es ih =>
    show Dict.sets (d.set e.1 e.2) es = _
    have h1 : e.1 ∉ d.map Prod.fst := fun hm => by
      rw [List.nodup_append] at h
      exact h.2.2 _ hm _ List.mem_cons_self rfl
    rw [dict_set_new h1, ih, List.append_assoc]
    · rfl
    · rw [List.map_append, List.append_assoc]; exact h

theorem dict_sets_get {es : List (Text × β)} {d : Dict β} {k : Text} (h : k ∉ es.map Prod.fst) : (d.sets es).get k = d.get k := by
  induction es generalizing d with
  | nil => rfl
  | cons e es ih =>
    rw [List.map_cons, List.mem_cons, not_or] at h
    show (Dict.sets (d.set e.1 e.2) es).get k = _
    rw [ih h.2, dict_get_set, if_neg (fun hh => h.1 hh.symm)]

theorem dict_sets_last {pre post : List (Text × β)} {k : Text} {v : β} (d : Dict β) (h : k ∉ post.map Prod.fst) :
    (d.sets (pre ++ (k, v) :: post)).get k = .ok v := by
  unfold Dict.sets
  rw [List.foldl_append, List.foldl_cons]
  show (Dict.sets (Dict.set _ k v) post).get k = _
  rw [dict_sets_get h, dict_get_set, if_pos rfl]

theorem dict_sets_keys {es : List (Text × β)} {d : Dict β} (h : (d.map Prod.fst).Nodup) :
    ((d.sets es).map Prod.fst).Nodup ∧ ∀ k, k ∈ (d.sets es).map Prod.fst ↔ k ∈ d.map Prod.fst ∨ k ∈ es.map Prod.fst := by
  induction es generalizing d with
  | nil => exact ⟨h, fun k => by simp [Dict.sets]⟩
  | cons e es ih =>
    have h1 : ((d.set e.1 e.2).map Prod.fst).Nodup ∧ ∀ k, k ∈ (d.set e.1 e.2).map Prod.fst ↔ k ∈ d.map Prod.fst ∨ k = e.1 := by
      rw [dict_set_keys]
      by_cases hk : e.1 ∈ d.map Prod.fst
      · rw [if_pos hk]; exact ⟨h, fun k => ⟨Or.inl, fun hh => hh.elim id (fun (hh : k = e.1) => by rw [hh]; exact hk)⟩⟩
      · rw [if_neg hk]
        refine ⟨List.nodup_append.mpr ⟨h, List.nodup_singleton _, ?_⟩, fun k => by simp⟩
        rintro a ha b hb rfl
        rw [List.mem_singleton] at hb
        exact hk (hb ▸ ha)
    obtain ⟨h2, h3⟩ := ih h1.1
    refine ⟨h2, fun k => ?_⟩
    show k ∈ (Dict.sets (d.set e.1 e.2) es).map Prod.fst ↔ _
    rw [h3, h1.2, List.map_cons, List.mem_cons, or_assoc]

theorem dict_get_mem {d : Dict β} (h : (d.map Prod.fst).Nodup) {e : Text × β} (he : e ∈ d) : d.get e.1 = .ok e.2 := by
  induction d with
  | nil => cases he
  | cons a d ih =>
    rw [List.map_cons, List.nodup_cons] at h
    show (if a.1 = e.1 then Except.ok a.2 else Dict.get d e.1) = _
    rcases List.mem_cons.mp he with rfl | he
    · rw [if_pos rfl]
    · rw [if_neg (fun hh : a.1 = e.1 => h.1 (by rw [hh]; exact List.mem_map_of_mem he)), ih h.2 he]

end dict

/-! ## Rows -/

section rows
variable {α : Type} [PyNum α] (parse : Text → Option α)

theorem readFields_eq (labels : List Text) (j : Nat) (vs : List Text) (row : Dict (Field α)) :
    readFields parse labels j vs row =
      if vs.length ≤ labels.length - j then .ok (row.sets (((labels.drop j).zip vs).map fun p => (p.1, fieldValue parse p.2)))
      else .error .indexError := by
  induction vs generalizing j row with
  | nil => rw [if_pos (by rw [List.length_nil]; exact Nat.zero_le _), List.zip_nil_right]; rfl
  | cons v vs ih =>
    rw [readFields]
    cases hj : labels[j]? with
    | none =>
      have : labels.length ≤ j := List.getElem?_eq_none_iff.mp hj
      rw [if_neg (by rw [List.length_cons]; omega)]
    | some name =>
      obtain ⟨hlt, hget⟩ := List.getElem?_eq_some_iff.mp hj
      have hd : labels.drop j = name :: labels.drop (j + 1) := by rw [← hget]; exact List.drop_eq_getElem_cons hlt
      simp only
      rw [ih, hd]
      by_cases h : vs.length ≤ labels.length - (j + 1)
      · rw [if_pos h, if_pos (by rw [List.length_cons]; omega)]; rfl
      · rw [if_neg h, if_neg (by rw [List.length_cons]; omega)]

/-- The entry a row gives. -/
def rowEntry (labels row : List Text) : Text × Dict (Field α) :=
  (rowName row, Dict.sets [] ((rowCells labels row).map fun p => (p.1, fieldValue parse p.2)))

theorem readRow_eq {labels row : List Text} (hr : row ≠ []) (hp : ∀ c ∈ row, PlainCell c) (data : Dict (Dict (Field α))) :
    readRow parse (labels.map unmarked) data (unmarked (tabbed row)) =
      if row.length - 1 ≤ labels.length - 1 then .ok (data.set (rowEntry parse labels row).1 (rowEntry parse labels row).2)
      else .error .indexError := by
  unfold readRow
  rw [split_unmarked hp hr]
  obtain ⟨n, vs, rfl⟩ := List.exists_cons_of_ne_nil hr
  simp only [List.map_cons]
  rw [readFields_eq]
  simp only [List.length_map, List.length_cons, Nat.add_sub_cancel, List.drop_one]
  by_cases h : vs.length ≤ labels.length - 1
  · rw [if_pos h, if_pos h]
    simp only [rowEntry, rowCells, rowName, List.map_tail, List.headD_cons, List.tail_cons, bind, Except.bind, pure, Except.pure]
  · rw [if_neg h, if_neg h]; rfl

theorem readRows_eq {labels : List Text} {rows : List (List Text)} (hr : ∀ r ∈ rows, r ≠ []) (hp : ∀ r ∈ rows, ∀ c ∈ r, PlainCell c)
    (data : Dict (Dict (Field α))) :
    (rows.map fun r => unmarked (tabbed r)).foldlM (readRow parse (labels.map unmarked)) data =
      if ∀ r ∈ rows, r.length - 1 ≤ labels.length - 1 then .ok (data.sets (rows.map (rowEntry parse labels)))
      else .error .indexError := by
  induction rows generalizing data with
  | nil => rw [if_pos (fun r h => by cases h)]; rfl
  | cons r rows ih =>
    rw [List.map_cons, List.foldlM_cons, readRow_eq parse (hr r List.mem_cons_self) (hp r List.mem_cons_self)]
    by_cases h : r.length - 1 ≤ labels.length - 1
    · rw [if_pos h]
      show (rows.map fun r => unmarked (tabbed r)).foldlM _ _ = _
      rw [ih (fun r h => hr r (List.mem_cons_of_mem _ h)) (fun r h => hp r (List.mem_cons_of_mem _ h))]
      by_cases h' : ∀ r ∈ rows, r.length - 1 ≤ labels.length - 1
      · rw [if_pos h', if_pos (fun s hs => (List.mem_cons.mp hs).elim (fun e => by rw [e]; exact h) (h' s))]; rfl
      · rw [if_neg h', if_neg (fun hh => h' fun r hr => hh r (List.mem_cons_of_mem _ hr))]
    · rw [if_neg h, if_neg (fun hh => h (hh r List.mem_cons_self))]; rfl

theorem readCatalog_eq {T : GratingTable} (hT : T.Plain) {eol : Text} (he : IsEol eol) (closed : Bool) :
    readCatalog parse (T.file eol closed) =
      if ∀ r ∈ T.rows, r.length ≤ T.labels.length then .ok (Dict.sets [] (T.rows.map (rowEntry parse T.labels)))
      else .error .indexError := by
  unfold readCatalog GratingTable.file
  rw [universal_file he hT.isLine, clean_file hT.isLine, List.map_map, List.map_cons]
  show (T.rows.map fun r => unmarked (tabbed r)).foldlM (readRow parse (splitTabs (unmarked (tabbed T.labels)))) [] = _
  rw [split_unmarked hT.labels hT.labels_ne, readRows_eq parse hT.rows_ne hT.rows]
  have : (∀ r ∈ T.rows, r.length - 1 ≤ T.labels.length - 1) ↔ ∀ r ∈ T.rows, r.length ≤ T.labels.length := by
    refine forall₂_congr fun r hr => ?_
    have h1 := List.length_pos_of_ne_nil (hT.rows_ne r hr)
    have h2 := List.length_pos_of_ne_nil hT.labels_ne
    omega
  simp only [this]

end rows

end Optics
