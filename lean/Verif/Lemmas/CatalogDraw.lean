import Verif.Lemmas.Catalog
import Verif.Props.Colours

/-!
# What the cells of the table of gratings mean, and what is drawn for a row
-/

namespace Optics

section reading
variable {α : Type} [PyNum α] (parse : Text → Option α)

/-- A cell means one thing only. -/
theorem cellMeans_unique {v : Text} {f f' : Field α} (h : CellMeans parse v f) (h' : CellMeans parse v f') : f = f' := by
  have trim : ∀ {t s s' : Text}, IsTrimmed t s → IsTrimmed t s' → s = s' := by
    have key : ∀ {t s : Text}, IsTrimmed t s → s = stripText t := by
      rintro t s ⟨a, b, rfl, ha, hb, hs, hl⟩
      have drop : ∀ {l m : Text}, (∀ c ∈ l, isSpaceLatin1 c = true) → (l ++ m).dropWhile isSpaceLatin1 = m.dropWhile isSpaceLatin1 := by
        intro l m hl
        induction l with
        | nil => rfl
        | cons c l ih =>
          rw [List.cons_append, List.dropWhile_cons_of_pos (hl c List.mem_cons_self), ih fun c hc => hl c (List.mem_cons_of_mem _ hc)]
      have keep : ∀ {m : Text}, (∀ c, m.head? = some c → isSpaceLatin1 c = false) → m.dropWhile isSpaceLatin1 = m := by
        intro m hm
        cases m with
        | nil => rfl
        | cons c m => rw [List.dropWhile_cons_of_neg (by rw [hm c rfl]; decide)]
      unfold stripText
      rw [List.append_assoc, drop ha]
      cases hh : s with
      | nil =>
        have hb' : b.dropWhile isSpaceLatin1 = [] := by
          have := drop (m := []) hb
          rwa [List.append_nil] at this
        rw [List.nil_append, hb']; rfl
      | cons c s' =>
        rw [← hh]
        rw [keep (m := s ++ b) (by rw [hh]; intro d hd; exact hs d (by rw [hh]; exact hd)), List.reverse_append,
          drop (fun c hc => hb c (List.mem_reverse.mp hc)), keep (fun c hc => hl c (by rw [← List.head?_reverse]; exact hc)),
          List.reverse_reverse]
    intro t s s' h h'
    rw [key h, key h']
  have split : ∀ {v a a' : Text}, (v = a ∨ ∃ b, v = a ++ 'x' :: b) → 'x' ∉ a → (v = a' ∨ ∃ b, v = a' ++ 'x' :: b) → 'x' ∉ a' → a = a' := by
    have key : ∀ {v a : Text}, (v = a ∨ ∃ b, v = a ++ 'x' :: b) → 'x' ∉ a → a = v.takeWhile (· ≠ 'x') := by
      intro v a hv ha
      have hall : ∀ c ∈ a, decide (c ≠ 'x') = true := fun c hc => decide_eq_true fun e => ha (e ▸ hc)
      rcases hv with rfl | ⟨b, rfl⟩
      · exact (List.takeWhile_eq_self_iff.mpr hall).symm
      · rw [List.takeWhile_append_of_pos hall]
        simp
    intro v a a' h1 h2 h3 h4
    rw [key h1 h2, key h3 h4]
  cases h with
  | number h =>
    cases h' with
    | number h1 => rw [h] at h1; rw [Option.some.inj h1]
    | size h1 => rw [h] at h1; cases h1
    | text h1 => rw [h] at h1; cases h1
  | size h hv ha hs hx =>
    cases h' with
    | number h1 => rw [h] at h1; cases h1
    | size h1 hv' ha' hs' hx' =>
      have := split hv ha hv' ha'; subst this
      have := trim hs hs'; subst this
      rw [hx] at hx'; rw [Option.some.inj hx']
    | text h1 hv' ha' hs' hx' =>
      have := split hv ha hv' ha'; subst this
      have := trim hs hs'; subst this
      rw [hx] at hx'; cases hx'
  | text h hv ha hs hx =>
    cases h' with
    | number h1 => rw [h] at h1; cases h1
    | size h1 hv' ha' hs' hx' =>
      have := split hv ha hv' ha'; subst this
      have := trim hs hs'; subst this
      rw [hx] at hx'; cases hx'
    | text h1 hv' ha' hs' hx' => rfl

theorem rowCells_labels {labels row : List Text} : ∀ k ∈ (rowCells labels row).map Prod.fst, k ∈ labels.tail.map unmarked := by
  intro k hk
  obtain ⟨p, hp, rfl⟩ := List.mem_map.mp hk
  exact (List.of_mem_zip hp).1

theorem zip_keys {β γ : Type} (l : List β) (m : List γ) : ((l.zip m).map Prod.fst).Sublist l := by
  induction l generalizing m with
  | nil => exact List.Sublist.refl _
  | cons a l ih =>
    cases m with
    | nil => exact List.nil_sublist _
    | cons b m => exact (ih m).cons₂ a

theorem rowEntry_means {labels row : List Text} (h : (labels.tail.map unmarked).Nodup) : RowMeans parse labels row (rowEntry parse labels row) := by
  refine ⟨rfl, ?_⟩
  have hn : (List.map Prod.fst ((rowCells labels row).map fun p => (p.1, fieldValue parse p.2))).Nodup := by
    rw [List.map_map]
    have : (Prod.fst ∘ fun p : Text × Text => (p.1, fieldValue parse p.2)) = Prod.fst := rfl
    rw [this]
    unfold rowCells
    exact h.sublist (zip_keys _ _)
  show List.Forall₂ _ _ (Dict.sets [] _)
  rw [dict_sets_new (by simpa using hn), List.nil_append, List.forall₂_map_right_iff, List.forall₂_same]
  exact fun p _ => ⟨rfl, cell_means parse p.2⟩

end reading

/-! ## Diagrams -/

theorem get_error {β : Type} {d : Dict β} {k : Text} {e : PyErr} (h : d.get k = .error e) : e = .keyError := by
  induction d with
  | nil => exact (Except.error.inj h).symm
  | cons a d ih =>
    have h : (if a.1 = k then Except.ok a.2 else Dict.get d k) = .error e := h
    split_ifs at h
    exact ih h

/-- An exception of the part of the script that draws. -/
def IsDrawError (e : PyErr) : Prop := e = .keyError ∨ e = .typeError

theorem getNumber (g : Dict (Field ℝ)) (k : Text) :
    (∃ x, g.get k = .ok (.num x)) ∨ (∃ t, g.get k = .ok (.text t)) ∨ g.get k = .error .keyError := by
  cases h : g.get k with
  | error e => exact Or.inr (Or.inr (by rw [get_error h]))
  | ok f =>
    cases f with
    | num x => exact Or.inl ⟨x, rfl⟩
    | text t => exact Or.inr (Or.inl ⟨t, rfl⟩)

theorem polar_value {g : Dict (Field ℝ)} {rk ak : Text} {r a : ℝ} (hr : g.get rk = .ok (.num r)) (ha : g.get ak = .ok (.num a)) :
    polarPoint g rk ak = .ok (atPolar r a) := by
  unfold polarPoint atPolar
  rw [hr, ha]
  show Except.ok (r * Real.cos (a * Real.pi / 180.0), r * Real.sin (a * Real.pi / 180.0)) = _
  norm_num

theorem polar_cases (g : Dict (Field ℝ)) (rk ak : Text) :
    (∃ r a, g.get rk = .ok (.num r) ∧ g.get ak = .ok (.num a)) ∨ ∃ e, polarPoint g rk ak = .error e ∧ IsDrawError e := by
  rcases getNumber g rk with ⟨x, h⟩ | ⟨x, h⟩ | h <;> rcases getNumber g ak with ⟨y, h'⟩ | ⟨y, h'⟩ | h'
  · exact Or.inl ⟨x, y, h, h'⟩
  · exact Or.inr ⟨_, by unfold polarPoint; rw [h, h']; rfl, Or.inr rfl⟩
  · exact Or.inr ⟨_, by unfold polarPoint; rw [h, h']; rfl, Or.inl rfl⟩
  · exact Or.inr ⟨_, by unfold polarPoint; rw [h, h']; rfl, Or.inr rfl⟩
  · exact Or.inr ⟨_, by unfold polarPoint; rw [h, h']; rfl, Or.inr rfl⟩
  · exact Or.inr ⟨_, by unfold polarPoint; rw [h, h']; rfl, Or.inl rfl⟩
  · exact Or.inr ⟨_, by unfold polarPoint; rw [h]; rfl, Or.inl rfl⟩
  · exact Or.inr ⟨_, by unfold polarPoint; rw [h]; rfl, Or.inl rfl⟩
  · exact Or.inr ⟨_, by unfold polarPoint; rw [h]; rfl, Or.inl rfl⟩

/-- The distance of two points of the plane. -/
noncomputable def planeDist (p q : ℝ × ℝ) : ℝ := Real.sqrt ((p.1 - q.1) ^ 2 + (p.2 - q.2) ^ 2)

/-- The numbers that the layout needs. -/
structure HasLayout (g : Dict (Field ℝ)) (r α r₁ β₁ r₂ β₂ : ℝ) : Prop where
  hr : g.get "r (mm)".toList = .ok (.num r)
  hα : g.get "alpha (deg)".toList = .ok (.num α)
  hr₁ : g.get "r'1 (mm)".toList = .ok (.num r₁)
  hβ₁ : g.get "beta1 (deg)".toList = .ok (.num β₁)
  hr₂ : g.get "r'2 (mm)".toList = .ok (.num r₂)
  hβ₂ : g.get "beta2 (deg)".toList = .ok (.num β₂)

theorem layout_value {g : Dict (Field ℝ)} {r α r₁ β₁ r₂ β₂ : ℝ} (h : HasLayout g r α r₁ β₁ r₂ β₂) :
    layoutOf g = .ok ⟨atPolar r α, atPolar r₁ β₁, atPolar r₂ β₂, planeDist (atPolar r₁ β₁) (atPolar r₂ β₂)⟩ := by
  unfold layoutOf
  rw [polar_value h.hr h.hα, polar_value h.hr₁ h.hβ₁, polar_value h.hr₂ h.hβ₂]
  simp only [bind, Except.bind, pure, Except.pure, real_sqrt, planeDist]
  congr 3
  ring

theorem layout_cases (g : Dict (Field ℝ)) :
    (∃ r α r₁ β₁ r₂ β₂, HasLayout g r α r₁ β₁ r₂ β₂) ∨ ∃ e, layoutOf g = .error e ∧ IsDrawError e := by
  rcases polar_cases g "r (mm)".toList "alpha (deg)".toList with ⟨r, a, h1, h2⟩ | ⟨e, h, he⟩
  · rcases polar_cases g "r'1 (mm)".toList "beta1 (deg)".toList with ⟨r₁, b₁, h3, h4⟩ | ⟨e, h, he⟩
    · rcases polar_cases g "r'2 (mm)".toList "beta2 (deg)".toList with ⟨r₂, b₂, h5, h6⟩ | ⟨e, h, he⟩
      · exact Or.inl ⟨r, a, r₁, b₁, r₂, b₂, h1, h2, h3, h4, h5, h6⟩
      · exact Or.inr ⟨e, by unfold layoutOf; rw [polar_value h1 h2, polar_value h3 h4, h]; rfl, he⟩
    · exact Or.inr ⟨e, by unfold layoutOf; rw [polar_value h1 h2, h]; rfl, he⟩
  · exact Or.inr ⟨e, by unfold layoutOf; rw [h]; rfl, he⟩

theorem drawn_colour (w : ℝ) : ∃ c, wavelengthToRgb w 1.0 440.0 660.0 = .ok c ∧ wavelengthToRgb (drawnWave w) 1 380.0 750.0 = .ok c := by
  have h1 : 440 ≤ drawnWave w := le_max_left _ _
  have h2 : drawnWave w ≤ 660 := max_le (by norm_num) (min_le_right _ _)
  refine ⟨_, ?_, rgb_visible one_pos (by linarith) (by linarith)⟩
  rw [← rgb_visible one_pos (w := drawnWave w) (by linarith) (by linarith), show (1.0 : ℝ) = 1 by norm_num]
  have e1 : (if w < (440.0 : ℝ) then (440.0 : ℝ) else w) = max 440 w := by
    rw [max_def]; norm_num
    split_ifs with a b b <;> linarith
  have e2 : (if (if w < (440.0 : ℝ) then (440.0 : ℝ) else w) > (660.0 : ℝ) then (660.0 : ℝ) else (if w < (440.0 : ℝ) then (440.0 : ℝ) else w)) = drawnWave w := by
    unfold drawnWave
    rw [e1]
    rcases le_total w 440 with a | a
    · rw [max_eq_left a, min_eq_left (a.trans (by norm_num)), max_eq_left a]; norm_num
    · rw [max_eq_right a]
      rcases le_total w 660 with b | b
      · rw [min_eq_left b, max_eq_right a, if_neg (by norm_num; exact b)]
      · rw [min_eq_right b]
        rcases eq_or_lt_of_le b with rfl | b
        · norm_num
        · rw [if_pos (by norm_num; exact b)]; norm_num
  have e3 : (if drawnWave w < (380.0 : ℝ) then (380.0 : ℝ) else drawnWave w) = drawnWave w := if_neg (by norm_num; linarith)
  have e4 : (if drawnWave w > (750.0 : ℝ) then (750.0 : ℝ) else drawnWave w) = drawnWave w := if_neg (by norm_num; linarith)
  unfold wavelengthToRgb
  simp only [e2, e3, e4]

/-- The rest of what a diagram needs. -/
structure HasInk (g : Dict (Field ℝ)) (ruled w₁ w₂ : ℝ) : Prop where
  hruled : g.get "ruled".toList = .ok (.num ruled)
  hw₁ : g.get "m lambda1".toList = .ok (.num w₁)
  hw₂ : g.get "m lambda2".toList = .ok (.num w₂)
  hf : ∃ v, g.get "f/#".toList = .ok v

theorem colour_value {g : Dict (Field ℝ)} {k : Text} {w : ℝ} (h : g.get k = .ok (.num w)) :
    ∃ c, curveColour g k = .ok c ∧ wavelengthToRgb (drawnWave w) 1 380.0 750.0 = .ok c := by
  obtain ⟨c, h1, h2⟩ := drawn_colour w
  exact ⟨c, by unfold curveColour; rw [h]; exact h1, h2⟩

theorem colour_cases (g : Dict (Field ℝ)) (k : Text) : (∃ w, g.get k = .ok (.num w)) ∨ ∃ e, curveColour g k = .error e ∧ IsDrawError e := by
  rcases getNumber g k with h | ⟨x, h⟩ | h
  · exact Or.inl h
  · exact Or.inr ⟨_, by unfold curveColour; rw [h]; rfl, Or.inr rfl⟩
  · exact Or.inr ⟨_, by unfold curveColour; rw [h]; rfl, Or.inl rfl⟩

theorem diagram_value {g : Dict (Field ℝ)} {ruled w₁ w₂ : ℝ} (h : HasInk g ruled w₁ w₂) (l : Layout ℝ) :
    ∃ c₁ c₂, wavelengthToRgb (drawnWave w₁) 1 380.0 750.0 = .ok c₁ ∧ wavelengthToRgb (drawnWave w₂) 1 380.0 750.0 = .ok c₂ ∧
      diagram g l = .ok (sketchOf l.input l.output1 l.output2 ruled c₁ c₂) := by
  obtain ⟨c₁, a1, a2⟩ := colour_value h.hw₁
  obtain ⟨c₂, b1, b2⟩ := colour_value h.hw₂
  obtain ⟨v, hv⟩ := h.hf
  refine ⟨c₁, c₂, a2, b2, ?_⟩
  unfold diagram
  rw [h.hruled, a1, b1, hv]
  simp only [bind, Except.bind, pure, Except.pure, Field.number, lit0, sketchOf, neg_div, show (2.0 : ℝ) = 2 by norm_num]

theorem diagram_cases (g : Dict (Field ℝ)) (l : Layout ℝ) :
    (∃ ruled w₁ w₂, HasInk g ruled w₁ w₂) ∨ ∃ e, diagram g l = .error e ∧ IsDrawError e := by
  rcases getNumber g "ruled".toList with ⟨x, h⟩ | ⟨x, h⟩ | h
  · rcases colour_cases g "m lambda1".toList with ⟨w₁, h1⟩ | ⟨e, h1, he⟩
    · obtain ⟨c₁, a1, a2⟩ := colour_value h1
      rcases colour_cases g "m lambda2".toList with ⟨w₂, h2⟩ | ⟨e, h2, he⟩
      · obtain ⟨c₂, b1, b2⟩ := colour_value h2
        cases hf : g.get "f/#".toList with
        | ok v => exact Or.inl ⟨x, w₁, w₂, h, h1, h2, v, hf⟩
        | error e => exact Or.inr ⟨e, by unfold diagram; rw [h, a1, b1, hf]; rfl, Or.inl (get_error hf)⟩
      · exact Or.inr ⟨e, by unfold diagram; rw [h, a1, h2]; rfl, he⟩
    · exact Or.inr ⟨e, by unfold diagram; rw [h, h1]; rfl, he⟩
  · exact Or.inr ⟨_, by unfold diagram; rw [h]; rfl, Or.inr rfl⟩
  · exact Or.inr ⟨_, by unfold diagram; rw [h]; rfl, Or.inl rfl⟩

/-! ## The script -/

theorem forall₂_partner {β γ : Type} {R : β → γ → Prop} {l : List β} {m : List γ} (h : List.Forall₂ R l m) {a : β} (ha : a ∈ l) :
    ∃ b, b ∈ m ∧ R a b := by
  induction h with
  | nil => cases ha
  | @cons c b l m h1 h2 ih =>
    rcases List.mem_cons.mp ha with rfl | ha
    · exact ⟨b, List.mem_cons_self, h1⟩
    · obtain ⟨b, hb, h⟩ := ih ha
      exact ⟨b, List.mem_cons_of_mem _ hb, h⟩

/-- The layout of a grating that has its numbers. -/
def LaidOut (e : Text × Dict (Field ℝ)) (x : Text × Dict (Field ℝ) × Layout ℝ) : Prop :=
  x.1 = e.1 ∧ x.2.1 = e.2 ∧ ∃ r α r₁ β₁ r₂ β₂, HasLayout e.2 r α r₁ β₁ r₂ β₂ ∧
    x.2.2.input = atPolar r α ∧ x.2.2.output1 = atPolar r₁ β₁ ∧ x.2.2.output2 = atPolar r₂ β₂

theorem layouts_cases (data : Dict (Dict (Field ℝ))) :
    (∃ all, data.mapM (fun e => (layoutOf e.2).map fun l => (e.1, e.2, l)) = .ok all ∧ List.Forall₂ LaidOut data all) ∨
    (∃ e, data.mapM (fun e => (layoutOf e.2).map fun l => (e.1, e.2, l)) = .error e ∧ IsDrawError e ∧
      ∃ g ∈ data, ¬ ∃ r α r₁ β₁ r₂ β₂, HasLayout g.2 r α r₁ β₁ r₂ β₂) := by
  induction data with
  | nil => exact Or.inl ⟨[], rfl, .nil⟩
  | cons a data ih =>
    rcases layout_cases a.2 with ⟨r, α, r₁, β₁, r₂, β₂, H⟩ | ⟨e, he, hd⟩
    · rcases ih with ⟨all, h1, h2⟩ | ⟨e, h1, h2, g, hg, hg'⟩
      · refine Or.inl ⟨(a.1, a.2, ⟨atPolar r α, atPolar r₁ β₁, atPolar r₂ β₂, planeDist (atPolar r₁ β₁) (atPolar r₂ β₂)⟩) :: all, ?_,
          .cons ⟨rfl, rfl, r, α, r₁, β₁, r₂, β₂, H, rfl, rfl, rfl⟩ h2⟩
        rw [List.mapM_cons, layout_value H, h1]; rfl
      · refine Or.inr ⟨e, ?_, h2, g, List.mem_cons_of_mem _ hg, hg'⟩
        rw [List.mapM_cons, layout_value H, h1]; rfl
    · refine Or.inr ⟨e, ?_, hd, a, List.mem_cons_self, ?_⟩
      · rw [List.mapM_cons, he]; rfl
      · rintro ⟨r, α, r₁, β₁, r₂, β₂, H⟩
        rw [layout_value H] at he; cases he

theorem sketch_layout {g : Dict (Field ℝ)} {d : List (Curve ℝ)} (h : IsSketch g d) :
    (∃ r α r₁ β₁ r₂ β₂, HasLayout g r α r₁ β₁ r₂ β₂) ∧ ∃ ruled w₁ w₂, HasInk g ruled w₁ w₂ := by
  obtain ⟨r, α, r₁, β₁, r₂, β₂, ruled, w₁, w₂, H, -⟩ := h
  exact ⟨⟨r, α, r₁, β₁, r₂, β₂, H.hr, H.hα, H.hr₁, H.hβ₁, H.hr₂, H.hβ₂⟩, ruled, w₁, w₂, H.hruled, H.hw₁, H.hw₂, H.hf⟩

/-- What the loop does with the first grating. -/
theorem draw_first {e : Text × Dict (Field ℝ)} {x : Text × Dict (Field ℝ) × Layout ℝ} (h : LaidOut e x)
    (rest : List (Text × Dict (Field ℝ) × Layout ℝ)) :
    (∃ d, IsSketch e.2 d ∧ drawAll (x :: rest) = ((e.1, d) :: (drawAll rest).1, (drawAll rest).2)) ∨
    (∃ err, drawAll (x :: rest) = ([], some err) ∧ IsDrawError err ∧ ¬ ∃ ruled w₁ w₂, HasInk e.2 ruled w₁ w₂) := by
  obtain ⟨n, g, l⟩ := x
  obtain ⟨h1, h2, r, α, r₁, β₁, r₂, β₂, H, e1, e2, e3⟩ := h
  simp only at h1 h2 e1 e2 e3
  subst h1; subst h2
  rcases diagram_cases e.2 l with ⟨ruled, w₁, w₂, K⟩ | ⟨err, h, he⟩
  · obtain ⟨c₁, c₂, k1, k2, k3⟩ := diagram_value K l
    left
    refine ⟨_, ⟨r, α, r₁, β₁, r₂, β₂, ruled, w₁, w₂, ⟨H.hr, H.hα, H.hr₁, H.hβ₁, H.hr₂, H.hβ₂, K.hruled, K.hw₁, K.hw₂, K.hf⟩, c₁, c₂, k1, k2, rfl⟩, ?_⟩
    rw [drawAll, k3, e1, e2, e3]
  · right
    refine ⟨err, by rw [drawAll, h], he, ?_⟩
    rintro ⟨ruled, w₁, w₂, K⟩
    obtain ⟨c₁, c₂, -, -, k3⟩ := diagram_value K l
    rw [k3] at h; cases h

theorem isSketch_unique {g : Dict (Field ℝ)} {d d' : List (Curve ℝ)} (h : IsSketch g d) (h' : IsSketch g d') : d = d' := by
  obtain ⟨r, α, r₁, β₁, r₂, β₂, ruled, w₁, w₂, H, c₁, c₂, k1, k2, rfl⟩ := h
  obtain ⟨s, α', s₁, γ₁, s₂, γ₂, ruled', v₁, v₂, H', e₁, e₂, l1, l2, rfl⟩ := h'
  have key : ∀ {k : Text} {x y : ℝ}, g.get k = .ok (.num x) → g.get k = .ok (.num y) → x = y := by
    intro k x y h1 h2
    rw [h1] at h2
    exact Field.num.inj (Except.ok.inj h2)
  have a1 := key H.hr H'.hr; have a2 := key H.hα H'.hα
  have a3 := key H.hr₁ H'.hr₁; have a4 := key H.hβ₁ H'.hβ₁
  have a5 := key H.hr₂ H'.hr₂; have a6 := key H.hβ₂ H'.hβ₂
  have a7 := key H.hruled H'.hruled; have a8 := key H.hw₁ H'.hw₁; have a9 := key H.hw₂ H'.hw₂
  subst a1; subst a2; subst a3; subst a4; subst a5; subst a6; subst a7; subst a8; subst a9
  rw [k1] at l1; rw [k2] at l2
  rw [Except.ok.inj l1, Except.ok.inj l2]

theorem draw_finishes {data : Dict (Dict (Field ℝ))} {all : List (Text × Dict (Field ℝ) × Layout ℝ)} (h : List.Forall₂ LaidOut data all)
    (out : List (Text × List (Curve ℝ))) :
    drawAll all = (out, none) ↔ List.Forall₂ (fun e o => o.1 = e.1 ∧ IsSketch e.2 o.2) data out := by
  induction h generalizing out with
  | nil =>
    rw [List.forall₂_nil_left_iff]
    exact ⟨fun h => (congrArg Prod.fst h).symm, fun h => by rw [h]; rfl⟩
  | @cons e x data all h1 h2 ih =>
    rcases draw_first h1 all with ⟨d, hd, hall⟩ | ⟨err, hall, -, hno⟩
    · rw [hall]
      constructor
      · intro h
        have h3 := congrArg Prod.fst h
        have h4 := congrArg Prod.snd h
        simp only at h3 h4
        rw [← h3]
        exact .cons ⟨rfl, hd⟩ ((ih _).mp (Prod.ext rfl h4))
      · intro h
        cases h with
        | @cons _ o _ out h3 h4 =>
          have := (ih _).mpr h4
          rw [this, ← h3.1, isSketch_unique hd h3.2]
    · rw [hall]
      refine ⟨fun h => (by cases congrArg Prod.snd h), fun h => ?_⟩
      cases h with
      | cons h3 h4 => exact absurd (sketch_layout h3.2).2 hno

theorem draw_prefix {data : Dict (Dict (Field ℝ))} {all : List (Text × Dict (Field ℝ) × Layout ℝ)} (h : List.Forall₂ LaidOut data all) :
    List.Forall₂ (fun e o => o.1 = e.1 ∧ IsSketch e.2 o.2) (data.take (drawAll all).1.length) (drawAll all).1 ∧
    ∀ e, (drawAll all).2 = some e → IsDrawError e := by
  induction h with
  | nil => exact ⟨.nil, fun e h => by cases h⟩
  | @cons e x data all h1 h2 ih =>
    rcases draw_first h1 all with ⟨d, hd, hall⟩ | ⟨err, hall, he, -⟩
    · rw [hall]
      exact ⟨.cons ⟨rfl, hd⟩ ih.1, ih.2⟩
    · rw [hall]
      exact ⟨.nil, fun e h => by rw [← Option.some.inj h]; exact he⟩

theorem script_finishes (data : Dict (Dict (Field ℝ))) (out : List (Text × List (Curve ℝ))) :
    drawData data = (out, none) ↔ List.Forall₂ (fun e o => o.1 = e.1 ∧ IsSketch e.2 o.2) data out := by
  unfold drawData
  rcases layouts_cases data with ⟨all, h1, h2⟩ | ⟨e, h1, h2, g, hg, hno⟩
  · rw [h1]; exact draw_finishes h2 out
  · rw [h1]
    refine ⟨fun h => (by cases congrArg Prod.snd h), fun h => ?_⟩
    obtain ⟨o, -, ho⟩ := forall₂_partner h hg
    exact absurd (sketch_layout ho.2).1 hno

theorem script_prefix (data : Dict (Dict (Field ℝ))) :
    List.Forall₂ (fun e o => o.1 = e.1 ∧ IsSketch e.2 o.2) (data.take (drawData data).1.length) (drawData data).1 ∧
    ((drawData data).1 ≠ [] → ∀ e ∈ data, ∃ r α r₁ β₁ r₂ β₂, HasLayout e.2 r α r₁ β₁ r₂ β₂) := by
  unfold drawData
  rcases layouts_cases data with ⟨all, h1, h2⟩ | ⟨e, h1, h2, g, hg, hno⟩
  · rw [h1]
    refine ⟨(draw_prefix h2).1, fun _ e he => ?_⟩
    obtain ⟨x, -, -, -, r, α, r₁, β₁, r₂, β₂, H, -⟩ := forall₂_partner h2 he
    exact ⟨r, α, r₁, β₁, r₂, β₂, H⟩
  · rw [h1]; exact ⟨.nil, fun h => absurd rfl h⟩

theorem script_error (data : Dict (Dict (Field ℝ))) {e : PyErr} (h : (drawData data).2 = some e) : IsDrawError e := by
  unfold drawData at h
  rcases layouts_cases data with ⟨all, h1, h2⟩ | ⟨e', h1, h2, -⟩
  · rw [h1] at h; exact (draw_prefix h2).2 e h
  · rw [h1] at h; rw [← Option.some.inj h]; exact h2

theorem script_nameless (data : Dict (Dict (Field ℝ))) (h : ∃ n, (n, []) ∈ data) : (drawData data).1 = [] ∧ (drawData data).2 ≠ none := by
  obtain ⟨n, hn⟩ := h
  unfold drawData
  rcases layouts_cases data with ⟨all, h1, h2⟩ | ⟨e', h1, h2, -⟩
  · obtain ⟨x, -, -, -, r, α, r₁, β₁, r₂, β₂, H, -⟩ := forall₂_partner h2 hn
    cases H.hr
  · rw [h1]; exact ⟨rfl, by simp⟩

theorem dict_set_get_mem {β : Type} (d : Dict β) (k : Text) (v : β) : (k, v) ∈ d.set k v := by
  induction d with
  | nil => exact List.mem_cons_self
  | cons a d ih =>
    show (k, v) ∈ if a.1 = k then (k, v) :: d else a :: Dict.set d k v
    split_ifs
    · exact List.mem_cons_self
    · exact List.mem_cons_of_mem _ ih

theorem universal_id {l : Text} (h : '\r' ∉ l) : universalNewlines l = l := by
  have := universal_plain h []
  simpa [universalNewlines] using this

theorem fileText_closed (ls : List Text) : fileText ['\n'] true ls = (ls.map (· ++ ['\n'])).flatten := by
  match ls with
  | [] => rfl
  | [l] => simp [fileText]
  | l :: m :: ls =>
    show l ++ ['\n'] ++ fileText ['\n'] true (m :: ls) = _
    rw [fileText_closed (m :: ls)]; rfl

theorem clean_blank {ls : List Text} (h : ∀ l ∈ ls, IsLine l) :
    (fileLines (fileText ['\n'] true ls ++ ['\n'])).map cleanLine = ls.map unmarked ++ [[]] := by
  rw [fileText_closed]
  induction ls with
  | nil => rfl
  | cons l ls ih =>
    obtain ⟨h1, h2, h3⟩ := h l List.mem_cons_self
    rw [List.map_cons, List.flatten_cons, List.append_assoc, List.append_assoc]
    show (fileLines (l ++ '\n' :: (_ ++ ['\n']))).map cleanLine = _
    rw [fileLines_line h2, List.map_cons, cleanLine_eol h2, ih fun l hl => h l (List.mem_cons_of_mem _ hl)]; rfl

theorem readCatalog_blank {α : Type} [PyNum α] (parse : Text → Option α) {T : GratingTable} (hT : T.Plain) :
    readCatalog parse (T.file ['\n'] true ++ ['\n']) =
      if ∀ r ∈ T.rows, r.length ≤ T.labels.length then .ok ((Dict.sets [] (T.rows.map (rowEntry parse T.labels))).set [] [])
      else .error .indexError := by
  have h0 : universalNewlines (T.file ['\n'] true ++ ['\n']) = T.file ['\n'] true ++ ['\n'] := by
    refine universal_id ?_
    unfold GratingTable.file
    rw [fileText_closed]
    simp only [List.mem_append, List.mem_flatten, List.mem_map, not_or, not_exists, not_and, List.mem_singleton]
    refine ⟨?_, by decide⟩
    rintro x ⟨l, hl, rfl⟩ hm
    rcases List.mem_append.mp hm with hm | hm
    · exact (hT.isLine l (List.mem_map.mpr hl)).2.2 hm
    · exact absurd (List.mem_singleton.mp hm) (by decide)
  have := readCatalog_eq parse hT (Or.inr (Or.inl rfl)) true
  unfold readCatalog at this ⊢
  rw [h0]
  unfold GratingTable.file at this ⊢
  rw [universal_file (Or.inr (Or.inl rfl)) hT.isLine, clean_file hT.isLine, List.map_cons, List.map_cons] at this
  simp only at this
  rw [clean_blank hT.isLine, List.map_cons, List.map_cons, List.cons_append]
  simp only
  rw [List.foldlM_append, this]
  by_cases h : ∀ r ∈ T.rows, r.length ≤ T.labels.length
  · rw [if_pos h, if_pos h]; rfl
  · rw [if_neg h, if_neg h]; rfl

theorem planeDist_polar (r a : ℝ) : planeDist (0, 0) (atPolar r a) = |r| := by
  unfold planeDist atPolar
  rw [← Real.sqrt_sq_eq_abs]
  congr 1
  have := Real.sin_sq_add_cos_sq (a * Real.pi / 180)
  linear_combination r ^ 2 * this

end Optics
