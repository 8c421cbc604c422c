import Verif.Model.Catalog

/-! # Specification: tables of gratings -/

namespace Optics

/-- A table: its labels and its rows.  The first cell of a row is the name of a grating. -/
structure GratingTable where
  labels : List Text
  rows : List (List Text)

/-- The lines of text, with tabs between the cells. -/
def tabbed : List Text → Text
  | [] => []
  | [v] => v
  | v :: vs => v ++ '\t' :: tabbed vs

/-- Lines as they are in a file, each followed by the line end `eol`, except perhaps the last one. -/
def fileText (eol : Text) (closed : Bool) : List Text → Text
  | [] => []
  | [l] => l ++ if closed then eol else []
  | l :: ls => l ++ eol ++ fileText eol closed ls

/-- The table as a file. -/
def GratingTable.file (T : GratingTable) (eol : Text) (closed : Bool) : Text :=
  fileText eol closed ((T.labels :: T.rows).map tabbed)

/-- A line end of Windows, Unix or the old Macintosh. -/
def IsEol (e : Text) : Prop := e = ['\r', '\n'] ∨ e = ['\n'] ∨ e = ['\r']

/-- A cell holds no tab and no line end. -/
def PlainCell (t : Text) : Prop := '\t' ∉ t ∧ '\n' ∉ t ∧ '\r' ∉ t

structure GratingTable.Plain (T : GratingTable) : Prop where
  labels_ne : T.labels ≠ []
  labels : ∀ c ∈ T.labels, PlainCell c
  rows_ne : ∀ r ∈ T.rows, r ≠ []
  rows : ∀ r ∈ T.rows, ∀ c ∈ r, PlainCell c
  lines : ∀ l ∈ T.labels :: T.rows, tabbed l ≠ []

/-- A cell without the letters `Ê`, which stand in the file for a space that cannot be broken. -/
def unmarked (t : Text) : Text := t.filter (· ≠ 'Ê')

/-- `t` without the space around it. -/
def IsTrimmed (t s : Text) : Prop :=
  ∃ a b, t = a ++ s ++ b ∧ (∀ c ∈ a, isSpaceLatin1 c) ∧ (∀ c ∈ b, isSpaceLatin1 c) ∧
    (∀ c, s.head? = some c → isSpaceLatin1 c = false) ∧ (∀ c, s.getLast? = some c → isSpaceLatin1 c = false)

/-- What a cell means: a number; or a size such as `28 x 28`, of which the first number counts; or else a text. -/
inductive CellMeans {α : Type} (parse : Text → Option α) : Text → Field α → Prop
  | number {v x} (h : parse v = some x) : CellMeans parse v (.num x)
  | size {v a s x} (h : parse v = none) (hv : v = a ∨ ∃ b, v = a ++ 'x' :: b) (ha : 'x' ∉ a) (hs : IsTrimmed a s)
      (h' : parse s = some x) : CellMeans parse v (.num x)
  | text {v a s} (h : parse v = none) (hv : v = a ∨ ∃ b, v = a ++ 'x' :: b) (ha : 'x' ∉ a) (hs : IsTrimmed a s)
      (h' : parse s = none) : CellMeans parse v (.text v)

/-- The labels and cells of a row, after the name. -/
def rowCells (labels row : List Text) : List (Text × Text) :=
  (labels.tail.map unmarked).zip (row.tail.map unmarked)

/-- The name in a row. -/
def rowName (row : List Text) : Text := unmarked (row.headD [])

/-- What a row of the table means: an entry for its name, with an entry for every further cell. -/
def RowMeans {α : Type} (parse : Text → Option α) (labels row : List Text) (e : Text × Dict (Field α)) : Prop :=
  e.1 = rowName row ∧ List.Forall₂ (fun p f => f.1 = p.1 ∧ CellMeans parse p.2 f.2) (rowCells labels row) e.2

/-- A grating for which a diagram can be drawn. -/
structure Drawable (g : Dict (Field ℝ)) (r α r₁ β₁ r₂ β₂ ruled w₁ w₂ : ℝ) : Prop where
  hr : g.get "r (mm)".toList = .ok (.num r)
  hα : g.get "alpha (deg)".toList = .ok (.num α)
  hr₁ : g.get "r'1 (mm)".toList = .ok (.num r₁)
  hβ₁ : g.get "beta1 (deg)".toList = .ok (.num β₁)
  hr₂ : g.get "r'2 (mm)".toList = .ok (.num r₂)
  hβ₂ : g.get "beta2 (deg)".toList = .ok (.num β₂)
  hruled : g.get "ruled".toList = .ok (.num ruled)
  hw₁ : g.get "m lambda1".toList = .ok (.num w₁)
  hw₂ : g.get "m lambda2".toList = .ok (.num w₂)
  hf : ∃ v, g.get "f/#".toList = .ok v

/-- The point at the distance `r` from the grating and the angle `a` in degrees. -/
noncomputable def atPolar (r a : ℝ) : ℝ × ℝ := (r * Real.cos (a * Real.pi / 180), r * Real.sin (a * Real.pi / 180))

/-- The nearest wavelength for which a colour is drawn. -/
noncomputable def drawnWave (w : ℝ) : ℝ := max 440 (min w 660)

/-- What is drawn for a grating in the middle of the plane: the slit, the edges of the ruled area and the line between them, the two
images and the detector between them, and for each wavelength, in its colour, the rays by way of the two edges. -/
noncomputable def sketchOf (slit image₁ image₂ : ℝ × ℝ) (ruled : ℝ) (c₁ c₂ : ℝ × ℝ × ℝ) : List (Curve ℝ) :=
  [⟨[slit], none⟩, ⟨[(0, ruled / 2)], none⟩, ⟨[(0, -(ruled / 2))], none⟩, ⟨[(0, ruled / 2), (0, -(ruled / 2))], none⟩,
    ⟨[image₁], none⟩, ⟨[image₂], none⟩, ⟨[image₁, image₂], none⟩,
    ⟨[slit, (0, ruled / 2), image₁], some c₁⟩, ⟨[slit, (0, -(ruled / 2)), image₁], some c₁⟩,
    ⟨[slit, (0, ruled / 2), image₂], some c₂⟩, ⟨[slit, (0, -(ruled / 2)), image₂], some c₂⟩]

/-- `d` is the diagram of the grating `g`. -/
def IsSketch (g : Dict (Field ℝ)) (d : List (Curve ℝ)) : Prop :=
  ∃ r α r₁ β₁ r₂ β₂ ruled w₁ w₂, Drawable g r α r₁ β₁ r₂ β₂ ruled w₁ w₂ ∧
    ∃ c₁ c₂, wavelengthToRgb (drawnWave w₁) 1 380.0 750.0 = .ok c₁ ∧ wavelengthToRgb (drawnWave w₂) 1 380.0 750.0 = .ok c₂ ∧
      d = sketchOf (atPolar r α) (atPolar r₁ β₁) (atPolar r₂ β₂) ruled c₁ c₂

end Optics
