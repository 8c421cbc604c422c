import Verif.Model.General

/-!
# `script_sketchconcavegratings.py`: a table of gratings and its layout diagrams

Text is a list of characters.  `float(...)` on a string is the parameter `parse`; `none` stands for its `ValueError`.  The text of
the title, the axes, and writing the pdf file are left out.
-/

namespace Optics
variable {α : Type} [PyNum α]

abbrev Text := List Char

/-- `open(..., 'r')`: text mode turns every line end into `\n` (script_sketchconcavegratings.py:17). -/
def universalNewlines : Text → Text
  | [] => []
  | '\r' :: '\n' :: cs => '\n' :: universalNewlines cs
  | '\r' :: cs => '\n' :: universalNewlines cs
  | c :: cs => c :: universalNewlines cs

/-- `for line in f`: the lines, with their line ends (script_sketchconcavegratings.py:18). -/
def fileLines : Text → List Text
  | [] => []
  | c :: cs =>
    if c = '\n' then ['\n'] :: fileLines cs
    else match fileLines cs with
      | [] => [[c]]
      | l :: ls => (c :: l) :: ls

/-- script_sketchconcavegratings.py:18 `line.replace("Ê", "").rstrip('\n')`. -/
def cleanLine (line : Text) : Text :=
  ((line.filter (· ≠ 'Ê')).reverse.dropWhile (· = '\n')).reverse

/-- `line.split('\t')`. -/
def splitTabs : Text → List Text
  | [] => [[]]
  | c :: cs =>
    if c = '\t' then [] :: splitTabs cs
    else match splitTabs cs with
      | [] => [[c]]
      | w :: ws => (c :: w) :: ws

/-- `str.isspace` on the characters of ISO-8859-1, the encoding of the file. -/
def isSpaceLatin1 (c : Char) : Bool :=
  (9 ≤ c.toNat ∧ c.toNat ≤ 13) ∨ (28 ≤ c.toNat ∧ c.toNat ≤ 32) ∨ c.toNat = 133 ∨ c.toNat = 160

/-- `str.strip()`. -/
def stripText (t : Text) : Text :=
  ((t.dropWhile isSpaceLatin1).reverse.dropWhile isSpaceLatin1).reverse

/-- A Python dictionary with strings as keys, in the order of insertion. -/
abbrev Dict (β : Type) := List (Text × β)

/-- `d[k] = v`: a key that is there already keeps its place. -/
def Dict.set {β : Type} : Dict β → Text → β → Dict β
  | [], k, v => [(k, v)]
  | e :: d, k, v => if e.1 = k then (k, v) :: d else e :: Dict.set d k v

/-- `d[k]`. -/
def Dict.get {β : Type} : Dict β → Text → Py β
  | [], _ => .error .keyError
  | e :: d, k => if e.1 = k then .ok e.2 else Dict.get d k

/-- What is stored for one cell of the table. -/
inductive Field (α : Type) where
  | num (x : α)
  | text (t : Text)

/-- script_sketchconcavegratings.py:31, 35, 37: the number, else the number before an `x`, else the text. -/
def fieldValue (parse : Text → Option α) (v : Text) : Field α :=
  match parse v with
  | some x => .num x
  | none =>
    match parse (stripText (v.takeWhile (· ≠ 'x'))) with
    | some x => .num x
    | none => .text v

/-- script_sketchconcavegratings.py:24-37 for `j > 0`: the rest of a row.  `grating_data_labels[j]` is inside the `try`, but its
`IndexError` is not caught by `except ValueError`. -/
def readFields (parse : Text → Option α) (labels : List Text) : Nat → List Text → Dict (Field α) → Py (Dict (Field α))
  | _, [], row => .ok row
  | j, v :: vs, row =>
    match labels[j]? with
    | none => .error .indexError
    | some name => readFields parse labels (j + 1) vs (row.set name (fieldValue parse v))

/-- script_sketchconcavegratings.py:23-37: one row.  The row is filled before it is put into the dictionary; the code does it the
other way round, but the dictionary is only looked at when all is read. -/
def readRow (parse : Text → Option α) (labels : List Text) (data : Dict (Dict (Field α))) (line : Text) :
    Py (Dict (Dict (Field α))) :=
  match splitTabs line with
  | [] => .ok data
  | name :: vs => do
    let row ← readFields parse labels 1 vs []
    return data.set name row

/-- script_sketchconcavegratings.py:16-37: `grating_data`. -/
def readCatalog (parse : Text → Option α) (file : Text) : Py (Dict (Dict (Field α))) :=
  match (fileLines (universalNewlines file)).map cleanLine with
  | [] => .ok []
  | header :: lines => lines.foldlM (readRow parse (splitTabs header)) []

/-- Arithmetic on a field: a string times a float, or less than an integer, or divided by 2, is a `TypeError`. -/
def Field.number : Field α → Py α
  | .num x => .ok x
  | .text _ => .error .typeError

/-- `(g[r] * np.cos(g[a] * np.pi / 180), g[r] * np.sin(g[a] * np.pi / 180))`: the order of the lookups and of the operations
decides which exception comes first. -/
def polarPoint (g : Dict (Field α)) (rKey aKey : Text) : Py (α × α) := do
  let r ← g.get rKey
  let a ← g.get aKey
  let a ← a.number
  let r ← r.number
  return (r * PyNum.cos (a * PyNum.pi / 180.0), r * PyNum.sin (a * PyNum.pi / 180.0))

/-- The points computed for a grating. -/
structure Layout (α : Type) where
  input : α × α
  output1 : α × α
  output2 : α × α
  detector : α

/-- script_sketchconcavegratings.py:42-50. -/
def layoutOf (g : Dict (Field α)) : Py (Layout α) := do
  let input ← polarPoint g "r (mm)".toList "alpha (deg)".toList
  let o1 ← polarPoint g "r'1 (mm)".toList "beta1 (deg)".toList
  let o2 ← polarPoint g "r'2 (mm)".toList "beta2 (deg)".toList
  return ⟨input, o1, o2,
    PyNum.sqrt ((o2.2 - o1.2) * (o2.2 - o1.2) + (o2.1 - o1.1) * (o2.1 - o1.1))⟩

/-- A curve of a diagram: its points, and the colour if it is not black. -/
structure Curve (α : Type) where
  points : List (α × α)
  colour : Option (α × α × α)

/-- script_sketchconcavegratings.py:73, 76, 79, 82: `wavelength_to_rgb(..., gamma=1.0, floor_wave=440, ceiling_wave=660)`. -/
def curveColour (g : Dict (Field α)) (key : Text) : Py (α × α × α) := do
  let w ← (← g.get key).number
  wavelengthToRgb w 1.0 440.0 660.0

/-- script_sketchconcavegratings.py:57-87: the diagram of one grating.  The title needs the field `f/#`. -/
def diagram (g : Dict (Field α)) (l : Layout α) : Py (List (Curve α)) := do
  let ruled ← (← g.get "ruled".toList).number
  let top := ruled / 2.0
  let bottom := -ruled / 2.0
  let c1 ← curveColour g "m lambda1".toList
  let c2 ← curveColour g "m lambda2".toList
  let _ ← g.get "f/#".toList
  return [⟨[l.input], none⟩, ⟨[(0.0, top)], none⟩, ⟨[(0.0, bottom)], none⟩, ⟨[(0.0, top), (0.0, bottom)], none⟩,
    ⟨[l.output1], none⟩, ⟨[l.output2], none⟩, ⟨[l.output1, l.output2], none⟩,
    ⟨[l.input, (0.0, top), l.output1], some c1⟩, ⟨[l.input, (0.0, bottom), l.output1], some c1⟩,
    ⟨[l.input, (0.0, top), l.output2], some c2⟩, ⟨[l.input, (0.0, bottom), l.output2], some c2⟩]

/-- script_sketchconcavegratings.py:57-93: the loop that draws and saves the diagrams, as far as it gets. -/
def drawAll : List (Text × Dict (Field α) × Layout α) → List (Text × List (Curve α)) × Option PyErr
  | [] => ([], none)
  | (name, g, l) :: rest =>
    match diagram g l with
    | .error e => ([], some e)
    | .ok d => ((name, d) :: (drawAll rest).1, (drawAll rest).2)

/-- script_sketchconcavegratings.py:42-93: the layouts of all gratings are computed (lines 42-50) before the first diagram is drawn.
The code stores the layout in the dictionary of the grating, under names that are not looked up as cells. -/
def drawData (data : Dict (Dict (Field α))) : List (Text × List (Curve α)) × Option PyErr :=
  match data.mapM (fun e => (layoutOf e.2).map fun l => (e.1, e.2, l)) with
  | .error e => ([], some e)
  | .ok all => drawAll all

/-- The whole script: the diagrams saved, and the exception it ends with, if any. -/
def sketchScript (parse : Text → Option α) (file : Text) : List (Text × List (Curve α)) × Option PyErr :=
  match readCatalog parse file with
  | .error e => ([], some e)
  | .ok data => drawData data

end Optics
