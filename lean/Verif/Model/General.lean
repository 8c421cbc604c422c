import Verif.Model.XR
import Verif.Model.GeneralOptics
import Mathlib.Data.Nat.Digits.Defs
import Mathlib.Analysis.SpecialFunctions.Log.Base
import Mathlib.Analysis.SpecialFunctions.Gamma.Basic
import Mathlib.Algebra.BigOperators.Group.List.Basic

/-!
# `general.py`: helpers for colours, units, text, signals, files

Not modelled: `show_plot`, `raise_window` (matplotlib windows), `log_interp1d` (a scipy spline),
`nparray2spacedstring` (numpy's array printer and regular expressions).
-/

namespace Optics

section generic
variable {α : Type} [PyNum α]

/-! ## Colours and units -/

/-- Python's `x ** y` on floats: `0.0 ** y` raises for negative `y`.  (Negative bases, for which Python
gives a complex number, and overflow are not modelled; no call below has a negative base.) -/
def pyPow (x y : α) : Py α :=
  if PyNum.eqb x 0.0 ∧ y < 0.0 then .error .zeroDivisionError else .ok (PyNum.pow x y)

/-- general.py:205-258 `wavelength_to_rgb`. -/
def wavelengthToRgb (wavelength gamma floorWave ceilingWave : α) : Py (α × α × α) := do
  let w := if wavelength < floorWave then floorWave else wavelength
  let w := if w > ceilingWave then ceilingWave else w
  if w < 380.0 then return (0.3, 0.0, 0.3)
  else if w ≥ 380.0 ∧ w ≤ 440.0 then
    let attenuation := 0.3 + 0.7 * (w - 380.0) / (440.0 - 380.0)
    let R ← pyPow ((-(w - 440.0) / (440.0 - 380.0)) * attenuation) gamma
    let B ← pyPow (1.0 * attenuation) gamma
    return (R, 0.0, B)
  else if w ≥ 440.0 ∧ w ≤ 490.0 then
    let G ← pyPow ((w - 440.0) / (490.0 - 440.0)) gamma
    return (0.0, G, 1.0)
  else if w ≥ 490.0 ∧ w ≤ 510.0 then
    let B ← pyPow (-(w - 510.0) / (510.0 - 490.0)) gamma
    return (0.0, 1.0, B)
  else if w ≥ 510.0 ∧ w ≤ 580.0 then
    let R ← pyPow ((w - 510.0) / (580.0 - 510.0)) gamma
    return (R, 1.0, 0.0)
  else if w ≥ 580.0 ∧ w ≤ 645.0 then
    let G ← pyPow (-(w - 645.0) / (645.0 - 580.0)) gamma
    return (1.0, G, 0.0)
  else if w ≥ 645.0 ∧ w ≤ 750.0 then
    let attenuation := 0.3 + 0.7 * (750.0 - w) / (750.0 - 645.0)
    let R ← pyPow (1.0 * attenuation) gamma
    return (R, 0.0, 0.0)
  else return (0.3, 0.0, 0.0)

/-- Python's `x / y` on floats. -/
def pyDiv (x y : α) : Py α := if PyNum.eqb y 0.0 then .error .zeroDivisionError else .ok (x / y)

/-- general.py:394-399 `wavelength_nm_to_energy_eV`, for a Python number. -/
def wavelengthToEnergy (wavelengthNm : α) : Py α :=
  pyDiv (1e9 * 6.62606957e-34 * 2.99792458e8 / 1.60217657e-19) wavelengthNm

/-- general.py:402-407 `energy_eV_to_wavelength_nm`, for a Python number. -/
def energyToWavelength (energyEV : α) : Py α :=
  pyDiv (1e9 * 6.62606957e-34 * 2.99792458e8 / 1.60217657e-19) energyEV

/-! ## `find_nearest` -/

/-- `np.isnan`. -/
def isNan (x : α) : Bool := !PyNum.eqb x x

/-- `a.argmin()`: the first smallest element; if there is a `nan`, the first of those.  `best` and `at_` are the
value and position of the candidate so far, `i` the position of the head of the list. -/
def argminFrom : List α → Nat → α → Nat → Nat
  | [], _, _, at_ => at_
  | x :: rest, i, best, at_ =>
    if isNan best then at_
    else if isNan x ∨ x < best then argminFrom rest (i + 1) x i
    else argminFrom rest (i + 1) best at_

/-- `a.argmin()`; an empty array raises `ValueError`. -/
def argmin : List α → Py Nat
  | [] => .error .valueError
  | x :: rest => .ok (argminFrom rest 1 x 0)

/-- general.py:388-391 `find_nearest`. -/
def findNearest (array : List α) (value : α) : Py (Nat × α) := do
  let idx ← argmin (array.map fun a => PyNum.abs (a - value))
  match array[idx]? with
  | some a => return (idx, a)
  | none => .error .indexError

/-! ## Axes -/

/-- The limits of the three axes of a plot: `ax.get_xlim3d()` etc. -/
structure Axes (α : Type) where
  x : α × α
  y : α × α
  z : α × α

/-- `np.max` of three numbers. -/
def max3 (a b c : α) : α :=
  let m := if a < b then b else a
  if m < c then c else m

/-- general.py:439-442 `set_axes_radius`: the new limits. -/
def setAxesRadius (origin : V3 α) (radius : α) : Axes α :=
  ⟨(origin.x - radius, origin.x + radius), (origin.y - radius, origin.y + radius),
   (origin.z - radius, origin.z + radius)⟩

/-- general.py:444-461 `set_axes_equal`: the new limits.  (`np.max` of `nan`s is not modelled.) -/
def setAxesEqual (ax : Axes α) : Axes α :=
  let origin : V3 α := ⟨(ax.x.1 + ax.x.2) / 2.0, (ax.y.1 + ax.y.2) / 2.0, (ax.z.1 + ax.z.2) / 2.0⟩
  let radius := 0.5 * max3 (PyNum.abs (ax.x.2 - ax.x.1)) (PyNum.abs (ax.y.2 - ax.y.1)) (PyNum.abs (ax.z.2 - ax.z.1))
  setAxesRadius origin radius

/-! ## Text -/

/-- `for idx in range(n): s += " "`. -/
def spaces (n : Int) : List Char := List.replicate n.toNat ' '

/-- general.py:352-366: the loop of `prism10widetextarray` from position `i` on; `format` is
`format_base_str.format`. -/
def prismLoop (left right indent : Int) (format : α → List Char) : Nat → List α → List Char
  | _, [] => []
  | i, val :: rest =>
    (if i > 0 ∧ i % 10 = 0 then '\n' :: spaces indent else [])
      ++ (if val < 0.0 then spaces (left - 1) else spaces left)
      ++ format val
      ++ (if ¬ i % 10 = 9 then spaces right else [])
      ++ prismLoop left right indent format (i + 1) rest

/-- general.py:347-367 `prism10widetextarray`. -/
def prism10WideTextArray (array : List α) (left right indent : Int) (format : α → List Char) : List Char :=
  spaces indent ++ prismLoop left right indent format 0 array

/-! ## Signals -/

/-- `np.sum` of a list. -/
def sumList (l : List α) : α := l.foldl (· + ·) 0.0

/-- One entry of the full discrete convolution: the sum of `a[i] * v[k-i]` over the indices that exist. -/
def convAt (a v : List α) (k : Nat) : α :=
  sumList ((List.range (k + 1)).filterMap fun i =>
    match a[i]?, v[k - i]? with
    | some x, some y => some (x * y)
    | _, _ => none)

/-- The entries `[start, start + n)` of the full convolution. -/
def convRange (a v : List α) (start n : Nat) : List α := (List.range n).map fun i => convAt a v (start + i)

/-- `np.convolve(a, v, 'same')`: the middle `max(M, N)` entries; empty arrays raise. -/
def convolveSame (a v : List α) : Py (List α) :=
  if a.length = 0 ∨ v.length = 0 then .error .valueError
  else .ok (convRange a v ((min a.length v.length - 1) / 2) (max a.length v.length))

/-- `np.convolve(a, v, 'valid')`: the entries for which the arrays overlap completely. -/
def convolveValid (a v : List α) : Py (List α) :=
  if a.length = 0 ∨ v.length = 0 then .error .valueError
  else .ok (convRange a v (min a.length v.length - 1) (max a.length v.length - min a.length v.length + 1))

/-- general.py:410-412 `movingAverageFast`; `np.ones((N,))` raises for negative `N`. -/
def movingAverageFast (x : List α) (N : Int) : Py (List α) :=
  if N < 0 then .error .valueError
  else convolveSame x (List.replicate N.toNat (1.0 / ofNat N.toNat))

/-- `y[-h-1:-1]` for `h ≥ 0`. -/
def lastBut (y : List α) (h : Nat) : List α := (y.take (y.length - 1)).drop (y.length - (h + 1))

/-- general.py:196-200: the padded signal; `y[0]` of an empty signal raises. -/
def savgolPad (y : List α) (half : Nat) : Py (List α) :=
  match y.head?, y.getLast? with
  | some y0, some yl =>
    let first := (((y.drop 1).take half).reverse).map fun v => y0 - PyNum.abs (v - y0)
    let last := ((lastBut y half).reverse).map fun v => yl + PyNum.abs (v - yl)
    .ok (first ++ y ++ last)
  | _, _ => .error .indexError

end generic

/-- general.py:131-201 `savitzky_golay`, with numpy versions that still have `np.int` and `np.mat`.
`pinvRow d` is row `d` of `np.linalg.pinv(b)`, where `b` is the matrix of line 194 with the entries `k ** i`,
`k = -half_window ... half_window`, `i = 0 ... order`; it is an argument because `pinv` is a LAPACK routine. -/
noncomputable def savitzkyGolay (y : List ℝ) (windowSize order : Int) (deriv : Nat) (rate : ℝ)
    (pinvRow : Nat → List ℝ) : Py (List ℝ) := do
  let window := windowSize.natAbs
  let order := order.natAbs
  if window % 2 ≠ 1 ∨ window < 1 then .error .typeError
  else if window < order + 2 then .error .typeError
  else
    let half := (window - 1) / 2
    -- `np.linalg.pinv(b).A[deriv]`
    if deriv > order then .error .indexError
    else
      let m := (pinvRow deriv).map fun c => c * rate ^ deriv * (deriv.factorial : ℝ)
      let y ← savgolPad y half
      convolveValid m.reverse y

/-! ## `to_precision` -/

/-- `str(n)` of a non-negative integer. -/
def natStr (n : Nat) : List Char := if n = 0 then ['0'] else ((Nat.digits 10 n).reverse).map Nat.digitChar

/-- `str(e)` of an integer. -/
def intStr (e : Int) : List Char := if e < 0 then '-' :: natStr e.natAbs else natStr e.natAbs

/-- Python's `int(x)`: towards zero. -/
noncomputable def truncInt (x : ℝ) : Int := if 0 ≤ x then ⌊x⌋ else ⌈x⌉

/-- general.py:280-290: the digits `n` and exponent `e` of a positive number. -/
noncomputable def precisionDigits (x : ℝ) (p : Nat) : Int × Int :=
  let e := truncInt (Real.logb 10 x)
  let tens := (10 : ℝ) ^ (e - p + 1)
  let n := ⌊x / tens⌋
  let small : Bool := decide ((n : ℝ) < (10 : ℝ) ^ ((p : Int) - 1))
  let e := if small then e - 1 else e
  let tens := if small then (10 : ℝ) ^ (e - p + 1) else tens
  let n := if small then ⌊x / tens⌋ else n
  let n := if |((n : ℝ) + 1) * tens - x| ≤ |(n : ℝ) * tens - x| then n + 1 else n
  -- `n / 10.`: `n` is then exactly `10 ** p`
  if (n : ℝ) ≥ (10 : ℝ) ^ p then (n / 10, e + 1) else (n, e)

/-- general.py:291-313: the text of the digits `n` (exactly `p` of them, so that `"%.*g" % (p, n)` prints the
integer) with exponent `e`. -/
def precisionText (n e : Int) (p : Nat) : List Char :=
  let m := natStr n.natAbs
  if e < -2 ∨ e ≥ p then
    m.take 1 ++ (if p > 1 then '.' :: (m.take p).drop 1 else []) ++ ['e'] ++ (if e > 0 then ['+'] else []) ++ intStr e
  else if e = p - 1 then m
  else if e ≥ 0 then
    m.take (e + 1).toNat ++ (if (e + 1).toNat < m.length then '.' :: m.drop (e + 1).toNat else [])
  else ['0', '.'] ++ List.replicate (-(e + 1)).toNat '0' ++ m

/-- general.py:264-314 `to_precision`, for `p ≥ 1`.  `int(math.log10(inf))` raises `OverflowError`.  For finite numbers
the arithmetic is exact (the code computes with doubles). -/
noncomputable def toPrecision (x : XR) (p : Nat) : Py (List Char) :=
  match x with
  | .nan => .ok ['N', 'a', 'N']
  | .inf => .error .overflowError
  | .ninf => .error .overflowError
  | .fin x =>
    if x = 0 then .ok (['0', '.'] ++ List.replicate (p - 1) '0')
    else
      let d := precisionDigits |x| p
      .ok ((if x < 0 then ['-'] else []) ++ precisionText d.1 d.2 p)

/-! ## Files -/

/-- What a directory entry can be. `link toDir`: a symbolic link, to a directory or not. -/
inductive Node where
  | file
  | link (toDir : Bool)
  | dir (entries : List (List Char × Node))

/-- `name.endswith(ext)`. -/
def endsWith (name ext : List Char) : Bool := ext.isSuffixOf name

/-- general.py:424-427: `os.remove` for the matching entries of the folder, in the order of `os.listdir`; on a
directory `os.remove` raises (`IsADirectoryError`; `PermissionError` on some systems).  The entries left and the
exception, if any.  Failing for lack of permission is not modelled. -/
def deleteFlat (ext : List Char) : List (List Char × Node) → List (List Char × Node) × Option PyErr
  | [] => ([], none)
  | (name, node) :: rest =>
    if endsWith name ext then
      match node with
      | .dir _ => ((name, node) :: rest, some .isADirectoryError)
      | _ => deleteFlat ext rest
    else
      let r := deleteFlat ext rest
      ((name, node) :: r.1, r.2)

mutual
/-- general.py:418-422: one directory of `os.walk`: the names in `files` (files and links not to a directory) that
match are removed; the walk goes into the real subdirectories. -/
def deleteWalk (ext : List Char) : List (List Char × Node) → List (List Char × Node)
  | [] => []
  | (name, node) :: rest =>
    match deleteWalkNode ext name node with
    | some n => (name, n) :: deleteWalk ext rest
    | none => deleteWalk ext rest
/-- see `deleteWalk` -/
def deleteWalkNode (ext name : List Char) : Node → Option Node
  | .file => if endsWith name ext then none else some .file
  | .link toDir => if !toDir && endsWith name ext then none else some (.link toDir)
  | .dir entries => some (.dir (deleteWalk ext entries))
end

/-- general.py:415-427 `delete_files_with_extension` on a folder; `none`: it does not exist (`os.walk` is then empty,
`os.listdir` raises `FileNotFoundError`, an `OSError`).  The folder after the call and the exception, if any. -/
def deleteFilesWithExtension (folder : Option (List (List Char × Node))) (ext : List Char) (deleteInSubDirectories : Bool) :
    Option (List (List Char × Node)) × Option PyErr :=
  match folder, deleteInSubDirectories with
  | none, true => (none, none)
  | none, false => (none, some .fileNotFoundError)
  | some entries, true => (some (deleteWalk ext entries), none)
  | some entries, false =>
    let r := deleteFlat ext entries
    (some r.1, r.2)

/-! ## Fermi-Dirac integrals and entropy -/

/-- `np.trapz(y, x)`. -/
noncomputable def trapz : List ℝ → List ℝ → ℝ
  | y0 :: y1 :: ys, x0 :: x1 :: xs => (x1 - x0) * (y1 + y0) / 2 + trapz (y1 :: ys) (x1 :: xs)
  | _, _ => 0

/-- general.py:78-83: the trapezoidal sum with `N` intervals (`np.trapz( t, f )`, the arguments in that order). -/
noncomputable def fdSum (eta j : ℝ) (N : Nat) : ℝ :=
  let t := linspace (-4.5 : ℝ) 5 (N + 1)
  let x := fun t => Real.exp (t - Real.exp (-t))
  let f := fun t => x t * (1 + Real.exp (-t)) * x t ^ j / (1 + Real.exp (x t - eta))
  trapz t (t.map f)

/-- The locals of the loop of `FD_int_num`: `y`, `N`, `err` (`none` = not bound). -/
structure FdVars where
  y : ℝ
  N : Nat
  err : Option ℝ

/-- general.py:77-92: the loop over `N = 1, ..., Nmax`, from `N = n` with `m` rounds left; `v` is the previous round. -/
noncomputable def fdLoop (eta j tol : ℝ) : Nat → Nat → Option FdVars → Option FdVars
  | 0, _, v => v
  | m + 1, n, v =>
    let y := fdSum eta j n
    match v with
    | none => fdLoop eta j tol m (n + 1) (some ⟨y, n, none⟩)
    | some old =>
      let err := |y - old.y|
      if err < tol then some ⟨y, n, some err⟩ else fdLoop eta j tol m (n + 1) (some ⟨y, n, some err⟩)

/-- general.py:30-102 `FD_int_num`: `(y, N, err)`, the last two `none` for `np.nan`.  `floatCount`: whether numpy
accepts the float `N + 1` as the number of samples of `np.linspace` (versions before 1.18 do, later ones raise
`TypeError`).  An unrecognised `fType` only prints. -/
noncomputable def fdIntNum (floatCount : Bool) (eta j tol : ℝ) (Nmax : Int) (fType : String) :
    Py (ℝ × Option ℕ × Option ℝ) := do
  let (y, N, err) ←
    if eta < -20 then pure (Real.exp eta, none, none)
    else if eta > 20 then
      if j = -1 / 2 then pure (2 * eta ^ (0.5 : ℝ) / Real.sqrt Real.pi, none, none)
      else if j = 1 / 2 then pure (4 * eta ^ (3 / 2 : ℝ) / 3 / Real.sqrt Real.pi, none, none)
      else if j = 3 / 2 then pure (8 * eta ^ (5 / 2 : ℝ) / 15 / Real.sqrt Real.pi, none, none)
      else .error .unboundLocalError
    else if Nmax < 0 then .error .valueError
    else if Nmax = 0 then .error .unboundLocalError
    else if !floatCount then .error .typeError
    else match fdLoop eta j tol Nmax.toNat 1 none with
      | some ⟨y, N, some err⟩ => pure (-y / Real.Gamma (j + 1), some N, some err)
      -- `err` was never bound
      | _ => .error .unboundLocalError
  return (if fType = "roman" then y * Real.sqrt Real.pi / 2 else y, N, err)

/-- general.py:106-129 `FD_int_approx`: the one entry of the returned tuple, `none` for `np.nan`. -/
noncomputable def fdIntApprox (eta j : ℝ) : Option ℝ :=
  if j = 1 / 2 then
    some <|
      if eta ≤ -2.0 then
        Real.sqrt Real.pi / 2 * Real.exp eta * (1 - Real.exp eta / (2 : ℝ) ^ (1.5 : ℝ)
          + Real.exp (2 * eta) / (3 : ℝ) ^ (1.5 : ℝ) - Real.exp (3 * eta) / (4 : ℝ) ^ (1.5 : ℝ)
          + Real.exp (4 * eta) / (5 : ℝ) ^ (1.5 : ℝ)
          - Real.exp (5 * eta) / (6 : ℝ) ^ (1.5 : ℝ) + Real.exp (6 * eta) / (7 : ℝ) ^ (1.5 : ℝ))
      else if eta ≤ 0 then
        0.678091 + 0.53619667 * eta + 0.16909748 * eta ^ 2 + 0.018780823 * eta ^ 3 - 0.0023575446 * eta ^ 4
          - 0.000639610797 * eta ^ 5
      else if eta ≤ 3.0 then
        0.678091 + 0.53638000 * eta + 0.16682350 * eta ^ 2 + 0.020606700 * eta ^ 3 - 0.0060149100 * eta ^ 4
          + 0.000490398 * eta ^ 5
      else if eta ≤ 10.0 then
        0.75706470 + 0.3922888 * eta + 0.2705525 * eta ^ 2 - 0.016829300 * eta ^ 3 + 0.0008258364 * eta ^ 4
          - 0.00001819771 * eta ^ 5
      else if eta ≤ 100000 then
        2 / 3 * eta ^ (3 / 2 : ℝ) * (1 + 1.2337005 / eta ^ 2 + 1.0654119 / eta ^ 4 + 9.7015185 / eta ^ 6
          + 242.71502 / eta ^ 8 + 12313.691 / eta ^ 10)
      else 2 / 3 * eta ^ (3 / 2 : ℝ)
  else none

/-- general.py:12-18 `get_nQ`, for a base that is not negative (of a negative one Python's `**` makes a complex
number). -/
noncomputable def getNQ (TeV m : ℝ) : ℝ :=
  let h : ℝ := 6.62607004e-27
  let hbar := h / 2 / Real.pi
  let eMks : ℝ := 1.6021766208e-19
  let ergPerEV := eMks * 1e7
  (m * ergPerEV * TeV / (2 * Real.pi * hbar ^ 2)) ^ (3 / 2 : ℝ)

/-- general.py:22-27 `sackurTetrode`, for `n ≠ 0` and a positive quotient under the logarithm. -/
noncomputable def sackurTetrode (n m Vcm3 TeV : ℝ) : ℝ :=
  let kB : ℝ := 1.38064852e-16
  let N := n * Vcm3
  let nQ := getNQ TeV m
  N * kB * (5 / 2 + Real.log (nQ / n))

end Optics
