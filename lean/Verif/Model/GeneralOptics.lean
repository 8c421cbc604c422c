import Verif.Model.Vec

/-!
# `general_optics.py`: vectors, rotations, ray bundles
-/

namespace Optics
variable {α : Type} [PyNum α]
open V3

/-- general_optics.py:12-14 `unit_vector`.  (At `ℝ` the zero vector is mapped to itself by
`x / 0 = 0`; numpy and the instance `XR` give `nan`.) -/
def unitVector (v : V3 α) : V3 α := v / norm v

/-- general_optics.py:17-33 `angle_between`; `vNormal = none` is `v_normal=None`. -/
def angleBetween (v1 v2 : V3 α) (vNormal : Option (V3 α)) : α :=
  let v1u := unitVector v1
  let v2u := unitVector v2
  match vNormal with
  | some n => PyNum.arctan2 (dot (cross v2u v1u) n) (dot v1u v2u)
  | none => PyNum.arccos (dot v1u v2u)

/-- general_optics.py:36-38 `distance_between`. -/
def distanceBetween (p1 p2 : V3 α) : α := norm (p1 - p2)

/-- general_optics.py:41-59 `rotation_matrix_axis_angle` (Euler-Rodrigues). -/
def rotationMatrixAxisAngle (axis : V3 α) (theta : α) : M3 α :=
  let axis := axis / PyNum.sqrt (dot axis axis)
  let a := PyNum.cos (theta / 2.0)
  -- b, c, d = -axis * np.sin(theta / 2.0)
  let s := PyNum.sin (theta / 2.0)
  let b := (-axis.x) * s
  let c := (-axis.y) * s
  let d := (-axis.z) * s
  let aa := a * a
  let bb := b * b
  let cc := c * c
  let dd := d * d
  let bc := b * c
  let ad := a * d
  let ac := a * c
  let ab := a * b
  let bd := b * d
  let cd := c * d
  ⟨⟨aa + bb - cc - dd, 2.0 * (bc + ad), 2.0 * (bd - ac)⟩,
   ⟨2.0 * (bc - ad), aa + cc - bb - dd, 2.0 * (cd + ab)⟩,
   ⟨2.0 * (bd + ac), 2.0 * (cd - ab), aa + dd - bb - cc⟩⟩

/-- general_optics.py:63-82 `rotation_matrix2`: the returned matrix, and the two argument arrays
after the call (`a /= ...`, `b /= ...` normalise the caller's arrays in place, lines 67-68).
Integer arrays, for which the in-place division raises, are not modelled. -/
def rotationMatrix2 (a b : V3 α) : M3 α × V3 α × V3 α :=
  let a := a / norm a
  let b := b / norm b
  let v := cross a b
  let sinAngle := norm v
  let cosAngle := dot a b
  let M : M3 α :=
    if PyNum.eqb sinAngle 0.0 then
      if cosAngle > 0.0 then M3.eye else -M3.eye
    else
      let skew : M3 α := ⟨⟨0.0, -v.z, v.y⟩, ⟨v.z, 0.0, -v.x⟩, ⟨-v.y, v.x, 0.0⟩⟩
      M3.eye + skew + M3.mul skew skew / (1.0 + cosAngle)
  (M, a, b)

/-- general_optics.py:85-91 `rotation_matrix4`: `rot = np.eye(4); rot[:3,:3] = rotation_matrix2(a,b)`. -/
def rotationMatrix4 (a b : V3 α) : M4 α :=
  let M := (rotationMatrix2 a b).1
  ⟨⟨M.r0.x, M.r0.y, M.r0.z, 0.0⟩, ⟨M.r1.x, M.r1.y, M.r1.z, 0.0⟩, ⟨M.r2.x, M.r2.y, M.r2.z, 0.0⟩,
   ⟨0.0, 0.0, 0.0, 1.0⟩⟩

/-- general_optics.py:95-103 `scaling_matrix4`. -/
def scalingMatrix4 (s : V3 α) : M4 α :=
  ⟨⟨s.x, 0.0, 0.0, 0.0⟩, ⟨0.0, s.y, 0.0, 0.0⟩, ⟨0.0, 0.0, s.z, 0.0⟩, ⟨0.0, 0.0, 0.0, 1.0⟩⟩

/-- general_optics.py:107-113 `translation_matrix4`. -/
def translationMatrix4 (t : V3 α) : M4 α :=
  ⟨⟨1.0, 0.0, 0.0, t.x⟩, ⟨0.0, 1.0, 0.0, t.y⟩, ⟨0.0, 0.0, 1.0, t.z⟩, ⟨0.0, 0.0, 0.0, 1.0⟩⟩

/-- general_optics.py:126-150 `rotation_matrix`: the returned matrix, and the two argument arrays
after the call (in-place normalisation, lines 130-131). -/
def rotationMatrix (v1 v2 : V3 α) : M3 α × V3 α × V3 α :=
  let v1 := v1 / norm v1
  let v2 := v2 / norm v2
  let cosAngle := dot v1 v2
  let d := cross v1 v2
  let sinAngle := norm d
  let M : M3 α :=
    if PyNum.eqb sinAngle 0.0 then
      if cosAngle > 0.0 then M3.eye else -M3.eye
    else
      let d := d / sinAngle
      let ddt := M3.outer d d
      let skew : M3 α := ⟨⟨0.0, d.z, -d.y⟩, ⟨-d.z, 0.0, d.x⟩, ⟨d.y, -d.x, 0.0⟩⟩
      ddt + cosAngle * (M3.eye - ddt) + sinAngle * skew
  (M, v1, v2)

/-- The `normal` argument of `pathpatch_2d_to_3d` (general_optics.py:153): a string or an array. -/
inductive PatchNormal (α : Type) where
  | str (s : String)
  | vec (v : V3 α)

/-- general_optics.py:153-177 `pathpatch_2d_to_3d`: the array assigned to `pathpatch._segment3d`
from the 2D vertices of the (already transformed) path.  The matplotlib object itself (path codes,
face colour, class change) is not modelled.  A string normal becomes an *integer* array
(`np.roll((1,0,0), index)`), whose in-place division in `rotation_matrix` raises `TypeError`
(numpy's `UFuncTypeError`); a string other than a substring of "xyz" raises `ValueError` first. -/
def pathpatch2dTo3d (verts : List (α × α)) (z : α) (normal : PatchNormal α) : Py (List (V3 α)) :=
  match normal with
  | .str s =>
    -- "xyz".index(normal): succeeds for every substring of "xyz" (the empty string included)
    if s ∈ ["", "x", "y", "z", "xy", "yz", "xyz"] then .error .typeError else .error .valueError
  | .vec n =>
    let M := (rotationMatrix n ⟨0.0, 0.0, 1.0⟩).1
    .ok (verts.map fun p => M3.mulVec M ⟨p.1, p.2, 0.0⟩ + ⟨0.0, 0.0, z⟩)

/-- general_optics.py:179-183 `pathpatch_translate`. -/
def pathpatchTranslate (segment3d : List (V3 α)) (delta : V3 α) : List (V3 α) :=
  segment3d.map fun p => p + delta

/-- A Python/numpy integer as a float: `Float.ofInt`, `Int.cast` ..., generically. -/
def ofNat (n : Nat) : α := OfScientific.ofScientific n false 0

/-- `np.linspace(start, stop, n)` for `n ≥ 2`: `start + i*step` with `step = (stop-start)/(n-1)`, the
last sample replaced by `stop`, which is what numpy does. -/
def linspace (start stop : α) (n : Nat) : List α :=
  (List.range n).map fun i =>
    if i + 1 = n then stop else ofNat i * ((stop - start) / ofNat (n - 1)) + start

/-- general_optics.py:190-209: the sample positions for one axis. -/
def imageAxis (res : Int) (lo hi : α) : Py (List α) :=
  if res < 1 then .error .valueError
  else if res = 1 then .ok [0.0]
  else .ok (linspace lo hi res.toNat)

/-- general_optics.py:190-224 `image_rays`: `(origins, dirs, waves)`. -/
def imageRays (yCenter size angle : α) (xRes zRes angleRes : Int) (pattern : String)
    (patternD : α) : Py (List (V3 α) × List (V3 α) × List α) := do
  let xs ← imageAxis xRes (-size / 2.0) (size / 2.0)
  let zs ← imageAxis zRes (-size / 2.0) (size / 2.0)
  let angles ← imageAxis angleRes (-angle) angle
  let grid := xs.flatMap fun x => zs.flatMap fun z => angles.map fun a => (x, z, a)
  let origins := grid.map fun p => ⟨p.1, yCenter, p.2.1⟩
  let dirs := grid.map fun p => ⟨0.0, PyNum.cos p.2.2, PyNum.sin p.2.2⟩
  let waves := if pattern = "circle" then
      grid.map fun p =>
        if p.1 * p.1 + p.2.1 * p.2.1 ≤ patternD * patternD / 4.0 then 680.0 else 450.0
    else []
  return (origins, dirs, waves)

/-- general_optics.py:236-239 `project_onto_plane`. -/
def projectOntoPlane (x n : V3 α) : V3 α :=
  let d := dot x n / norm n
  let u := unitVector n
  ⟨x.x - d * u.x, x.y - d * u.y, x.z - d * u.z⟩

end Optics
