import Verif.Model.Tree

/-!
# `optics3d.py`: optics, rays, and the run loop
-/

namespace Optics
variable {α : Type} [PyNum α]
open V3

/-- optics3d.py:23 `INDEX_OF_THE_WORLD = 1.0000000`. -/
def indexOfTheWorld : α := 1.0

/-- Use of a value that must not be `None` in arithmetic: `TypeError` otherwise. -/
def need {β : Type} (o : Option β) : Py β :=
  match o with
  | some b => .ok b
  | none => .error .typeError

/-- The attributes of an optic that `Ray.refract` / `Ray.reflect` read: `optic.position`,
`optic.normal`, `optic.f`, `optic.tangent`, `optic.G` (`none` = `None`). -/
structure OpticAttrs (α : Type) where
  position : V3 α
  normal : Option (V3 α) := none
  f : Option α := none
  tangent : Option (V3 α) := none
  G : Option α := none

/-! ## Ray -/

/-- optics3d.py:616-625 `Ray.__init__`. -/
def Ray.new (position direction : V3 α) (wavelength order : α) (type : String) : Ray α :=
  { position := position, direction := unitVector direction, wavelength := wavelength,
    order := order, pointHistory := [position], blocked := false, type := type }

/-- optics3d.py:641-647 `Ray.fly`; `none` = `distance=None`. -/
def Ray.fly (ray : Ray α) (distance : Option α) : Py (Ray α) :=
  match distance with
  | some d =>
    let p := ray.position + d * ray.direction
    .ok { ray with position := p, pointHistory := ray.pointHistory ++ [p] }
  | none => .error .valueError

/-- optics3d.py:782-786, `reflect_type="specular_flat"`: the new direction. -/
def specular (direction normal : V3 α) : V3 α :=
  let i := unitVector direction
  let n := unitVector normal
  let r := i - (2.0 * dot i n) * n
  unitVector r

/-- optics3d.py:787-816, `reflect_type="grating"`: the new direction; `tangent` and `G` are the
optic's attributes. -/
def gratingDirection (direction normal tangent : V3 α) (G order wavelength : α) : V3 α :=
  let normal := unitVector normal
  let incident := unitVector direction
  let dispersionPlaneNormal := tangent
  let n := unitVector (projectOntoPlane normal dispersionPlaneNormal)
  let i := unitVector (projectOntoPlane incident dispersionPlaneNormal)
  let alpha := angleBetween (-i) n (some dispersionPlaneNormal)
  let sgn : α := if alpha < 0.0 then -1.0 else 1.0
  let beta := PyNum.arcsin (G / 1e6 * order * wavelength - PyNum.sin (sgn * alpha))
  let r := incident - (2.0 * dot incident normal) * normal
  let RM1 := rotationMatrixAxisAngle dispersionPlaneNormal (-sgn * alpha)
  let RM2 := rotationMatrixAxisAngle dispersionPlaneNormal (-beta)
  unitVector (M3.mulVec RM2 (unitVector (M3.mulVec RM1 r)))

/-- optics3d.py:778-820 `Ray.reflect`. -/
def Ray.reflect (ray : Ray α) (reflectType : String) (normal : Option (V3 α))
    (optic : OpticAttrs α) : Py (Ray α) := do
  if reflectType = "specular_flat" then
    let n ← need normal
    return { ray with direction := specular ray.direction n }
  else if reflectType = "grating" then
    let n ← need normal
    let tangent ← need optic.tangent
    let G ← need optic.G
    return { ray with
      direction := gratingDirection ray.direction n tangent G ray.order ray.wavelength }
  else .error .valueError

/-- optics3d.py:664-669, 714-718, 723-727: the optic's normal, turned to the side the ray goes to. -/
def orientedNormal (opticNormal direction : V3 α) : V3 α :=
  if dot opticNormal direction < 0.0 then -opticNormal else opticNormal

/-- optics3d.py:653-696, `refract_type="thin_lens"`: the new direction. -/
def thinLensDirection (position direction : V3 α) (lensPosition lensNormal : V3 α)
    (f : Option α) (intersectionPt : V3 α) : Py (V3 α) :=
  let r := intersectionPt - lensPosition
  let n := orientedNormal lensNormal direction
  let dotProduct := dot n direction
  if isclose dotProduct 0.0 1e-10 atolDefault then .ok direction
  else if allclose direction n 1e-10 atolDefault || allclose direction (-n) 1e-10 atolDefault then do
    let f ← need f
    let focalPoint := lensPosition + f * n
    let vectorToImage := focalPoint - position
    return vectorToImage / norm vectorToImage
  else do
    let f ← need f
    let projection := dot direction n
    let scaleFactor := (2.0 * f) / projection
    -- `-self.direction * scale_factor`
    let vectorBack := scaleFactor * (-direction)
    let objectPoint := r + vectorBack
    let imagePoint := -objectPoint
    let vectorToImage := imagePoint - r
    return vectorToImage / norm vectorToImage

/-- optics3d.py:712-719, `refract_type="ideal_collimate"`: the new direction. -/
def collimateDirection (direction lensNormal : V3 α) : V3 α :=
  unitVector (orientedNormal lensNormal direction)

/-- optics3d.py:721-730, `refract_type="ideal_focus"`: the new direction. -/
def focusDirection (position direction lensPosition lensNormal : V3 α) (f : α) : V3 α :=
  let n := orientedNormal lensNormal direction
  let focalPoint := lensPosition + f * n
  let vectorToImage := focalPoint - position
  vectorToImage / norm vectorToImage

/-- optics3d.py:732-771, `refract_type="snells_law"`: the new direction.  `eta1 / eta2` raises
`ZeroDivisionError` for `eta2 = 0` because the indices are Python numbers. -/
def snellDirection (direction normal : V3 α) (eta1 eta2 : α) : Py (V3 α) :=
  let i := direction
  let n := if dot i normal < 0.0 then normal else -normal
  let cosThetaIncident := dot (-i) n
  if PyNum.eqb eta2 0.0 then .error .zeroDivisionError
  else
    let ratio := eta1 / eta2
    let sinSquaredThetaTransmitted :=
      ratio * ratio * (1.0 - cosThetaIncident * cosThetaIncident)
    if eta1 > eta2 ∧ sinSquaredThetaTransmitted > 1.0 then .ok (specular direction normal)
    else
      .ok (ratio * i
        + (ratio * cosThetaIncident - PyNum.sqrt (1.0 - sinSquaredThetaTransmitted)) * n)

/-- optics3d.py:651-776 `Ray.refract`. -/
def Ray.refract (ray : Ray α) (refractType : String) (normal : Option (V3 α))
    (optic : OpticAttrs α) (intersectionPt : V3 α) (eta1 eta2 : Option α) : Py (Ray α) := do
  if refractType = "thin_lens" then
    let ln ← need optic.normal
    let d ← thinLensDirection ray.position ray.direction optic.position ln optic.f intersectionPt
    return { ray with direction := d }
  else if refractType = "ideal_collimate" then
    let ln ← need optic.normal
    return { ray with direction := collimateDirection ray.direction ln }
  else if refractType = "ideal_focus" then
    let ln ← need optic.normal
    let f ← need optic.f
    return { ray with
      direction := focusDirection ray.position ray.direction optic.position ln f }
  else if refractType = "snells_law" then
    let n ← need normal
    let e1 ← need eta1
    let e2 ← need eta2
    let d ← snellDirection ray.direction n e1 e2
    return { ray with direction := d }
  else .error .valueError

/-! ## Optics -/

/-- The value bound to `shooting_from_outside`: `None` (Grating, Detector, flat Mirror), a bool
(Lens, Compound), or an intersection count (spherical Mirrors, optics3d.py:203, 229). -/
inductive Sfo where
  | none
  | bool (b : Bool)
  | count (n : Nat)
  deriving DecidableEq, Repr

/-- Python truthiness. -/
def Sfo.truthy : Sfo → Bool
  | .none => false
  | .bool b => b
  | .count n => n != 0

/-- The 4-tuple returned by an optic's `test_intersect`. -/
structure Hit4 (α : Type) where
  hit : Bool
  pt : Option (V3 α)
  normal : Option (V3 α)
  sfo : Sfo

/-- optics3d.py:84-88: a `Compound`. -/
structure Compound (α : Type) where
  tree : Tree (Key α)
  surfaceBehavior : String
  index : α

/-- optics3d.py:145-173: a `Mirror`. -/
structure Mirror (α : Type) where
  position : V3 α
  shape : String
  D : Option α
  w : Option α
  h : Option α
  f : Option α
  type : String
  dmdNormal : V3 α
  normal : Option (V3 α)
  surfaces : List (Shape α)

/-- optics3d.py:324-345: a `Lens`. -/
structure Lens (α : Type) where
  position : V3 α
  normal : Option (V3 α)
  shape : String
  D : Option α
  w : Option α
  h : Option α
  f : Option α
  surfaces : List (Shape α)
  type : String
  index : α

/-- optics3d.py:471-486: a `Grating`. -/
structure Grating (α : Type) where
  position : V3 α
  normal : V3 α
  tangent : V3 α
  shape : String
  w : Option α
  h : Option α
  G : Option α
  surfaces : List (Shape α)

/-- optics3d.py:539-552: a `Detector`.  `id` is the object's identity; the entries appended to
`hit_data` during a run are events `DetHit` carrying that identity. -/
structure Detector (α : Type) where
  id : Nat
  position : V3 α
  normal : V3 α
  tangent : V3 α
  shape : String
  w : Option α
  h : Option α
  surfaces : List (Shape α)

/-- One row appended to a detector's `hit_data`: `np.append(int_pt, ray.wavelength)`
(optics3d.py:580). -/
structure DetHit (α : Type) where
  detector : Nat
  pt : V3 α
  wavelength : α

/-- An instance of one of the optic classes of optics3d.py. -/
inductive Optic (α : Type) where
  | base
  | compound (c : Compound α)
  | mirror (m : Mirror α)
  | lens (l : Lens α)
  | grating (g : Grating α)
  | detector (d : Detector α)
  | annotation
  | filter
  | window
  | block

/-- optics3d.py:146-173 `Mirror.__init__` (the unused `thickness` is left out). -/
def Mirror.new (position : V3 α) (shape : String) (normal : Option (V3 α)) (D w h f : Option α)
    (tangent : Option (V3 α)) (type : String) (dmdNormal : Option (V3 α)) : Py (Mirror α) := do
  let dmd ← need dmdNormal          -- `unit_vector(None)` is a TypeError
  let base : Mirror α :=
    { position := position, shape := shape, D := D, w := w, h := h, f := f, type := type,
      dmdNormal := unitVector dmd, normal := none, surfaces := [] }
  if shape = "circular_flat" then
    let n ← need normal
    let c ← Circle.new position (some n) none D
    return { base with normal := some (unitVector n), surfaces := [.circle c] }
  else if shape = "rectangular_flat" then
    let n ← need normal
    let t ← need tangent
    let r ← Rectangle.new position n t h w
    return { base with normal := some (unitVector n), surfaces := [.rectangle r] }
  else if shape = "circular_concave_spherical" then
    let n ← need normal
    let f ← need f
    let rc := f * 2.0
    let pRc := position + rc * unitVector n
    let c ← Circle.new position (some n) none D
    let s ← Sphere.new pRc (some rc) none
    return { base with normal := some (unitVector n), surfaces := [.circle c, .sphere s] }
  else if shape = "circular_convex_spherical" then
    let s ← Sphere.new position none D
    return { base with surfaces := [.sphere s] }
  else .error .valueError

/-- optics3d.py:325-345 `Lens.__init__`. -/
def Lens.new (position : V3 α) (normal : Option (V3 α)) (shape : String) (D w h f : Option α)
    (type : String) (index : α) : Py (Lens α) := do
  let base : Lens α :=
    { position := position, normal := normal.map unitVector, shape := shape, D := D, w := w,
      h := h, f := f, surfaces := [], type := type, index := index }
  if shape = "spherical_biconvex" then
    let c ← Circle.new position normal none D
    return { base with surfaces := [.circle c] }
  else if shape = "spherical" then
    let s ← Sphere.new position none D
    return { base with surfaces := [.sphere s] }
  else .error .valueError

/-- optics3d.py:472-486 `Grating.__init__` (the unused `order` is left out). -/
def Grating.new (position normal tangent : V3 α) (shape : String) (w h G : Option α) :
    Py (Grating α) := do
  if shape = "rectangular_flat" then
    let r ← Rectangle.new position normal tangent h w
    return { position := position, normal := unitVector normal, tangent := unitVector tangent,
             shape := shape, w := w, h := h, G := G, surfaces := [.rectangle r] }
  else .error .valueError

/-- optics3d.py:540-552 `Detector.__init__`. -/
def Detector.new (id : Nat) (position normal tangent : V3 α) (shape : String) (w h : Option α) :
    Py (Detector α) := do
  if shape = "rectangular_flat" then
    let r ← Rectangle.new position normal tangent h w
    return { id := id, position := position, normal := unitVector normal,
             tangent := unitVector tangent, shape := shape, w := w, h := h,
             surfaces := [.rectangle r] }
  else .error .valueError

/-! ### `test_intersect` of the optics -/

/-- `d < min_distance`, where `min_distance` starts as `np.inf` (`none`). -/
def ltMin (d : α) (m : Option α) : Bool :=
  match m with
  | none => PyNum.ltInf d
  | some m => decide (d < m)

/-- Unpacking `a, b, c = surface.test_intersect(ray)`. -/
def asHit3 (r : IntersectResult α) : Py (Hit3 α) :=
  match r with
  | .three h => .ok h
  | .six _ => .error .valueError
  | .none => .error .typeError

/-- The local variables of the surface loops: `intersected`, `intersection_pt`, `min_distance`
(`none` = `np.inf`), and `normal` (outer `none` = not yet bound, inner `none` = `None`). -/
structure LoopVars (α : Type) where
  intersected : Bool
  pt : Option (V3 α)
  minDistance : Option α
  normal : Option (Option (V3 α))

/-- `surface.normal` of a flat surface. -/
def Shape.normalAttr (s : Shape α) : Py (Option (V3 α)) :=
  match s with
  | .circle c => match c.normal with
    | some n => .ok (some n)
    | none => .error .attributeError
  | .rectangle r => .ok (some r.normal)
  | .plane p => .ok (some p.normal)
  | _ => .error .attributeError

/-- One pass of the loop over flat surfaces.  optics3d.py:365-372, 374-381 (Lens), 502-509
(Grating), 568-575 (Detector) with `setNormal = false`; 190-198 (Mirror) with `setNormal = true`
(line 198 rebinds `normal = surface.normal`). -/
def flatStep (setNormal : Bool) (ray : Ray α) (v : LoopVars α) (surface : Shape α) :
    Py (LoopVars α) := do
  let r ← asHit3 (← surface.testIntersect ray)
  let v := { v with normal := some r.normal }
  if r.hit then
    let pt ← need r.pt
    let v := { v with intersected := true }
    let d := distanceBetween ray.position pt
    if ltMin d v.minDistance then
      let v := { v with minDistance := some d, pt := some pt }
      if setNormal then return { v with normal := some (← surface.normalAttr) }
      else return v
    else return v
  else return v

/-- Reading a local variable that may be unbound. -/
def bound {β : Type} (o : Option β) : Py β :=
  match o with
  | some b => .ok b
  | none => .error .unboundLocalError

/-- optics3d.py:231-242 and 393-404: what both loops over spheres do with a hit. -/
def sphereUpdate (ray : Ray α) (v : LoopVars α) (r : Hit6 α) : Py (LoopVars α) := do
  let v := { v with intersected := true }
  let p1 ← need r.pt1
  let d1 := distanceBetween ray.position p1
  let v ← if ltMin d1 v.minDistance then do
      let n1 ← need r.n1
      pure { v with minDistance := some d1, pt := some p1, normal := some (some (-n1)) }
    else pure v
  match r.pt2 with
  | none => return v
  | some p2 =>
    let d2 := distanceBetween ray.position p2
    if ltMin d2 v.minDistance then
      let n2 ← need r.n2
      return { v with minDistance := some d2, pt := some p2, normal := some (some (-n2)) }
    else return v

/-- One pass of the loop over spheres of a convex Mirror, optics3d.py:227-242.
`last` is the result of the last `surface.test_intersect` (unbound before the first sphere). -/
def sphereStep (ray : Ray α) (v : LoopVars α × Option (Hit6 α)) (surface : Shape α) :
    Py (LoopVars α × Option (Hit6 α)) := do
  let last : Option (Hit6 α) ←
    match surface with
    | .sphere s => pure (some (s.testIntersect ray))
    | _ => pure v.2
  let r ← bound last
  if r.hit then return (← sphereUpdate ray v.1 r, last)
  else return (v.1, last)

/-- One pass of the loop over spheres of a Lens, optics3d.py:383-404: a surface that is not a
`Sphere` changes nothing (line 384).  The second component is `shooting_from_outside`. -/
def lensSphereStep (ray : Ray α) (v : LoopVars α × Bool) (surface : Shape α) :
    Py (LoopVars α × Bool) := do
  match surface with
  | .sphere s =>
    let r := s.testIntersect ray
    let sfo := decide (r.count % 2 = 0)
    if r.hit then return (← sphereUpdate ray v.1 r, sfo)
    else return (v.1, sfo)
  | _ => return v

/-- First `Sphere` of a surface list (the `isinstance` loops with `break`). -/
def firstSphere : List (Shape α) → Option (Sphere α)
  | [] => none
  | .sphere s :: _ => some s
  | _ :: rest => firstSphere rest

/-- First `Circle` of a surface list. -/
def firstCircle : List (Shape α) → Option (Circle α)
  | [] => none
  | .circle c :: _ => some c
  | _ :: rest => firstCircle rest

/-- optics3d.py:184-245 `Mirror.test_intersect`. -/
def Mirror.testIntersect (m : Mirror α) (ray : Ray α) : Py (Hit4 α) := do
  if m.shape = "circular_flat" ∨ m.shape = "rectangular_flat" then
    let v ← m.surfaces.foldlM (flatStep true ray) ⟨false, none, none, none⟩
    return ⟨v.intersected, v.pt, ← bound v.normal, .none⟩
  else if m.shape = "circular_concave_spherical" then
    let s ← bound (firstSphere m.surfaces)
    let sres := s.testIntersect ray
    if sres.hit then
      let c ← bound (firstCircle m.surfaces)
      let cres ← c.testIntersect ray
      if cres.hit then
        let cpt ← need cres.pt
        let p1 ← need sres.pt1
        let d1 := distanceBetween cpt p1
        match sres.pt2 with
        | some p2 =>
          let d2 := distanceBetween cpt p2
          if d1 < d2 then return ⟨true, some p1, sres.n1, .count sres.count⟩
          else return ⟨true, some p2, sres.n2, .count sres.count⟩
        | none => return ⟨true, some p1, sres.n1, .count sres.count⟩
      else return ⟨false, none, none, .count sres.count⟩
    else return ⟨false, none, none, .count sres.count⟩
  else if m.shape = "circular_convex_spherical" then
    let v ← m.surfaces.foldlM (sphereStep ray) (⟨false, none, none, some none⟩, none)
    let count := match v.2 with
      | some r => Sfo.count r.count
      | none => Sfo.none
    return ⟨v.1.intersected, v.1.pt, ← bound v.1.normal, count⟩
  else .error .valueError

/-- optics3d.py:356-407 `Lens.test_intersect`.  The two branches on `self.type` (lines 364, 373)
are identical loops. -/
def Lens.testIntersect (l : Lens α) (ray : Ray α) : Py (Hit4 α) := do
  if l.shape = "spherical_biconvex" then
    let v ← l.surfaces.foldlM (flatStep false ray) ⟨false, none, none, some none⟩
    return ⟨v.intersected, v.pt, ← bound v.normal, .bool true⟩
  else if l.shape = "spherical" then
    let v ← l.surfaces.foldlM (lensSphereStep ray) (⟨false, none, none, some none⟩, true)
    return ⟨v.1.intersected, v.1.pt, ← bound v.1.normal, .bool v.2⟩
  else .error .valueError

/-- optics3d.py:496-510 `Grating.test_intersect`. -/
def Grating.testIntersect (g : Grating α) (ray : Ray α) : Py (Hit4 α) := do
  if g.shape = "circular_flat" ∨ g.shape = "rectangular_flat" then
    let v ← g.surfaces.foldlM (flatStep false ray) ⟨false, none, none, none⟩
    return ⟨v.intersected, v.pt, ← bound v.normal, .none⟩
  else .error .unboundLocalError

/-- optics3d.py:562-576 `Detector.test_intersect`. -/
def Detector.testIntersect (d : Detector α) (ray : Ray α) : Py (Hit4 α) := do
  if d.shape = "circular_flat" ∨ d.shape = "rectangular_flat" then
    let v ← d.surfaces.foldlM (flatStep false ray) ⟨false, none, none, none⟩
    return ⟨v.intersected, v.pt, ← bound v.normal, .none⟩
  else .error .unboundLocalError

/-- optics3d.py:93-100 `Compound.test_intersect`.  `np.isclose(np.mod(count, 2), 0)` for an integer
count is `count % 2 = 0`.  Unpacking six names from `None` / a 3-tuple raises. -/
def Compound.testIntersect (c : Compound α) (ray : Ray α) : Py (Hit4 α) := do
  match ← testTreeIntersect c.tree ray with
  | .none => .error .typeError
  | .three _ => .error .valueError
  | .six r => return ⟨r.hit, r.pt1, r.n1, .bool (decide (r.count % 2 = 0))⟩

/-- `optic.test_intersect(ray)`.  The base class and `Block`, `Annotation`, `Filter`, `Window`
have no such method. -/
def Optic.testIntersect (o : Optic α) (ray : Ray α) : Py (Hit4 α) :=
  match o with
  | .compound c => c.testIntersect ray
  | .mirror m => m.testIntersect ray
  | .lens l => l.testIntersect ray
  | .grating g => g.testIntersect ray
  | .detector d => d.testIntersect ray
  | .base | .annotation | .filter | .window | .block => .error .attributeError

/-! ### refractive index lookup -/

/-- optics3d.py:132-137 `Compound.get_index_at_point_if_inside`. -/
def Compound.getIndexAtPointIfInside (c : Compound α) (point : V3 α) : Py (Option α) := do
  match ← testTreePoint c.tree point with
  | some true => return some c.index
  | _ => return none

/-- `optic.get_index_at_point_if_inside(point)`: the base class returns `None`
(optics3d.py:78-79), only `Compound` overrides it. -/
def Optic.getIndexAtPointIfInside (o : Optic α) (point : V3 α) : Py (Option α) :=
  match o with
  | .compound c => c.getIndexAtPointIfInside point
  | _ => .ok none

/-- optics3d.py:43-48 `get_index_at_point`. -/
def getIndexAtPoint (optics : List (Optic α)) (point : V3 α) : Py α :=
  match optics with
  | [] => .ok indexOfTheWorld
  | o :: rest => do
    match ← o.getIndexAtPointIfInside point with
    | some index => return index
    | none => getIndexAtPoint rest point

/-! ### `do_intersect` of the optics: the new ray and what is appended to `hit_data` -/

/-- optics3d.py:102-130 `Compound.do_intersect`. -/
def Compound.doIntersect (c : Compound α) (ray : Ray α) (pt : V3 α) (normal : Option (V3 α)) :
    Py (Ray α) := do
  if c.surfaceBehavior = "reflect" then ray.reflect "specular_flat" normal ⟨pt, none, none, none, none⟩
  else if c.surfaceBehavior = "refract" then
    let opticIndex ← c.getIndexAtPointIfInside (pt + (1e-8 : α) * ray.direction)
    let etas : α × α := match opticIndex with
      | some _ => (indexOfTheWorld, c.index)
      | none => (c.index, indexOfTheWorld)
    ray.refract "snells_law" normal ⟨pt, none, none, none, none⟩ pt (some etas.1) (some etas.2)
  else .error .valueError

/-- optics3d.py:247-255 `Mirror.do_intersect`; any other `type` does nothing. -/
def Mirror.doIntersect (m : Mirror α) (ray : Ray α) (pt : V3 α) (normal : Option (V3 α)) :
    Py (Ray α) :=
  if m.type = "normal" then ray.reflect "specular_flat" normal ⟨pt, none, none, none, none⟩
  else if m.type = "dmd" then
    ray.reflect "specular_flat" (some m.dmdNormal) ⟨pt, none, none, none, none⟩
  else .ok ray

/-- optics3d.py:409-441 `Lens.do_intersect`. -/
def Lens.doIntersect (l : Lens α) (ray : Ray α) (pt : V3 α) (normal : Option (V3 α)) (sfo : Sfo) :
    Py (Ray α) :=
  let attrs : OpticAttrs α := ⟨l.position, l.normal, l.f, none, none⟩
  if l.type = "ideal" then ray.refract "thin_lens" normal attrs pt none none
  else if l.type = "ideal_collimate" then ray.refract "ideal_collimate" normal attrs pt none none
  else if l.type = "ideal_focus" then ray.refract "ideal_focus" normal attrs pt none none
  else if sfo.truthy then
    ray.refract "snells_law" normal attrs pt (some 1.0) (some l.index)
  else do
    let n ← need normal
    ray.refract "snells_law" (some (-n)) attrs pt (some l.index) (some 1.0)

/-- optics3d.py:512-521 `Grating.do_intersect`. -/
def Grating.doIntersect (g : Grating α) (ray : Ray α) (pt : V3 α) (normal : Option (V3 α)) :
    Py (Ray α) :=
  if PyNum.eqb ray.order 0.0 then
    ray.reflect "specular_flat" normal ⟨pt, none, none, none, none⟩
  else
    ray.reflect "grating" normal ⟨g.position, some g.normal, none, some g.tangent, g.G⟩

/-- `optic.do_intersect(ray, pt, normal, sfo)`.  optics3d.py:71-73 (base: nothing), 578-580
(Detector), 611-612 (Block). -/
def Optic.doIntersect (o : Optic α) (ray : Ray α) (pt : V3 α) (normal : Option (V3 α)) (sfo : Sfo) :
    Py (Ray α × List (DetHit α)) :=
  match o with
  | .compound c => do return (← c.doIntersect ray pt normal, [])
  | .mirror m => do return (← m.doIntersect ray pt normal, [])
  | .lens l => do return (← l.doIntersect ray pt normal sfo, [])
  | .grating g => do return (← g.doIntersect ray pt normal, [])
  | .detector d => .ok ({ ray with blocked := true }, [⟨d.id, pt, ray.wavelength⟩])
  | .block => .ok ({ ray with blocked := true }, [])
  | .base | .annotation | .filter | .window => .ok (ray, [])

/-! ## `Ray.run` -/

/-- optics3d.py:834-839: `isinstance(optic, Annotation / Filter / Window)`. -/
def Optic.skipped : Optic α → Bool
  | .annotation | .filter | .window => true
  | _ => false

/-- What the scan of `optic_list` has selected: `intersected_optic`, `intersection_pt`,
`intersection_normal`. -/
structure Selected (α : Type) where
  optic : Optic α
  pt : V3 α
  normal : Option (V3 α)

/-- The local variables of `run` used by the scan (optics3d.py:831-853).  `selected` and `sfo`
survive from one pass of the `while` loop to the next, as Python locals do. -/
structure ScanVars (α : Type) where
  intersected : Bool
  minDistance : Option α
  selected : Option (Selected α)
  sfo : Option Sfo

/-- optics3d.py:833-853: one pass of the `for optic in optic_list` loop. -/
def scanStep (ray : Ray α) (remaining : α) (v : ScanVars α) (optic : Optic α) :
    Py (ScanVars α) := do
  if optic.skipped then return v
  else
    let r ← optic.testIntersect ray
    let v := { v with sfo := some r.sfo }
    if r.hit then
      let pt ← need r.pt
      let d := distanceBetween ray.position pt
      if d > remaining then return v
      else if d > clippingFloor then
        let v := { v with intersected := true }
        if ltMin d v.minDistance then
          return { v with minDistance := some d, selected := some ⟨optic, pt, r.normal⟩ }
        else return v
      else return v
    else return v

/-- The state of a `run` call: the ray, `distance_remaining`, `interaction_count`, the surviving
locals, and everything appended to detectors' `hit_data` so far. -/
structure RunState (α : Type) where
  ray : Ray α
  remaining : α
  interactions : Nat
  selected : Option (Selected α)
  sfo : Option Sfo
  log : List (DetHit α)

/-- optics3d.py:830: the `while` condition; `maxInteractions = none` is `np.inf`. -/
def RunState.continues (s : RunState α) (maxInteractions : Option Int) : Bool :=
  decide (s.remaining > 0.0) &&
  (match maxInteractions with
   | none => true
   | some m => decide ((s.interactions : Int) < m)) &&
  !s.ray.blocked

/-- How one pass of the loop ends: normally, or with an exception (and the state at that point). -/
inductive StepResult (α : Type) where
  | next (s : RunState α)
  | raised (e : PyErr) (s : RunState α)

/-- optics3d.py:831-871: one pass of the `while` loop. -/
def runStep (maxDistance : α) (optics : List (Optic α)) (s : RunState α) : StepResult α :=
  match optics.foldlM (scanStep s.ray s.remaining) ⟨false, none, s.selected, s.sfo⟩ with
  | .error e => .raised e s
  | .ok v =>
    let s := { s with selected := v.selected, sfo := v.sfo }
    if !v.intersected then
      match s.ray.fly (some s.remaining) with
      | .error e => .raised e s
      | .ok ray => .next { s with ray := ray, remaining := s.remaining - maxDistance }
    else
      match v.selected with
      | none => .raised .unboundLocalError s
      | some sel =>
        let d := distanceBetween s.ray.position sel.pt
        match s.ray.fly (some d) with
        | .error e => .raised e s
        | .ok ray =>
          let s := { s with ray := ray, remaining := s.remaining - d,
                            interactions := s.interactions + 1 }
          if ray.type = "faerie_fire" then .next { s with ray := { ray with blocked := true } }
          else
            match v.sfo with
            | none => .raised .unboundLocalError s
            | some sfo =>
              match sel.optic.doIntersect ray sel.pt sel.normal sfo with
              | .error e => .raised e s
              | .ok (ray, hits) => .next { s with ray := ray, log := s.log ++ hits }

/-- How a `run` call ends. -/
inductive Outcome (α : Type) where
  | finished (s : RunState α)
  | raised (e : PyErr) (s : RunState α)
  | outOfFuel (s : RunState α)

/-- optics3d.py:830-871: the `while` loop, with at most `fuel` evaluations of its condition. -/
def runLoop (maxDistance : α) (optics : List (Optic α)) (maxInteractions : Option Int) :
    Nat → RunState α → Outcome α
  | 0, s => .outOfFuel s
  | fuel + 1, s =>
    if s.continues maxInteractions then
      match runStep maxDistance optics s with
      | .raised e s => .raised e s
      | .next s => runLoop maxDistance optics maxInteractions fuel s
    else .finished s

/-- optics3d.py:826-827: the state at the start of `run`. -/
def RunState.init (ray : Ray α) (maxDistance : α) : RunState α :=
  { ray := ray, remaining := maxDistance, interactions := 0, selected := none, sfo := none,
    log := [] }

/-- optics3d.py:822-871 `Ray.run`. -/
def Ray.run (ray : Ray α) (maxDistance : α) (optics : List (Optic α))
    (maxInteractions : Option Int) (fuel : Nat) : Outcome α :=
  runLoop maxDistance optics maxInteractions fuel (RunState.init ray maxDistance)

/-! ## Faerie fire -/

/-- optics3d.py:29-34: draw normal triples until one has norm at least `1e-6`.  `samples` is the
stream of values `np.random.normal()` returns; `none` if it is exhausted. -/
def drawVector : List α → Option (V3 α × List α)
  | x :: y :: z :: rest =>
    let v : V3 α := ⟨x, y, z⟩
    if norm v < 0.000001 then drawVector rest else some (v, rest)
  | _ => none

/-- optics3d.py:27-39 `add_faerie_fire_rays`, with the random stream as an argument. -/
def addFaerieFireRays (rays : List (Ray α)) (radius : α) (center : V3 α) :
    Nat → List α → Option (List (Ray α))
  | 0, _ => some rays
  | n + 1, samples => do
    let (v, rest) ← drawVector samples
    let v := v / norm v
    let vDir := -v
    let vFf := center + radius * v
    addFaerieFireRays (rays ++ [Ray.new vFf vDir 532.0 0.0 "faerie_fire"]) radius center n rest

end Optics
