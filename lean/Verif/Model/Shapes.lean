import Verif.Model.GeneralOptics

/-!
# `Shapes/shapes.py`
-/

namespace Optics
variable {α : Type} [PyNum α]
open V3

/-- optics3d.py:615-627: the fields of a `Ray`.  `print_trajectory` only controls printing and is
not modelled (it is `False`). -/
structure Ray (α : Type) where
  position : V3 α
  direction : V3 α
  wavelength : α
  order : α
  pointHistory : List (V3 α)
  blocked : Bool
  type : String

/-- shapes.py:12 and optics3d.py:22 `INTERSECT_CLIPPING_FLOOR = 1e-12`. -/
def clippingFloor : α := 1e-12

/-- shapes.py:71 `ARB_EPSILON_VALUE = 1e-9`. -/
def arbEpsilon : α := 1e-9

/-- shapes.py:15-30 `check_R_and_D`. -/
def checkRAndD (R D : Option α) : Py (α × α) :=
  match R, D with
  | none, none => .error .valueError
  | none, some D => .ok (D / 2.0, D)
  | some R, none => .ok (R, R * 2.0)
  | some R, some D => if isclose D (R * 2.0) 1e-8 1e-8 then .ok (R, D) else .error .valueError

/-- shapes.py:33-42 `check_h_and_w`. -/
def checkHAndW (h w : Option α) : Py (α × α) :=
  match h, w with
  | none, _ => .error .valueError
  | some _, none => .error .valueError
  | some h, some w =>
    if h < 0.0 then .error .valueError
    else if w < 0.0 then .error .valueError
    else .ok (h, w)

/-- The 3-tuple `(intersected, point, normal)` returned by `Plane`, `Circle` and `Rectangle`. -/
structure Hit3 (α : Type) where
  hit : Bool
  pt : Option (V3 α)
  normal : Option (V3 α)

/-- The 6-tuple `(intersected, pt1, pt2, norm1, norm2, intersection_count)` returned by `Sphere`,
`InfiniteCylinder` and the CSG operators. -/
structure Hit6 (α : Type) where
  hit : Bool
  pt1 : Option (V3 α)
  pt2 : Option (V3 α)
  n1 : Option (V3 α)
  n2 : Option (V3 α)
  count : Nat

/-- `False, None, None` -/
def Hit3.miss : Hit3 α := ⟨false, none, none⟩
/-- `False, None, None, None, None, count` -/
def Hit6.miss (count : Nat) : Hit6 α := ⟨false, none, none, none, none, count⟩
/-- `True, pt, None, normal, None, count` -/
def Hit6.one (pt n : V3 α) (count : Nat) : Hit6 α := ⟨true, some pt, none, some n, none, count⟩
/-- `True, p1, p2, n1, n2, count` -/
def Hit6.two (p1 p2 n1 n2 : V3 α) (count : Nat) : Hit6 α :=
  ⟨true, some p1, some p2, some n1, some n2, count⟩

/-! ## Plane -/

/-- shapes.py:53-56: a `Plane` object. -/
structure Plane (α : Type) where
  center : V3 α
  normal : V3 α

/-- shapes.py:54-56 `Plane.__init__`. -/
def Plane.new (center normal : V3 α) : Plane α := ⟨center, unitVector normal⟩

/-- shapes.py:61-84 `Plane.test_intersect`. -/
def Plane.testIntersect (p : Plane α) (ray : Ray α) : Hit3 α :=
  let denominator := dot (unitVector p.normal) (unitVector ray.direction)
  if PyNum.abs denominator > arbEpsilon then
    let difference := p.center - ray.position
    let t := dot difference p.normal / denominator
    if t > arbEpsilon then
      ⟨true, some (ray.position + t * ray.direction), some p.normal⟩
    else Hit3.miss
  else Hit3.miss

/-! ## Circle -/

/-- shapes.py:87-95: a `Circle` object.  `normal` and `plane` are only set if a normal was given. -/
structure Circle (α : Type) where
  center : V3 α
  R : α
  D : α
  normal : Option (V3 α)
  plane : Option (Plane α)

/-- shapes.py:88-95 `Circle.__init__`. -/
def Circle.new (center : V3 α) (normal : Option (V3 α)) (R D : Option α) : Py (Circle α) := do
  let (R, D) ← checkRAndD R D
  return ⟨center, R, D, normal.map unitVector, normal.map (Plane.new center)⟩

/-- shapes.py:97-102 `Circle.test_intersect`; `self.plane` is missing (`AttributeError`) when the
circle was built without a normal. -/
def Circle.testIntersect (c : Circle α) (ray : Ray α) : Py (Hit3 α) :=
  match c.plane with
  | none => .error .attributeError
  | some plane =>
    let r := plane.testIntersect ray
    match r.hit, r.pt with
    | true, some pt =>
      if distanceBetween pt c.center < c.R then .ok ⟨true, some pt, r.normal⟩ else .ok Hit3.miss
    | _, _ => .ok Hit3.miss

/-! ## Sphere -/

/-- shapes.py:278-283: a `Sphere` object. -/
structure Sphere (α : Type) where
  center : V3 α
  R : α
  D : α

/-- shapes.py:279-283 `Sphere.__init__`. -/
def Sphere.new (center : V3 α) (R D : Option α) : Py (Sphere α) := do
  let (R, D) ← checkRAndD R D
  return ⟨center, R, D⟩

/-- shapes.py:285-287 `Sphere.normal`. -/
def Sphere.normal (s : Sphere α) (point : V3 α) : V3 α := unitVector (s.center - point)

/-- shapes.py:294-302 `Sphere.test_point`. -/
def Sphere.testPoint (s : Sphere α) (point : V3 α) : Bool :=
  let distance := distanceBetween point s.center
  if distance < s.R then true else false

/-- shapes.py:305-356 `Sphere.test_intersect`. -/
def Sphere.testIntersect (s : Sphere α) (ray : Ray α) : Hit6 α :=
  let q := s.center - ray.position
  let vDotQ := dot ray.direction q
  let squareDiffs := dot q q - s.R * s.R
  let discrim := vDotQ * vDotQ - squareDiffs
  if discrim > 0.0 then
    let root := PyNum.sqrt discrim
    let t0 := vDotQ - root
    let t1 := vDotQ + root
    let pt0 := ray.position + t0 * ray.direction
    let pt1 := ray.position + t1 * ray.direction
    let norm0 := s.normal pt0
    let norm1 := s.normal pt1
    if t0 > clippingFloor ∧ t1 > clippingFloor then
      if t0 < t1 then Hit6.two pt1 pt0 norm1 norm0 2
      else Hit6.two pt0 pt1 norm0 norm1 2
    else if t1 > clippingFloor then Hit6.one pt1 norm1 1
    else if t0 > clippingFloor then Hit6.one pt0 norm0 1
    else Hit6.miss 0
  else if PyNum.eqb discrim 0.0 then
    let t0 := vDotQ
    let pt0 := ray.position + t0 * ray.direction
    let norm0 := s.normal pt0
    Hit6.one pt0 norm0 2
  else Hit6.miss 0

/-! ## InfiniteCylinder -/

/-- shapes.py:109-116: an `InfiniteCylinder` object.  Its `plane` attribute is never used. -/
structure InfiniteCylinder (α : Type) where
  center : V3 α
  R : α
  D : α
  direction : V3 α

/-- shapes.py:110-116 `InfiniteCylinder.__init__`. -/
def InfiniteCylinder.new (center direction : V3 α) (R D : Option α) :
    Py (InfiniteCylinder α) := do
  let (R, D) ← checkRAndD R D
  return ⟨center, R, D, unitVector direction⟩

/-- shapes.py:270-274 `InfiniteCylinder.normal`. -/
def InfiniteCylinder.normal (c : InfiniteCylinder α) (point : V3 α) : V3 α :=
  unitVector (projectOntoPlane (c.center - point) c.direction)

/-- shapes.py:121-143 and 242-258: the transformation to the unit cylinder of a homogeneous
vector (translation is applied to points only, scaling to points only, lines 129-130, 140-141).
The in-place normalisation of `self.direction` inside `rotation_matrix2` is not kept: it is the
identity on the unit vector stored there. -/
def InfiniteCylinder.pointToObjectSpace (c : InfiniteCylinder α) (point : V3 α) : V4 α :=
  let transMat := translationMatrix4 (-c.center)
  let translated := M4.mulVec transMat (point.hom 1.0)
  let rotationMat := rotationMatrix4 c.direction ⟨0.0, 0.0, 1.0⟩
  let rotated := M4.mulVec rotationMat translated
  let scaleFactor := 1.0 / c.R
  M4.mulVec (scalingMatrix4 ⟨scaleFactor, scaleFactor, scaleFactor⟩) rotated

/-- shapes.py:127-135, 141, 143: a ray direction is only rotated. -/
def InfiniteCylinder.dirToObjectSpace (c : InfiniteCylinder α) (dir : V3 α) : V4 α :=
  M4.mulVec (rotationMatrix4 c.direction ⟨0.0, 0.0, 1.0⟩) (dir.hom 0.0)

/-- shapes.py:169-189: the roots of the object-space quadratic, `(t0, t1)` with `None` = `none`. -/
def cylinderRoots (A B C : α) : Option α × Option α :=
  let discriminant := B * B - 4.0 * A * C
  if discriminant > 0.0 then
    let root := PyNum.sqrt discriminant
    if B ≥ 0.0 then (some ((-B - root) / (2.0 * A)), some ((2.0 * C) / (-B - root)))
    else (some ((2.0 * C) / (-B + root)), some ((-B + root) / (2.0 * A)))
  else if PyNum.eqb discriminant 0.0 then (some ((-B) / (2.0 * A)), none)
  else (none, none)

/-- shapes.py:118-238 `InfiniteCylinder.test_intersect`.  `1 / self.R` (line 137) raises
`ZeroDivisionError` for `R = 0` because `R` is a Python number. -/
def InfiniteCylinder.testIntersect (c : InfiniteCylinder α) (ray : Ray α) : Py (Hit6 α) :=
  if PyNum.eqb c.R 0.0 then .error .zeroDivisionError
  else
    let pos := c.pointToObjectSpace ray.position
    let dir := c.dirToObjectSpace ray.direction
    let scaleFactor := 1.0 / c.R
    let xE := pos.x
    let yE := pos.y
    let xD := dir.x
    let yD := dir.y
    let A := xD * xD + yD * yD
    let B := 2.0 * xE * xD + 2.0 * yE * yD
    let C := xE * xE + yE * yE - 1.0
    match cylinderRoots A B C with
    | (some t0o, some t1o) =>
      let t0 := t0o / scaleFactor
      let t1 := t1o / scaleFactor
      let pt0 := ray.position + t0 * ray.direction
      let pt1 := ray.position + t1 * ray.direction
      let normal0 := c.normal pt0
      let normal1 := c.normal pt1
      if t0 > clippingFloor ∧ t1 > clippingFloor then
        if t0 < t1 then .ok (Hit6.two pt0 pt1 normal0 normal1 2)
        else .ok (Hit6.two pt1 pt0 normal1 normal0 2)
      else if t1 > clippingFloor then .ok (Hit6.one pt1 normal1 1)
      else if t0 > clippingFloor then .ok (Hit6.one pt0 normal0 1)
      else .ok (Hit6.miss 0)
    | (some t0o, none) =>
      let t0 := t0o / scaleFactor
      let pt0 := ray.position + t0 * ray.direction
      let normal0 := c.normal pt0
      .ok (Hit6.one pt0 normal0 2)
    | (none, _) => .ok (Hit6.miss 0)

/-- shapes.py:241-267 `InfiniteCylinder.test_point`. -/
def InfiniteCylinder.testPoint (c : InfiniteCylinder α) (point : V3 α) : Py Bool :=
  if PyNum.eqb c.R 0.0 then .error .zeroDivisionError
  else
    let p := c.pointToObjectSpace point
    let rPoint := PyNum.sqrt (p.x * p.x + p.y * p.y)
    if rPoint < 1.0 then .ok true else .ok false

/-! ## Rectangle -/

/-- shapes.py:379-395: a `Rectangle` object; `bounds` are the rows of `self.bounds`. -/
structure Rectangle (α : Type) where
  center : V3 α
  normal : V3 α
  tangent : V3 α
  tangent2 : V3 α
  h : α
  w : α
  bounds0 : V3 α
  bounds1 : V3 α
  bounds2 : V3 α
  bounds3 : V3 α
  plane : Plane α

/-- shapes.py:380-395 `Rectangle.__init__`. -/
def Rectangle.new (center normal tangent : V3 α) (h w : Option α) : Py (Rectangle α) :=
  let n := unitVector normal
  let tg := unitVector tangent
  if !isclose (dot n tg) 0.0 rtolDefault atolDefault then .error .valueError
  else do
    let tangent2 := cross n tg
    let (h, w) ← checkHAndW h w
    return {
      center := center, normal := n, tangent := tg, tangent2 := tangent2, h := h, w := w,
      bounds0 := center + (h / 2.0) * tg - (w / 2.0) * tangent2
      bounds1 := center + (h / 2.0) * tg + (w / 2.0) * tangent2
      bounds2 := center - (h / 2.0) * tg + (w / 2.0) * tangent2
      bounds3 := center - (h / 2.0) * tg - (w / 2.0) * tangent2
      plane := Plane.new center normal }

/-- shapes.py:397-415 `Rectangle.test_intersect`. -/
def Rectangle.testIntersect (r : Rectangle α) (ray : Ray α) : Hit3 α :=
  let res := r.plane.testIntersect ray
  match res.hit, res.pt with
  | true, some M =>
    let A := r.bounds0
    let B := r.bounds1
    let C := r.bounds2
    let AB := B - A
    let BC := C - B
    let AM := M - A
    let BM := M - B
    if (0.0 : α) ≤ dot AB AM ∧ dot AB AM ≤ dot AB AB then
      if (0.0 : α) ≤ dot BC BM ∧ dot BC BM ≤ dot BC BC then ⟨true, some M, res.normal⟩
      else Hit3.miss
    else Hit3.miss
  | _, _ => Hit3.miss

/-! ## Any shape -/

/-- An instance of one of the classes of shapes.py.  `cylinder` is the finite `Cylinder`
(shapes.py:359-376), whose methods are stubs (`pass`) and return `None`; `shape` is the base class
(shapes.py:45-50), which has neither `test_intersect` nor `test_point`. -/
inductive Shape (α : Type) where
  | shape (center : V3 α)
  | plane (p : Plane α)
  | circle (c : Circle α)
  | infiniteCylinder (c : InfiniteCylinder α)
  | sphere (s : Sphere α)
  | cylinder (center : V3 α) (R D : α) (h : Option α)
  | rectangle (r : Rectangle α)

/-- What a `test_intersect` method of a shape can return. -/
inductive IntersectResult (α : Type) where
  | none
  | three (r : Hit3 α)
  | six (r : Hit6 α)

/-- `shape.test_intersect(ray)`, by dynamic dispatch. -/
def Shape.testIntersect (s : Shape α) (ray : Ray α) : Py (IntersectResult α) :=
  match s with
  | .shape _ => .error .attributeError
  | .plane p => .ok (.three (p.testIntersect ray))
  | .circle c => do return .three (← c.testIntersect ray)
  | .infiniteCylinder c => do return .six (← c.testIntersect ray)
  | .sphere s => .ok (.six (s.testIntersect ray))
  | .cylinder _ _ _ _ => .ok .none
  | .rectangle r => .ok (.three (r.testIntersect ray))

/-- `shape.test_point(point)`, by dynamic dispatch; `Option` because the finite `Cylinder` returns
`None`. -/
def Shape.testPoint (s : Shape α) (point : V3 α) : Py (Option Bool) :=
  match s with
  | .shape _ => .error .attributeError
  | .plane _ => .error .attributeError
  | .circle _ => .error .attributeError
  | .infiniteCylinder c => do return some (← c.testPoint point)
  | .sphere s => .ok (some (s.testPoint point))
  | .cylinder _ _ _ _ => .ok none
  | .rectangle _ => .error .attributeError

end Optics
