import Verif.Model.Optics

/-!
# The `draw` methods of optics3d.py

What a `draw` call puts into the axes is a list of artists; the matplotlib objects themselves (colours, transparency,
strides, axes) are not modelled.  A 3D patch is given by the vertices of its path: matplotlib draws the curve they
control, which for a circle is a closed Bezier curve.  The vertices of matplotlib's unit circle are a parameter
`circle`; those of a rectangle are its corners.
-/

namespace Optics
open V3
variable {α : Type} [PyNum α]

/-- One thing added to the axes. -/
inductive Artist (α : Type) where
  /-- `ax.plot(a, b, 'ok')`: a dot in a 2D view -/
  | dot (a b : α)
  /-- a 2D patch moved into space: its `_segment3d` -/
  | patch (segment3d : List (V3 α))
  /-- `ax.plot_surface(x, y, z)`: the grid of points -/
  | surface (grid : List (List (V3 α)))
  /-- a `Poly3DCollection` of one polygon -/
  | polygon (verts : List (V3 α))

/-- The vertices of `mplCircle((0, 0), r)` after its patch transform: the unit circle scaled by `r`. -/
def circleVerts (circle : List (α × α)) (r : α) : List (α × α) :=
  circle.map fun p => (r * p.1, r * p.2)

/-- The vertices of `mplRectangle((x, y), width=w, height=h)` after its patch transform: the corners, the first one
repeated to close the path. -/
def rectangleVerts (x y w h : α) : List (α × α) :=
  [(x, y), (x + w, y), (x + w, y + h), (x, y + h), (x, y)]

/-- optics3d.py:285-287 and its copies at 296-298, 305-307, 453-455, 532-534: `ax.add_patch(p)`,
`pathpatch_2d_to_3d(p, z=0, normal=self.normal)`, `pathpatch_translate(p, (x, y, z))`.  Besides the artist, the value
of `self.normal` after the call: `rotation_matrix` (general_optics.py:130) divides the array it is given in place.  A
normal that is `None` is a `TypeError` there. -/
def drawPatch (verts : List (α × α)) (normal : Option (V3 α)) (position : V3 α) : Py (Artist α × V3 α) := do
  let n ← need normal
  let seg ← pathpatch2dTo3d verts 0.0 (.vec n)
  return (.patch (pathpatchTranslate seg position), (rotationMatrix n ⟨0.0, 0.0, 1.0⟩).2.1)

/-- optics3d.py:312-319 and 459-466: the points of `plot_surface` for a ball of diameter `D`. -/
def ballGrid (position : V3 α) (D : α) : List (List (V3 α)) :=
  let N := 50
  let u := linspace 0.0 (2.0 * PyNum.pi) N
  let v := linspace 0.0 PyNum.pi N
  u.map fun a => v.map fun b =>
    ⟨position.x + D / 2.0 * (PyNum.cos a * PyNum.sin b), position.y + D / 2.0 * (PyNum.sin a * PyNum.sin b),
      position.z + D / 2.0 * (1.0 * PyNum.cos b)⟩

/-- optics3d.py:257-322 `Mirror.draw`: the artists added, and the mirror afterwards. -/
def Mirror.draw (circle : List (α × α)) (m : Mirror α) (view : String) : Py (List (Artist α) × Mirror α) := do
  if view = "xy" ∨ view = "tangential" then
    if m.shape = "circular_flat" then return ([.dot m.position.x m.position.y], m)
    else .error .valueError
  else if view = "xz" ∨ view = "sagittal" then
    if m.shape = "circular_flat" then return ([.dot m.position.x m.position.z], m)
    else .error .valueError
  else if view = "3d" ∨ view = "xyz" then
    if m.shape = "circular_flat" then
      let D ← need m.D
      let (a, n) ← drawPatch (circleVerts circle (D / 2.0)) m.normal m.position
      return ([a], { m with normal := some n })
    else if m.shape = "rectangular_flat" then
      let w ← need m.w
      let h ← need m.h
      let (a, n) ← drawPatch (rectangleVerts (-w / 2.0) (-h / 2.0) w h) m.normal m.position
      return ([a], { m with normal := some n })
    else if m.shape = "circular_concave_spherical" then
      let D ← need m.D
      let (a, n) ← drawPatch (circleVerts circle (D / 2.0)) m.normal m.position
      return ([a], { m with normal := some n })
    else if m.shape = "circular_convex_spherical" then
      let D ← need m.D
      return ([.surface (ballGrid m.position D)], m)
    else .error .valueError
  else return ([], m)

/-- optics3d.py:443-468 `Lens.draw`. -/
def Lens.draw (circle : List (α × α)) (l : Lens α) (view : String) : Py (List (Artist α) × Lens α) := do
  if view = "3d" ∨ view = "xyz" then
    if l.shape = "spherical_biconvex" then
      let D ← need l.D
      let (a, n) ← drawPatch (circleVerts circle (D / 2.0)) l.normal l.position
      return ([a], { l with normal := some n })
    else if l.shape = "spherical" then
      let D ← need l.D
      return ([.surface (ballGrid l.position D)], l)
    else .error .valueError
  else return ([], l)

/-- optics3d.py:523-537 `Grating.draw`. -/
def Grating.draw (g : Grating α) (view : String) : Py (List (Artist α) × Grating α) := do
  if view = "3d" ∨ view = "xyz" then
    if g.shape = "rectangular_flat" then
      let w ← need g.w
      let h ← need g.h
      let (a, n) ← drawPatch (rectangleVerts (-w / 2.0) (-h / 2.0) w h) (some g.normal) g.position
      return ([a], { g with normal := n })
    else return ([], g)
  else return ([], g)

/-- optics3d.py:582-596 `Detector.draw`: a polygon for every rectangle among the surfaces. -/
def Detector.draw (d : Detector α) (view : String) : List (Artist α) :=
  if view = "3d" ∨ view = "xyz" then
    if d.shape = "rectangular_flat" then
      d.surfaces.filterMap fun s =>
        match s with
        | .rectangle r => some (.polygon [r.bounds0, r.bounds1, r.bounds2, r.bounds3])
        | _ => none
    else []
  else []

/-- `optic.draw(ax, view)` by dynamic dispatch: `Optic.draw` (optics3d.py:75-76), which annotations, filters, windows
and blocks inherit, and `Compound.draw` (optics3d.py:139-140) do nothing. -/
def Optic.draw (circle : List (α × α)) (o : Optic α) (view : String) : Py (List (Artist α) × Optic α) :=
  match o with
  | .mirror m => do
    let (a, m) ← m.draw circle view
    return (a, .mirror m)
  | .lens l => do
    let (a, l) ← l.draw circle view
    return (a, .lens l)
  | .grating g => do
    let (a, g) ← g.draw view
    return (a, .grating g)
  | .detector d => .ok (d.draw view, .detector d)
  | o => .ok ([], o)

end Optics
