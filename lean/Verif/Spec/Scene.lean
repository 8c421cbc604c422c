import Verif.Spec.Csg
import Verif.Spec.Run
import Verif.Lemmas.Lift
import Verif.Spec.Grating

/-!
# Specification: scenes of finite data, and well-formed optics

A scene is given by real numbers; `lift` turns it into the same scene made of numpy floats (`XR`), in which
divisions by zero, square roots of negative numbers and so on give `nan` or infinities.
-/

namespace Optics
open V3

/-- The same shape in numpy floats. -/
def Shape.lift : Shape ℝ → Shape XR
  | .shape c => .shape c.lift
  | .plane p => .plane p.lift
  | .circle c => .circle c.lift
  | .infiniteCylinder c => .infiniteCylinder c.lift
  | .sphere s => .sphere s.lift
  | .cylinder c R D h => .cylinder c.lift (.fin R) (.fin D) (h.map XR.fin)
  | .rectangle r => .rectangle r.lift

/-- see `Shape.lift` -/
def Key.lift : Key ℝ → Key XR
  | .str s => .str s
  | .shape s => .shape s.lift

/-- see `Shape.lift` -/
def Tree.lift : Tree (Key ℝ) → Tree (Key XR)
  | .nil => .nil
  | .node k l r => .node k.lift l.lift r.lift

/-- see `Shape.lift` -/
def Compound.lift (c : Compound ℝ) : Compound XR := ⟨c.tree.lift, c.surfaceBehavior, .fin c.index⟩

/-- see `Shape.lift` -/
def Mirror.lift (m : Mirror ℝ) : Mirror XR :=
  { position := m.position.lift, shape := m.shape, D := m.D.map XR.fin, w := m.w.map XR.fin, h := m.h.map XR.fin,
    f := m.f.map XR.fin, type := m.type, dmdNormal := m.dmdNormal.lift, normal := m.normal.map V3.lift,
    surfaces := m.surfaces.map Shape.lift }

/-- see `Shape.lift` -/
def Lens.lift (l : Lens ℝ) : Lens XR :=
  { position := l.position.lift, normal := l.normal.map V3.lift, shape := l.shape, D := l.D.map XR.fin,
    w := l.w.map XR.fin, h := l.h.map XR.fin, f := l.f.map XR.fin, surfaces := l.surfaces.map Shape.lift,
    type := l.type, index := .fin l.index }

/-- see `Shape.lift` -/
def Grating.lift (g : Grating ℝ) : Grating XR :=
  { position := g.position.lift, normal := g.normal.lift, tangent := g.tangent.lift, shape := g.shape,
    w := g.w.map XR.fin, h := g.h.map XR.fin, G := g.G.map XR.fin, surfaces := g.surfaces.map Shape.lift }

/-- see `Shape.lift` -/
def Detector.lift (d : Detector ℝ) : Detector XR :=
  { id := d.id, position := d.position.lift, normal := d.normal.lift, tangent := d.tangent.lift, shape := d.shape,
    w := d.w.map XR.fin, h := d.h.map XR.fin, surfaces := d.surfaces.map Shape.lift }

/-- see `Shape.lift` -/
def Optic.lift : Optic ℝ → Optic XR
  | .compound c => .compound c.lift
  | .mirror m => .mirror m.lift
  | .lens l => .lens l.lift
  | .grating g => .grating g.lift
  | .detector d => .detector d.lift
  | .base => .base
  | .annotation => .annotation
  | .filter => .filter
  | .window => .window
  | .block => .block

/-- A row of `hit_data` in numpy floats. -/
def DetHit.lift (h : DetHit ℝ) : DetHit XR := ⟨h.detector, h.pt.lift, .fin h.wavelength⟩

/-- The lens types that are not refracting bodies. -/
def Lens.Ideal {α : Type} (l : Lens α) : Prop :=
  l.type = "ideal" ∨ l.type = "ideal_collimate" ∨ l.type = "ideal_focus"

/-- An optional argument that is not zero if given. -/
def NonZero (x : Option ℝ) : Prop := x ≠ some 0

/-- An optional vector that is not zero if given. -/
def NonZeroVec (x : Option (V3 ℝ)) : Prop := x ≠ some ⟨0, 0, 0⟩

/-- Optics as the constructors build them from sensible arguments: vectors that are normalised are not zero,
diameters and focal lengths are not zero, refractive indices are positive, a compound is a CSG expression of
spheres and cylinders with nonzero radii that reflects or refracts. -/
inductive Optic.WellFormed : Optic ℝ → Prop
  | mirror {position : V3 ℝ} {shape : String} {n t : Option (V3 ℝ)} {D w h f : Option ℝ} {type : String}
      {dmd : V3 ℝ} {m : Mirror ℝ} (hn : NonZeroVec n) (ht : NonZeroVec t) (hdmd : dmd ≠ ⟨0, 0, 0⟩)
      (hD : NonZero D) (hf : NonZero f)
      (hm : Mirror.new position shape n D w h f t type (some dmd) = .ok m) : WellFormed (.mirror m)
  | lens {position : V3 ℝ} {n : Option (V3 ℝ)} {shape : String} {D w h f : Option ℝ} {type : String} {index : ℝ}
      {l : Lens ℝ} (hn : NonZeroVec n) (hn' : shape = "spherical_biconvex" → n ≠ none) (hD : NonZero D)
      (hi : 0 < index) (hl : Lens.new position n shape D w h f type index = .ok l)
      (ideal : l.Ideal → shape = "spherical_biconvex" ∧ ∃ f', f = some f' ∧ f' ≠ 0) : WellFormed (.lens l)
  | grating {position n t : V3 ℝ} {shape : String} {w h : Option ℝ} {G : ℝ} {g : Grating ℝ}
      (hn : n ≠ ⟨0, 0, 0⟩) (ht : t ≠ ⟨0, 0, 0⟩)
      (hg : Grating.new position n t shape w h (some G) = .ok g) : WellFormed (.grating g)
  | detector {id : Nat} {position n t : V3 ℝ} {shape : String} {w h : Option ℝ} {d : Detector ℝ}
      (hn : n ≠ ⟨0, 0, 0⟩) (ht : t ≠ ⟨0, 0, 0⟩)
      (hd : Detector.new id position n t shape w h = .ok d) : WellFormed (.detector d)
  | compound {e : Csg (Prim ℝ)} {behavior : String} {index : ℝ} (he : e.All Prim.WellFormed)
      (hb : behavior = "reflect" ∨ behavior = "refract") (hi : 0 < index) :
      WellFormed (.compound ⟨e.tree, behavior, index⟩)
  | annotation : WellFormed .annotation
  | filter : WellFormed .filter
  | window : WellFormed .window

/-! ## The round surfaces of an optic -/

/-- The primitive a shape is, if it is one. -/
def Shape.prims : Shape ℝ → List (Prim ℝ)
  | .sphere s => [.sphere s]
  | .infiniteCylinder c => [.cylinder c]
  | _ => []

/-- The primitive at a tree node, if there is one. -/
def Key.prims : Key ℝ → List (Prim ℝ)
  | .str _ => []
  | .shape s => s.prims

/-- The primitives of a tree. -/
def Tree.prims : Tree (Key ℝ) → List (Prim ℝ)
  | .nil => []
  | .node k l r => k.prims ++ l.prims ++ r.prims

/-- The round surfaces of an optic. -/
def Optic.prims : Optic ℝ → List (Prim ℝ)
  | .compound c => c.tree.prims
  | .mirror m => m.surfaces.flatMap Shape.prims
  | .lens l => l.surfaces.flatMap Shape.prims
  | .grating g => g.surfaces.flatMap Shape.prims
  | .detector d => d.surfaces.flatMap Shape.prims
  | _ => []

/-- The ray's line touches a round surface of the optic at `x` and meets it nowhere else. -/
def Optic.Grazed (o : Optic ℝ) (ray : Ray ℝ) (x : V3 ℝ) : Prop :=
  ∃ p ∈ o.prims, x ∈ p.surface ∧ ∀ s, ray.at s ∈ p.surface → ray.at s = x

/-- A grating sends the ray somewhere: the ray is of order 0, or the grooves lie in the surface, the ray does not
run along them, and the order exists. -/
def Grating.Diffracts (g : Grating ℝ) (ray : Ray ℝ) : Prop :=
  ray.order = 0 ∨ (inner ℝ g.normal.toE g.tangent.toE = 0 ∧ (∀ c : ℝ, ray.direction ≠ c * g.tangent) ∧
    ∃ G, g.G = some G ∧ |G / 1e6 * ray.order * ray.wavelength - inPlaneSine g.normal g.tangent ray.direction| ≤ 1)

/-- The optics whose `test_intersect` has no reason to raise: all but compounds with a `difference`. -/
def Optic.NoDifference (o : Optic ℝ) : Prop :=
  ∀ c, o = .compound c → ∃ e : Csg (Prim ℝ), c.tree = e.tree ∧ e.NoDifference ∧ e.All Prim.WellFormed

/-- Every grating the ray's line meets has an outgoing direction for the ray. -/
def GratingsDiffractAt (optics : List (Optic ℝ)) (r : Ray ℝ) : Prop :=
  ∀ g, .grating g ∈ optics → (∃ res, g.lift.testIntersect r.lift = .ok res ∧ res.hit = true) → g.Diffracts r

/-- So it is whenever the loop of `run` looks for the next optic. -/
def GratingsDiffract (md : ℝ) (optics : List (Optic ℝ)) (mi : Option Int) (ray : Ray ℝ) : Prop :=
  ∀ n s (r : Ray ℝ), Passes (.fin md) (optics.map Optic.lift) mi n (RunState.init ray.lift (.fin md)) s →
    s.ray = r.lift → GratingsDiffractAt optics r

end Optics
