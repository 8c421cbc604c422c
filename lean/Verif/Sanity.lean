import Verif.Model.Optics

/-!
# The repository's own test vectors, run on the model

These are tests of the model at `Float`, not proofs: each line evaluates a definition of `Verif/Model` on an input of
one of the unit tests of the repository and compares it with the value the test expects.
-/

namespace Optics.Sanity
open Optics V3

/-- `np.isclose` with an absolute tolerance only. -/
def close (a b : Float) : Bool := (a - b).abs < 1e-9

/-- `np.allclose` on three components. -/
def closeV (a b : V3 Float) : Bool := close a.x b.x && close a.y b.y && close a.z b.z

/-- A ray as the tests build it. -/
def beam (p d : V3 Float) : Ray Float := Ray.new p d 532.0 0.0 "normal"

/-! `angle_between` -/

#guard close (angleBetween ⟨1, 1, 0⟩ ⟨1, 0, 0⟩ (some ⟨0, 0, 1⟩)) (45 * PyNum.pi / 180)
#guard close (angleBetween ⟨1, 1, 0⟩ ⟨1, 0, 0⟩ (some ⟨0, 0, -1⟩)) (-45 * PyNum.pi / 180)

/-! `rotation_matrix_axis_angle` about x -/

#guard closeV (M3.mulVec (rotationMatrixAxisAngle ⟨1, 0, 0⟩ (PyNum.pi / 2)) ⟨0, 1, 0⟩) ⟨0, 0, 1⟩
#guard closeV (M3.mulVec (rotationMatrixAxisAngle ⟨1, 0, 0⟩ (-PyNum.pi / 2)) ⟨0, 1, 0⟩) ⟨0, 0, -1⟩
#guard closeV (M3.mulVec (rotationMatrixAxisAngle ⟨1, 0, 0⟩ (PyNum.pi / 4)) ⟨0, 1, 0⟩)
  ⟨0, Float.sqrt 0.5, Float.sqrt 0.5⟩
#guard closeV (M3.mulVec (rotationMatrixAxisAngle ⟨1, 0, 0⟩ (-PyNum.pi / 4)) ⟨0, 1, 0⟩)
  ⟨0, Float.sqrt 0.5, -Float.sqrt 0.5⟩

/-! `project_onto_plane` -/

#guard closeV (projectOntoPlane ⟨1, 1, 1⟩ ⟨0, 1, 0⟩) ⟨1, 0, 1⟩
#guard closeV (projectOntoPlane ⟨1, 0, 1⟩ ⟨0, 1, 0⟩) ⟨1, 0, 1⟩
#guard closeV (projectOntoPlane ⟨1, -1, 1⟩ ⟨0, 1, 0⟩) ⟨1, 0, 1⟩
#guard closeV (projectOntoPlane ⟨1, 1, 1⟩ ⟨0.5, 1, 0.5⟩) ⟨1 / 3, -1 / 3, 1 / 3⟩
#guard closeV (projectOntoPlane ⟨1, 0, 1⟩ ⟨0.5, 1, 0.5⟩) ⟨2 / 3, -2 / 3, 2 / 3⟩
#guard closeV (projectOntoPlane ⟨1, -1, 1⟩ ⟨0.5, 1, 0.5⟩) ⟨1, -1, 1⟩
#guard closeV (projectOntoPlane ⟨-1, 1, -1⟩ ⟨-1, 1, -1⟩) ⟨0, 0, 0⟩

/-! `Rectangle.test_intersect` -/

/-- Is the test rectangle hit by a ray along y from `p`? -/
def rectangleHit (p : V3 Float) : Bool :=
  match Rectangle.new ⟨0, 5, 0⟩ ⟨0, -1, 0⟩ ⟨0, 0, 1⟩ (some 1) (some 1) with
  | .ok r => (r.testIntersect (beam p ⟨0, 1, 0⟩)).hit
  | .error _ => false

#guard rectangleHit ⟨0, 0, 0⟩
#guard rectangleHit ⟨0, 0, 0.499⟩
#guard !rectangleHit ⟨0, 0, 0.501⟩

/-! `Sphere.test_intersect` -/

/-- The number of points the test sphere reports. -/
def sphereHits (p d : V3 Float) : Option Nat :=
  match Sphere.new ⟨0, 10, 0⟩ (some 1) none with
  | .ok s =>
    let r := s.testIntersect (beam p d)
    if !r.hit then some 0 else if r.pt2.isSome then some 2 else some 1
  | .error _ => none

#guard sphereHits ⟨0, 0, 0⟩ ⟨0, 1, 0⟩ = some 2
#guard sphereHits ⟨0, 10, 0⟩ ⟨0, 1, 0⟩ = some 1
#guard sphereHits ⟨0, 10, 0⟩ ⟨0, -1, 0⟩ = some 1
#guard sphereHits ⟨0, 10, 0⟩ ⟨0, 0, 1⟩ = some 1
#guard sphereHits ⟨0, 10, 0⟩ ⟨0, 0, -1⟩ = some 1
#guard sphereHits ⟨1, 0, 0⟩ ⟨0, 1, 0⟩ = some 1
#guard sphereHits ⟨0, 0, 0⟩ ⟨0, -1, 0⟩ = some 0
#guard sphereHits ⟨2, 0, 0⟩ ⟨0, 1, 0⟩ = some 0

/-! `Ray.run`: a ray between a mirror and a detector -/

/-- The final position and number of interactions of a ray sent along y to a mirror at y = 5 that sends it back to a
detector at y = -5. -/
def bounce : Option (V3 Float × Nat × Nat) := do
  let m ← (Mirror.new ⟨0, 5, 0⟩ "circular_flat" (some ⟨0, -1, 0⟩) (some 2) none none none none "normal"
    (some ⟨0, 1, 0⟩)).toOption
  let d ← (Detector.new 0 ⟨0, -5, 0⟩ ⟨0, 1, 0⟩ ⟨0, 0, 1⟩ "rectangular_flat" (some 2) (some 2)).toOption
  match (beam ⟨0, 0, 0⟩ ⟨0, 1, 0⟩).run 300 [.mirror m, .detector d] none 10 with
  | .finished s => some (s.ray.position, s.interactions, s.log.length)
  | _ => none

#guard match bounce with
  | some (p, n, k) => closeV p ⟨0, -5, 0⟩ && n == 2 && k == 1
  | none => false

end Optics.Sanity
