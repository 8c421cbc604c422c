import Verif.Model.Optics

/-!
# The example scripts

The scene and the rays of each script; a scene is the list of optics the script builds, or the exception that building it raises.
In the imaging examples the resolution of `image_rays` is a parameter; the scripts use 5, 5 and 3.  Printing and plotting are left out.
-/

namespace Optics
variable {α : Type} [PyNum α]

/-- script_testImaging.py:62-65, script_testIdealRelay.py:74-76, script_testIdealLenses.py:71-74, script_testDMD.py:89-92: the rays from
an object of `size` mm, with the half angle `np.arctan(1 / 2 / image_f_number)` (`np.arctan(x)` as `np.arctan2(x, 1)`).  With the
default pattern "circle" the three lists are of the same length, so that no index is out of range. -/
def objectRays (size : α) (xRes zRes angleRes : Int) : Py (List (Ray α)) := do
  let (origins, dirs, waves) ← imageRays (0.0 : α) size (PyNum.arctan2 (1.0 / 2.0 / 8.0) 1.0) xRes zRes angleRes "circle" 5.0
  return (origins.zip (dirs.zip waves)).map fun p => Ray.new p.1 p.2.1 p.2.2 0.0 "normal"

/-- script_testImaging.py:62-65, script_testIdealRelay.py:74-76: the rays from an object of 10 mm. -/
def scriptRays (xRes zRes angleRes : Int) : Py (List (Ray α)) := objectRays 10.0 xRes zRes angleRes

/-- script_testImaging.py:23-57: one ideal lens, and a detector where the lens equation puts the image. -/
def imagingScene : Py (List (Optic α)) := do
  let lensF : α := 25.0
  let objectY : α := 0.0
  let lensY : α := 50.0
  let objectDist := lensY - objectY
  let imageDist := 1.0 / (1.0 / lensF - 1.0 / objectDist)
  let imageY := lensY + imageDist
  let lens1 ← Lens.new ⟨0.0, lensY, 0.0⟩ (some ⟨0.0, -1.0, 0.0⟩) "spherical_biconvex" (some 50.0) none none (some lensF) "ideal" 1.5
  let detector1 ← Detector.new 0 ⟨0.0, imageY, 0.0⟩ ⟨0.0, -1.0, 0.0⟩ ⟨0.0, 0.0, 1.0⟩ "rectangular_flat" (some 30.0) (some 30.0)
  return [.lens lens1, .detector detector1]

/-- script_testIdealRelay.py:23-69: two ideal lenses, the second of which images the image of the first, and a detector where
the lens equation puts the final image. -/
def relayScene : Py (List (Optic α)) := do
  let lensF1 : α := 12.5
  let lensF2 : α := 12.5
  let objectY : α := 0.0
  let lensY1 : α := 25.0
  let lensY2 : α := 75.0
  let objectDist := lensY1 - objectY
  let relayImgDist1 := 1.0 / (1.0 / lensF1 - 1.0 / objectDist)
  let relayImgY := lensY1 + relayImgDist1
  let relayImgDist2 := lensY2 - relayImgY
  let imageDist := 1.0 / (1.0 / lensF2 - 1.0 / relayImgDist2)
  let imageY := lensY2 + imageDist
  let lens1 ← Lens.new ⟨0.0, lensY1, 0.0⟩ (some ⟨0.0, -1.0, 0.0⟩) "spherical_biconvex" (some 50.0) none none (some lensF1) "ideal" 1.5
  let lens2 ← Lens.new ⟨0.0, lensY2, 0.0⟩ (some ⟨0.0, -1.0, 0.0⟩) "spherical_biconvex" (some 75.0) none none (some lensF2) "ideal" 1.5
  let detector1 ← Detector.new 0 ⟨0.0, imageY, 0.0⟩ ⟨0.0, -1.0, 0.0⟩ ⟨0.0, 0.0, 1.0⟩ "rectangular_flat" (some 30.0) (some 30.0)
  return [.lens lens1, .lens lens2, .detector detector1]

/-! ## Lenses and mirrors made as CSG trees -/

/-- script_testSingletLens.py:28-31, script_testBestformLens.py:39-42, and with other values script_testCompoundIntersect.py:28-31
and script_testCompoundDifference.py:30-33: `BinaryTree(oper)`, `insertLeft(a)`, `insertRight(b)` and the `Compound` of that. -/
def pairScene (oper : String) (a b : Sphere α) (behavior : String) (index : α) : Py (List (Optic α)) := do
  let tree : Tree (Key α) := Tree.new (.str oper)
  let tree ← tree.insertLeft (.shape (.sphere a))
  let tree ← tree.insertRight (.shape (.sphere b))
  return [.compound ⟨tree, behavior, index⟩]

/-- script_testSingletLens.py:18-34. -/
def singletScene : Py (List (Optic α)) := do
  let yCenter : α := 400.0
  let r1 : α := 102.4
  let centerThick : α := 3.6
  let lens1 ← Sphere.new ⟨0.0, yCenter + r1 - centerThick / 2.0, 0.0⟩ none (some (r1 * 2.0))
  let lens2 ← Sphere.new ⟨0.0, yCenter - r1 + centerThick / 2.0, 0.0⟩ none (some (r1 * 2.0))
  pairScene "intersect" lens1 lens2 "refract" 1.5167

/-- script_testBestformLens.py:19-45.  `edge_thick`, `x1_` and `x2_` are not used. -/
def bestformScene : Py (List (Optic α)) := do
  let yBackprinciple : α := 400.0
  let centerThick : α := 4.0
  let f : α := 100.0
  let fBack : α := 97.3
  let r1 : α := 60.02
  let r2 : α := 353.30
  let lens1 ← Sphere.new ⟨0.0, yBackprinciple + r1 - (centerThick - (f - fBack)), 0.0⟩ none (some (r1 * 2.0))
  let lens2 ← Sphere.new ⟨0.0, yBackprinciple - r2 + (f - fBack), 0.0⟩ none (some (r2 * 2.0))
  pairScene "intersect" lens1 lens2 "refract" 1.5167

/-- script_testSingletLens.py:45-53, script_testBestformLens.py:54-62: the rays before the faerie-fire rays are added. -/
def singletRays : List (Ray α) :=
  (linspace (-(25.4 : α) / 4.0) (25.4 / 4.0) 21).map fun z => Ray.new ⟨0.0, 0.0, z⟩ ⟨0.0, 1.0, 0.0⟩ 532.0 0.0 "normal"

/-- script_testCompoundIntersect.py:21-35. -/
def intersectScene : Py (List (Optic α)) := do
  let mirror1 ← Sphere.new ⟨(0.0 : α), 80.0, 0.0⟩ none (some 65.0)
  let mirror2 ← Sphere.new ⟨(0.0 : α), 20.0, 0.0⟩ none (some 65.0)
  pairScene "intersect" mirror1 mirror2 "reflect" 1.5

/-- script_testCompoundDifference.py:23-37. -/
def differenceScene : Py (List (Optic α)) := do
  let mirror1 ← Sphere.new ⟨(0.0 : α), 60.0, 0.0⟩ none (some 30.0)
  let mirror2 ← Sphere.new ⟨(0.0 : α), 40.0, 0.0⟩ none (some 30.0)
  pairScene "difference" mirror1 mirror2 "reflect" 1.5

/-- script_testCompound.py:21-38. -/
def unionScene : Py (List (Optic α)) := do
  let mirror1 ← Sphere.new ⟨(0.0 : α), 50.0, 0.0⟩ none (some 25.0)
  let mirror2 ← Sphere.new ⟨(15.0 : α), 50.0, 0.0⟩ none (some 25.0)
  let mirror3 ← Sphere.new ⟨(30.0 : α), 50.0, 0.0⟩ none (some 25.0)
  let tree : Tree (Key α) := Tree.new (.str "union")
  let tree ← tree.insertLeft (.shape (.sphere mirror1))
  let tree ← tree.insertRight (.str "union")
  let tree ← tree.modifyRight fun t => t.insertLeft (.shape (.sphere mirror2))
  let tree ← tree.modifyRight fun t => t.insertRight (.shape (.sphere mirror3))
  return [.compound ⟨tree, "reflect", 1.5⟩]

/-- script_testCompound.py:42-50. -/
def unionRays : List (Ray α) :=
  (linspace (-20.0) 55.0 76).flatMap fun x => (linspace 0.0 0.0 1).map fun z => Ray.new ⟨x, 0.0, z⟩ ⟨0.0, 1.0, 0.0⟩ 532.0 0.0 "normal"

/-- script_testCylinder.py:18-27. -/
def cylinderScene : Py (List (Optic α)) := do
  let shape1 ← InfiniteCylinder.new ⟨(0.0 : α), 2.0, 0.0⟩ ⟨0.0, 1.0, 1.0⟩ (some 2.0) none
  return [.compound ⟨Tree.new (.shape (.infiniteCylinder shape1)), "reflect", 1.5167⟩]

/-- script_testCylinder.py:32-40: the rays before the faerie-fire rays are added. -/
def cylinderRays : List (Ray α) :=
  (linspace (-2.0) 2.0 21).map fun z => Ray.new ⟨-6.0, 2.0, z⟩ ⟨1.0, 0.0, 0.0⟩ 532.0 0.0 "normal"

/-! ## Ideal lenses -/

/-- script_testThinlens.py:16-23. -/
def thinlensScene : Py (List (Optic α)) := do
  let lens1 ← Lens.new ⟨(0.0 : α), 50.0, 0.0⟩ (some ⟨0.0, -1.0, 0.0⟩) "spherical_biconvex" (some 50.0) none none (some 100.0) "ideal" 1.5
  return [.lens lens1]

/-- script_testThinlens.py:27-35. -/
def thinlensRays : List (Ray α) :=
  [-15.0, 0.0, 15.0].flatMap fun x => [-15.0, 0.0, 15.0].map fun z => Ray.new ⟨x, 0.0, z⟩ ⟨0.0, 1.0, 0.0⟩ 532.0 0.0 "normal"

/-- script_testIdealLenses.py:23-65. -/
def telescopeScene : Py (List (Optic α)) := do
  let lensF1 : α := 50.0
  let lensF2 : α := 25.0
  let lensY1 : α := 50.0
  let lensY2 : α := 75.0
  let imageDist := 2.0 * lensF2
  let imageY := lensY2 + imageDist
  let lens1 ← Lens.new ⟨0.0, lensY1, 0.0⟩ (some ⟨0.0, -1.0, 0.0⟩) "spherical_biconvex" (some 50.0) none none (some lensF1)
    "ideal_collimate" 1.5
  let lens2 ← Lens.new ⟨0.0, lensY2, 0.0⟩ (some ⟨0.0, -1.0, 0.0⟩) "spherical_biconvex" (some 50.0) none none (some lensF2)
    "ideal_focus" 1.5
  let detector1 ← Detector.new 0 ⟨0.0, imageY, 0.0⟩ ⟨0.0, -1.0, 0.0⟩ ⟨0.0, 0.0, 1.0⟩ "rectangular_flat" (some 30.0) (some 30.0)
  return [.lens lens1, .lens lens2, .detector detector1]

/-! ## A grating -/

/-- script_testRectangleGrating.py:17-32. -/
def gratingScene : Py (List (Optic α)) := do
  let gratingTangent : V3 α := ⟨0.0, 0.0, 1.0⟩
  let G : α := 600.0
  let littrow := PyNum.arcsin (G / 1e6 * 1.0 * 700.0 / 2.0)
  let RM := rotationMatrixAxisAngle gratingTangent littrow
  let gratingNormal := RM.mulVec ⟨0.0, -1.0, 0.0⟩
  let grating1 ← Grating.new ⟨0.0, 100.0, 0.0⟩ gratingNormal gratingTangent "rectangular_flat" (some 50.0) (some 50.0) (some G)
  return [.grating grating1]

/-- script_testRectangleGrating.py:37-67: fifteen rays along `y`, by wavelength and order. -/
def gratingRays : List (Ray α) :=
  [(400.0, 1.0), (450.0, 1.0), (500.0, 1.0), (550.0, 1.0), (600.0, 1.0), (650.0, 1.0), (700.0, 1.0),
   (400.0, -1.0), (450.0, -1.0), (500.0, -1.0), (550.0, -1.0), (600.0, -1.0), (650.0, -1.0), (700.0, -1.0), (700.0, 0.0)].map
    fun p => Ray.new ⟨0.0, 0.0, 0.0⟩ ⟨0.0, 1.0, 0.0⟩ p.1 p.2 "normal"

/-! ## Mirrors -/

/-- script_testDMD.py:22-85.  `np.tan(x)` is the quotient of sine and cosine, `np.arctan(x)` is `np.arctan2(x, 1)`. -/
def dmdScene : Py (List (Optic α)) := do
  let tan (x : α) : α := PyNum.sin x / PyNum.cos x
  let lens1F : α := 50.0
  let objectY : α := 0.0
  let lens1Y : α := 100.0
  let objectDist := lens1Y - objectY
  let imageDist := 1.0 / (1.0 / lens1F - 1.0 / objectDist)
  let imageY := lens1Y + imageDist
  let lens1 ← Lens.new ⟨0.0, lens1Y, 0.0⟩ (some ⟨0.0, -1.0, 0.0⟩) "spherical_biconvex" (some 25.0) none none (some lens1F) "ideal" 1.5
  let dmdAngleTan := tan (10.9 * PyNum.pi / 180.0)
  let mirror1 ← Mirror.new ⟨0.0, imageY, 0.0⟩ "rectangular_flat" (some ⟨0.0, -1.0, 0.0⟩) none (some 50.0) (some 50.0) none
    (some ⟨0.0, 0.0, 1.0⟩) "dmd" (some ⟨dmdAngleTan, -1.0, 0.0⟩)
  let lens2F : α := 25.0
  let lens2Dist := 2.0 * lens2F
  let lens2AngleTan := tan (-21.8 * PyNum.pi / 180.0)
  let lens2AngleRad := PyNum.arctan2 lens2AngleTan 1.0
  let lens2Y := imageY - lens2Dist * PyNum.cos lens2AngleRad
  let lens2X := lens2Dist * -PyNum.sin lens2AngleRad
  let lens2 ← Lens.new ⟨lens2X, lens2Y, 0.0⟩ (some ⟨lens2AngleTan, 1.0, 0.0⟩) "spherical_biconvex" (some 25.0) none none (some lens2F)
    "ideal" 1.5
  let detDist := 4.0 * lens2F
  let detAngleTan := tan (-43.6 * PyNum.pi / 180.0)
  let detY := imageY - detDist * PyNum.cos lens2AngleRad
  let detX := detDist * -PyNum.sin lens2AngleRad
  let detector1 ← Detector.new 0 ⟨detX, detY, 0.0⟩ ⟨detAngleTan, 1.0, 0.0⟩ ⟨0.0, 0.0, 1.0⟩ "rectangular_flat" (some 30.0) (some 30.0)
  return [.mirror mirror1, .lens lens1, .lens lens2, .detector detector1]

/-- script_test.py:18-29. -/
def mirrorScene : Py (List (Optic α)) := do
  let mirror ← Mirror.new ⟨(0.0 : α), 100.0, 0.0⟩ "circular_flat" (some ⟨0.0, -1.0, 0.0⟩) (some 50.0) none none none none "normal" none
  return [.mirror mirror, .annotation]

/-- script_testShortRun.py:18-27. -/
def shortRunScene : Py (List (Optic α)) := do
  let mirror ← Mirror.new ⟨(0.0 : α), 100.0, 0.0⟩ "circular_flat" (some ⟨0.0, -1.0, 0.0⟩) (some 50.0) none none none none "normal" none
  return [.mirror mirror]

/-- script_testConvexSphereMirror.py:19-35. -/
def convexScene : Py (List (Optic α)) := do
  let mirror1 ← Mirror.new ⟨(0.0 : α), 50.0, 0.0⟩ "circular_convex_spherical" none (some 25.0) none none none none "normal" none
  let mirror2 ← Mirror.new ⟨(0.0 : α), -50.0, 50.0⟩ "circular_convex_spherical" none (some 25.0) none none none none "normal" none
  let mirror3 ← Mirror.new ⟨(0.0 : α), 50.0, 50.0⟩ "circular_convex_spherical" none (some 25.0) none none none none "normal" none
  let mirror4 ← Mirror.new ⟨(0.0 : α), -50.0, 100.0⟩ "circular_convex_spherical" none (some 25.0) none none none none "normal" none
  return [.mirror mirror1, .mirror mirror2, .mirror mirror3, .mirror mirror4]

/-- script_testConcaveMirror.py:19-27. -/
def concaveScene : Py (List (Optic α)) := do
  let mirror1 ← Mirror.new ⟨(0.0 : α), 50.0, 0.0⟩ "circular_concave_spherical" (some ⟨0.0, -1.0, 0.0⟩) (some 50.0) none none (some 50.0)
    none "normal" none
  return [.mirror mirror1]

/-- script_testRectangleMirror.py:15-22. -/
def rectangleScene : Py (List (Optic α)) := do
  let mirror1 ← Mirror.new ⟨(0.0 : α), 50.0, 0.0⟩ "rectangular_flat" (some ⟨0.0, -1.0, 0.0⟩) none (some 50.0) (some 50.0) none
    (some ⟨0.0, 0.0, 1.0⟩) "normal" none
  return [.mirror mirror1]

/-- script_testProjectOntoPlane:17-22. -/
def projectScene : Py (List (Optic α)) := do
  let mirror1 ← Mirror.new ⟨(0.0 : α), 0.0, 0.0⟩ "rectangular_flat" (some ⟨0.5, 1.0, 0.5⟩) none (some 1.0) (some 1.0) none
    (some ⟨1.0, -1.0, 1.0⟩) "normal" none
  return [.mirror mirror1]

/-- script_czerny1.py:17-50. -/
def czernyScene : Py (List (Optic α)) := do
  let mirror1 ← Mirror.new ⟨(0.0 : α), 150.0, 0.0⟩ "circular_concave_spherical" (some ⟨0.25, -1.0, 0.0⟩) (some 50.8) none none (some 150.0)
    none "normal" none
  let grating1 ← Grating.new ⟨55.0, 50.0, 0.0⟩ ⟨0.0, 1.0, 0.0⟩ ⟨0.0, 0.0, 1.0⟩ "rectangular_flat" (some 50.0) (some 50.0) (some 300.0)
  let mirror2 ← Mirror.new ⟨120.0, 137.5, 0.0⟩ "circular_concave_spherical" (some ⟨-0.35, -1.0, 0.0⟩) (some 50.8) none none (some 150.0)
    none "normal" none
  let detector1 ← Detector.new 0 ⟨119.0, 0.0, 0.0⟩ ⟨0.0, 1.0, 0.0⟩ ⟨0.0, 0.0, 1.0⟩ "rectangular_flat" (some 25.0) (some 25.0)
  return [.mirror mirror1, .grating grating1, .mirror mirror2, .detector detector1]

/-! ## The scripts as a whole -/

/-- The scenes that are made with `Mirror(...)` without a `dmd_normal`, by the lines of the definitions above. -/
def mirrorScenes : List (Py (List (Optic α))) :=
  [mirrorScene, shortRunScene, convexScene, concaveScene, rectangleScene, projectScene, czernyScene]

/-- What the other scripts do before plotting: they build a scene and rays, add faerie-fire rays of a radius, centre and number, and run
every ray over `distance`. -/
structure Script (α : Type) where
  scene : Py (List (Optic α))
  rays : Py (List (Ray α))
  probes : Option (α × V3 α × Nat)
  distance : α

/-- The rays a script runs, given the random numbers. -/
def Script.allRays (s : Script α) (rays : List (Ray α)) (samples : List α) : Option (List (Ray α)) :=
  match s.probes with
  | none => some rays
  | some (radius, center, N) => addFaerieFireRays rays radius center N samples

/-- script_testCompound.py, script_testCompoundIntersect.py, script_testCompoundDifference.py, script_testSingletLens.py,
script_testBestformLens.py, script_testCylinder.py, script_testThinlens.py, script_testIdealLenses.py, script_testImaging.py,
script_testIdealRelay.py, script_testRectangleGrating.py, script_testDMD.py. -/
def exampleScripts : List (Script α) :=
  [⟨unionScene, .ok unionRays, none, 150.0⟩,
   ⟨intersectScene, .ok [], some (150.0 - 50.0, ⟨0.0, 50.0, 0.0⟩, 1000), 150.0⟩,
   ⟨differenceScene, .ok [], some (150.0 - 50.0, ⟨0.0, 50.0, 0.0⟩, 1000), 150.0⟩,
   ⟨singletScene, .ok singletRays, some (550.0 - 100.0, ⟨0.0, 400.0, 0.0⟩, 1000), 550.0⟩,
   ⟨bestformScene, .ok singletRays, some (550.0 - 100.0, ⟨0.0, 400.0, 0.0⟩, 1000), 550.0⟩,
   ⟨cylinderScene, .ok cylinderRays, some (10.0 * 0.85, ⟨0.0, 2.0, 0.0⟩, 1000), 10.0⟩,
   ⟨thinlensScene, .ok thinlensRays, none, 150.0⟩,
   ⟨telescopeScene, objectRays 10.0 1 1 5, none, 150.0⟩,
   ⟨imagingScene, objectRays 10.0 5 5 3, none, 150.0⟩,
   ⟨relayScene, objectRays 10.0 5 5 3, none, 150.0⟩,
   ⟨gratingScene, .ok gratingRays, none, 300.0⟩,
   ⟨dmdScene, objectRays 5.0 5 5 3, none, 400.0⟩]

end Optics
