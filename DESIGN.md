# A Lean 4 model of Optics3D

Target: the Python sources in `/repo` at the pinned commit. The code was not run; it was read as text.

## 1. Shape of the model

The model is one executable Lean program, written function by function after the Python. Every
definition cites the file and lines it models.

| Lean module | Python |
|---|---|
| `Verif/Model/Num.lean` | numpy scalars, Python exceptions, `np.isclose` |
| `Verif/Model/Vec.lean` | numpy 3-vectors, 3x3 / 4x4 matrices, `np.dot`, `np.cross`, `np.linalg.norm`, `np.outer`, `np.allclose` |
| `Verif/Model/GeneralOptics.lean` | `general_optics.py` 12-239 |
| `Verif/Model/Shapes.lean` | `Shapes/shapes.py` |
| `Verif/Model/Tree.lean` | `general_optics.py` 247-624 (CSG trees) |
| `Verif/Model/Optics.lean` | `optics3d.py` (optics, `Ray`, `Ray.run`, faerie fire) |
| `Verif/Model/XR.lean` | numpy scalars with `nan`, `inf` |
| `Verif/Model/General.lean` | `general.py` |
| `Verif/Model/Rounded.lean` | the number type `Fl R` of rounded floats, and IEEE doubles |
| `Verif/Model/Draw.lean` | the `draw` methods of `optics3d.py` |
| `Verif/Model/Print.lean` | `__repr__` and the branches of `print_trajectory=True` in `optics3d.py` |
| `Verif/Model/Scripts.lean` | scene and rays of `script_testImaging.py` and `script_testIdealRelay.py` |
| `Verif/Sanity.lean` | the repository's own test vectors, run on the model (tests, not proofs) |

### The number type

Python computes with IEEE doubles. The model is generic in the number type `α`, over a class
`PyNum α` of the scalar operations the code uses, and is used at these instances:

* **any `α`**: theorems about control flow (run loop, history, caps, blocking, detectors, scanning,
  trees). These use no property of arithmetic, so they hold for IEEE doubles too.
* **`ℝ`**: theorems about geometry and optics. Exact arithmetic, no rounding. At
  points where Mathlib's total functions deviate from numpy (`x/0`, `sqrt` of a negative, `arcsin`
  outside `[-1,1]`) the theorem states a guard that excludes the point, and
* **`XR`** (`nan | +inf | -inf | finite real`): numpy's special-value rules over exact reals, used to
  say what numpy really does at those points, and that `nan` does not appear elsewhere.
* **`Fl R`** (Model/Rounded): as `XR`, but every result is rounded by `R`, which may be any rounding with the
  laws of the structure `Rounding` (monotone, keeps 0, relative error `u` with gradual underflow, may overflow to
  an infinity). `binary64`, the rounding of IEEE doubles, is proved to have these laws. Used for C97 and later.
* **`Float`**: only to run the model on test vectors.

### Effects

* Exceptions are values: `Py β = Except PyErr β`. Branch by branch, including the accidental
  exceptions (`TypeError` from `None` arithmetic, `UnboundLocalError`, `ZeroDivisionError`, ...).
* Mutation of a ray is a function returning the new ray. Rows appended to `Detector.hit_data` are
  a log of events carrying the detector's identity.
* `Ray.run`'s `while` loop is a fuel-indexed recursion; that the fuel never matters is a theorem
  (C41), not an assumption. Python locals that survive loop passes (`intersected_optic`,
  `shooting_from_outside`, ...) are part of the loop state.
* `np.random.normal()` is an arbitrary stream passed as an argument.

### Not modelled, or simplified

* Rounding and overflow of IEEE arithmetic, except in the any-`α` theorems, where they do not matter, and in the
  theorems about `Fl R`. There the transcendental functions count as correctly rounded, and `np.dot` as computed
  product by product and summed from the left (no fused multiply-add). Signed zeros are not modelled.
* The `script_*.py` files, except their scenes and rays (Model/Scripts): printing and plotting are left out. Of script_testMatrixTransforms.py
  and script_testBinaryTree.py the computed values and the printed expression are modelled (Model/Demos); of script_testBallLens.py only the binding
  of the arguments of its first call, which raises.
  script_sketchconcavegratings.py is modelled (Model/Catalog) with `float()` of a string as a parameter; the text of the titles, line
  styles, decoding the file and writing the pdf files are left out. Of what is printed: the text of the two numbers in the line about gratings, and the
  alerts of general_optics.py:515 and 606.
* matplotlib. A `draw` call returns the list of artists it adds with the points they are made of; colours,
  transparency and rendering are left out. The path of matplotlib's unit circle is a parameter.
* Arrays of length other than 3, integer dtypes. (One exception: the integer array that a string
  `normal` produces in `pathpatch_2d_to_3d` is modelled, because it raises.)
* Aliasing: a `BinaryTree` node shared by two parents; user code that mutates an optic's arrays
  during a run. The in-place normalisation of an `InfiniteCylinder.direction` inside
  `rotation_matrix2` is dropped; over the reals it is the identity on the stored unit vector, over
  doubles it can move the last bit.
* Indices of refraction and radii are Python numbers, so division by zero raises
  `ZeroDivisionError` rather than producing `inf`.
* `general.py`: `show_plot`, `raise_window` (thin wrappers of matplotlib) are not modelled. In `log_interp1d` scipy's linear spline, in
  `nparray2spacedstring` numpy's `array2string` of a one-dimensional array are modelled after their documentation and source (Model/Tables). In `savitzky_golay` the pseudo-inverse
  `np.linalg.pinv` is a parameter satisfying the Penrose equations; in `prism10widetextarray` the
  number format is a parameter; in `FD_int_num` a parameter says whether numpy accepts a float count in
  `np.linspace` (versions before 1.18 do). `gamma` is Mathlib's, `np.trapz` is written out.
* Termination and the path-length budget (C40, C41) are proved over exact reals with numpy's special values.
  With doubles, a step smaller than half an ulp of the remaining distance does not reduce it: C97 says up to which
  budget the loop still ends, and that it need not end beyond.

## 2. Specifications

`Verif/Spec/` contains small definitions that do not mention the model's helper functions: solids as
sets of points, the law of reflection, Snell's law, the thin lens equation, the grating equation,
first entry of a ray into a set, path length of a polyline, permutation of optics, and so on. The
bridge `Spec/Euclid.lean` identifies the model's `dot`/`norm`/`cross` at `ℝ` with Mathlib's
Euclidean inner product, norm and cross product, so "length" and "angle" mean the Mathlib notions.

## 3. Properties

Where a property is false of the code, the theorem proving the negation with a concrete witness is
named `..._counterexample` and the strongest true part is `..._partial`.

| id | how it is modelled and proved |
|---|---|
| C01 | `unitVector` at ℝ; at XR for the zero vector |
| C02 | `distanceBetween` = Mathlib `dist` of the corresponding Euclidean points |
| C03 | algebra, Pythagoras |
| C04 | equals Mathlib `InnerProductGeometry.angle` |
| C05 | `Complex.arg` of (cos, sin) decomposition in the plane perpendicular to k |
| C06 | half-angle polynomials, Rodrigues' formula as separate spec |
| C07 | proper rotation for non-antiparallel vectors; antiparallel gives -I (determinant -1): counterexample |
| C08 | maps v2 to v1: docstring refuted; the true statement proved |
| C09 | algebra |
| C10 | list induction / `List.flatMap` lengths |
| C11 | case analysis |
| C12-C14 | iff-characterisations against set specs |
| C15-C18 | quadratic in the ray parameter; roots characterised |
| C19-C20 | the rotation to the z axis preserves distance from the axis; quadratic; XR for the parallel ray |
| C21 | equivariance under translations and rotations |
| C22 | induction on trees against a set denotation |
| C23 | in-order key lists; sizes |
| C24 | a parser for the printed grammar inverts it |
| C25-C27 | first entry of a ray into a set; counterexamples for the reported defects |
| C28 | induction on trees |
| C29 | list induction; counterexample for a glass ball |
| C30-C33 | vector algebra |
| C34-C36 | vector algebra; f<0 counterexample |
| C37-C38 | in-plane angles as arguments of complex numbers; counterexample for positive alpha |
| C39-C45, C47-C49, C52 | invariants of the loop, by induction on fuel |
| C41 | measure: every interaction consumes more than 1e-12 |
| C46 | true for scenes without order-sensitive `shooting_from_outside`; counterexample with a ball lens |
| C50 | loop invariant |
| C51 | true except the tangent-behind sphere: counterexample |
| C53 | induction on N |
| C54 | refuted: always TypeError |
| C55-C57 | composition of shape and ray theorems |
| C58-C67 | model of `general.py` |
| C68 | transfer theorems from ℝ to XR |
| C69 | simulation between a scene and its translate (or rigidly moved copy) |
| C70 | from C08's true statement |
| C71 | each test and action of a well-formed optic returns; induction over the run |
| C72 | exit condition of a ball: the chord's angle of incidence inside equals the angle of refraction |
| C73, C74 | real analysis of the formulas in `general.py` |
| C75-C78 | the set of points where a ray can hit an optic, compared with the drawn figure; counterexample for rectangles |
| C79 | case analysis over the constructors |
| C80 | invariant of the run loop: the history is the image of the free ray under Mathlib's reflections in the planes met |
| C81 | Cauchy-Schwarz, on the laws of reflection and refraction |
| C82 | C80's invariant, and the ray moves away from every plane it has met; three reflections at right angles compose to a point reflection |
| C83 | induction over the path, with the nearest-optic theorem in numpy arithmetic (C45_nearest_numpy); the definition of a light path is symmetric |
| C84 | Gamma integrals term by term; dominated convergence; Mathlib's error bound of the trapezoidal rule and the substitution of the code; numeric bounds of what is cut off |
| C85 | each method with printing against the same method without, then the loop; `repr` of the possible states of C71 does not raise |
| C86 | in coordinates along the axis; induction over the lenses, with the nearest-optic theorem in numpy arithmetic; products of 2x2 matrices |
| C87 | C86, with the numbers of the scripts |
| C88 | both answers of the concave test lifted to numpy, the two roots on the line, then a one-bounce run |
| C89 | each test and each act commutes with `lift`; simulation of the run loop pass by pass |
| C90 | Snell's law solved about a radius, three passes of the loop in real numbers, C89 to carry the run to numpy; algebra of the two chords |
| C91 | Chords of two spheres and the operators of C26, three passes of the loop in real numbers, C89 to carry the run to numpy; continuity at the axis for the limit, interval arithmetic for the lenses of the scripts |
| C92 | Two passes of the loop on top of C26 and C27 in real numbers; for the scripts every probe aims at a centre that lies in both spheres, and a tie is possible only in the plane of symmetry; carried to numpy floats by the lifted runs |
| C93 | Every scene is built by the constructors, well-formed and (but for one) free of `difference`, so that C71 applies; the difference script by C92 |
| C94 | Induction over the route: each inner corner is one pass of the loop by the hit tests of flat optics, the law of the optic there gives the next leg; the last leg ends in free space or on the detector |
| C95 | Props/DmdScript: C95_image, C95_script, C95_injective; the route is built leg by leg in Lemmas/DmdBench, DmdRoute, DmdTurns and followed by C94 |
| C96 | Props/ScriptResults: C96_thinlens, C96_thinlens_script, C96_telescope, C96_telescope_script, C96_grating, C96_grating_script, C96_littrow, C96_dispersion; each ray's route is given corner by corner and followed by C94; Spec/ScriptResults has the figures |
| C97 | Props/RoundedTermination: C97_terminates, C97_terminates_double, C97_endless; Lemmas/RoundedClock has the budget argument of C41 with a rounding error, Lemmas/Rounding64 proves the laws for doubles |
| C98 | Props/RoundedMirrors: C98_unit_vector, C98_reflection, C98_length, C98_direction, C98_double; Lemmas/RoundedVec and RoundedMirror bound the rounding errors, Lemmas/RoundedRun follows the selected optic through the scan |
| C99 | Props/RoundedPositions: C99_position, C99_on_mirror, C99_double; Lemmas/RoundedPlane bounds the errors of Plane.test_intersect and of flying to the point, Lemmas/RoundedPath carries the invariant OnPath through the loop |
| C100 | Props/RoundedPositions: C100_no_second_hit, C100_next_optic; from C99_on_mirror and the bound of plane_near |
| C101 | Props/BallMirrors: C101_opaque_partial by induction over the passes with the invariant that the ray is outside every ball and, near a ball, points away from it; C101_single_ball; C101_touched_behind and C101_double are counterexamples; the doubles are evaluated exactly, one rounding lemma per operation (Lemmas/Dyadic64, Lemmas/LeakyBall) |
| C102 | Props/GlassBall64: C102_twice_partial from C90_focus; C102_double by exact evaluation of every rounded operation (Lemmas/GlassBall64, 336 of them); C102_exact_focus |
| C103 | Spec/SnellLength: SnellExact; Lemmas/RoundedSnell, SnellClose; Props/RoundedRefraction: C103_snell, C103_exact, C103_direction, C103_chain |
| C104 | Spec/NearBall: BallAhead; Lemmas/RoundedSphere, NearBall, NearBallLeave, NearBallRun; Props/NearBalls: C104_one_reflection |
| C105 | Spec/NearGlass: ThroughGlass, GlassAhead; Lemmas/GlassSnell, GlassEnter, GlassInside, GlassCross, GlassLeave, GlassRun; Props/NearGlass: C105_two_refractions |
| C106 | Lemmas/RoundedAngle; Props/RoundedAngles: C106_unsigned, C106_nan, C106_signed |
| C107 | Spec/RoundedLens; Lemmas/RoundedThin, Lemmas/RoundedThinRun, Lemmas/ThinImage, Lemmas/ThinScene; Props/RoundedLenses: C107_focus, C107_image, C107_image_any, C107_first_pass, C107_one_lens |
| C108 | Model/Catalog, Spec/Catalog; Lemmas/Catalog, Lemmas/CatalogDraw; Props/Catalogs: C108_read, C108_long_row, C108_long_row_error, C108_repeated, C108_finishes, C108_one_sketch, C108_prefix, C108_errors, C108_empty_line, C108_layout, C108_colours |
| C109 | Lemmas/RoundedRotation; Props/RoundedRotations: C109_turn, C109_length, C109_axis, C109_compose, C109_back, C109_zero, C109_unit_test |
| C110 | Lemmas/RoundedGrating; Props/RoundedGratings: C110_direction, C110_groove, C110_equation_partial, C110_evanescent, C110_built, C110_do_intersect |
| C111 | Lemmas/RoundedAperture; Props/RoundedApertures: C111_builds, C111_refuses, C111_rectangle_hit, C111_rectangle_miss, C111_disc_hit, C111_disc_miss, C111_behind |
| C112 | Lemmas/RoundedGratingRun; Props/RoundedGratingRuns: C112_diffracted, C112_reflected, C112_scene, C112_script |
| C113 | Lemmas/RoundedAlign; Props/RoundedAlignment: C113_matrix, C113_turn, C113_opposite, C113_invisible |
| C114 | Model/Demos; Props/Demos: C114_transpose, C114_transforms, C114_transforms_rounded, C114_prints, C114_faithful, C114_tree_script, C114_ball_lens |
| C115 | Lemmas/Idempotent64, RoundedQuadratic, RoundedRoots, RoundedCylinder, CylinderGram, CylinderPass, CylinderFirst, CylinderNormal, CylinderScript; Spec/CylinderAhead; Props/RoundedCylinders: C115_hit, C115_point |
| C116 | Lemmas/CylinderLeave, CylinderGone, CylinderRun; Props/RoundedCylinderRuns: C116_one_reflection, C116_faerie_fire, C116_script |
| C117 | Model/Tables; Props/LogTables: C117_pieces, C117_points, C117_power_law, C117_inverse, C117_raises |
| C118 | Model/Tables, Spec/TextRows; Props/SpacedText: C118_rows, C118_read_back, C118_glued |
| C119 | Spec/RoundedImaging, Spec/SampleGrid; Lemmas/ImagingRun, ImagingLand, ImagingLegs, ImagingScript, ImageAxis64, ObjectRays64; Props/RoundedImaging: C119_recorded; Props/RoundedImagingScript: C119_bench, C119_script |
| C120 | Spec/RoundedTrain; Lemmas/AmongOptics, BeyondOptics, Refocus, RelayScene, RelayBench, RelayStep, RelayLegs, RelayEnd; Props/RoundedTrains: C120_train; Props/RoundedRelay: C120_bench, C120_script |
| C121 | Spec/RoundedCollimator; Lemmas/RoundedCollimator, RoundPassed, BenchLeg, TelescopeBench, TelescopeEnd; Props/RoundedCollimators: C121_collimate, C121_focus; Props/RoundedTelescope: C121_telescope |

Support: `Lemmas/Lift`, `SceneTree`, `SceneTest`, `SceneAct` transfer the functions from ℝ to XR; `SceneRun`,
`SceneTrace` and `NanRun` do the run loop (`NanRun` also follows rays whose direction a grating has turned into
`nan`); `MoveX`, `MoveRun` are the simulation of C69.

## 4. Trusted base

* Lean 4.33.0's kernel, and Mathlib's definitions (real numbers, `Real.sqrt`, `sin`, `arcsin`,
  `Complex.arg`, ...).
* Axioms: only `propext`, `Classical.choice`, `Quot.sound`. No `sorry`, no own axioms, no
  `native_decide`, no `bv_decide`.
* The reading of the Python source that produced the model. Nothing checks it mechanically;
  `Verif/Sanity.lean` evaluates the model at `Float` on the repository's own unit-test vectors.
