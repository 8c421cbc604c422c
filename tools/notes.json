{
 "C01": {
  "note": "Over the reals; the zero vector over XR (numpy nan)."
 },
 "C07": {
  "note": "Proper rotation for all nonzero vectors that are not antiparallel, and maps a to b in every case; for antiparallel vectors the matrix is -I, determinant -1 (counterexample theorem)."
 },
 "C08": {
  "note": "The docstring is false: the matrix maps v2 to v1 (counterexample and the true statement)."
 },
 "C70": {
  "note": "Array normal, as the optics call it. Side theorem: a string normal always raises."
 },
 "C13": {
  "note": "Iff-characterisation of the hit; a circle without a normal raises (C13_circle_no_normal)."
 },
 "C14": {
  "note": "Full for every nonzero height and width; side theorem: a zero width rectangle behaves as an infinite strip."
 },
 "C16": {
  "note": "Reported points are on the sphere and on the ray with the inward unit normal and, unless the line is tangent, ahead of the ray. Tangent lines report points behind the ray (counterexample)."
 },
 "C17": {
  "note": "Completeness proved in full; the converse (no false hit) holds except for tangent lines (C16_sphere_behind_counterexample)."
 },
 "C18": {
  "note": "Sphere: full, with the starting point not within 1e-12 of the surface. Cylinder: rays not parallel to the axis; for parallel rays numpy gives count 2 even from inside (counterexample)."
 },
 "C20": {
  "note": "Full for rays not parallel to the axis and not touching behind; both exceptions are proved as counterexamples."
 },
 "C25": {
  "note": "Union trees of any depth, rays starting outside all primitives in general position (not tangent, not parallel to a cylinder axis, not starting on or within 1e-12 of a surface). For two primitives and any start: exact characterisation of the starts for which the answer is right (C25_union_correct_iff)."
 },
 "C26": {
  "note": "Two primitives, any start, full correctness when no point of the ray is on both surfaces. False for ties (self-intersection) and for nested intersections: counterexamples."
 },
 "C27": {
  "note": "Exact characterisation of the configurations in which the difference node is right; counterexamples for the others (A only: ValueError; B in front; start inside A)."
 },
 "C28": {
  "note": "Without difference operators: never raises, any number type, any depth. With them: only the ValueError of line 613, and it does occur (counterexample). Ill-formed trees: the exceptions."
 },
 "C34": {
  "note": "Exact imaging proved for all rays except those nearly (within 2e-8) but not exactly parallel to the axis, and those within 1e-8 of the lens plane, where the code's tolerance branches make the exact claim false (C34_counterexample). C34_focal_plane bounds the error by 2e-8 f for every non-grazing ray."
 },
 "C37": {
  "note": "True for non-positive in-plane incidence angles; for positive angles the code's output satisfies the grating equation only if G m lambda = 0 (C37_other_side_iff), with a concrete counterexample."
 },
 "C40": {
  "note": "XR over all well-formed scenes: the finite path is at most max_distance long, and equal to it unless blocked, capped or lost at a grating that has no such diffraction order for the ray (numpy arcsin gives nan; C68_counterexample), after which at most one nan point follows."
 },
 "C48": {
  "note": "Any number type for the row's wavelength, order and detector (RunLoop); position equality over XR on well-formed scenes."
 },
 "C50": {
  "note": "Exact unit length through runs of any length over well-formed scenes, or nan in all components after a grating that has no such diffraction order for the ray (C50_unit_or_nan_partial; witness C68_counterexample)."
 },
 "C51": {
  "note": "All well-formed scenes, gratings without an order included: the ray lands where the optic reported, except when its line touches a sphere or cylinder behind it: then it lands at the mirrored distance ahead (C51_counterexample). Flat scenes: full (C51_lands_flat)."
 },
 "C68": {
  "note": "False only through gratings: C68_only_gratings_partial shows that nan comes from nothing but a grating met in an order it does not have, and describes that state exactly (C68_counterexample is such a run); finite otherwise, unconditionally without gratings or with rays of order 0."
 },
 "C53": {
  "note": "Every random stream (list of triples); the code passes over triples shorter than 1e-6, so N rays need N longer ones in the stream (C53_equation)."
 },
 "C54": {
  "note": "False: dmd_normal=None raises TypeError for every mirror. With a dmd_normal: exact conditions for each shape."
 },
 "C55": {
  "note": "All four shapes; the flat ones and the convex one with iff-characterisation of the hit, including lines that touch the sphere."
 },
 "C56": {
  "note": "One pass of run over a lone ball: landing point, Snell or total reflection about the radius with the right pair of indices; misses. With other optics in the list the indices can be wrong (C46_counterexample)."
 },
 "C46": {
  "note": "False with refracting lenses: run passes the side flag of the last-tested optic, not of the nearest one (C46_counterexample). Proved when there is no refracting lens in the list, or when the last tested optic stays last; in scenes without ties."
 },
 "C57": {
  "note": "The code looks 1e-8 along the ray to decide the side. Proved whenever no primitive's surface is met within that distance (or, weaker, the solid is not entered or left there); thinner solids are a counterexample."
 },
 "C60": {
  "note": "Over the reals; with NaN entries the first NaN wins (C60_nan)."
 },
 "C63": {
  "note": "deleteInSubDirectories=True: proved. Without it: proved unless a directory itself matches the extension; then os.remove raises and the rest is left (C63_directory_matches, C63_counterexample)."
 },
 "C66": {
  "note": "Length, every entry, means, constants and bounds away from the ends: proved. Bounds at the ends hold only if they enclose zero (C66_counterexample: 2/3 from a constant 1)."
 },
 "C61": {
  "note": "Exact arithmetic (the code computes tens with doubles); p >= 1; infinities raise OverflowError."
 },
 "C65": {
  "note": "pinv is a parameter satisfying the Penrose equations. Length: proved for signals longer than half the window; shorter ones get |3n-2-window|+1 entries (C65_short, C65_counterexample)."
 },
 "C67": {
  "note": "False as stated: UnboundLocalError for eta > 20 and other orders, TypeError with numpy >= 1.18. C67_returns_partial says exactly which calls return."
 },
 "C69": {
  "note": "Every well-formed scene, exceptions and rays lost at gratings included. Also all rigid motions when no lens of type \"ideal\" is present (C69_rigid); for those lenses rotation equivariance is false (C69_rotation_counterexample, component-wise allclose).",
  "status": "proved"
 },
 "C75": {
  "note": "The circle path is a parameter: its image is isometric, so the drawn curve is the circle of radius D/2. A concave mirror is drawn as its flat aperture."
 },
 "C77": {
  "note": "False: draw ignores the tangent. C77_*_partial give the exact condition on the tangent under which what is drawn is what is hit; C77_counterexample has, for every normal, a drawn corner no ray can hit."
 },
 "C80": {
  "note": "In numpy arithmetic (nan and infinities included) with exact rounding; ordinary flat mirrors of type \"normal\"."
 },
 "C81": {
  "note": "The surface is its tangent plane; nothing is said about curved surfaces, where the path is stationary but need not be minimal."
 },
 "C82": {
  "note": "In numpy arithmetic with exact rounding. CornerCase.lean runs a ray over three discs."
 },
 "C83": {
  "note": "In numpy arithmetic with exact rounding. The definition of a light path excludes legs of 1e-9 or less, grazing incidence and points shared by two mirrors, where the hit tests of the two directions differ."
 },
 "C84": {
  "note": "Over the reals (no rounding); on numpy versions that accept the float count. Between -2 and 1e5 the fitted polynomials of FD_int_approx are not compared with the integral.",
  "status": "proved"
 },
 "C85": {
  "note": "How str.format writes the two numbers of the line about gratings and two alerts of general_optics.py are not modelled. The angle in that line is interpreted on the side of incidence where the code obeys the grating equation (C37).",
  "status": "proved"
 },
 "C86": {
  "note": "In numpy arithmetic with exact rounding. Diverging lenses are excluded: the code sends their light back (C34/C35). Scripts.lean gives concrete scenes that meet all hypotheses."
 },
 "C87": {
  "note": "Scene and rays at exact rounding; printing and plotting of the scripts are left out."
 },
 "C88": {
  "note": "In numpy arithmetic with exact rounding, in a scene of the one mirror."
 },
 "C89": {
  "note": "numpy floats are the extended reals XR (exact rounding). Since the two runs agree, no division by zero of the real-number model matters under these hypotheses."
 },
 "C29": {
  "note": "Proved for compounds; that another optic containing the point does not count is C29_counterexample."
 },
 "C90": {
  "note": "In numpy arithmetic with exact rounding, in a scene of the one lens. script_testBallLens.py itself passes thinlens=False, which Lens does not take."
 },
 "C91": {
  "note": "C91_through is the general statement in space for one ray; C91_trace the exact trace of a ray parallel to the axis (the functions sgF etc. are written out in Lemmas/SingletAxis), C91_lensmaker the limit, C91_focal_length identifies the limit with the lensmaker's equation; C91_singlet_script and C91_bestform_script are the scenes of the scripts, built by their constructors. The faerie-fire rays of the scripts are not part of the claim."
 },
 "C92": {
  "note": "Partial because it fails for intersections: C92_same_chord_intersect_wrong shows that a ray whose chords of both spheres agree (it passes through the rim of the lens) is reported as a miss, and C92_intersect_script shows that exactly the probes with direction.y = 0 then fly through the solid. For differences the same tie is reported correctly (C92_same_chord_difference). C92_intersect_partial and C92_difference_partial assume NoTie."
 },
 "C93": {
  "note": "Printing and plotting are not modelled. Not covered: script_testBallLens.py passes a keyword that Lens does not have (a TypeError that the model cannot express), script_testBinaryTree.py and script_testMatrixTransforms.py run no rays."
 },
 "C94": {
  "note": "C94_followed and C94_detected, by induction over the route. The laws are stated in Spec/Routes.lean for Mathlib's Euclidean space. The lens law carries the condition that a direction within the tolerance of np.allclose of the axis is along the axis; gratings are covered for light that comes from the side for which the code's equation holds (see C37). Real-number arithmetic in XR, so numpy's infinities and nan are included, rounding is not. An example images the origin through a lens and a folding mirror onto a detector."
 },
 "C95": {
  "note": "At exact real arithmetic (XR on lifted scenes). The rays in the tolerance band around the axes (an angle of less than about 1e-7) are excluded: thin_lens treats them as parallel to the axis."
 },
 "C96": {
  "note": "At exact real arithmetic (XR on lifted scenes). The grating equation is the one of the code, which is right for incidence from this side (C37)."
 },
 "C97": {
  "note": "The positive theorem is for every rounding with the laws of Model/Rounded; binary64 is proved to be one. The counterexample is a theorem about binary64."
 },
 "C98": {
  "note": "Which mirrors are met is decided by the rounded positions; the theorem compares with the exact reflections in the mirrors that the rounded run meets. Positions are not compared."
 },
 "C99": {
  "note": "The theorem compares with the exact reflections in the mirrors that the rounded run meets; that an exact run would meet the same mirrors is not claimed (it is false for rays at the rim of a mirror)."
 },
 "C101": {
  "note": "False with doubles (C101_double), and with exact numbers in scenes of several balls if the line of the ray touches a ball behind it (C101_touched_behind). C101_opaque_partial covers all other runs with exact numbers, C101_single_ball all runs around one ball. C104 gives a region near the ball in which this cannot happen."
 },
 "C102": {
  "note": "False with doubles (C102_double). C102_twice_partial is the statement for exact numbers; C102_exact_focus says where the ray of the counterexample should cross the axis (by C90). C105 gives a region near the ball in which this cannot happen."
 },
 "C103": {
  "note": "C103_snell is one refraction, C103_direction its accuracy, C103_chain the drift, C103_exact what the formula does with exact numbers to directions of other lengths. That the square root is never of a negative number needs that rounding is monotone and represents 1."
 },
 "C104": {
  "note": "Positive companion of the counterexamples of C101. BallAhead states the geometry without the model's functions; the example beside the theorem is a ball of diameter 25 with doubles."
 },
 "C45": {
  "note": "The statement is proved with exact numbers (C45_nearest, C45_nearest_raised) and in numpy arithmetic without rounding (C45_nearest_numpy); that infinite and undefined distances never count is also proved for every rounding (C45_overflow_*_rounded, C45_nan_rounded)."
 },
 "C105": {
  "note": "Positive companion of C102: there doubles refract twice on entry when the ball is far. The constants are not sharp. With doubles and a ball of diameter 25 the conditions allow distances of a few centimetres."
 },
 "C106": {
  "note": "C106_nan is the counterexample with doubles. arccos and arctan2 count as correctly rounded."
 },
 "C107": {
  "note": "C107_first_pass shows that the hypotheses on the pass are met for every lens ahead. Needs |cos| at least 1/1000 and 1000 X at most f."
 },
 "C108": {
  "note": "float() of a string is a parameter. The text of the title, line styles and the pdf file are not modelled."
 },
 "C109": {
  "note": "Signed zeros are not distinguished by the model of rounded arithmetic."
 },
 "C110": {
  "note": "The grating equation is proved for incidence from the front on the side where the formula of the code is right; on the other side it is wrong even with exact numbers (C37_counterexample), so that part of the claim is partial. C110_direction and C110_groove hold for both sides. Between the two bounds on the sine (within 1000 nu of 1) nothing is claimed."
 },
 "C111": {
  "note": "Inside the rim nothing is claimed: there the result depends on the rounding."
 },
 "C112": {
  "note": "The code's grating equation is meant (see C37 and C110 for the side of incidence on which it is wrong)."
 },
 "C113": {
  "note": "The second half records a fault of the code, proved with doubles: an axis that is only nearly opposite to z makes the cylinder invisible, while with the exactly opposite axis the matrix is minus the identity and the cylinder works."
 },
 "C117": {
  "note": "scipy's InterpolatedUnivariateSpline with k=1 is modelled after its documentation; exact reals; the class of the exception for fewer than two points is not modelled"
 },
 "C118": {
  "note": "one-dimensional float arrays; numpy's _formatArray (1.14 and later) written out; the text of a single number is a parameter"
 },
 "C120": {
  "note": "C120_bench also gives a LensTrain of two lenses, a concrete case of the hypothesis of C120_train."
 },
 "C121": {
  "note": "C121_telescope also gives a pass through each lens of the script, concrete cases of the hypotheses of C121_collimate and C121_focus."
 }
}