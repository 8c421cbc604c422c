{"id": "C01", "title": "unit_vector normalises", "statement": "unit_vector(v) of a nonzero vector has length exactly 1, points the same way as v (is a positive multiple of it), does not depend on a positive rescaling of v, and applying it twice is the same as applying it once; for the zero vector the result is NaN in every component.", "quantifier": "every 3-vector, every positive scale factor", "why_tests_cant": "The claim ranges over a continuum of real inputs; a test samples finitely many of them.", "anchors": ["general_optics.py:unit_vector"]}
{"id": "C02", "title": "distance_between is the Euclidean metric", "statement": "distance_between is nonnegative, zero exactly for equal points, symmetric, satisfies the triangle inequality and is unchanged when both points are moved by the same rigid motion.", "quantifier": "every triple of points, every rigid motion", "why_tests_cant": "The claim ranges over a continuum of real inputs; a test samples finitely many of them.", "anchors": ["general_optics.py:distance_between"]}
{"id": "C03", "title": "project_onto_plane is the orthogonal projection", "statement": "project_onto_plane(x, n) for nonzero n is perpendicular to n, differs from x by a multiple of n, is the nearest point to x among all vectors perpendicular to n, is idempotent, and does not depend on the length or sign of n.", "quantifier": "every x, every nonzero n", "why_tests_cant": "The claim ranges over a continuum of real inputs; a test samples finitely many of them.", "anchors": ["general_optics.py:project_onto_plane"]}
{"id": "C04", "title": "unsigned angle_between", "statement": "angle_between(v1, v2) without normal lies in [0, pi], is symmetric, is independent of the vectors' lengths, satisfies v1.v2 = |v1||v2| cos(angle), and is 0 / pi / pi/2 exactly for parallel / antiparallel / perpendicular nonzero vectors.", "quantifier": "every pair of nonzero vectors", "why_tests_cant": "The claim ranges over a continuum of real inputs; a test samples finitely many of them.", "anchors": ["general_optics.py:angle_between"]}
{"id": "C05", "title": "signed angle_between", "statement": "For a unit vector k perpendicular to both nonzero arguments, angle_between(v1, v2, k) lies in (-pi, pi], its absolute value is the unsigned angle, and rotating v2's direction counterclockwise about k by that angle gives v1's direction.", "quantifier": "every pair of nonzero vectors and every unit normal to both", "why_tests_cant": "The claim ranges over a continuum of real inputs; a test samples finitely many of them.", "anchors": ["general_optics.py:angle_between", "general_optics.py:rotation_matrix_axis_angle"]}
{"id": "C06", "title": "rotation_matrix_axis_angle is the counterclockwise rotation", "statement": "For every nonzero axis and angle theta the matrix is a proper rotation (orthogonal, determinant +1), fixes the axis, obeys Rodrigues' formula with the right-hand rule, composes additively in theta, is inverted by -theta and is periodic in 2 pi.", "quantifier": "every nonzero axis, all angles", "why_tests_cant": "The claim ranges over a continuum of real inputs; a test samples finitely many of them.", "anchors": ["general_optics.py:rotation_matrix_axis_angle"]}
{"id": "C07", "title": "rotation_matrix2 aligns a with b", "statement": "rotation_matrix2(a, b) is a proper rotation that maps the direction of a to the direction of b, for all nonzero a and b.", "quantifier": "every pair of nonzero vectors", "why_tests_cant": "The claim ranges over a continuum of real inputs; a test samples finitely many of them. The antiparallel configuration has measure zero and no test hits it by accident.", "anchors": ["general_optics.py:rotation_matrix2"]}
{"id": "C08", "title": "rotation_matrix direction", "statement": "rotation_matrix(v1, v2) 'changes v1 into v2' (docstring).", "quantifier": "every pair of nonzero vectors", "why_tests_cant": "The claim ranges over a continuum of real inputs; a test samples finitely many of them.", "anchors": ["general_optics.py:rotation_matrix"]}
{"id": "C09", "title": "homogeneous matrices act as advertised", "statement": "translation_matrix4(t) sends the point p to p+t and leaves directions (w=0) alone; scaling_matrix4(s) scales each coordinate; rotation_matrix4(a,b) acts on points and directions like rotation_matrix2(a,b); translations compose additively and are inverted by the negated vector.", "quantifier": "every vector, point and direction", "why_tests_cant": "The claim ranges over a continuum of real inputs; a test samples finitely many of them.", "anchors": ["general_optics.py:translation_matrix4", "general_optics.py:scaling_matrix4", "general_optics.py:rotation_matrix4"]}
{"id": "C10", "title": "image_rays bundle", "statement": "image_rays returns origins and directions of equal length x_res*z_res*angle_res; every direction has length 1; every origin has y = y_center and |x|,|z| <= size/2, the bundle is symmetric about the axis; with pattern 'circle' each origin has exactly one wavelength, 680 inside the disc of diameter pattern_d and 450 outside; resolutions below 1 raise ValueError.", "quantifier": "every resolution triple, size, angle, pattern", "why_tests_cant": "The claim ranges over a continuum of real inputs; a test samples finitely many of them. All grid sizes are claimed at once.", "anchors": ["general_optics.py:image_rays"]}
{"id": "C11", "title": "size arguments are validated", "statement": "A shape given R and D accepts iff at least one is given and they agree to 1e-8, then the stored diameter is twice the radius (to that tolerance); a rectangle given h and w accepts iff both are given and nonnegative.", "quantifier": "every combination of given/missing values", "why_tests_cant": "The claim ranges over a continuum of real inputs; a test samples finitely many of them.", "anchors": ["Shapes/shapes.py:check_R_and_D", "Shapes/shapes.py:check_h_and_w"]}
{"id": "C12", "title": "Plane.test_intersect sound and complete", "statement": "A hit is reported iff the ray is not within 1e-9 (sine) of parallel to the plane and meets it further than 1e-9 ahead; the reported point is on the plane, on the ray, ahead of the ray's origin, and is the only point where the ray meets the plane; the reported normal is the unit plane normal.", "quantifier": "every plane and every ray with unit direction", "why_tests_cant": "The claim ranges over a continuum of real inputs; a test samples finitely many of them.", "anchors": ["Shapes/shapes.py:Plane.test_intersect"]}
{"id": "C13", "title": "Circle.test_intersect sound and complete", "statement": "A Circle with a normal reports a hit iff the ray hits its plane at a point closer than R to the centre, and then reports that point; a Circle built without a normal raises AttributeError.", "quantifier": "every circle, every ray with unit direction", "why_tests_cant": "The claim ranges over a continuum of real inputs; a test samples finitely many of them.", "anchors": ["Shapes/shapes.py:Circle.test_intersect"]}
{"id": "C14", "title": "Rectangle.test_intersect sound and complete", "statement": "A Rectangle of positive h and w reports a hit iff the ray hits its plane at a point whose offsets from the centre along tangent and tangent2 are at most h/2 and w/2 (boundary included).", "quantifier": "every rectangle, every ray with unit direction", "why_tests_cant": "The claim ranges over a continuum of real inputs; a test samples finitely many of them.", "anchors": ["Shapes/shapes.py:Rectangle.test_intersect", "Shapes/shapes.py:Rectangle.__init__"]}
{"id": "C15", "title": "Sphere.test_point", "statement": "Sphere.test_point(p) is True exactly for the points of the open ball of radius R about the centre.", "quantifier": "every sphere and point", "why_tests_cant": "The claim ranges over a continuum of real inputs; a test samples finitely many of them.", "anchors": ["Shapes/shapes.py:Sphere.test_point"]}
{"id": "C16", "title": "Sphere.test_intersect is sound", "statement": "Every point Sphere.test_intersect reports lies on the sphere, on the ray and ahead of its origin, with a unit normal pointing from that point to the centre.", "quantifier": "every sphere of nonzero radius, every ray with unit direction", "why_tests_cant": "The claim ranges over a continuum of real inputs; a test samples finitely many of them. The tangent-behind configuration has measure zero.", "anchors": ["Shapes/shapes.py:Sphere.test_intersect", "Shapes/shapes.py:Sphere.normal"]}
{"id": "C17", "title": "Sphere.test_intersect is complete", "statement": "Every point further than 1e-12 ahead where the ray meets the sphere is one of the points reported; no hit is reported when the ray meets it nowhere ahead.", "quantifier": "every sphere, every ray with unit direction", "why_tests_cant": "The claim ranges over a continuum of real inputs; a test samples finitely many of them.", "anchors": ["Shapes/shapes.py:Sphere.test_intersect"]}
{"id": "C18", "title": "intersection count parity tells inside from outside", "statement": "For a ray whose line is not tangent to the sphere (cylinder) and which does not start on it, the returned intersection_count is odd exactly if the ray starts inside.", "quantifier": "every sphere / infinite cylinder, every such ray", "why_tests_cant": "The claim ranges over a continuum of real inputs; a test samples finitely many of them.", "anchors": ["Shapes/shapes.py:Sphere.test_intersect", "Shapes/shapes.py:InfiniteCylinder.test_intersect"]}
{"id": "C19", "title": "InfiniteCylinder.test_point", "statement": "InfiniteCylinder.test_point(p) is True exactly if p is closer than |R| to the axis line; R = 0 raises ZeroDivisionError.", "quantifier": "every cylinder (any axis direction, including straight down) and point", "why_tests_cant": "The claim ranges over a continuum of real inputs; a test samples finitely many of them.", "anchors": ["Shapes/shapes.py:InfiniteCylinder.test_point"]}
{"id": "C20", "title": "InfiniteCylinder.test_intersect sound and complete", "statement": "For a ray not parallel to the axis, the reported points are exactly the points further than 1e-12 ahead where the ray meets the cylinder (near one first), with the unit normal perpendicular to the axis pointing inward; for a ray parallel to the axis the call reports no hit.", "quantifier": "every cylinder of nonzero radius, every ray with unit direction", "why_tests_cant": "The claim ranges over a continuum of real inputs; a test samples finitely many of them.", "anchors": ["Shapes/shapes.py:InfiniteCylinder.test_intersect", "Shapes/shapes.py:InfiniteCylinder.normal"]}
{"id": "C21", "title": "intersection commutes with rigid motion", "statement": "Moving a shape and a ray by the same translation (rotation) moves the reported intersection points the same way, turns the normals the same way, and changes neither hit/miss nor the count.", "quantifier": "every plane, circle, rectangle, sphere, cylinder; every ray; every translation/rotation", "why_tests_cant": "The claim ranges over a continuum of real inputs; a test samples finitely many of them.", "anchors": ["Shapes/shapes.py:*.test_intersect"]}
{"id": "C22", "title": "test_tree_point is set algebra", "statement": "For a tree of spheres and infinite cylinders joined by union/intersect/difference, test_tree_point(tree, p) is True exactly if p belongs to the set the tree denotes; it never raises.", "quantifier": "every tree of any depth, every point", "why_tests_cant": "Trees of unbounded depth over a continuum of points.", "anchors": ["general_optics.py:test_tree_point", "general_optics.py:operCsgIndexUnion", "general_optics.py:operCsgIndexIntersect", "general_optics.py:operCsgIndexDifference"]}
{"id": "C23", "title": "BinaryTree insertion", "statement": "insertLeft/insertRight put the new node directly below the receiver and push the old child below it on the same side; no node is lost or reordered, the other side is untouched; the tree has exactly one more node.", "quantifier": "every tree and sequence of insertions", "why_tests_cant": "All trees and insertion sequences.", "anchors": ["general_optics.py:BinaryTree"]}
{"id": "C24", "title": "postOrderEval prints a faithful expression", "statement": "For a well-formed operator tree with distinct-looking leaf labels, postOrderEval returns the fully parenthesised expression, and two different trees never print the same string.", "quantifier": "every pair of well-formed trees", "why_tests_cant": "Injectivity over all pairs of trees of any depth.", "anchors": ["general_optics.py:postOrderEval", "general_optics.py:printCsgUnion", "general_optics.py:printCsgIntersect", "general_optics.py:printCsgDifference"]}
{"id": "C25", "title": "CSG union: first surface hit", "statement": "For a ray starting outside both solids, the union of two primitives is hit iff one of them is, at the first point where the ray enters the union.", "quantifier": "every pair of spheres/cylinders, every non-tangent ray starting outside both", "why_tests_cant": "The claim ranges over a continuum of real inputs; a test samples finitely many of them.", "anchors": ["general_optics.py:operCsgUnion", "general_optics.py:test_tree_intersect"]}
{"id": "C26", "title": "CSG intersect: first surface hit", "statement": "For two primitives, the intersect node reports the first boundary point of the common region along the ray, and a miss iff the ray never meets it.", "quantifier": "every pair of primitives, every non-tangent ray", "why_tests_cant": "The claim ranges over a continuum of real inputs; a test samples finitely many of them. Ties between the two solids (coincident surfaces) have measure zero.", "anchors": ["general_optics.py:operCsgIntersect", "general_optics.py:test_tree_intersect"]}
{"id": "C27", "title": "CSG difference: first surface hit", "statement": "The difference node A-B reports the first boundary point of A minus B along the ray, and a miss iff the ray never meets it.", "quantifier": "every pair of primitives, every non-tangent ray", "why_tests_cant": "The claim ranges over a continuum of real inputs; a test samples finitely many of them.", "anchors": ["general_optics.py:operCsgDifference", "general_optics.py:test_tree_intersect"]}
{"id": "C28", "title": "test_tree_intersect never fails on well-formed trees", "statement": "test_tree_intersect returns a result (no exception) for every well-formed tree of spheres and cylinders of nonzero radius, and for ill-formed trees (unknown operator, flat shapes or finite cylinders as leaves) the exception is the documented one.", "quantifier": "every tree of any depth, every ray", "why_tests_cant": "Trees of unbounded depth.", "anchors": ["general_optics.py:test_tree_intersect"]}
{"id": "C29", "title": "get_index_at_point", "statement": "get_index_at_point returns the index of the first listed Compound whose solid contains the point, else 1.0; optics that contain the point but are not Compounds (e.g. a glass ball Lens) should count too.", "quantifier": "every list of optics, every point", "why_tests_cant": "Every list length and point.", "anchors": ["optics3d.py:get_index_at_point", "optics3d.py:Compound.get_index_at_point_if_inside", "optics3d.py:Optic.get_index_at_point_if_inside"]}
{"id": "C30", "title": "law of reflection", "statement": "Ray.reflect('specular_flat', n) leaves a unit direction whose component along n is reversed and whose component in the surface is unchanged; it is independent of the length and sign of n; reflecting twice restores the direction.", "quantifier": "every nonzero direction and normal", "why_tests_cant": "The claim ranges over a continuum of real inputs; a test samples finitely many of them.", "anchors": ["optics3d.py:Ray.reflect"]}
{"id": "C31", "title": "Snell's law", "statement": "Ray.refract('snells_law', n, eta1, eta2) below the critical angle gives a unit direction in the plane of incidence, on the far side of the surface, with eta1 sin(theta1) = eta2 sin(theta2); equal indices leave the ray undeflected; flipping n changes nothing; eta2 = 0 raises ZeroDivisionError.", "quantifier": "every unit direction, unit normal, positive indices", "why_tests_cant": "The claim ranges over a continuum of real inputs; a test samples finitely many of them.", "anchors": ["optics3d.py:Ray.refract"]}
{"id": "C32", "title": "total internal reflection", "statement": "The ray is totally reflected (law of reflection) exactly if (eta1/eta2) sin(theta1) > 1, and otherwise refracted; for positive indices the result is always a unit vector, never NaN.", "quantifier": "every unit direction, unit normal, positive indices", "why_tests_cant": "The claim ranges over a continuum of real inputs; a test samples finitely many of them.", "anchors": ["optics3d.py:Ray.refract", "optics3d.py:Ray.reflect"]}
{"id": "C33", "title": "refraction is reversible", "statement": "Refracting from eta1 to eta2 and sending the outgoing ray backwards from eta2 to eta1 gives the incoming ray reversed; likewise reflection.", "quantifier": "every unit direction, unit normal, positive indices below the critical angle", "why_tests_cant": "The claim ranges over a continuum of real inputs; a test samples finitely many of them.", "anchors": ["optics3d.py:Ray.refract"]}
{"id": "C34", "title": "ideal lens images points to points", "statement": "All rays from one object point at distance p != f in front of an ideal Lens of focal length f > 0, whatever point of the lens they hit, leave along lines through one common image point, at the distance q with 1/p + 1/q = 1/f and magnification -q/p.", "quantifier": "every object point, every lens pose, every f > 0, every pair of hit points", "why_tests_cant": "The claim ranges over a continuum of real inputs; a test samples finitely many of them. Stigmatic imaging is a statement about all pairs of rays.", "anchors": ["optics3d.py:Ray.refract"]}
{"id": "C35", "title": "ideal_collimate", "statement": "An ideal_collimate Lens sends every ray out along its axis on the side the ray was travelling to, with unit direction, from either side.", "quantifier": "every direction and lens normal", "why_tests_cant": "The claim ranges over a continuum of real inputs; a test samples finitely many of them.", "anchors": ["optics3d.py:Ray.refract"]}
{"id": "C36", "title": "ideal_focus", "statement": "An ideal_focus Lens with f > 0 sends every ray through its focal point, which is f behind the lens on the side the ray was travelling to; unit direction.", "quantifier": "every ray position/direction and lens", "why_tests_cant": "The claim ranges over a continuum of real inputs; a test samples finitely many of them.", "anchors": ["optics3d.py:Ray.refract"]}
{"id": "C37", "title": "grating equation", "statement": "For a ray in the dispersion plane hitting a Grating, sin(alpha)+sin(beta) = G m lambda holds between the incident and the outgoing in-plane angles, for either sign of the incidence angle.", "quantifier": "every in-plane incidence angle, order, wavelength, groove density for which the equation has a solution", "why_tests_cant": "The claim ranges over a continuum of real inputs; a test samples finitely many of them.", "anchors": ["optics3d.py:Ray.reflect", "optics3d.py:Grating.do_intersect"]}
{"id": "C38", "title": "grating output stays a ray", "statement": "A Grating hit in order 0 is specular reflection; otherwise the outgoing direction is a unit vector whose component along the groove tangent is that of the incident ray; when the grating equation has no solution the direction is NaN.", "quantifier": "every ray, grating", "why_tests_cant": "The claim ranges over a continuum of real inputs; a test samples finitely many of them.", "anchors": ["optics3d.py:Ray.reflect", "optics3d.py:Grating.do_intersect"]}
{"id": "C39", "title": "Ray.fly", "statement": "fly(d) moves the ray d along its direction, appends exactly the new position to point_history, leaves everything else alone; flying d then e ends where flying d+e ends; fly() without distance raises ValueError and changes nothing.", "quantifier": "every ray, all distances", "why_tests_cant": "The claim ranges over a continuum of real inputs; a test samples finitely many of them.", "anchors": ["optics3d.py:Ray.fly"]}
{"id": "C40", "title": "run respects its path-length budget", "statement": "A run(max_distance) call moves the ray a total path length of at most max_distance, and exactly max_distance unless it stopped early (blocked or max_interactions); the total is the sum of the segment lengths appended to point_history.", "quantifier": "every ray with unit direction, every scene, every budget >= 0, any number of interactions", "why_tests_cant": "Executions of unbounded length over every scene.", "anchors": ["optics3d.py:Ray.run", "optics3d.py:Ray.fly"]}
{"id": "C41", "title": "run terminates", "statement": "Ray.run returns (or raises) after finitely many loop passes, in fact after at most max_distance/1e-12 + 1, also in closed resonators and with max_interactions=inf.", "quantifier": "every ray, every finite scene, every budget", "why_tests_cant": "Termination for every scene is not a finite observation.", "anchors": ["optics3d.py:Ray.run"]}
{"id": "C42", "title": "interaction cap", "statement": "With max_interactions=m at most m optics act on the ray in one run; max_interactions <= 0 or max_distance <= 0 leaves the ray entirely unchanged.", "quantifier": "every scene, every m", "why_tests_cant": "Executions of unbounded length.", "anchors": ["optics3d.py:Ray.run"]}
{"id": "C43", "title": "point_history is the polyline of the ray", "statement": "run only appends to point_history; position always equals its last entry; each loop pass appends exactly one point, so a run with k interactions appends k or k+1 points.", "quantifier": "every scene, every execution prefix", "why_tests_cant": "Every reachable state of executions of any length.", "anchors": ["optics3d.py:Ray.run", "optics3d.py:Ray.fly"]}
{"id": "C44", "title": "a blocked ray is inert", "statement": "Running a blocked ray changes neither the ray nor any detector, and once a ray is blocked during a run it does not move again in this or any later run.", "quantifier": "every scene, every sequence of later runs", "why_tests_cant": "All later histories.", "anchors": ["optics3d.py:Ray.run"]}
{"id": "C45", "title": "the nearest optic acts", "statement": "In each loop pass the optic that acts is one whose reported intersection is nearest among those further than 1e-12 and within the remaining distance; among equally near ones the first in the list.", "quantifier": "every optic list, every state", "why_tests_cant": "All lists of optics of any length.", "anchors": ["optics3d.py:Ray.run"]}
{"id": "C46", "title": "the order of the optic list does not matter", "statement": "Permuting optic_list does not change the trace when no two optics are hit at exactly the same distance.", "quantifier": "every scene and permutation", "why_tests_cant": "All permutations of all scenes.", "anchors": ["optics3d.py:Ray.run"]}
{"id": "C47", "title": "annotations, filters and windows are transparent", "statement": "Removing every Annotation, Filter and Window from optic_list changes nothing observable in a run.", "quantifier": "every scene, every execution", "why_tests_cant": "All scenes and executions.", "anchors": ["optics3d.py:Ray.run"]}
{"id": "C48", "title": "Detector records exactly its hits", "statement": "A run appends to a detector's hit_data exactly one row [x,y,z,wavelength] if the ray ends on it and nothing otherwise; at most one row over all detectors per run; the ray is blocked afterwards and its position is the recorded point.", "quantifier": "every scene, every sequence of runs", "why_tests_cant": "All scenes and histories of runs.", "anchors": ["optics3d.py:Detector.do_intersect", "optics3d.py:Ray.run"]}
{"id": "C49", "title": "faerie-fire rays only probe", "statement": "A ray of type 'faerie_fire' stops, blocked, at the first optic it meets, never changes direction, and never writes to a detector.", "quantifier": "every scene", "why_tests_cant": "All scenes.", "anchors": ["optics3d.py:Ray.run"]}
{"id": "C50", "title": "direction stays a unit vector", "statement": "A ray built by Ray(...) with nonzero direction keeps a direction of length exactly 1 through any run over well-formed optics.", "quantifier": "every scene of well-formed optics, executions of any length", "why_tests_cant": "Invariant of executions of unbounded length.", "anchors": ["optics3d.py:Ray.run", "optics3d.py:Ray.reflect", "optics3d.py:Ray.refract"]}
{"id": "C51", "title": "the ray lands on the intersection point", "statement": "When an optic acts on the ray, the ray's position is the intersection point that optic reported (and which is handed to do_intersect and written to hit_data).", "quantifier": "every scene, every loop pass", "why_tests_cant": "The claim ranges over a continuum of real inputs; a test samples finitely many of them. The exception is a measure-zero tangent configuration.", "anchors": ["optics3d.py:Ray.run", "Shapes/shapes.py:Sphere.test_intersect"]}
{"id": "C52", "title": "free flight", "statement": "A ray that meets no optic within max_distance ends exactly max_distance further along its direction, with one new history point and unchanged direction.", "quantifier": "every scene the ray does not hit", "why_tests_cant": "The claim ranges over a continuum of real inputs; a test samples finitely many of them.", "anchors": ["optics3d.py:Ray.run"]}
{"id": "C53", "title": "faerie-fire generation", "statement": "add_faerie_fire_rays(L, R, c, N) appends exactly N rays, each starting on the sphere of radius |R| about c, pointing to the centre (R > 0), whatever the random generator returns; existing rays are untouched.", "quantifier": "every random stream, N, R, c", "why_tests_cant": "Every random stream.", "anchors": ["optics3d.py:add_faerie_fire_rays"]}
{"id": "C54", "title": "mirrors can be constructed with the defaults", "statement": "Mirror(position, shape, normal, D=...) with default type and dmd_normal constructs a mirror.", "quantifier": "every argument combination", "why_tests_cant": "All argument combinations.", "anchors": ["optics3d.py:Mirror.__init__"]}
{"id": "C55", "title": "mirrors reflect about the surface they were hit on", "statement": "A flat Mirror hit by a ray reflects it about its normal (dmd type: about the DMD normal); a spherical Mirror about the radius at the hit point.", "quantifier": "every mirror and ray", "why_tests_cant": "The claim ranges over a continuum of real inputs; a test samples finitely many of them.", "anchors": ["optics3d.py:Mirror.test_intersect", "optics3d.py:Mirror.do_intersect"]}
{"id": "C56", "title": "a glass ball refracts on entry and exit", "statement": "A spherical Lens of index n>=1 in isolation refracts a ray entering it with (1,n) and leaving it with (n,1) by Snell's law about the local radius.", "quantifier": "every ball, every non-tangent ray", "why_tests_cant": "The claim ranges over a continuum of real inputs; a test samples finitely many of them.", "anchors": ["optics3d.py:Lens.test_intersect", "optics3d.py:Lens.do_intersect"]}
{"id": "C57", "title": "a Compound refracts with the right indices", "statement": "A refracting Compound uses (1, n) when the ray goes into its solid at the hit point and (n, 1) when it leaves.", "quantifier": "every solid, every transversal hit", "why_tests_cant": "The claim ranges over a continuum of real inputs; a test samples finitely many of them.", "anchors": ["optics3d.py:Compound.do_intersect", "optics3d.py:Compound.get_index_at_point_if_inside"]}
{"id": "C58", "title": "wavelength_to_rgb returns a colour", "statement": "For default limits and every gamma > 0 every component is in [0,1]; wavelengths outside [380,750] give the colour of the nearer limit; the colour is a continuous function of the wavelength.", "quantifier": "every wavelength, every gamma > 0", "why_tests_cant": "The claim ranges over a continuum of real inputs; a test samples finitely many of them.", "anchors": ["general.py:wavelength_to_rgb"]}
{"id": "C59", "title": "energy and wavelength conversion are inverse", "statement": "energy_eV_to_wavelength_nm and wavelength_nm_to_energy_eV are mutually inverse on nonzero numbers, order reversing on positive ones, and their product with the argument is constant.", "quantifier": "all nonzero reals", "why_tests_cant": "The claim ranges over a continuum of real inputs; a test samples finitely many of them.", "anchors": ["general.py:wavelength_nm_to_energy_eV", "general.py:energy_eV_to_wavelength_nm"]}
{"id": "C60", "title": "find_nearest", "statement": "find_nearest(a, v) returns the first index whose element is at minimal distance from v, and that element; an empty array raises.", "quantifier": "every array and value", "why_tests_cant": "Arrays of any length.", "anchors": ["general.py:find_nearest"]}
{"id": "C61", "title": "to_precision rounds to p digits", "statement": "to_precision(x, p) of a finite x is the decimal string of a number with p significant digits that is within half a unit in the last place of x.", "quantifier": "every finite x, every p >= 1", "why_tests_cant": "The claim ranges over a continuum of real inputs; a test samples finitely many of them.", "anchors": ["general.py:to_precision"]}
{"id": "C62", "title": "set_axes_equal makes a cube", "statement": "After set_axes_equal the three axis ranges have equal length and the same midpoints as before, contain the old ranges, and are the smallest such.", "quantifier": "all axis limits", "why_tests_cant": "The claim ranges over a continuum of real inputs; a test samples finitely many of them.", "anchors": ["general.py:set_axes_equal", "general.py:set_axes_radius"]}
{"id": "C63", "title": "delete_files_with_extension deletes exactly the matching files", "statement": "After the call exactly the files whose names end with the extension are gone: directly in the folder, or (deleteInSubDirectories=True) anywhere below it; nothing else is touched.", "quantifier": "every directory tree, every extension, both modes", "why_tests_cant": "All directory trees.", "anchors": ["general.py:delete_files_with_extension"]}
{"id": "C64", "title": "prism10widetextarray layout", "statement": "The text has one line per started group of ten values, each line indented, every value appears in order in the given format, no trailing padding on full lines.", "quantifier": "every array length and padding", "why_tests_cant": "Arrays of any length.", "anchors": ["general.py:prism10widetextarray"]}
{"id": "C65", "title": "savitzky_golay reproduces polynomials", "statement": "The smoothed signal has the length of the input, and wherever the window does not touch the padded ends a polynomial signal of degree <= order is returned unchanged (deriv=0).", "quantifier": "every polynomial signal, window, order", "why_tests_cant": "The claim ranges over a continuum of real inputs; a test samples finitely many of them. All signals, windows and orders.", "anchors": ["general.py:savitzky_golay"]}
{"id": "C66", "title": "movingAverageFast", "statement": "The result has max(len(x),N) entries; away from the ends each is the mean of N consecutive samples; constants are preserved there; bounds are preserved.", "quantifier": "every signal and N", "why_tests_cant": "Signals of any length.", "anchors": ["general.py:movingAverageFast"]}
{"id": "C67", "title": "FD_int_num total on its documented domain", "statement": "FD_int_num returns a (y, N, err) triple for every eta and order j > -1.", "quantifier": "every eta and j", "why_tests_cant": "Every real eta and j.", "anchors": ["general.py:FD_int_num"]}
{"id": "C68", "title": "no NaN from finite well-formed input", "statement": "Tracing a ray with finite data through well-formed optics never produces NaN or infinity in position, direction or hit_data.", "quantifier": "every finite scene of well-formed optics", "why_tests_cant": "The claim ranges over a continuum of real inputs; a test samples finitely many of them. NaN appears only in measure-zero configurations.", "anchors": ["optics3d.py:Ray.run", "Shapes/shapes.py:InfiniteCylinder.test_intersect"]}
{"id": "C69", "title": "tracing commutes with translation", "statement": "Translating the whole scene and the ray translates the whole trace and leaves directions unchanged.", "quantifier": "every scene, every translation, executions of any length", "why_tests_cant": "All scenes, executions of unbounded length.", "anchors": ["optics3d.py:Ray.run"]}
{"id": "C70", "title": "drawn patches lie where the optic is", "statement": "pathpatch_2d_to_3d with an array normal followed by pathpatch_translate draws a 2D patch congruently in the plane through the optic's position perpendicular to its normal.", "quantifier": "every patch, normal, position", "why_tests_cant": "The claim ranges over a continuum of real inputs; a test samples finitely many of them.", "anchors": ["general_optics.py:pathpatch_2d_to_3d", "general_optics.py:pathpatch_translate", "general_optics.py:rotation_matrix"]}
{"id": "C71", "title": "well-formed scenes raise no exception", "statement": "Ray.run over well-formed optics whose compounds use no CSG difference finishes without an exception; over well-formed optics in general the only exceptions are those of a Compound's test_intersect, with the ray left as it was before that pass.", "quantifier": "every scene of well-formed optics, every ray with finite data and unit direction, executions of any length", "why_tests_cant": "All scenes, executions of unbounded length.", "anchors": ["optics3d.py:Ray.run", "optics3d.py:Compound.test_intersect"]}
{"id": "C72", "title": "a ray that enters a glass ball leaves it", "statement": "A ray that enters a spherical Lens of index >= 1 from outside is refracted in, is refracted out at its next point on the surface (never totally reflected) and leaves at the angle to the radius at which it came in.", "quantifier": "every ball, index >= 1 and non-tangent ray whose chord is longer than the clipping floor and within the remaining distance", "why_tests_cant": "The claim ranges over a continuum of real inputs; a test samples finitely many of them.", "anchors": ["optics3d.py:Lens.test_intersect", "optics3d.py:Lens.do_intersect", "optics3d.py:Ray.run"]}
{"id": "C73", "title": "Sackur-Tetrode entropy", "statement": "get_nQ is the inverse cube of the thermal de Broglie wavelength h / sqrt(2 pi m kT); the entropy of sackurTetrode is additive in the volume at fixed density, grows by N kB ln 2 when the volume of the same N particles doubles, by 3/2 N kB ln 2 when the temperature doubles, is positive exactly below the density e^(5/2) nQ, and mixing two halves of the same gas adds no entropy.", "quantifier": "every positive density, mass, volume and temperature", "why_tests_cant": "The claim ranges over a continuum of real inputs; a test samples finitely many of them.", "anchors": ["general.py:get_nQ", "general.py:sackurTetrode"]}
{"id": "C74", "title": "FD_int_approx total and positive", "statement": "FD_int_approx returns a one-tuple for every eta and j: NaN exactly when j != 1/2, else a positive number; below -2 it is at most the nondegenerate limit sqrt(pi)/2 e^eta, above 10 at least the degenerate limit 2/3 eta^(3/2), and the two polynomials that meet at eta = 0 agree there.", "quantifier": "every real eta and j", "why_tests_cant": "The claim ranges over a continuum of real inputs; a test samples finitely many of them.", "anchors": ["general.py:FD_int_approx"]}
{"id": "C75", "title": "discs are drawn where they are hit", "statement": "In a 3D view a flat circular Mirror and a biconvex Lens draw one circle patch: the 2D circle of radius D/2 carried isometrically into the plane of the optic with its centre at the position, and the points at which some ray can hit the optic are exactly the points inside the drawn circle. A concave Mirror draws its aperture: it is hit only by rays that cross the drawn circle.", "quantifier": "every position, nonzero normal, diameter and 2D circle path", "why_tests_cant": "The claim ranges over a continuum of real inputs; a test samples finitely many of them.", "anchors": ["optics3d.py:Mirror.draw", "optics3d.py:Lens.draw", "general_optics.py:pathpatch_2d_to_3d"]}
{"id": "C76", "title": "balls are drawn where they are hit", "statement": "In a 3D view a convex Mirror and a spherical Lens draw a 50x50 grid of points of the sphere of diameter D about the position, from pole to pole and all the way round; the points at which some ray can hit the optic are exactly the points of that sphere, in particular every drawn point can be hit.", "quantifier": "every position and positive diameter", "why_tests_cant": "The claim ranges over a continuum of real inputs; a test samples finitely many of them.", "anchors": ["optics3d.py:Mirror.draw", "optics3d.py:Lens.draw", "optics3d.py:Mirror.test_intersect", "optics3d.py:Lens.test_intersect"]}
{"id": "C77", "title": "rectangular mirrors and gratings are drawn where they are hit", "statement": "In a 3D view a rectangular Mirror or Grating draws the rectangle whose points are exactly those at which some ray can hit it.", "quantifier": "every position, nonzero normal, perpendicular tangent and positive sides", "why_tests_cant": "The claim ranges over a continuum of real inputs; a test samples finitely many of them.", "anchors": ["optics3d.py:Mirror.draw", "optics3d.py:Grating.draw", "Shapes/shapes.py:Rectangle.test_intersect"]}
{"id": "C78", "title": "detectors are drawn where they are hit", "statement": "In a 3D view a Detector draws one polygon, and the points at which some ray can hit the detector are exactly the points of that polygon (the convex hull of its four corners).", "quantifier": "every position, nonzero normal, perpendicular tangent and positive sides", "why_tests_cant": "The claim ranges over a continuum of real inputs; a test samples finitely many of them.", "anchors": ["optics3d.py:Detector.draw", "Shapes/shapes.py:Rectangle.test_intersect"]}
{"id": "C79", "title": "drawing has no effect on the optics", "statement": "Drawing an optic, in any view, leaves the optic as it was, although rotation_matrix divides the normal array in place; drawing in a 3D view never raises for a well-formed optic; in the 2D views only flat circular mirrors draw anything, other mirrors raise ValueError, and in any other view nothing is drawn.", "quantifier": "every well-formed optic, view string and circle path", "why_tests_cant": "The claim ranges over a continuum of real inputs; a test samples finitely many of them.", "anchors": ["optics3d.py:Mirror.draw", "optics3d.py:Lens.draw", "optics3d.py:Grating.draw", "optics3d.py:Detector.draw", "general_optics.py:rotation_matrix"]}
{"id": "C80", "title": "paths over plane mirrors unfold to straight lines", "statement": "In a scene of plane mirrors, whatever a run does, it has followed a straight line folded at the mirrors: each new point of the history lies on the plane of a mirror of the scene and is the composed mirror image, in the planes met before, of the point the free ray would have reached after the same path length; a run that uses up its distance ends at the image of the free ray's end point.", "quantifier": "every list of flat mirrors (discs or rectangles), ray of unit direction, max_distance, max_interactions and number of passes", "why_tests_cant": "The claim ranges over a continuum of real inputs and over runs of any length; a test samples finitely many of them.", "anchors": ["optics3d.py:Ray.run", "optics3d.py:Mirror.test_intersect", "optics3d.py:Mirror.do_intersect", "optics3d.py:Ray.reflect"]}
{"id": "C81", "title": "Fermat's principle", "statement": "The point where a ray is reflected or (below the critical angle) refracted minimises the optical length among all broken lines over the surface plane between a point of the incoming ray and a point of the outgoing ray; it is the only minimum unless the ray runs along the surface.", "quantifier": "every unit direction, normal, pair of positive indices, pair of end points on the rays and competing point of the plane", "why_tests_cant": "The claim ranges over a continuum of real inputs and over runs of any length; a test samples finitely many of them.", "anchors": ["optics3d.py:Ray.reflect", "optics3d.py:Ray.refract"]}
{"id": "C82", "title": "mirrors at right angles: each is met at most once, and a corner is a retroreflector", "statement": "Over plane mirrors at right angles to each other a run meets no plane twice and at most three mirrors in all; after three mirrors whose planes meet in K the ray's line is the point reflection in K of the incoming line, so it returns in the direction it came from.", "quantifier": "every scene of mutually perpendicular flat mirrors, ray of unit direction, max_distance, max_interactions and number of passes", "why_tests_cant": "The claim ranges over a continuum of real inputs and over runs of any length; a test samples finitely many of them.", "anchors": ["optics3d.py:Ray.run", "optics3d.py:Mirror.test_intersect", "optics3d.py:Mirror.do_intersect"]}
{"id": "C83", "title": "light paths are followed and are reversible", "statement": "If a polyline obeys the law of reflection at mirrors of the scene and touches no mirror elsewhere, a ray started along it follows it: run returns with exactly its vertices in the history, one interaction per mirror; and a ray sent back from its end retraces the same points in the opposite order, ending at the start with the opposite direction.", "quantifier": "every scene of flat mirrors, every light path in it of any number of vertices (legs longer than 1e-9, not at grazing incidence)", "why_tests_cant": "The claim ranges over a continuum of real inputs and over runs of any length; a test samples finitely many of them.", "anchors": ["optics3d.py:Ray.run", "optics3d.py:Mirror.test_intersect", "optics3d.py:Mirror.do_intersect"]}
{"id": "C84", "title": "Fermi-Dirac helpers approximate the Fermi-Dirac integral", "statement": "FD_int_num(..., fType='script') approximates Blakemore's Fermi-Dirac integral F_j(eta): for eta < -20 and j > -1 it exceeds it by at most the fraction e^eta/2^(j+1); for eta > 20 and the orders -1/2, 1/2, 3/2 its relative error tends to 0 as eta grows; for -20 <= eta <= 20 and -1/2 <= j <= 3/2 its error is at most C/N^2 + 1e-15 with N the number of intervals returned, in spite of np.trapz being called with its arguments exchanged. FD_int_approx approximates Gamma(3/2) F_1/2: below -2 within the next term of the series, and with vanishing relative error as eta grows.", "quantifier": "every real eta and j in the stated ranges, every tolerance and iteration limit", "why_tests_cant": "Compares a numeric routine with an improper integral for a continuum of arguments and every number of iterations.", "anchors": ["general.py:FD_int_num", "general.py:FD_int_approx"]}
{"id": "C85", "title": "Printing a trajectory changes nothing else", "statement": "With print_trajectory=True a run ends the same way, in the same state and with the same rows in the detectors as with False, for every scene of finite numbers and unit direction; for arbitrary numpy numbers it does so or repr meets an infinite component and an OverflowError leaves run (run(np.inf) without optics: normal end without printing, OverflowError with it). A finished run prints 'run begin' first, 'run complete' last, one 'intersected' per interaction, one message per new point of the history, and rays at exactly those points in that order, each once, and again after an optic that refracts; a grating in an order other than zero prints the angle it turns the light by (nan without such an order). repr of a ray is the six components to five significant digits. repr raises AttributeError for Block, Annotation, Filter, Window and convex mirrors, TypeError for lenses without a normal.", "quantifier": "every ray, list of optics, distance, cap and number of passes; every constructor argument", "why_tests_cant": "Relates two executions of an unbounded loop over arbitrary scenes, including nan and infinite values.", "anchors": ["optics3d.py:Ray.__init__", "optics3d.py:Ray.__repr__", "optics3d.py:Ray.fly", "optics3d.py:Ray.refract", "optics3d.py:Ray.reflect", "optics3d.py:Ray.run", "optics3d.py:Mirror.__repr__", "optics3d.py:Lens.__repr__", "optics3d.py:Optic.__repr__"]}
{"id": "C86", "title": "Ideal lenses on an axis follow matrix optics", "statement": "For every list of coaxial ideal lenses (converging, in any list order) and a detector across the axis: a ray that crosses the lenses within their apertures and then the area of the detector gives exactly one record, at the point that the rules of thin lenses predict (where a slope within the code's tolerance counts as zero), with a history of the crossing points in order of height; a ray that misses the detector or does not reach it leaves no record and ends on the line behind the last lens after exactly the distance left. The predicted point is the one of the ray-transfer matrix, exactly for rays that meet every lens clearly inclined or exactly axial, and within 2e-8 times the sensitivity of the system for all. Hence all rays of an object point are recorded in one image point if the detector is in the conjugate plane; a single lens obeys 1/p+1/p'=1/f with magnification -p'/p, a relay multiplies the two.", "quantifier": "every bench, number and order of lenses, focal lengths, apertures, detector, ray and distance", "why_tests_cant": "Unbounded number of optics and passes of the loop, and a continuum of rays.", "anchors": ["optics3d.py:Ray.run", "optics3d.py:Ray.refract", "optics3d.py:Lens.do_intersect", "optics3d.py:Detector.do_intersect"]}
{"id": "C87", "title": "The imaging examples form their images", "statement": "script_testImaging.py and script_testIdealRelay.py run without an exception for every resolution of the object, and every ray of the bundle is recorded once with its wavelength, within 1e-6 of the inverted (imaging) or upright (relay) image of its origin at unit magnification; exactly there with the resolution the scripts use.", "quantifier": "every resolution of image_rays and every ray of the bundle", "why_tests_cant": "Every resolution; the image is compared exactly with the object.", "anchors": ["script_testImaging.py", "script_testIdealRelay.py", "general_optics.py:image_rays", "optics3d.py:Ray.run"]}
{"id": "C88", "title": "Spherical mirrors focus parallel light, with their spherical aberration", "statement": "A ray parallel to the axis of a concave mirror of focal length f, at the offset a within the aperture (|a|^2 < 2 f^2), is reflected exactly once, at the point of the sphere of radius 2f in front of the aperture, and leaves along a line that crosses the axis at 2f - 2f^2/sqrt(4f^2-a^2) above the vertex; it misses the focal point by at least a^2/(8f), and for |a| <= f by at most a^2/(6f). A ray on a line through the centre of curvature comes back along it. A ray on a ball mirror is reflected exactly once, away from the point R^2/(2 sqrt(R^2-a^2)) before the centre. Each run returns normally, records nothing, and ends after exactly the distance allowed.", "quantifier": "every mirror position, orientation, aperture and focal length or radius, every offset, start and distance", "why_tests_cant": "A continuum of mirrors and rays; the aberration is exact, and that no second hit occurs is a statement about all later passes.", "anchors": ["optics3d.py:Mirror.__init__", "optics3d.py:Mirror.test_intersect", "optics3d.py:Mirror.do_intersect", "optics3d.py:Ray.run", "Shapes/shapes.py:Sphere.test_intersect"]}
{"id": "C89", "title": "With finite numbers numpy computes what real numbers would", "statement": "Building a ray, mirror, lens, grating or detector from finite numbers and nonzero vectors gives in numpy floats (exact rounding, with nan, infinities and silent division by zero) what it gives in real numbers, exceptions included. So does a whole run of a well-formed scene: same outcome or exception, same final state, same detector record, as long as at no pass the ray runs along a cylinder or meets a grating that lacks its order. Scenes without cylinders and gratings, and rays of order 0 in scenes without cylinders, need no such condition; with the grating condition dropped the claim fails, and a zero direction makes a nan ray.", "quantifier": "every well-formed scene, unit direction, distance, interaction limit and number of passes; every constructor argument", "why_tests_cant": "It relates two semantics of the same program over all scenes and all numbers of passes; no run of the program exhibits the real-number side.", "anchors": ["optics3d.py:Ray.run", "optics3d.py:Ray.__init__", "optics3d.py:Mirror.__init__", "optics3d.py:Lens.__init__", "optics3d.py:Grating.__init__", "optics3d.py:Detector.__init__"]}
{"id": "C90", "title": "A ball lens focuses parallel light", "statement": "A ray parallel to an axis through the centre of a glass ball of index n > 1 and radius R, at a distance N < R from it, is refracted exactly twice, by Snell's law about the radii at the two points, and leaves along a line that crosses the axis N / sin(2(θ1 - θ2)) behind the centre (sin θ1 = N/R, n sin θ2 = N/R). As N tends to 0 this tends to nR/(2(n-1)); for n up to 9/5 every other ray crosses nearer than that. The run returns normally, records nothing, and ends after exactly the distance allowed.", "quantifier": "every ball, index, offset, direction, start outside the ball and distance that reaches behind it, with a chord above the clipping floor of 1e-12", "why_tests_cant": "A continuum of rays and balls; the focus is exact and the aberration inequality holds for all of them.", "anchors": ["optics3d.py:Lens.__init__", "optics3d.py:Lens.test_intersect", "optics3d.py:Lens.do_intersect", "optics3d.py:Ray.run", "Shapes/shapes.py:Sphere.test_intersect", "script_testBallLens.py"]}
{"id": "C91", "title": "A singlet lens focuses parallel light by the lensmaker's equation", "statement": "A Compound that is the refracting intersection of two spheres (in either order) behaves as a lens. A ray that meets the one sphere inside the other, where the glass is thicker than 1e-8, and reaches the other sphere inside the first without total reflection, is refracted by Snell's law at exactly these two points and flies on. For a biconvex lens of radii R and S, thickness T and index n > 1, rays parallel to the axis and close enough to it cross the axis as close as wanted to the point S(nR-(n-1)T)/((n-1)(n(R+S)-(n-1)T)) behind the back vertex, which is the back focal distance of the lensmaker's equation. The lenses of script_testSingletLens.py and script_testBestformLens.py pass every ray of these scripts in exactly two refractions, and the rays cross the axis between 95 and 101 mm, and between 94 and 100 mm, behind the lens.", "quantifier": "All lenses made of two overlapping spheres, all unit axes, indices above 1, thicknesses between 1e-8 and both diameters, all rays; numpy arithmetic without rounding. The two scripts: all 21 rays of each.", "why_tests_cant": "The focus is a limit over all rays near the axis and all lenses; a test sees finitely many rays of one lens.", "anchors": ["optics3d.py:84-142", "optics3d.py:822-895", "general_optics.py:308-320", "general_optics.py:379-577", "Shapes/shapes.py:278-356", "script_testSingletLens.py", "script_testBestformLens.py"]}
{"id": "C92", "title": "Faerie fire draws the solid that a compound describes", "statement": "A faerie-fire ray run against one Compound stops, blocked and without an exception, at the first point where it crosses the boundary of the solid that the tree denotes, and flies the whole distance if it crosses none. For the intersection and the difference of two spheres probed from outside through a point of both spheres this holds unless the ray enters both spheres at the same point. For a lens with equal radii probed through its middle it holds exactly if the ray is not perpendicular to the axis. For the scenes of script_testCompoundIntersect.py, script_testCompoundDifference.py and script_testSingletLens.py it holds for every stream of random numbers, for every probe that is not exactly perpendicular to the axis; for script_testBestformLens.py for every probe that does not meet the rim and does not start on a surface.", "quantifier": "All compounds whose tree reports correctly on the ray, all unit directions; all pairs of spheres; for the scripts all random streams and all numbers of probes; numpy arithmetic without rounding.", "why_tests_cant": "The probes are random, so that a test sees one finite sample of directions; the directions that fail have probability zero.", "anchors": ["optics3d.py:26-40", "optics3d.py:84-142", "optics3d.py:822-895", "general_optics.py:308-320", "general_optics.py:481-624", "script_testCompoundIntersect.py", "script_testCompoundDifference.py", "script_testSingletLens.py", "script_testBestformLens.py"]}
{"id": "C93", "title": "Twelve example scripts run to their end; seven fail while building the scene", "statement": "script_testCompound, -CompoundIntersect, -CompoundDifference, -SingletLens, -BestformLens, -Cylinder, -Thinlens, -IdealLenses, -Imaging, -IdealRelay, -RectangleGrating and -DMD build their scenes and their rays without an exception, and every ray they run, including every faerie-fire ray for every stream of random numbers, comes to its end without an exception. The seven scripts that make a Mirror without a dmd_normal (script_test, -ShortRun, -ConvexSphereMirror, -ConcaveMirror, -RectangleMirror, -ProjectOntoPlane, script_czerny1) raise a TypeError while building the scene. script_testSingletLens and script_testBestformLens print index 1 at the origin and 1.5167 inside the lens.", "quantifier": "All nineteen scripts, all streams of random numbers; numpy arithmetic without rounding for the runs, any arithmetic for the seven failures.", "why_tests_cant": "A run of a script sees one stream of random numbers out of infinitely many; that no stream makes a probe raise (the difference operator can raise a ValueError) is a statement about all of them.", "anchors": ["script_testCompound.py", "script_testCompoundIntersect.py", "script_testCompoundDifference.py", "script_testSingletLens.py", "script_testBestformLens.py", "script_testCylinder.py", "script_testThinlens.py", "script_testIdealLenses.py", "script_testImaging.py", "script_testIdealRelay.py", "script_testRectangleGrating.py", "script_testDMD.py", "optics3d.py:145-182", "optics3d.py:822-895"]}
{"id": "C94", "title": "Rays follow every route that mirrors, micromirror arrays, lenses, gratings and detectors offer", "statement": "Take any scene of flat mirrors (plain or micromirror arrays), ideal lenses (thin, collimating, focusing), gratings and detectors, and any route through it: a polyline whose inner corners lie on optics of the scene, touches no optic elsewhere, and turns at each corner by the law of the optic there (reflection, the thin-lens slope law, collimation, focusing, or the grating equation for the ray's wavelength and order). A ray sent along the first leg follows the route: if it ends in free space and max_distance is its length, run returns with exactly the corners appended to the history and one interaction per corner; if it ends on a detector, then for every max_distance at least its length run returns with the ray blocked there and the detector has recorded that point and wavelength, once.", "quantifier": "for all scenes of any number of flat optics, all routes of any length, all wavelengths and orders", "why_tests_cant": "The repository has no test of a scene with more than one kind of optic; any test fixes one scene, while this covers all arrangements of all kinds and routes of every length.", "anchors": ["optics3d.py:822-895", "optics3d.py:145-323", "optics3d.py:324-470", "optics3d.py:471-538", "optics3d.py:539-595"]}
{"id": "C95", "title": "The micromirror script images its object sharply onto the tilted detector", "statement": "In the scene of script_testDMD.py (lens of focal length 50 at y = 100, micromirror array of facets tilted by 10.9 degrees at y = 200, lens of focal length 25 tilted by 21.8 degrees, detector tilted by 43.6 degrees) every ray that starts at a point (x, 0, z) with |x|, |z| <= 2.5 towards a point of the first lens within 6.25 of it, and that either is along the axis of a lens or leaves it by more than the tolerance of the ideal lens, is run to completion with max_distance 400, is recorded exactly once, by the detector, at one point that depends on (x, z) only: the centre of the detector plus m*x along the 43.6 degree direction plus m*z along z, with the magnification m = 25/(25 + x*sin 21.8). All 75 rays of the script are such rays. Different object points have different images.", "quantifier": "all object points with |x|, |z| <= 2.5, all rays from them into the aperture outside the tolerance band of the ideal lens, all wavelengths, all loop bounds of at least 5 steps; all 75 rays of the script", "why_tests_cant": "The script only plots the rays. A test would compare 75 floating-point hits with a tolerance; that the image is sharp for every point of the aperture, where the place-dependent magnification and the tilt of the image plane come from, and that no optic is met out of turn for any of these rays is a statement about a continuum.", "anchors": ["script_testDMD.py:17-99", "optics3d.py:145-323", "optics3d.py:324-470", "optics3d.py:539-595", "optics3d.py:822-895"]}
{"id": "C96", "title": "The thin-lens, telescope and grating scripts show what they are meant to show", "statement": "script_testThinlens.py: a ray parallel to the axis that meets the lens anywhere within its radius goes from there towards the focal point (0, 150, 0), and the nine rays of the script are 100 mm along on that way when their 150 mm are used up. script_testIdealLenses.py: a ray from any point of a 10 mm object to a point (p, q) of the collimating lens with |p|, |q| <= 8 goes parallel to the axis to (p, q) of the focusing lens, through the focal point, and is recorded once, at (-p, 125, -q); so are the five rays of the script. script_testRectangleGrating.py: a ray of any wavelength and order with an exit angle leaves the grating in the plane of the script at the angle whose sine is 6e-4*order*wavelength - 0.21; 700 nm in first order returns along its own path (the Littrow condition the script sets up); all fifteen rays of the script have exit angles; in an order other than 0 different wavelengths leave in different directions.", "quantifier": "all points of the lens and all remaining distances; all object points, all points of the aperture, all wavelengths; all wavelengths, all orders with an exit angle and all remaining distances; all rays of the three scripts", "why_tests_cant": "The scripts only draw. Comparing the drawn rays with the expected figure would check single floating-point rays of one scene; the claims are about every ray that enters the apertures.", "anchors": ["script_testThinlens.py:16-45", "script_testIdealLenses.py:17-80", "script_testRectangleGrating.py:17-75", "optics3d.py:324-470", "optics3d.py:471-538", "optics3d.py:539-595", "optics3d.py:822-895"]}
{"id": "C97", "title": "run terminates with rounded arithmetic too, up to a max_distance that doubles can still count down", "statement": "If every arithmetic result is rounded with unit roundoff u (any rounding that is monotone, keeps 0 and has relative error u, with gradual underflow and overflow to infinity; IEEE doubles are one) and u*(max_distance+1) <= 5e-13, the loop of run ends after at most max_distance/4e-13 + 1 passes, for every ray, scene and cap. For doubles this covers every max_distance up to 4500. Without a bound it is false: with max_distance = 2**54 a ray between two disk mirrors one unit apart bounces for ever, because 2**54 - 1 rounds to 2**54.", "quantifier": "all roundings with the stated laws; all rays, optics (well-formed or not), interaction caps, max_distances in the range; for the counterexample all numbers of passes", "why_tests_cant": "A run that does not stop cannot be told from a slow one by a test, and a test of the scenes of the repository only sees budgets that doubles count down exactly enough.", "anchors": ["optics3d.py:826-871", "optics3d.py:22", "general_optics.py:36-38"]}
{"id": "C98", "title": "with rounded arithmetic a ray's direction does not drift: its length stays 1 up to 5 roundoffs and reflections add at most 300 roundoffs each", "statement": "If every arithmetic result is rounded with unit roundoff u (laws as in C97), unit_vector of a vector of length between 1e-100 and 1e100 is finite and within 5u of the exact unit vector, and one specular reflection of a direction of length 1 up to 5u again has length 1 up to 5u and is within 300u of the exact mirror image. Consequently, in every run through plane mirrors, micromirror arrays and detectors, after any number of passes the direction is finite, has length 1 up to 5u, and differs from the exact initial direction, reflected exactly in the mirrors met so far, by at most (300 b + 5) u after b bounces. For doubles: below 1e-9 for the first 10000 bounces.", "quantifier": "all roundings with the stated laws; all scenes of such optics as the constructors build them, all rays with a direction of sane length, all positions, budgets, caps and numbers of passes", "why_tests_cant": "A slow drift of the length, or an error that grows by a factor at each bounce, shows only after more bounces than a test makes, and a test compares floats with floats of the same rounding.", "anchors": ["general_optics.py:12-14", "optics3d.py:782-786", "optics3d.py:247-255", "optics3d.py:822-895"]}
{"id": "C99", "title": "with rounded arithmetic positions stay close to the exact unfolded path between plane mirrors", "statement": "If every arithmetic result is rounded with unit roundoff u (laws as in C97), in a scene of plane mirrors and detectors inside a ball of radius B (B >= 1, u*B <= 1e-10, start and max_distance within 0.9 B, max_distance a float) after n passes (n*u <= 1/1000) the position of the ray is within (160 n B + (300 b + 5) L) u of the exact image, under the reflections in the b planes met so far, of the point at distance L on the initial ray, L being the length of the path. A pass that ends at a mirror ends within 70 u B of its plane, however flat the angle. For doubles and B = 1000: off by less than 1e-7 in the first 1000 passes.", "quantifier": "all roundings with the stated laws; all scenes of plane mirrors (discs and rectangles, any orientation), detectors, filters and windows; all rays in the ball, caps and numbers of passes in the range", "why_tests_cant": "A test compares a computed position with another computed position of the same rounding, for a few scenes; whether errors of many bounces add or multiply cannot be seen from examples.", "anchors": ["Shapes/shapes.py:61-84", "optics3d.py:641-647", "optics3d.py:822-895", "general_optics.py:36-38"]}
{"id": "C100", "title": "with rounded arithmetic a ray does not hit the plane mirror it has just left", "statement": "In the scenes of C99, after a pass that ended at a mirror, if the ray leaves at an angle to the plane whose sine is at least 1.1e11 u B (for doubles and B = 1000: 0.0123, less than one degree), the mirror's own test reports no hit in the next pass, so the optic met next is a different one. The thresholds in Plane.test_intersect are what makes this true: the rounded ray usually is not exactly on the plane.", "quantifier": "all roundings with the laws of C97; all scenes, rays, caps and numbers of passes of C99; all mirrors met", "why_tests_cant": "Whether a rounded point lies before or behind its plane changes with every input; a spurious second hit is rare and depends on the last bits.", "anchors": ["Shapes/shapes.py:61-84", "optics3d.py:822-895"]}
{"id": "C101", "title": "mirror balls are opaque with exact numbers and leak with doubles", "statement": "In a scene of mirror balls (Mirror, circular_convex_spherical) with gaps of more than 1e-12 between them, a ray that starts more than 1e-12 outside every ball never enters one: every corner of its path and every leg between two corners stays outside, however often it is reflected. With exact numbers this holds except when the line of the ray touches a ball behind the ray; the exception is needed (a concrete scene of two balls is given) and disappears for a single ball. With doubles it is false: a ball of diameter 25 at a distance of 400, the sizes of script_testConvexSphereMirror.py, is hit by the ray from (10.8, 0, 0) along z, which is reflected twice on the spot and ends inside the ball.", "quantifier": "all finite lists of mirror balls with gaps, all rays, budgets, caps and numbers of passes (exact numbers); for doubles one scene, all wavelengths and orders and all fuel from 4", "why_tests_cant": "Path and legs are a continuum of points over unboundedly many reflections; whether a double-precision ray leaks depends on the last bits of the hit point, and most sampled rays do not.", "anchors": ["optics3d.py:227-242", "optics3d.py:822-895", "Shapes/shapes.py:278-353", "script_testConvexSphereMirror.py:15-40"]}
{"id": "C102", "title": "a glass ball refracts a ray twice with exact numbers, and sometimes three times with doubles", "statement": "A ray that starts outside a glass ball (Lens, shape spherical) and flies towards its interior is refracted exactly twice, at two points of the ball, by Snell's law from 1 to the index and back, and then flies on. With exact numbers this holds for all balls of index greater than 1 whose chords cannot fall below the clipping floor. With doubles it is false: a ball of diameter 25 and index 1.5 at a distance of 1000 refracts the ray from (3.6, 0, 0) three times, twice on entry, and the ray crosses the axis inside the ball although its focus is 18 behind the centre.", "quantifier": "exact numbers: all balls, rays that meet them, budgets beyond the ball and fuel from 4; doubles: one scene, all wavelengths and orders and all fuel from 5", "why_tests_cant": "Whether the computed entry point is outside by more than 1e-12 depends on the last bits; a test at script distances (100 mm) never sees it, at 1 m about every fourth ray does.", "anchors": ["optics3d.py:324-441", "optics3d.py:732-771", "optics3d.py:822-895", "Shapes/shapes.py:278-353", "script_testBallLens.py:15-35"]}
{"id": "C103", "title": "Snell's law holds with rounded arithmetic, and lengths do not drift away", "statement": "A refraction by the snells_law branch computed with any rounding of relative error u that represents 1, for indices between 1 and 4, a computed unit normal and a direction whose length is 1 within a thousandth, never gives a NaN and never raises. The new direction obeys n2 sin t2 = n1 sin t1 along the surface within 36 u, is on the far side, and n^2 (length^2 - 1) changes by at most 591 n2^2 u; or the result is the mirror image of length 1, and then the angle is below the critical angle by rounding errors at most. Unless the refracted ray is within about 20 sqrt u of grazing, the computed direction is within 720 u / cos t2 of the exact one. The branch does not normalise; nevertheless after k surfaces n^2 |length^2 - 1| has grown by at most 9456 k u.", "quantifier": "all roundings, directions, normals, indices in [1, 4]; chains of any number of surfaces (while 9456 k u stays below a thousandth: about 10^9 surfaces with doubles)", "why_tests_cant": "The argument of the square root is a difference that rounding could make negative; tests would have to hit exactly that input. Growth over many surfaces depends on the order of the media.", "anchors": ["optics3d.py:732-771", "optics3d.py:782-786", "general_optics.py:12-14"]}
{"id": "C104", "title": "A mirror ball near the ray is hit exactly once with rounded arithmetic", "statement": "C101 shows that with doubles the ray may stay inside a mirror ball after the first reflection. Near the ball this cannot happen: if the line of the ray meets the ball of radius rho after the distance t at a half chord h, everything within L, and u (16 L^2 + 35 L rho + 15 rho^2) <= h / 10^12, then the run with this ball ends after exactly one interaction. The point of reflection is within 60 u L^2 / h of the exact one, the new direction within 305 u + 390 u L^2 / (h rho) of the law of reflection and of length 1 within 5 u, and the ray then flies on with nothing in its way.", "quantifier": "all roundings, balls, rays, maximum distances and iteration limits satisfying the bound; for doubles and the balls of diameter 25 mm of the scripts: up to about 5 cm", "why_tests_cant": "Whether the ball is reported a second time depends on the last digits of the computed point; the theorem gives a region in which no last digit can do harm.", "anchors": ["Shapes/shapes.py:278-353", "optics3d.py:145-323", "optics3d.py:778-820", "optics3d.py:822-895"]}
{"id": "C105", "title": "With rounding, a glass ball near a ray refracts it exactly twice", "statement": "Run a ray against one ball lens (a Lens of shape 'spherical' whose type is none of the ideal ones) of radius rho and index between 1 and 4, in arithmetic that rounds each operation with relative error u and carries 1 exactly, as doubles do. Let the ray's line meet the ball after the distance t, let h be rho times the cosine of the angle of incidence, and let L bound the start's coordinates and its distance to the centre. If the rounding errors stay below the clipping floor (u(16 L^2 + 35 L rho + 15 rho^2) <= 1e-12 h and u(6 L rho + 230 rho^2) <= 1e-12 h), the ray does not graze (1e8 u L^2 rho^2 <= h^4), and the lengths are ordinary, then the run finishes after exactly two interactions: the ray enters once and leaves once, unblocked, and its history is the start, the point of entry, the point of exit and the end of the flight. Both points and the final direction lie close to the exact way through the ball by Snell's law: within 50 u L^2/h on entry, within 5300 u L^2 rho/(h k) on exit and within 497000 u L^2 rho/(h^2 k) in direction, where 2k >= 2h is the exact chord.", "quantifier": "for every rounding with u <= 2^-20 that carries 1, every ball and ray meeting the conditions, every maximum distance of at least 4 L and every limit above two interactions", "why_tests_cant": "A test tries some rays with doubles; whether the second pass sees the surface again depends on rounding errors of each ray, and about a quarter of rays fail when the ball is 1 m away. The theorem gives a region in which none does.", "anchors": ["optics3d.py:356-441", "optics3d.py:732-771", "optics3d.py:822-895", "Shapes/shapes.py:278-353"]}
{"id": "C106", "title": "Angles with rounded arithmetic: the signed angle is accurate, the unsigned one loses half of its digits and may be nan", "statement": "With rounding, angle_between with a normal returns, for all vectors across that normal, a number such that turning the direction of v2 by it about the normal gives the direction of v1 up to 61 roundoffs u. Without a normal it returns either a number within 10 sqrt(u) of the angle, whose error times the sine of the angle is at most 50 u; or nan, and then the sine of the angle is at most sqrt(28 u). The nan does occur: with doubles angle_between((1,1,1),(1,1,1)) is nan, although the docstring promises 0 for a vector and itself.", "quantifier": "all roundings and all vectors of ordinary length", "why_tests_cant": "test_anglebetween.py tries vectors along the axes, for which the dot product is exact; for a general vector and itself whether the rounded dot product exceeds 1 depends on its digits.", "anchors": ["general_optics.py:12-33"]}
{"id": "C107", "title": "Rounded arithmetic: an ideal lens images a point, and a parallel beam, up to a few hundred roundoffs", "statement": "With rounding, let u be the relative error of one operation, B a bound for the positions, c the cosine of the angle between ray and axis and X = u B / c^2. A pass of the loop, in any scene, that takes a ray from a point O to an ideal lens (round, of type 'ideal', focal length f > 0) leaves it close to the lens plane and with a direction that leads within (73 + 150 f/|p - f|) X of the image of O by the thin lens equation (p is the distance of O from the lens plane), after the lens if the image is real and before it if it is virtual; rays of one direction lead within 73 X of one point of the focal plane. For a ray so close to the axis that np.allclose takes it for an axial one the error is larger by 8e-8 f (1 + f/|p - f|). With one lens in the scene, whenever the exact ray meets the lens inside its rim the run ends after exactly one interaction, with these errors.", "quantifier": "all roundings, all scenes and all passes; for the whole run all rays and lenses with the lens ahead", "why_tests_cant": "The demo scripts draw a few rays through lenses; no set of rays shows how far a ray may miss the image with doubles, nor that the lens is never met a second time because of rounding.", "anchors": ["optics3d.py:653-698", "optics3d.py:822-895", "Shapes/shapes.py:87-102", "optics3d.py:362-372", "optics3d.py:409-441"]}
{"id": "C108", "title": "script_sketchconcavegratings reads the table of gratings as it is and draws one diagram for each", "statement": "Whatever the line ends of the file are (\\r\\n, \\n or \\r) and whether or not the last line has one, a tab-separated table with different names and labels, in which no row is longer than the header, is read as it is: one entry for each row, in order, and in it the value of every cell under its label, where a cell is a number, a size such as '28 x 28' of which the first number counts, or else a text. Where names or labels repeat, the last one counts. Reading fails just when a row has more cells than the header, with IndexError. Over the reals the script comes to its end just when the table can be read and each grating has the nine numbers and the f/# it needs; it then saves one diagram for each, in order, with the slit and the images at the distances and angles of the table, the detector as long as the images are apart (law of cosines), and the rays by way of both edges of the ruled area, in the colour of the wavelength that belongs to the image. If it fails, it does so with IndexError, KeyError or TypeError, the diagrams saved are those of the first gratings, and none if a number for a layout lacks anywhere. An empty line at the end of the file makes the script fail before it draws anything.", "quantifier": "all tables, line ends, parsers of numbers, and dictionaries of gratings", "why_tests_cant": "The script runs on one file; what other tables, line ends, repeated names, long rows or missing numbers do is not seen there.", "anchors": ["script_sketchconcavegratings.py:16-37", "script_sketchconcavegratings.py:42-50", "script_sketchconcavegratings.py:57-93", "general.py:205-253"]}
{"id": "C109", "title": "rotation_matrix_axis_angle with rounded arithmetic turns vectors accurately", "statement": "With rounded arithmetic, for every axis whose squared length neither underflows nor overflows and every angle up to 5 radians, the matrix has finite entries, and multiplying a vector by it with rounding turns the vector about the axis by the angle, right-handed, to within 625u of the vector's length (of 1, for vectors shorter than 1), u being the unit roundoff. So lengths and the axis are kept to this accuracy, two turns about one axis add up and turning back undoes a turn to twice this accuracy. The angle 0 gives exactly the identity matrix. The project's unit test of the function passes with every arithmetic with u up to 1e-12, hence with doubles.", "quantifier": "all axes of sane length, all angles up to 5 radians, all vectors up to 1e100, all roundings", "why_tests_cant": "The unit test tries one axis, one vector and four angles.", "anchors": ["general_optics.py:41-59", "test_axisanglerot.py:11-43"]}
{"id": "C110", "title": "Gratings with rounded arithmetic diffract into the direction the exact formula gives", "statement": "With rounded arithmetic a ray of non-zero order that meets a grating leaves it, with a direction of length 1 to within 5 roundoffs, in the direction that the code's formula gives with exact numbers, to within 2500 nu/(rho cos beta), nu being the error of the stored normal (5 roundoffs, if the normal handed over is exactly perpendicular to the tangent), rho the length of the in-plane part of the ray's direction and beta the angle of diffraction; nothing but the direction changes. The component along the grooves is kept, and the grating equation holds, to this accuracy. If the grating equation asks for a sine beyond 1 + 500 nu/rho, all three components of the direction are nan.", "quantifier": "all gratings, line densities, orders, wavelengths, directions (within 1e20 and away from grazing diffraction), all roundings with rnd 1 = 1", "why_tests_cant": "There are no tests of gratings; a test could only try single directions, and could not tell how the error grows towards grazing diffraction.", "anchors": ["optics3d.py:787-816", "optics3d.py:472-486", "optics3d.py:512-521", "general_optics.py:236-239"]}
{"id": "C111", "title": "Rectangles and discs with rounded arithmetic catch the rays that cross them, up to a thin rim", "statement": "With rounded arithmetic a rectangle catches every ray that crosses its plane at a point inside the ideal rectangle by more than a rim of 65 nu B^2/c (divided by the side), nu being the error of the stored normal, B the size of the scene and c the cosine of incidence, and no ray that crosses the plane outside it by more than this; a disc does likewise with a rim of 63 u B/c. The point reported is within 58 u B/c of the exact one and the normal is the stored one. Planes behind the ray are missed. The constructor of a rectangle accepts every normal and tangent perpendicular to within 1e-9 and refuses (ValueError) those for which the cosine of their angle exceeds 1.02e-8.", "quantifier": "all rectangles and discs, rays, scene sizes between 1 and 1e50 (with u B at most 1e-10), cosines of incidence of at least 1/1000, all roundings", "why_tests_cant": "The tests try a handful of rays through the middle of a shape; whether a ray near the rim is decided correctly depends on rounding errors in all the corners and dot products and cannot be sampled.", "anchors": ["Shapes/shapes.py:53-84", "Shapes/shapes.py:87-102", "Shapes/shapes.py:33-42", "Shapes/shapes.py:378-415"]}
{"id": "C112", "title": "Rays that meet a grating end where they should with rounded arithmetic, and so do the rays of the grating script with doubles", "statement": "Ray.run with one rectangular grating, with rounded arithmetic: a ray that meets it well inside its outline finishes in three passes of the loop, with the old points, the meeting point (within 81 u B/c of the exact one) and the end point as its history. If its order is not zero its direction is within E = 2500 nu/(rho cos beta) of the exact diffracted direction and it ends within 165 u B/c + (L - tau) E of the exact end; if its order is zero the same holds with the mirror image and 60 nu. Hence with doubles script_testRectangleGrating builds its grating, and each of its fifteen rays meets it within 1e-11 of (0, 100, 0) and ends, 200 further, within 2e-7 of the point the grating equation asks for.", "quantifier": "all rectangular gratings, rays, orders, wavelengths, line densities, budgets and roundings for which the ray crosses well inside the outline and is neither grazing nor evanescent; with doubles all orders and wavelengths whose exit sine is at most 0.9, among them all rays of the script", "why_tests_cant": "A run only shows one picture; that the second pass never finds the grating again, and that the error of arcsin, of two rotations and of the frame stays below the pixel for every wavelength, needs the error analysis of the whole chain.", "anchors": ["script_testRectangleGrating.py:15-71", "optics3d.py:472-521", "optics3d.py:787-816", "optics3d.py:822-871", "Shapes/shapes.py:378-415"]}
{"id": "C113", "title": "rotation_matrix2 is accurate with rounded arithmetic except near opposite directions, where doubles make cylinders invisible", "statement": "With rounded arithmetic every entry of rotation_matrix2(a, b) is within 130 u/(1 + cos) of the entry of a rotation matrix that takes the direction of a to that of b, the caller's arrays become unit vectors within 5 u, and a vector multiplied by the matrix is turned with an error of at most 450 u/(1 + cos) times its length, where cos is the cosine of the angle between a and b and 1 + cos is at least 40000 u. With doubles, if a = (x, y, -1) with doubles x, y below 1e-9 that are not both (nearly) 0, and b is the z axis, 1 + cos is rounded to 0, the matrix contains nan, and every InfiniteCylinder constructed with the axis a is hit by no ray and contains no point, whatever its centre and its (nonzero) radius.", "quantifier": "all roundings, all pairs of vectors of length between 1e-100 and 1e100 that are not nearly opposite, all vectors to turn; with doubles all small tilts, all centres, radii, rays and points", "why_tests_cant": "Tests use a handful of axes, none tilted by a billionth against the z axis, where the division by 1 + cos turns into 0/0; and the growth of the error like 1/(1 + cos) shows only in a bound over all pairs.", "anchors": ["general_optics.py:63-82", "general_optics.py:85-91", "Shapes/shapes.py:109-267"]}
{"id": "C114", "title": "What script_testMatrixTransforms and script_testBinaryTree print; why script_testBallLens stops", "statement": "For all vectors other than 0 the matrix of rotation_matrix is the transpose of the matrix of rotation_matrix2, so that np.dot(v, rotation_matrix(a, b)) = np.dot(rotation_matrix2(a, b), v), as the comment in script_testMatrixTransforms supposes. The script's results are (90, 10, 20, 1), three times the z axis, and (10, 0, 300, 1); with doubles the axis turned by the second matrix is the z axis to within 2e-13. postOrderEval of any tree with operators at inner nodes and objects at the leaves raises nothing and prints the fully parenthesised expression of the objects' texts; if the texts are in pointed brackets, as those of spheres are, different trees print differently although the texts contain spaces; script_testBinaryTree prints ( ( ( s3 n s4 ) \\ s2 ) u s1 ). script_testBallLens raises TypeError because Lens has no parameter thinlens.", "quantifier": "all pairs of nonzero vectors; all expression trees over all kinds of objects and all ways to print them", "why_tests_cant": "The scripts print and check nothing; the comment that both functions seem equivalent rests on one pair of vectors, and trees are unbounded.", "anchors": ["script_testMatrixTransforms.py:22-116", "script_testBinaryTree.py:13-30", "script_testBallLens.py:18", "general_optics.py:63-82", "general_optics.py:126-150", "general_optics.py:283-305", "Shapes/shapes.py:289-290"]}
{"id": "C115", "title": "Where a ray enters an infinite cylinder, its normal there, and which points it contains, with rounded arithmetic", "statement": "InfiniteCylinder turns points and directions by the rounded matrix of rotation_matrix2 and solves a rounded quadratic. For a ray that meets the cylinder from outside after a distance of at least 0.01, test_intersect reports two hits; the first is within 8100 u L^2/(q A h) of the exact point, and the reported normal is within 17000 u L^2/(q A h rho) of the inward unit normal of the exact cylinder there. L bounds the lengths involved, q is one plus the cosine between axis and z, A is the squared sine between ray and axis, h is the radius times the cosine of incidence across the axis; these must satisfy q A h^2 >= 2e7 u L^2, q A h t >= 1e4 u L^2 and A h >= 1.5e14 u L^2. test_point answers True for every point whose squared distance from the axis is below rho^2 by 1200 u X^2/q, and False for every point above by as much, where X bounds its distance from the centre.", "quantifier": "all roundings for which rounding twice changes nothing, all axes, centres, radii, rays and points within the stated margins", "why_tests_cant": "Tests run one axis and a fan of rays and look at a picture; that the error stays below a multiple of the roundoff, and how it grows for axes near -z, rays near the axis, grazing rays and distant starts, needs a bound over all of them.", "anchors": ["Shapes/shapes.py:109-267", "general_optics.py:63-91", "script_testCylinder.py:21-60"]}
{"id": "C116", "title": "script_testCylinder with doubles: every ray is reflected once, accurately, and does not find the cylinder again", "statement": "With rounded arithmetic, run of a ray that meets a reflecting Compound of one InfiniteCylinder from outside (margins as in C115) ends after exactly one interaction, not blocked, with three points in its history: the ray is deflected within 8200 u L^2/(q A h) of the exact point and within 305 u + 84000 u L^2/(q A h rho) of the exact law of reflection, and the second pass, in which the ray starts on the cylinder up to rounding, finds nothing although both roots of the rounded quadratic are computed. A faerie-fire ray is blocked at that point whatever the surface behaviour. With doubles this applies to the cylinder and to each of the 21 rays of script_testCylinder.py, whose points are within 1e-10 and directions within 1e-9 of the exact ones.", "quantifier": "all roundings for which rounding twice changes nothing, all axes, centres, radii and rays within the stated margins, all maximal distances above 1.01 L, all fuel; all rays of the script", "why_tests_cant": "Whether the reflected ray hits the same cylinder again depends on the last bits of its starting point; a test checks a few rays, the theorem bounds the computed root against the clipping floor for all of them.", "anchors": ["Shapes/shapes.py:109-267", "optics3d.py:93-130", "optics3d.py:822-871", "script_testCylinder.py:18-53"]}
{"id": "C117", "title": "Interpolating a table on logarithmic axes", "statement": "For every table of positive numbers with rising first column and at least two rows, log_interp1d returns a function that reproduces the table, follows between neighbouring points (and beyond the ends) the power law through the two points, reproduces a power law everywhere, and rises if the second column rises; then the table with its columns exchanged gives the inverse function on all positive numbers. With positive numbers it raises exactly if the columns differ in length, the first does not rise, or there are fewer than two rows.", "quantifier": "all tables of positive numbers of any length, all positive arguments", "why_tests_cant": "Tables have any length and any entries; the power law between points and the inverse are statements about all arguments.", "anchors": ["general.py:327-336"]}
{"id": "C118", "title": "Arrays of numbers as spaced text", "statement": "nparray2spacedstring writes the padded numbers of an array in rows filled from the left up to max_line_width less one (counting commas that are removed afterwards; a number wider than the row stands alone), all rows but the first indented by a space and the first only if leftpad has at least two characters. If leftpad or rightpad is not empty, splitting the text at blanks gives the numbers' texts in order, for every width. Without padding numbers run together, so that different arrays give the same text.", "quantifier": "all arrays of any length, all formats without brackets, commas and blanks, all paddings and widths (also negative)", "why_tests_cant": "Rows break at positions that depend on all the numbers before; arrays and widths are unbounded.", "anchors": ["general.py:369-385"]}
{"id": "C119", "title": "An ideal lens images onto a detector with rounded arithmetic; script_testImaging with doubles", "statement": "With rounded arithmetic, run of a ray that meets an ideal lens inside its rim, with a rectangular detector parallel behind it, ends after exactly two interactions, blocked, with exactly one record in the log. The recorded point is within eps + 1.01 (eps + eta)/k' + 58 u B/k' of the image of the ray's origin under the thin lens equation, where eps = (73 + 150 f/|p-f|) u B/k^2, plus 8e-8 f (1 + f/|p-f|) for rays the code takes for axial ones, eta is the distance of the image from the plane of the detector and k, k' bound the cosines of the ray before and behind the lens. With doubles the scene of script_testImaging.py and the rays of image_rays are built at every resolution up to 2^50; each ray starts within 1e-13 of its grid point and is recorded once within 3e-5 of the image of that grid point, within 2e-10 if its angle to the axis is more than 4e-8.", "quantifier": "all roundings, lenses, detectors and rays within the stated margins, all interaction limits above 1, all fuel; with doubles all resolutions of image_rays and all rays", "why_tests_cant": "Tests compare a few rays with a tolerance; the theorem bounds the recorded error for all rays and shows that no ray is recorded twice, lost, or recorded before it passes the lens.", "anchors": ["script_testImaging.py:23-70", "optics3d.py:324-470", "general_optics.py:190-224", "optics3d.py:539-595", "optics3d.py:822-871"]}
{"id": "C120", "title": "Any number of ideal lenses with rounded arithmetic; script_testIdealRelay with doubles", "statement": "With rounded arithmetic, a ray that passes within eps of an object point passes, after any number of ideal lenses met one after the other, within eps' of the image of the image ... of that point under the thin lens equation; each lens turns eps into (73 + 153 m) u B/c^2 + 1.02 m eps (1 + |S-P|/|p-f|), with m = f/|p-f|, plus 8e-8 f (1 + 1.02 m) for rays the code takes for axial ones. With doubles the scene of script_testIdealRelay.py and the rays of image_rays are built at every resolution up to 2^50; each ray passes the first lens, then the second, and is recorded exactly once, within 4e-5 of the point of the upright image of the same size that belongs to its grid point, and within 2e-9 unless it is nearly parallel to the axis at one of the lenses.", "quantifier": "all roundings, all scenes, all numbers of lenses, all rays within the stated margins; with doubles all rays within one part in fifteen of the axis from all points of the object, all resolutions of image_rays, all fuel from 4 on", "why_tests_cant": "Tests compare a few rays with a tolerance; the theorem adds up the error over any number of lenses, and shows for every ray of the relay that it meets the optics in order, is not caught twice by one lens and is recorded once.", "anchors": ["script_testIdealRelay.py:23-81", "optics3d.py:324-470", "general_optics.py:190-224", "optics3d.py:539-595", "optics3d.py:822-871"]}
{"id": "C121", "title": "Collimating and focusing lenses with rounded arithmetic; script_testIdealLenses with doubles", "statement": "With rounded arithmetic, in any scene, a ray that meets a round ideal_collimate lens leaves it from a point of its own line on the lens, within 15 roundoffs of the direction of the axis, to the side it was going to. A ray that meets a round ideal_focus lens leaves it from a point of its own line on the lens and passes within 32uB of the focal point on that side. With doubles the scene of script_testIdealLenses.py is built, and every ray from an object point within 5.1 of the axis with slopes up to 1/15 meets three optics, is absorbed and is recorded exactly once, within 2e-10 of the mirror image in the axis of the place where it met the first lens: all rays that cross the first lens at one place end at one place, wherever they came from.", "quantifier": "all roundings, all scenes, all rays within the stated margins; with doubles all object points within 5.1 of the axis, all slopes up to 1/15, all wavelengths and orders, all fuel from 4 on", "why_tests_cant": "Tests compare a few rays with a tolerance; the theorem bounds the rounding error for every ray, and shows that no ray is caught a second time by the lens it has just left and that every ray is recorded once.", "anchors": ["optics3d.py:712-730", "optics3d.py:324-470", "script_testIdealLenses.py:23-65", "optics3d.py:822-871", "optics3d.py:539-595"]}
