{
 "claims": [
  {
   "property": "C01",
   "status": "proved",
   "theorems": [
    "Optics.C01_unit_vector",
    "Optics.C01_unit_vector_finite",
    "Optics.C01_unit_vector_zero"
   ],
   "note": "Over the reals; the zero vector over XR (numpy nan)."
  },
  {
   "property": "C02",
   "status": "proved",
   "theorems": [
    "Optics.C02_distance_is_dist",
    "Optics.C02_distance_metric",
    "Optics.C02_distance_rigid"
   ],
   "note": ""
  },
  {
   "property": "C03",
   "status": "proved",
   "theorems": [
    "Optics.C03_project_onto_plane"
   ],
   "note": ""
  },
  {
   "property": "C04",
   "status": "proved",
   "theorems": [
    "Optics.C04_angle_is_angle",
    "Optics.C04_angle_unsigned"
   ],
   "note": ""
  },
  {
   "property": "C05",
   "status": "proved",
   "theorems": [
    "Optics.C05_angle_signed"
   ],
   "note": ""
  },
  {
   "property": "C06",
   "status": "proved",
   "theorems": [
    "Optics.C06_axis_angle"
   ],
   "note": ""
  },
  {
   "property": "C07",
   "status": "partial",
   "theorems": [
    "Optics.C07_rotation_matrix2_partial",
    "Optics.C07_rotation_matrix2_maps",
    "Optics.C07_antiparallel_counterexample"
   ],
   "note": "Proper rotation for all nonzero vectors that are not antiparallel, and maps a to b in every case; for antiparallel vectors the matrix is -I, determinant -1 (counterexample theorem)."
  },
  {
   "property": "C08",
   "status": "partial",
   "theorems": [
    "Optics.C08_rotation_matrix_counterexample",
    "Optics.C08_rotation_matrix_partial"
   ],
   "note": "The docstring is false: the matrix maps v2 to v1 (counterexample and the true statement)."
  },
  {
   "property": "C09",
   "status": "proved",
   "theorems": [
    "Optics.C09_homogeneous"
   ],
   "note": ""
  },
  {
   "property": "C10",
   "status": "proved",
   "theorems": [
    "Optics.C10_image_rays",
    "Optics.C10_image_rays_raises"
   ],
   "note": ""
  },
  {
   "property": "C11",
   "status": "proved",
   "theorems": [
    "Optics.C11_check_R_and_D",
    "Optics.C11_check_h_and_w",
    "Optics.C11_constructors"
   ],
   "note": ""
  },
  {
   "property": "C12",
   "status": "proved",
   "theorems": [
    "Optics.C12_plane"
   ],
   "note": ""
  },
  {
   "property": "C13",
   "status": "proved",
   "theorems": [
    "Optics.C13_circle",
    "Optics.C13_circle_no_normal"
   ],
   "note": "Iff-characterisation of the hit; a circle without a normal raises (C13_circle_no_normal)."
  },
  {
   "property": "C14",
   "status": "proved",
   "theorems": [
    "Optics.C14_rectangle",
    "Optics.C14_zero_width_is_infinite_strip"
   ],
   "note": "Full for every nonzero height and width; side theorem: a zero width rectangle behaves as an infinite strip."
  },
  {
   "property": "C15",
   "status": "proved",
   "theorems": [
    "Optics.C15_sphere_test_point",
    "Optics.C15_sphere_test_point_radius",
    "Optics.C15_sphere_nonpositive_radius"
   ],
   "note": ""
  },
  {
   "property": "C16",
   "status": "partial",
   "theorems": [
    "Optics.C16_sphere_sound_partial",
    "Optics.C16_sphere_sound_not_tangent_partial",
    "Optics.C16_sphere_behind_counterexample"
   ],
   "note": "Reported points are on the sphere and on the ray with the inward unit normal and, unless the line is tangent, ahead of the ray. Tangent lines report points behind the ray (counterexample)."
  },
  {
   "property": "C17",
   "status": "partial",
   "theorems": [
    "Optics.C17_sphere_complete",
    "Optics.C17_sphere_no_false_hit_partial"
   ],
   "note": "Completeness proved in full; the converse (no false hit) holds except for tangent lines (C16_sphere_behind_counterexample)."
  },
  {
   "property": "C18",
   "status": "partial",
   "theorems": [
    "Optics.C18_cylinder_parallel_counterexample",
    "Optics.C18_cylinder_parity_partial",
    "Optics.C18_sphere_parity",
    "Optics.C18_sphere_parity_test_point",
    "Optics.C18_sphere_start_near_surface"
   ],
   "note": "Sphere: full, with the starting point not within 1e-12 of the surface. Cylinder: rays not parallel to the axis; for parallel rays numpy gives count 2 even from inside (counterexample)."
  },
  {
   "property": "C19",
   "status": "proved",
   "theorems": [
    "Optics.C19_cylinder_test_point",
    "Optics.C19_cylinder_zero_radius"
   ],
   "note": ""
  },
  {
   "property": "C20",
   "status": "partial",
   "theorems": [
    "Optics.C20_cylinder_parallel_counterexample",
    "Optics.C20_cylinder_partial",
    "Optics.C20_cylinder_behind_counterexample"
   ],
   "note": "Full for rays not parallel to the axis and not touching behind; both exceptions are proved as counterexamples."
  },
  {
   "property": "C21",
   "status": "proved",
   "theorems": [
    "Optics.C21_plane",
    "Optics.C21_circle",
    "Optics.C21_rectangle",
    "Optics.C21_sphere",
    "Optics.C21_cylinder",
    "Optics.C21_cylinder_parallel"
   ],
   "note": ""
  },
  {
   "property": "C22",
   "status": "proved",
   "theorems": [
    "Optics.C22_test_tree_point",
    "Optics.C22_flat_leaf_raises"
   ],
   "note": ""
  },
  {
   "property": "C23",
   "status": "proved",
   "theorems": [
    "Optics.C23_insertLeft",
    "Optics.C23_insertRight",
    "Optics.C23_insertion",
    "Optics.C23_insertions",
    "Optics.C23_build"
   ],
   "note": ""
  },
  {
   "property": "C24",
   "status": "proved",
   "theorems": [
    "Optics.C24_prints",
    "Optics.C24_injective",
    "Optics.C24_ambiguous_labels"
   ],
   "note": ""
  },
  {
   "property": "C25",
   "status": "proved",
   "theorems": [
    "Optics.C25_union_inside_wrong",
    "Optics.C25_lone_sphere_far_point",
    "Optics.C25_union",
    "Optics.C25_union_correct_iff"
   ],
   "note": "Union trees of any depth, rays starting outside all primitives in general position (not tangent, not parallel to a cylinder axis, not starting on or within 1e-12 of a surface). For two primitives and any start: exact characterisation of the starts for which the answer is right (C25_union_correct_iff)."
  },
  {
   "property": "C26",
   "status": "partial",
   "theorems": [
    "Optics.C26_self_intersection_missed",
    "Optics.C26_counterexample",
    "Optics.C26_nested_counterexample",
    "Optics.C26_intersect_partial"
   ],
   "note": "Two primitives, any start, full correctness when no point of the ray is on both surfaces. False for ties (self-intersection) and for nested intersections: counterexamples."
  },
  {
   "property": "C27",
   "status": "partial",
   "theorems": [
    "Optics.C27_only_A_raises",
    "Optics.C27_counterexample_front",
    "Optics.C27_counterexample_inside",
    "Optics.C27_difference_correct_iff_partial"
   ],
   "note": "Exact characterisation of the configurations in which the difference node is right; counterexamples for the others (A only: ValueError; B in front; start inside A)."
  },
  {
   "property": "C28",
   "status": "partial",
   "theorems": [
    "Optics.C28_counterexample",
    "Optics.C28_returns_partial",
    "Optics.C28_only_value_error",
    "Optics.C28_difference_raises_iff",
    "Optics.C28_unknown_operator",
    "Optics.C28_flat_leaf",
    "Optics.C28_flat_leaves",
    "Optics.C28_finite_cylinder_leaf",
    "Optics.C28_bare_operator"
   ],
   "note": "Without difference operators: never raises, any number type, any depth. With them: only the ValueError of line 613, and it does occur (counterexample). Ill-formed trees: the exceptions."
  },
  {
   "property": "C29",
   "status": "partial",
   "theorems": [
    "Optics.C29_first_compound",
    "Optics.C29_index_partial",
    "Optics.C29_only_compounds",
    "Optics.C29_counterexample"
   ],
   "note": "Proved for compounds; that another optic containing the point does not count is C29_counterexample."
  },
  {
   "property": "C30",
   "status": "proved",
   "theorems": [
    "Optics.C30_reflection",
    "Optics.C30_reflection_finite"
   ],
   "note": ""
  },
  {
   "property": "C31",
   "status": "proved",
   "theorems": [
    "Optics.C31_snell",
    "Optics.C31_equal_indices",
    "Optics.C31_flip_normal",
    "Optics.C31_grazing_depends_on_normal",
    "Optics.C31_zero_index"
   ],
   "note": ""
  },
  {
   "property": "C32",
   "status": "proved",
   "theorems": [
    "Optics.C32_total_internal_reflection",
    "Optics.C32_no_refraction_above",
    "Optics.C32_finite",
    "Optics.C32_negative_index_nan"
   ],
   "note": ""
  },
  {
   "property": "C33",
   "status": "proved",
   "theorems": [
    "Optics.C33_refraction_reversible",
    "Optics.C33_reflection_reversible"
   ],
   "note": ""
  },
  {
   "property": "C34",
   "status": "partial",
   "theorems": [
    "Optics.C34_focal_plane",
    "Optics.C34_imaging_partial",
    "Optics.C34_counterexample",
    "Optics.C34_grazing",
    "Optics.C34_negative_f_goes_back"
   ],
   "note": "Exact imaging proved for all rays except those nearly (within 2e-8) but not exactly parallel to the axis, and those within 1e-8 of the lens plane, where the code's tolerance branches make the exact claim false (C34_counterexample). C34_focal_plane bounds the error by 2e-8 f for every non-grazing ray."
  },
  {
   "property": "C35",
   "status": "proved",
   "theorems": [
    "Optics.C35_collimate"
   ],
   "note": ""
  },
  {
   "property": "C36",
   "status": "proved",
   "theorems": [
    "Optics.C36_focus",
    "Optics.C36_focus_at_focal_point"
   ],
   "note": ""
  },
  {
   "property": "C37",
   "status": "partial",
   "theorems": [
    "Optics.C37_grating_equation_partial",
    "Optics.C37_other_side_iff",
    "Optics.C37_counterexample"
   ],
   "note": "True for non-positive in-plane incidence angles; for positive angles the code's output satisfies the grating equation only if G m lambda = 0 (C37_other_side_iff), with a concrete counterexample."
  },
  {
   "property": "C38",
   "status": "proved",
   "theorems": [
    "Optics.C38_grating",
    "Optics.C38_nan_iff",
    "Optics.C38_along_grooves_nan"
   ],
   "note": ""
  },
  {
   "property": "C39",
   "status": "proved",
   "theorems": [
    "Optics.C39_fly",
    "Optics.C39_fly_none",
    "Optics.C39_fly_distance",
    "Optics.C39_fly_twice"
   ],
   "note": ""
  },
  {
   "property": "C40",
   "status": "partial",
   "theorems": [
    "Optics.C40_path_length_partial",
    "Optics.C40_all_scenes_partial",
    "Optics.C40_negative"
   ],
   "note": "XR over all well-formed scenes: the finite path is at most max_distance long, and equal to it unless blocked, capped or lost at a grating that has no such diffraction order for the ray (numpy arcsin gives nan; C68_counterexample), after which at most one nan point follows."
  },
  {
   "property": "C41",
   "status": "proved",
   "theorems": [
    "Optics.C41_terminates",
    "Optics.C41_terminates_real",
    "Optics.C41_pass_bound",
    "Optics.C41_fuel_irrelevant"
   ],
   "note": ""
  },
  {
   "property": "C42",
   "status": "proved",
   "theorems": [
    "Optics.C42_cap",
    "Optics.C42_cap_points",
    "Optics.C42_no_interactions",
    "Optics.C42_no_distance"
   ],
   "note": ""
  },
  {
   "property": "C43",
   "status": "proved",
   "theorems": [
    "Optics.C43_one_point_per_pass",
    "Optics.C43_history",
    "Optics.C43_new_ray",
    "Optics.C43_points",
    "Optics.C43_points_real"
   ],
   "note": ""
  },
  {
   "property": "C44",
   "status": "proved",
   "theorems": [
    "Optics.C44_blocked",
    "Optics.C44_blocked_runs",
    "Optics.C44_blocked_ends",
    "Optics.C44_later_runs"
   ],
   "note": ""
  },
  {
   "property": "C45",
   "status": "proved",
   "theorems": [
    "Optics.C45_nearest",
    "Optics.C45_nearest_raised",
    "Optics.C45_nearest_numpy",
    "Optics.C45_overflow_surfaces",
    "Optics.C45_overflow_optics",
    "Optics.C45_overflow_surfaces_rounded",
    "Optics.C45_overflow_optics_rounded",
    "Optics.C45_nan_rounded"
   ],
   "note": "The statement is proved with exact numbers (C45_nearest, C45_nearest_raised) and in numpy arithmetic without rounding (C45_nearest_numpy); that infinite and undefined distances never count is also proved for every rounding (C45_overflow_*_rounded, C45_nan_rounded)."
  },
  {
   "property": "C46",
   "status": "partial",
   "theorems": [
    "Optics.C46_order_partial",
    "Optics.C46_order_same_last_partial",
    "Optics.C46_counterexample"
   ],
   "note": "False with refracting lenses: run passes the side flag of the last-tested optic, not of the nearest one (C46_counterexample). Proved when there is no refracting lens in the list, or when the last tested optic stays last; in scenes without ties."
  },
  {
   "property": "C47",
   "status": "proved",
   "theorems": [
    "Optics.C47_transparent"
   ],
   "note": ""
  },
  {
   "property": "C48",
   "status": "proved",
   "theorems": [
    "Optics.C48_at_most_one_row",
    "Optics.C48_runs",
    "Optics.C48_position"
   ],
   "note": "Any number type for the row's wavelength, order and detector (RunLoop); position equality over XR on well-formed scenes."
  },
  {
   "property": "C49",
   "status": "proved",
   "theorems": [
    "Optics.C49_faerie_fire"
   ],
   "note": ""
  },
  {
   "property": "C50",
   "status": "partial",
   "theorems": [
    "Optics.C50_new_ray",
    "Optics.C50_unit_direction_partial",
    "Optics.C50_unit_or_nan_partial"
   ],
   "note": "Exact unit length through runs of any length over well-formed scenes, or nan in all components after a grating that has no such diffraction order for the ray (C50_unit_or_nan_partial; witness C68_counterexample)."
  },
  {
   "property": "C51",
   "status": "partial",
   "theorems": [
    "Optics.C51_lands_partial",
    "Optics.C51_lands_flat",
    "Optics.C51_counterexample"
   ],
   "note": "All well-formed scenes, gratings without an order included: the ray lands where the optic reported, except when its line touches a sphere or cylinder behind it: then it lands at the mirrored distance ahead (C51_counterexample). Flat scenes: full (C51_lands_flat)."
  },
  {
   "property": "C52",
   "status": "proved",
   "theorems": [
    "Optics.C52_free_flight"
   ],
   "note": ""
  },
  {
   "property": "C53",
   "status": "proved",
   "theorems": [
    "Optics.C53_equation",
    "Optics.C53_faerie_fire",
    "Optics.C53_prefix",
    "Optics.C53_finite"
   ],
   "note": "Every random stream (list of triples); the code passes over triples shorter than 1e-6, so N rays need N longer ones in the stream (C53_equation)."
  },
  {
   "property": "C54",
   "status": "partial",
   "theorems": [
    "Optics.C54_counterexample",
    "Optics.C54_disc_partial",
    "Optics.C54_convex_partial",
    "Optics.C54_concave_partial",
    "Optics.C54_rectangle_partial",
    "Optics.C54_unknown_shape"
   ],
   "note": "False: dmd_normal=None raises TypeError for every mirror. With a dmd_normal: exact conditions for each shape."
  },
  {
   "property": "C55",
   "status": "proved",
   "theorems": [
    "Optics.C55_flat_disc",
    "Optics.C55_flat_rectangle",
    "Optics.C55_convex",
    "Optics.C55_concave",
    "Optics.C55_convex_tangent",
    "Optics.C55_concave_hit"
   ],
   "note": "All four shapes; the flat ones and the convex one with iff-characterisation of the hit, including lines that touch the sphere."
  },
  {
   "property": "C56",
   "status": "proved",
   "theorems": [
    "Optics.C56_ball",
    "Optics.C56_enter_refracts",
    "Optics.C56_ball_missed"
   ],
   "note": "One pass of run over a lone ball: landing point, Snell or total reflection about the radius with the right pair of indices; misses. With other optics in the list the indices can be wrong (C46_counterexample)."
  },
  {
   "property": "C57",
   "status": "partial",
   "theorems": [
    "Optics.C57_indices_partial",
    "Optics.C57_clear_surfaces_partial",
    "Optics.C57_other_behaviours",
    "Optics.C57_counterexample"
   ],
   "note": "The code looks 1e-8 along the ray to decide the side. Proved whenever no primitive's surface is met within that distance (or, weaker, the solid is not entered or left there); thinner solids are a counterexample."
  },
  {
   "property": "C58",
   "status": "proved",
   "theorems": [
    "Optics.C58_is_colour",
    "Optics.C58_clamped",
    "Optics.C58_continuous",
    "Optics.C58_primaries",
    "Optics.C58_negative_gamma",
    "Optics.C58_limits",
    "Optics.C58_nan"
   ],
   "note": ""
  },
  {
   "property": "C59",
   "status": "proved",
   "theorems": [
    "Optics.C59_product",
    "Optics.C59_inverse",
    "Optics.C59_antitone",
    "Optics.C59_zero"
   ],
   "note": ""
  },
  {
   "property": "C60",
   "status": "proved",
   "theorems": [
    "Optics.C60_nearest",
    "Optics.C60_empty",
    "Optics.C60_nan"
   ],
   "note": "Over the reals; with NaN entries the first NaN wins (C60_nan)."
  },
  {
   "property": "C61",
   "status": "proved",
   "theorems": [
    "Optics.C61_to_precision",
    "Optics.C61_zero",
    "Optics.C61_not_finite"
   ],
   "note": "Exact arithmetic (the code computes tens with doubles); p >= 1; infinities raise OverflowError."
  },
  {
   "property": "C62",
   "status": "proved",
   "theorems": [
    "Optics.C62_cube",
    "Optics.C62_smallest"
   ],
   "note": ""
  },
  {
   "property": "C63",
   "status": "partial",
   "theorems": [
    "Optics.C63_walk",
    "Optics.C63_flat_partial",
    "Optics.C63_directory_matches",
    "Optics.C63_counterexample",
    "Optics.C63_no_folder"
   ],
   "note": "deleteInSubDirectories=True: proved. Without it: proved unless a directory itself matches the extension; then os.remove raises and the rest is left (C63_directory_matches, C63_counterexample)."
  },
  {
   "property": "C64",
   "status": "proved",
   "theorems": [
    "Optics.C64_layout",
    "Optics.C64_lines",
    "Optics.C64_empty"
   ],
   "note": ""
  },
  {
   "property": "C65",
   "status": "partial",
   "theorems": [
    "Optics.C65_length_partial",
    "Optics.C65_polynomial",
    "Optics.C65_rising_line",
    "Optics.C65_short",
    "Optics.C65_counterexample",
    "Optics.C65_bad_window",
    "Optics.C65_bad_input",
    "Optics.C65_falling_line"
   ],
   "note": "pinv is a parameter satisfying the Penrose equations. Length: proved for signals longer than half the window; shorter ones get |3n-2-window|+1 entries (C65_short, C65_counterexample)."
  },
  {
   "property": "C66",
   "status": "partial",
   "theorems": [
    "Optics.C66_length",
    "Optics.C66_entries",
    "Optics.C66_mean",
    "Optics.C66_bounds_inside",
    "Optics.C66_bounds_partial",
    "Optics.C66_counterexample",
    "Optics.C66_errors"
   ],
   "note": "Length, every entry, means, constants and bounds away from the ends: proved. Bounds at the ends hold only if they enclose zero (C66_counterexample: 2/3 from a constant 1)."
  },
  {
   "property": "C67",
   "status": "partial",
   "theorems": [
    "Optics.C67_returns_partial",
    "Optics.C67_value",
    "Optics.C67_counterexample",
    "Optics.C67_new_numpy"
   ],
   "note": "False as stated: UnboundLocalError for eta > 20 and other orders, TypeError with numpy >= 1.18. C67_returns_partial says exactly which calls return."
  },
  {
   "property": "C68",
   "status": "partial",
   "theorems": [
    "Optics.C68_finite_partial",
    "Optics.C68_finite_without_gratings_partial",
    "Optics.C68_finite_order_zero_partial",
    "Optics.C68_only_gratings_partial",
    "Optics.C68_counterexample"
   ],
   "note": "False only through gratings: C68_only_gratings_partial shows that nan comes from nothing but a grating met in an order it does not have, and describes that state exactly (C68_counterexample is such a run); finite otherwise, unconditionally without gratings or with rays of order 0."
  },
  {
   "property": "C69",
   "status": "proved",
   "theorems": [
    "Optics.C69_constructors",
    "Optics.C69_translation",
    "Optics.C69_directions",
    "Optics.C69_rigid",
    "Optics.C69_rotation_counterexample"
   ],
   "note": "Every well-formed scene, exceptions and rays lost at gratings included. Also all rigid motions when no lens of type \"ideal\" is present (C69_rigid); for those lenses rotation equivariance is false (C69_rotation_counterexample, component-wise allclose)."
  },
  {
   "property": "C70",
   "status": "proved",
   "theorems": [
    "Optics.C70_patch_offset",
    "Optics.C70_patch_congruent",
    "Optics.C70_string_normal_raises"
   ],
   "note": "Array normal, as the optics call it. Side theorem: a string normal always raises."
  },
  {
   "property": "C71",
   "status": "proved",
   "theorems": [
    "Optics.C71_no_exception",
    "Optics.C71_exception"
   ],
   "note": ""
  },
  {
   "property": "C72",
   "status": "proved",
   "theorems": [
    "Optics.C72_through_ball"
   ],
   "note": ""
  },
  {
   "property": "C73",
   "status": "proved",
   "theorems": [
    "Optics.C73_quantum_concentration",
    "Optics.C73_additive",
    "Optics.C73_expansion",
    "Optics.C73_heating",
    "Optics.C73_positive"
   ],
   "note": ""
  },
  {
   "property": "C74",
   "status": "proved",
   "theorems": [
    "Optics.C74_order",
    "Optics.C74_positive",
    "Optics.C74_nondegenerate",
    "Optics.C74_degenerate",
    "Optics.C74_continuous_at_zero"
   ],
   "note": ""
  },
  {
   "property": "C75",
   "status": "proved",
   "theorems": [
    "Optics.C75_disc_mirror",
    "Optics.C75_disc_lens",
    "Optics.C75_concave"
   ],
   "note": "The circle path is a parameter: its image is isometric, so the drawn curve is the circle of radius D/2. A concave mirror is drawn as its flat aperture."
  },
  {
   "property": "C76",
   "status": "proved",
   "theorems": [
    "Optics.C76_ball_mirror",
    "Optics.C76_ball_lens"
   ],
   "note": ""
  },
  {
   "property": "C77",
   "status": "partial",
   "theorems": [
    "Optics.C77_rectangle_mirror_partial",
    "Optics.C77_grating_partial",
    "Optics.C77_counterexample",
    "Optics.C77_counterexample_grating"
   ],
   "note": "False: draw ignores the tangent. C77_*_partial give the exact condition on the tangent under which what is drawn is what is hit; C77_counterexample has, for every normal, a drawn corner no ray can hit."
  },
  {
   "property": "C78",
   "status": "proved",
   "theorems": [
    "Optics.C78_detector"
   ],
   "note": ""
  },
  {
   "property": "C79",
   "status": "proved",
   "theorems": [
    "Optics.C79_three_d",
    "Optics.C79_two_d",
    "Optics.C79_other_views",
    "Optics.C79_unchanged"
   ],
   "note": ""
  },
  {
   "property": "C80",
   "status": "proved",
   "theorems": [
    "Optics.C80_unfolding",
    "Optics.C80_end_point"
   ],
   "note": "In numpy arithmetic (nan and infinities included) with exact rounding; ordinary flat mirrors of type \"normal\"."
  },
  {
   "property": "C81",
   "status": "proved",
   "theorems": [
    "Optics.C81_reflection",
    "Optics.C81_refraction"
   ],
   "note": "The surface is its tangent plane; nothing is said about curved surfaces, where the path is stationary but need not be minimal."
  },
  {
   "property": "C82",
   "status": "proved",
   "theorems": [
    "Optics.C82_each_once",
    "Optics.C82_retroreflector"
   ],
   "note": "In numpy arithmetic with exact rounding. CornerCase.lean runs a ray over three discs."
  },
  {
   "property": "C83",
   "status": "proved",
   "theorems": [
    "Optics.C83_followed",
    "Optics.C83_reversible"
   ],
   "note": "In numpy arithmetic with exact rounding. The definition of a light path excludes legs of 1e-9 or less, grazing incidence and points shared by two mirrors, where the hit tests of the two directions differ."
  },
  {
   "property": "C84",
   "status": "proved",
   "theorems": [
    "Optics.C84_nondegenerate",
    "Optics.C84_leading_term",
    "Optics.C84_degenerate",
    "Optics.C84_moderate",
    "Optics.C84_roman",
    "Optics.C84_series",
    "Optics.C84_approx_degenerate"
   ],
   "note": "Over the reals (no rounding); on numpy versions that accept the float count. Between -2 and 1e5 the fitted polynomials of FD_int_approx are not compared with the integral."
  },
  {
   "property": "C85",
   "status": "proved",
   "theorems": [
    "Optics.C85_text",
    "Optics.C85_repr_raises",
    "Optics.C85_new",
    "Optics.C85_same_or_overflow",
    "Optics.C85_same",
    "Optics.C85_narrates",
    "Optics.C85_lines",
    "Optics.C85_infinite_distance",
    "Optics.C85_turned",
    "Optics.C85_turned_nan",
    "Optics.C85_base_repr",
    "Optics.C85_mirror_repr",
    "Optics.C85_lens_repr"
   ],
   "note": "How str.format writes the two numbers of the line about gratings and two alerts of general_optics.py are not modelled. The angle in that line is interpreted on the side of incidence where the code obeys the grating equation (C37)."
  },
  {
   "property": "C86",
   "status": "proved",
   "theorems": [
    "Optics.C86_detected",
    "Optics.C86_matrix",
    "Optics.C86_spread",
    "Optics.C86_undetected",
    "Optics.C86_image",
    "Optics.C86_single",
    "Optics.C86_relay",
    "Optics.C86_lagrange"
   ],
   "note": "In numpy arithmetic with exact rounding. Diverging lenses are excluded: the code sends their light back (C34/C35). Scripts.lean gives concrete scenes that meet all hypotheses."
  },
  {
   "property": "C87",
   "status": "proved",
   "theorems": [
    "Optics.C87_imaging",
    "Optics.C87_imaging_exact",
    "Optics.C87_relay",
    "Optics.C87_relay_exact"
   ],
   "note": "Scene and rays at exact rounding; printing and plotting of the scripts are left out."
  },
  {
   "property": "C88",
   "status": "proved",
   "theorems": [
    "Optics.C88_concave",
    "Optics.C88_convex",
    "Optics.C88_centre"
   ],
   "note": "In numpy arithmetic with exact rounding, in a scene of the one mirror."
  },
  {
   "property": "C89",
   "status": "proved",
   "theorems": [
    "Optics.C89_ray",
    "Optics.C89_mirror",
    "Optics.C89_lens",
    "Optics.C89_grating",
    "Optics.C89_detector",
    "Optics.C89_needs_a_direction",
    "Optics.C89_test",
    "Optics.C89_same_run",
    "Optics.C89_without_cylinders_and_gratings",
    "Optics.C89_order_zero",
    "Optics.C89_needs_an_order"
   ],
   "note": "numpy floats are the extended reals XR (exact rounding). Since the two runs agree, no division by zero of the real-number model matters under these hypotheses."
  },
  {
   "property": "C90",
   "status": "proved",
   "theorems": [
    "Optics.C90_angles",
    "Optics.C90_focus",
    "Optics.C90_paraxial",
    "Optics.C90_aberration"
   ],
   "note": "In numpy arithmetic with exact rounding, in a scene of the one lens. script_testBallLens.py itself passes thinlens=False, which Lens does not take."
  },
  {
   "property": "C91",
   "status": "proved",
   "theorems": [
    "Optics.C91_through",
    "Optics.C91_focal_length",
    "Optics.C91_trace",
    "Optics.C91_lensmaker",
    "Optics.C91_singlet_script",
    "Optics.C91_bestform_script"
   ],
   "note": "C91_through is the general statement in space for one ray; C91_trace the exact trace of a ray parallel to the axis (the functions sgF etc. are written out in Lemmas/SingletAxis), C91_lensmaker the limit, C91_focal_length identifies the limit with the lensmaker's equation; C91_singlet_script and C91_bestform_script are the scenes of the scripts, built by their constructors. The faerie-fire rays of the scripts are not part of the claim."
  },
  {
   "property": "C92",
   "status": "partial",
   "theorems": [
    "Optics.C92_probe",
    "Optics.C92_same_chord_difference",
    "Optics.C92_same_chord_intersect_wrong",
    "Optics.C92_intersect_partial",
    "Optics.C92_difference_partial",
    "Optics.C92_symmetric_lens",
    "Optics.C92_intersect_script",
    "Optics.C92_singlet_script",
    "Optics.C92_bestform_script_partial",
    "Optics.C92_difference_script"
   ],
   "note": "Partial because it fails for intersections: C92_same_chord_intersect_wrong shows that a ray whose chords of both spheres agree (it passes through the rim of the lens) is reported as a miss, and C92_intersect_script shows that exactly the probes with direction.y = 0 then fly through the solid. For differences the same tie is reported correctly (C92_same_chord_difference). C92_intersect_partial and C92_difference_partial assume NoTie."
  },
  {
   "property": "C93",
   "status": "proved",
   "theorems": [
    "Optics.C93_mirror_scripts",
    "Optics.C93_example_scripts",
    "Optics.C93_printed_indices"
   ],
   "note": "Printing and plotting are not modelled. Not covered: script_testBallLens.py passes a keyword that Lens does not have (a TypeError that the model cannot express), script_testBinaryTree.py and script_testMatrixTransforms.py run no rays."
  },
  {
   "property": "C94",
   "status": "proved",
   "theorems": [
    "Optics.C94_followed",
    "Optics.C94_detected"
   ],
   "note": "C94_followed and C94_detected, by induction over the route. The laws are stated in Spec/Routes.lean for Mathlib's Euclidean space. The lens law carries the condition that a direction within the tolerance of np.allclose of the axis is along the axis; gratings are covered for light that comes from the side for which the code's equation holds (see C37). Real-number arithmetic in XR, so numpy's infinities and nan are included, rounding is not. An example images the origin through a lens and a folding mirror onto a detector."
  },
  {
   "property": "C95",
   "status": "proved",
   "theorems": [
    "Optics.C95_image",
    "Optics.C95_script",
    "Optics.C95_injective"
   ],
   "note": "At exact real arithmetic (XR on lifted scenes). The rays in the tolerance band around the axes (an angle of less than about 1e-7) are excluded: thin_lens treats them as parallel to the axis."
  },
  {
   "property": "C96",
   "status": "proved",
   "theorems": [
    "Optics.C96_thinlens",
    "Optics.C96_thinlens_script",
    "Optics.C96_telescope",
    "Optics.C96_telescope_script",
    "Optics.C96_grating",
    "Optics.C96_grating_script",
    "Optics.C96_littrow",
    "Optics.C96_dispersion"
   ],
   "note": "At exact real arithmetic (XR on lifted scenes). The grating equation is the one of the code, which is right for incidence from this side (C37)."
  },
  {
   "property": "C97",
   "status": "proved",
   "theorems": [
    "Optics.C97_terminates",
    "Optics.C97_terminates_double",
    "Optics.C97_endless"
   ],
   "note": "The positive theorem is for every rounding with the laws of Model/Rounded; binary64 is proved to be one. The counterexample is a theorem about binary64."
  },
  {
   "property": "C98",
   "status": "proved",
   "theorems": [
    "Optics.C98_unit_vector",
    "Optics.C98_reflection",
    "Optics.C98_length",
    "Optics.C98_direction",
    "Optics.C98_double"
   ],
   "note": "Which mirrors are met is decided by the rounded positions; the theorem compares with the exact reflections in the mirrors that the rounded run meets. Positions are not compared."
  },
  {
   "property": "C99",
   "status": "proved",
   "theorems": [
    "Optics.C99_position",
    "Optics.C99_on_mirror",
    "Optics.C99_double"
   ],
   "note": "The theorem compares with the exact reflections in the mirrors that the rounded run meets; that an exact run would meet the same mirrors is not claimed (it is false for rays at the rim of a mirror)."
  },
  {
   "property": "C100",
   "status": "proved",
   "theorems": [
    "Optics.C100_no_second_hit",
    "Optics.C100_next_optic"
   ],
   "note": ""
  },
  {
   "property": "C101",
   "status": "partial",
   "theorems": [
    "Optics.C101_opaque_partial",
    "Optics.C101_single_ball",
    "Optics.C101_touched_behind",
    "Optics.C101_double"
   ],
   "note": "False with doubles (C101_double), and with exact numbers in scenes of several balls if the line of the ray touches a ball behind it (C101_touched_behind). C101_opaque_partial covers all other runs with exact numbers, C101_single_ball all runs around one ball. C104 gives a region near the ball in which this cannot happen."
  },
  {
   "property": "C102",
   "status": "partial",
   "theorems": [
    "Optics.C102_twice_partial",
    "Optics.C102_double",
    "Optics.C102_exact_focus"
   ],
   "note": "False with doubles (C102_double). C102_twice_partial is the statement for exact numbers; C102_exact_focus says where the ray of the counterexample should cross the axis (by C90). C105 gives a region near the ball in which this cannot happen."
  },
  {
   "property": "C103",
   "status": "proved",
   "theorems": [
    "Optics.C103_snell",
    "Optics.C103_exact",
    "Optics.C103_direction",
    "Optics.C103_chain"
   ],
   "note": "C103_snell is one refraction, C103_direction its accuracy, C103_chain the drift, C103_exact what the formula does with exact numbers to directions of other lengths. That the square root is never of a negative number needs that rounding is monotone and represents 1."
  },
  {
   "property": "C104",
   "status": "proved",
   "theorems": [
    "Optics.C104_one_reflection"
   ],
   "note": "Positive companion of the counterexamples of C101. BallAhead states the geometry without the model's functions; the example beside the theorem is a ball of diameter 25 with doubles."
  },
  {
   "property": "C105",
   "status": "proved",
   "theorems": [
    "Optics.C105_two_refractions"
   ],
   "note": "Positive companion of C102: there doubles refract twice on entry when the ball is far. The constants are not sharp. With doubles and a ball of diameter 25 the conditions allow distances of a few centimetres."
  },
  {
   "property": "C106",
   "status": "proved",
   "theorems": [
    "Optics.C106_unsigned",
    "Optics.C106_nan",
    "Optics.C106_signed"
   ],
   "note": "C106_nan is the counterexample with doubles. arccos and arctan2 count as correctly rounded."
  },
  {
   "property": "C107",
   "status": "proved",
   "theorems": [
    "Optics.C107_focus",
    "Optics.C107_image",
    "Optics.C107_image_any",
    "Optics.C107_first_pass",
    "Optics.C107_one_lens"
   ],
   "note": "C107_first_pass shows that the hypotheses on the pass are met for every lens ahead. Needs |cos| at least 1/1000 and 1000 X at most f."
  },
  {
   "property": "C108",
   "status": "proved",
   "theorems": [
    "Optics.C108_read",
    "Optics.C108_long_row",
    "Optics.C108_long_row_error",
    "Optics.C108_repeated",
    "Optics.C108_finishes",
    "Optics.C108_one_sketch",
    "Optics.C108_prefix",
    "Optics.C108_errors",
    "Optics.C108_empty_line",
    "Optics.C108_layout",
    "Optics.C108_colours"
   ],
   "note": "float() of a string is a parameter. The text of the title, line styles and the pdf file are not modelled."
  },
  {
   "property": "C109",
   "status": "proved",
   "theorems": [
    "Optics.C109_turn",
    "Optics.C109_length",
    "Optics.C109_axis",
    "Optics.C109_compose",
    "Optics.C109_back",
    "Optics.C109_zero",
    "Optics.C109_unit_test"
   ],
   "note": "Signed zeros are not distinguished by the model of rounded arithmetic."
  },
  {
   "property": "C110",
   "status": "partial",
   "theorems": [
    "Optics.C110_direction",
    "Optics.C110_groove",
    "Optics.C110_equation_partial",
    "Optics.C110_evanescent",
    "Optics.C110_built",
    "Optics.C110_do_intersect"
   ],
   "note": "The grating equation is proved for incidence from the front on the side where the formula of the code is right; on the other side it is wrong even with exact numbers (C37_counterexample), so that part of the claim is partial. C110_direction and C110_groove hold for both sides. Between the two bounds on the sine (within 1000 nu of 1) nothing is claimed."
  },
  {
   "property": "C111",
   "status": "proved",
   "theorems": [
    "Optics.C111_behind",
    "Optics.C111_rectangle_hit",
    "Optics.C111_rectangle_miss",
    "Optics.C111_disc_hit",
    "Optics.C111_disc_miss",
    "Optics.C111_builds",
    "Optics.C111_refuses"
   ],
   "note": "Inside the rim nothing is claimed: there the result depends on the rounding."
  },
  {
   "property": "C112",
   "status": "proved",
   "theorems": [
    "Optics.C112_diffracted",
    "Optics.C112_reflected",
    "Optics.C112_scene",
    "Optics.C112_script"
   ],
   "note": "The code's grating equation is meant (see C37 and C110 for the side of incidence on which it is wrong)."
  },
  {
   "property": "C113",
   "status": "proved",
   "theorems": [
    "Optics.C113_matrix",
    "Optics.C113_turn",
    "Optics.C113_opposite",
    "Optics.C113_invisible"
   ],
   "note": "The second half records a fault of the code, proved with doubles: an axis that is only nearly opposite to z makes the cylinder invisible, while with the exactly opposite axis the matrix is minus the identity and the cylinder works."
  },
  {
   "property": "C114",
   "status": "proved",
   "theorems": [
    "Optics.C114_transpose",
    "Optics.C114_transforms",
    "Optics.C114_transforms_rounded",
    "Optics.C114_prints",
    "Optics.C114_faithful",
    "Optics.C114_tree_script",
    "Optics.C114_ball_lens"
   ],
   "note": ""
  },
  {
   "property": "C115",
   "status": "proved",
   "theorems": [
    "Optics.C115_hit",
    "Optics.C115_point"
   ],
   "note": ""
  },
  {
   "property": "C116",
   "status": "proved",
   "theorems": [
    "Optics.C116_one_reflection",
    "Optics.C116_faerie_fire",
    "Optics.C116_script"
   ],
   "note": ""
  },
  {
   "property": "C117",
   "status": "proved",
   "theorems": [
    "Optics.C117_pieces",
    "Optics.C117_points",
    "Optics.C117_power_law",
    "Optics.C117_inverse",
    "Optics.C117_raises"
   ],
   "note": "scipy's InterpolatedUnivariateSpline with k=1 is modelled after its documentation; exact reals; the class of the exception for fewer than two points is not modelled"
  },
  {
   "property": "C118",
   "status": "proved",
   "theorems": [
    "Optics.C118_rows",
    "Optics.C118_read_back",
    "Optics.C118_glued"
   ],
   "note": "one-dimensional float arrays; numpy's _formatArray (1.14 and later) written out; the text of a single number is a parameter"
  },
  {
   "property": "C119",
   "status": "proved",
   "theorems": [
    "Optics.C119_recorded",
    "Optics.C119_bench",
    "Optics.C119_script"
   ],
   "note": ""
  },
  {
   "property": "C120",
   "status": "proved",
   "theorems": [
    "Optics.C120_bench",
    "Optics.C120_script",
    "Optics.C120_train"
   ],
   "note": "C120_bench also gives a LensTrain of two lenses, a concrete case of the hypothesis of C120_train."
  },
  {
   "property": "C121",
   "status": "proved",
   "theorems": [
    "Optics.C121_collimate",
    "Optics.C121_focus",
    "Optics.C121_telescope"
   ],
   "note": "C121_telescope also gives a pass through each lens of the script, concrete cases of the hypotheses of C121_collimate and C121_focus."
  }
 ]
}
