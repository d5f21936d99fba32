{
 "claims": [
  {
   "property": "C01",
   "status": "proved",
   "theorems": [
    "Props.C01_rotate_preserves_inner",
    "Props.C01_rotate_preserves_norm",
    "Props.C01_rotate_fixes_axis",
    "Props.C01_rotate_composes",
    "Props.C01_rotate_full_turns",
    "Props.C01_rotate_right_hand_rule",
    "Props.C01_rotateList_elementwise"
   ],
   "note": "Rodrigues rotation over the reals; list overload included."
  },
  {
   "property": "C02",
   "status": "proved",
   "theorems": [
    "Props.C02_direction_unit",
    "Props.C02_direction_invalid_iff_zero",
    "Props.C02_direction_unique",
    "Props.C02_invert"
   ],
   "note": "Constructor of 3d directions; zero vector is the nan outcome."
  },
  {
   "property": "C03",
   "status": "proved",
   "theorems": [
    "Props.C03_orthogonal_vector",
    "Props.C03_plane_from_normal",
    "Props.C03_plane_from_points",
    "Props.C03_plane_from_collinear_points",
    "Props.C03_supporting_plane"
   ],
   "note": "Both constructors, collinear points give the nan outcome."
  },
  {
   "property": "C04",
   "status": "partial",
   "theorems": [
    "Props.C04_disproof",
    "Props.C04_antiparallel_never_detected",
    "Props.C04_parallel_partial",
    "Props.C04_parallel_iff_angle_partial"
   ],
   "note": "Violated by the code: anti-parallel vectors are never detected (C04_disproof). Partial theorems state what the test decides."
  },
  {
   "property": "C05",
   "status": "proved",
   "theorems": [
    "Props.C05_common_point_detected",
    "Props.C05_default_tolerance",
    "Props.C05_detected_is_close",
    "Props.C05_default_is_close",
    "Props.C05_touching_zero_tolerance_not_detected"
   ],
   "note": "Exact arithmetic; needs a positive tolerance, the zero-tolerance case is shown to fail."
  },
  {
   "property": "C06",
   "status": "partial",
   "theorems": [
    "Props.C06_disproof",
    "Props.C06_symmetric_partial"
   ],
   "note": "Violated by the code for boxes of zero extent (C06_disproof); proved for boxes of positive extent."
  },
  {
   "property": "C07",
   "status": "proved",
   "theorems": [
    "Props.C07_plane_projection_of_segment",
    "Props.C07_plane_projection_nearest",
    "Props.C07_line_projection_nearest",
    "Props.C07_plane_projection_of_line"
   ],
   "note": "Planes, lines, and projection of lines onto planes."
  },
  {
   "property": "C08",
   "status": "proved",
   "theorems": [
    "Props.C08_contains_iff_within_eps",
    "Props.C08_points_contained",
    "Props.C08_skip_line_check",
    "Props.C08_getPoint_on_segment",
    "Props.C08_reversed_contains",
    "Props.C08_degenerate_contains_nothing"
   ],
   "note": "Exact characterisation for every non-degenerate segment; degenerate segments contain nothing."
  },
  {
   "property": "C09",
   "status": "proved",
   "theorems": [
    "Props.C09_make_valid",
    "Props.C09_circle_valid",
    "Props.C09_ellipse_points_on_curve",
    "Props.C09_ellipse_points_reached",
    "Props.C09_ellipse_contains",
    "Props.C09_ellipse_contained_on_curve",
    "Props.C09_circle_points",
    "Props.C09_circle_points_reached"
   ],
   "note": "Every ellipse/circle with orthonormal axes and positive lengths."
  },
  {
   "property": "C10",
   "status": "proved",
   "theorems": [
    "Props.C10_angle_of_point",
    "Props.C10_angle_at_axes",
    "Props.C10_point_of_angle",
    "Props.C10_param_range",
    "Props.C10_off_ellipse_rejected",
    "Props.C10_param_rejected"
   ],
   "note": "Exact outside the tolerance windows around the axes; inside them the returned point differs by at most the tolerance."
  },
  {
   "property": "C11",
   "status": "partial",
   "theorems": [
    "Props.C11_points_contained_partial",
    "Props.C11_end_points",
    "Props.C11_disproof",
    "Props.C11_short_arc_disproof",
    "Props.C11_off_ellipse"
   ],
   "note": "Violated by the code for full ellipses not starting at angle zero (C11_disproof) and for distinct end points in the same tolerance window of an axis (C11_short_arc_disproof); proved whenever source and target angle differ."
  },
  {
   "property": "C12",
   "status": "partial",
   "theorems": [
    "Props.C12_point_partial",
    "Props.C12_outside",
    "Props.C12_disproof",
    "Props.C12_disk_points_contained",
    "Props.C12_contained_in_disk"
   ],
   "note": "Violated by the code: for every r > 0 the point is outside of the disk (C12_outside, C12_disproof). The exact point is given, and containment on disks is characterised."
  },
  {
   "property": "C13",
   "status": "proved",
   "theorems": [
    "Props.C13_construction",
    "Props.C13_corners",
    "Props.C13_edges",
    "Props.C13_faces",
    "Props.C13_contains",
    "Props.C13_center_volume"
   ],
   "note": "Corners, edges, faces, containment."
  },
  {
   "property": "C14",
   "status": "proved",
   "theorems": [
    "Props.C14_construction",
    "Props.C14_axis_aligned",
    "Props.C14_contains_iff",
    "Props.C14_points_contained",
    "Props.C14_contained_in",
    "Props.C14_sampler_in_cylinder",
    "Props.C14_sampler_covers",
    "Props.C14_box_sampler"
   ],
   "note": "Any cylinder of positive radius and height; also the sampler covers the cylinder; box sampler included."
  },
  {
   "property": "C15",
   "status": "proved",
   "theorems": [
    "Props.C15_construction",
    "Props.C15_axis_aligned",
    "Props.C15_volume",
    "Props.C15_contains_iff",
    "Props.C15_contains_shell",
    "Props.C15_sampler_in_shell"
   ],
   "note": "Any hollow cylinder with 0 <= inner <= outer, positive outer radius and height."
  },
  {
   "property": "C16",
   "status": "partial",
   "theorems": [
    "Props.C16_cylinder_disproof",
    "Props.C16_hollow_disproof",
    "Props.C16_cylinder_partial",
    "Props.C16_hollow_partial",
    "Props.C16_box_and_other"
   ],
   "note": "Violated by the Python code, which requests [0, r] instead of [0, r*r] for the squared radius (C16_cylinder_disproof, C16_hollow_disproof); the radii for which the points stay inside are characterised."
  },
  {
   "property": "C17",
   "status": "partial",
   "theorems": [
    "Props.C17_default_contains_is_ub",
    "Props.C17_disproof",
    "Props.C17_corner_access_partial"
   ],
   "note": "Violated by the code: the default-tolerance overload reads corner(3) of a three-element array, undefined behaviour for every input (C17_default_contains_is_ub, C17_disproof). Corner/edge access is proved."
  },
  {
   "property": "C18",
   "status": "proved",
   "theorems": [
    "Props.C18_quadrilateral_area",
    "Props.C18_quadrilateral_points_contained",
    "Props.C18_quadrilateral_accepted_in_quadrilateral",
    "Props.C18_concave_area_wrong",
    "Props.C18_triangle_points_contained",
    "Props.C18_triangle_accepted_is_close",
    "Props.C18_triangle_accepted_in_triangle"
   ],
   "note": "Triangles and convex quadrilaterals with a proper first corner; also shows that a concave quadrilateral stores a wrong area."
  },
  {
   "property": "C19",
   "status": "proved",
   "theorems": [
    "Props.C19_flag_iff_convex",
    "Props.C19_flag_iff_same_turns"
   ],
   "note": "Any plane, either orientation; requires a proper first corner (C19_flag_iff_convex) or four proper corners."
  },
  {
   "property": "C20",
   "status": "partial",
   "theorems": [
    "Props.C20_disproof",
    "Props.C20_wrong_area",
    "Props.C20_flag_decides_partial",
    "Props.C20_flag_sound_partial",
    "Props.C20_convex_is_flagged",
    "Props.C20_pentagram_flagged"
   ],
   "note": "Violated by the code: corner 1 is never checked (C20_disproof with a dart; C20_wrong_area). Partial theorems state exactly what the flag decides; convex polygons are always flagged convex."
  },
  {
   "property": "C21",
   "status": "proved",
   "theorems": [
    "Props.C21_few_corners_rejected",
    "Props.C21_triangulation",
    "Props.C21_area",
    "Props.C21_centre_within"
   ],
   "note": "Any number of corners."
  },
  {
   "property": "C22",
   "status": "partial",
   "theorems": [
    "Props.C22_points_contained_partial",
    "Props.C22_hull_contained_partial",
    "Props.C22_accepted_in_polygon",
    "Props.C22_nonconvex_rejected",
    "Props.C22_disproof"
   ],
   "note": "Violated by the code if the first three corners are collinear (C22_disproof); proved for any number of corners otherwise."
  },
  {
   "property": "C23",
   "status": "proved",
   "theorems": [
    "Props.C23_point",
    "Props.C23_segment",
    "Props.C23_circle",
    "Props.C23_disk",
    "Props.C23_triangle",
    "Props.C23_cylinder_surface",
    "Props.C23_box",
    "Props.C23_sphere",
    "Props.C23_cylinder",
    "Props.C23_hollow_cylinder",
    "Props.C23_polygon",
    "Props.C23_quadrilateral"
   ],
   "note": "Lebesgue measure of the (planar) regions in local coordinates (for quadrilaterals and polygons: of the convex hull of the corners), integrals for curves and the cylinder surface."
  },
  {
   "property": "C24",
   "status": "proved",
   "theorems": [
    "Props.C24_point_point",
    "Props.C24_point_line",
    "Props.C24_point_segment",
    "Props.C24_point_segment_error",
    "Props.C24_list",
    "Props.C24_empty_list",
    "Props.C24_python_list"
   ],
   "note": "All points, lines, segments and lists."
  },
  {
   "property": "C25",
   "status": "proved",
   "theorems": [
    "Props.C25_quadrilateral",
    "Props.C25_polygon"
   ],
   "note": "All quadrilaterals and polygons, any number of corners."
  },
  {
   "property": "C26",
   "status": "proved",
   "theorems": [
    "Props.C26_valid",
    "Props.C26_terminates"
   ],
   "note": "All draws; termination as soon as the streams contain admissible values."
  },
  {
   "property": "C27",
   "status": "partial",
   "theorems": [
    "Props.C27_polygon_partial",
    "Props.C27_python_partial",
    "Props.C27_python_returns",
    "Props.C27_structure",
    "Props.C27_convex_partial",
    "Props.C27_quadrilateral",
    "Props.C27_disproof"
   ],
   "note": "Structure, plane, position and size proved for all draws (C++) and for the Python implementation. Convexity violated for edge components below 1e-6, which the angular sort takes for zero (C27_disproof); proved if there are none."
  },
  {
   "property": "C28",
   "status": "partial",
   "theorems": [
    "Props.C28_error_partial",
    "Props.C28_values_partial",
    "Props.C28_disproof",
    "Props.C28_hundredth_try",
    "Props.C28_python_strike",
    "Props.C28_python_outcome",
    "Props.C28_python_never_ends",
    "Props.C28_python_dip_not_redrawn",
    "Props.C28_python_disproof"
   ],
   "note": "Violated by the code: the dip length is not checked (C28_disproof) and the 100th number of corners is refused (C28_hundredth_try); the Python loops never end or never redraw (C28_python_*). C28_error_partial gives the exact condition for errors."
  },
  {
   "property": "C29",
   "status": "partial",
   "theorems": [
    "Props.C29_cpp_partial",
    "Props.C29_disproof",
    "Props.C29_python",
    "Props.C29_python_edges"
   ],
   "note": "Violated by the C++ code (C29_disproof): rejected draws are never replaced. Proved for the Python implementation."
  },
  {
   "property": "C30",
   "status": "proved",
   "theorems": [
    "Props.C30_counters",
    "Props.C30_finished_sound",
    "Props.C30_finished",
    "Props.C30_finished_id"
   ],
   "note": "Every history; finished() for every iteration order of the map. Single-counter resets and queries of unknown ids are treated in C31."
  },
  {
   "property": "C31",
   "status": "partial",
   "theorems": [
    "Props.C31_disproof",
    "Props.C31_reset_disproof",
    "Props.C31_queries_partial"
   ],
   "note": "Violated by the code: getCount(id) and resetCounter(id) insert unknown ids without target, after which finished() throws (C31_disproof). Proved for known ids."
  },
  {
   "property": "C32",
   "status": "partial",
   "theorems": [
    "Props.C32_value",
    "Props.C32_total_partial",
    "Props.C32_disproof"
   ],
   "note": "Violated by the code from 2^31 samples on (C32_disproof): the accumulator is an int. Exact value given by C32_value; right below 2^31."
  },
  {
   "property": "C33",
   "status": "proved",
   "theorems": [
    "Props.C33_order",
    "Props.C33_fair",
    "Props.C33_register_twice",
    "Props.C33_register_succeeds",
    "Props.C33_throws_iff"
   ],
   "note": "Every history of registrations and calls."
  },
  {
   "property": "C34",
   "status": "proved",
   "theorems": [
    "Props.C34_sound",
    "Props.C34_unknown",
    "Props.C34_register",
    "Props.C34_served",
    "Props.C34_exchange_loses_ids"
   ],
   "note": "Every strategy and every history of registrations and calls; C34_exchange_loses_ids shows what setSamplingStrategy does to earlier registrations."
  },
  {
   "property": "C35",
   "status": "partial",
   "theorems": [
    "Props.C35_accepts_exact",
    "Props.C35_accepts_iff_partial",
    "Props.C35_inactive",
    "Props.C35_rejects",
    "Props.C35_history",
    "Props.C35_monotone",
    "Props.C35_nan_accepted",
    "Props.C35_disproof",
    "Props.C35_nan_rejected",
    "Props.C35_equidimensional_throws"
   ],
   "note": "Violated by the code (C35_disproof, C35_nan_accepted): a computed angle that is NaN is accepted for every minimum angle (angles of tangent planes in double precision can be NaN, see C86). Proved: the exact decision for any intersection, angle, distance and magnitude functions (engine parameter) and every history of setters, where NaN angles count as large enough (C35_accepts_exact), hence the claim if no value is NaN (C35_accepts_iff_partial); NaN distances and magnitudes are rejected (C35_nan_rejected). With no constraint configured everything is accepted (C35_inactive). C35_equidimensional_throws records the one combination that throws."
  },
  {
   "property": "C36",
   "status": "partial",
   "theorems": [
    "Props.C36_disproof",
    "Props.C36_rejects_partial"
   ],
   "note": "Violated by the code if no constraint is configured (C36_disproof); proved whenever at least one is."
  },
  {
   "property": "C37",
   "status": "proved",
   "theorems": [
    "Props.C37_set",
    "Props.C37_sets",
    "Props.C37_order",
    "Props.C37_empty",
    "Props.C37_first_failure",
    "Props.C37_order_set",
    "Props.C37_sets_first_failure"
   ],
   "note": "All sets; the pairs are evaluated with the element of the set as first argument."
  },
  {
   "property": "C38",
   "status": "proved",
   "theorems": [
    "Props.C38_accepts_iff",
    "Props.C38_rejects_iff",
    "Props.C38_unregistered",
    "Props.C38_register",
    "Props.C38_unique"
   ],
   "note": "Every history of registrations (including failing ones) and every content of the entity sets."
  },
  {
   "property": "C39",
   "status": "partial",
   "theorems": [
    "Props.C39_disproof",
    "Props.C39_second_id_throws",
    "Props.C39_both_orders_partial"
   ],
   "note": "Violated by the code (C39_disproof, C39_second_id_throws): constraints are stored under the first id only. Proved for pairs registered in both orders."
  },
  {
   "property": "C40",
   "status": "partial",
   "theorems": [
    "Props.C40_accepts_iff",
    "Props.C40_disproof",
    "Props.C40_accepts_partial",
    "Props.C40_rejects_sound",
    "Props.C40_register"
   ],
   "note": "Violated by the code (C40_disproof): only ids that occur as first id are visited. C40_accepts_iff gives the exact behaviour; rejections are always justified."
  },
  {
   "property": "C41",
   "status": "partial",
   "theorems": [
    "Props.C41_disproof",
    "Props.C41_throws",
    "Props.C41_accepts_partial"
   ],
   "note": "Violated by the code (C41_disproof, C41_throws): evalList refers to the wrong variable. Proved for a geometry as second argument."
  },
  {
   "property": "C42",
   "status": "proved",
   "theorems": [
    "Props.C42_add",
    "Props.C42_sets",
    "Props.C42_num_of_id",
    "Props.C42_num",
    "Props.C42_export",
    "Props.C42_export_ids",
    "Props.C42_pointer",
    "Props.C42_pointer_unknown"
   ],
   "note": "Every history over any number of geometry types and ids, every traversal order of the map."
  },
  {
   "property": "C43",
   "status": "partial",
   "theorems": [
    "Props.C43_consistent",
    "Props.C43_refuses",
    "Props.C43_disproof",
    "Props.C43_accepts_partial"
   ],
   "note": "Every history: registrations stay consistent and offending calls change nothing (C43_consistent, C43_refuses). Violated in one respect (C43_disproof): a geometry without shape (Triangle, HollowCylinder) throws but leaves the dimension set, so that later consistent calls are refused; acceptance proved for supported geometries."
  },
  {
   "property": "C44",
   "status": "partial",
   "theorems": [
    "Props.C44_contained_partial",
    "Props.C44_network_partial",
    "Props.C44_build_succeeds",
    "Props.C44_confined_partial",
    "Props.C44_disproof"
   ],
   "note": "Every history, traversal order and behaviour of the CAD kernel, for shape objects not shared between sub-domains. Violated by the code for shared shape objects (C44_disproof). The internal index errors never occur (C44_build_succeeds)."
  },
  {
   "property": "C45",
   "status": "partial",
   "theorems": [
    "Props.C45_distinct_partial",
    "Props.C45_collision",
    "Props.C45_disproof"
   ],
   "note": "Violated by the code if entities are lost by confinement (C45_collision for both traversal orders, C45_disproof); proved if every entity keeps a fragment of its own."
  },
  {
   "property": "C46",
   "status": "partial",
   "theorems": [
    "Props.C46_clear_partial",
    "Props.C46_clear_registered_partial",
    "Props.C46_function",
    "Props.C46_network_access",
    "Props.C46_disproof",
    "Props.C46_tolerance_kept"
   ],
   "note": "Violated by the code (C46_disproof): clear() keeps the default tolerance of an earlier build. C46_tolerance_kept: the first build fixes the tolerance of all later ones, whatever is registered and cleared in between. Proved with explicitly set tolerance or without earlier builds; access to the network proved for every history."
  },
  {
   "property": "C47",
   "status": "proved",
   "theorems": [
    "Props.C47_network",
    "Props.C47_contained",
    "Props.C47_dimension"
   ],
   "note": "Every network, topology of shapes (as explored by OpenCASCADE) and order of sub-domains."
  },
  {
   "property": "C48",
   "status": "partial",
   "theorems": [
    "Props.C48_contained_partial",
    "Props.C48_network_partial",
    "Props.C48_forward",
    "Props.C48_disproof"
   ],
   "note": "Violated by the code (C48_disproof): an edge that is added to the compound through the domain boundary in the other orientation is not exported. Proved: listed edges are shared, none is listed twice, complete up to orientation; full claim for uncontained networks of forward fragments (C48_forward)."
  },
  {
   "property": "C49",
   "status": "proved",
   "theorems": [
    "Props.C49_contained",
    "Props.C49_network"
   ],
   "note": "Every network and every traversal order of the maps."
  },
  {
   "property": "C50",
   "status": "partial",
   "theorems": [
    "Props.C50_interface_polygon_disk_partial",
    "Props.C50_interface_disks_partial",
    "Props.C50_interface_quadrilateral_disk_partial",
    "Props.C50_interface_quadrilaterals_partial",
    "Props.C50_interface_polygons_partial",
    "Props.C50_result_partial",
    "Props.C50_touching_lost",
    "Props.C50_parallel_planes",
    "Props.C50_disk_disk_partial",
    "Props.C50_quadrilateral_disk_partial",
    "Props.C50_quadrilateral_quadrilateral_partial",
    "Props.C50_polygon_polygon_partial",
    "Props.C50_polygon_disk_partial",
    "Props.C50_disproof",
    "Props.C50_disks_lost"
   ],
   "note": "Violated by the code (C50_disproof, C50_disks_lost): if both entities meet the line of intersection of their planes in the same single point, the result is empty. Otherwise proved for all pairs of disks, quadrilaterals and convex polygons with exact boolean operations (ExactCut, ExactLine); for a polygon and a disk the disk must not be too large (see C54). Parallel planes: C50_parallel_planes."
  },
  {
   "property": "C51",
   "status": "partial",
   "theorems": [
    "Props.C51_overlap_partial",
    "Props.C51_exact_overlap_partial",
    "Props.C51_disjoint_partial",
    "Props.C51_disproof"
   ],
   "note": "Violated by the code (C51_disproof): segments touching in an end point give a segment of zero length instead of a point. Overlapping segments are proved for any kernel (up to the tolerance, and exactly if no end points are closer than it), disjoint ones for a kernel that leaves disjoint edges unsplit."
  },
  {
   "property": "C52",
   "status": "proved",
   "theorems": [
    "Props.C52_arc",
    "Props.C52_oblique",
    "Props.C52_orthogonal",
    "Props.C52_nearly_orthogonal",
    "Props.C52_disk",
    "Props.C52_quadrilateral",
    "Props.C52_polygon",
    "Props.C52_results"
   ],
   "note": "Exact kernel intersection of plane and axis as hypothesis (ExactPlaneLine). Exact for inclined and for orthogonal planes, error bounds for planes orthogonal up to 1e-10 only; C52_results covers the whole algorithm for any boolean operations; C52_disk, C52_quadrilateral and C52_polygon apply it to the geometries of the interface."
  },
  {
   "property": "C53",
   "status": "proved",
   "theorems": [
    "Props.C53_plane_angle",
    "Props.C53_list_minimum",
    "Props.C53_ellipse_minimum",
    "Props.C53_planar_geometries",
    "Props.C53_cylinder_point",
    "Props.C53_cylinder_segment",
    "Props.C53_cylinder_arc",
    "Props.C53_unsupported",
    "Props.C53_overlap",
    "Props.C53_edge_samples",
    "Props.C53_entities"
   ],
   "note": "All planes, cylinder surfaces and intersection geometries. On segments, arcs and edges of curved geometries the code examines five or nine points: the theorems state the minimum over these."
  },
  {
   "property": "C54",
   "status": "partial",
   "theorems": [
    "Props.C54_disk_line",
    "Props.C54_disk_disk",
    "Props.C54_quadrilateral_line",
    "Props.C54_quadrilateral_disk",
    "Props.C54_quadrilateral_quadrilateral",
    "Props.C54_polygon_polygon",
    "Props.C54_polygon_disk_partial",
    "Props.C54_polygon_small_disk_partial",
    "Props.C54_disproof",
    "Props.C54_disk_missed"
   ],
   "note": "Violated by the code for a polygon and a disk (C54_disproof, C54_disk_missed): the size of the disk is not used. Proved for all other pairs."
  },
  {
   "property": "C55",
   "status": "proved",
   "theorems": [
    "Props.C55_recognised",
    "Props.C55_cylinder_planar",
    "Props.C55_face_face",
    "Props.C55_wellFormed_empty"
   ],
   "note": "All results."
  },
  {
   "property": "C56",
   "status": "partial",
   "theorems": [
    "Props.C56_length_partial",
    "Props.C56_disproof",
    "Props.C56_full_arc"
   ],
   "note": "Violated by the code (C56_disproof): pi*(a+b) is used, which is right for circles only; C56_length_partial gives the exact discrepancy."
  },
  {
   "property": "C57",
   "status": "proved",
   "theorems": [
    "Props.C57_quadrilateral",
    "Props.C57_polygon"
   ],
   "note": "All points, tolerances, quadrilaterals and polygons."
  },
  {
   "property": "C58",
   "status": "partial",
   "theorems": [
    "Props.C58_wrong_parameter_partial",
    "Props.C58_flat_partial",
    "Props.C58_two_faces_partial",
    "Props.C58_disproof"
   ],
   "note": "Violated by the code (C58_disproof): the surface parameter of the derivative is taken from the projected point. Proved for flat faces, for two faces, and the parameter actually used is characterised."
  },
  {
   "property": "C59",
   "status": "proved",
   "theorems": [
    "Props.C59_point_near_both",
    "Props.C59_crossing_found",
    "Props.C59_disjoint_empty",
    "Props.C59_outcomes"
   ],
   "note": "First claim for any behaviour of the kernel; the others under ExactFragments (OpenCASCADE splits at the common point)."
  },
  {
   "property": "C60",
   "status": "proved",
   "theorems": [
    "Props.C60_cylinder_planar",
    "Props.C60_face_face",
    "Props.C60_face_face_complete"
   ],
   "note": "All results of the boolean operations."
  },
  {
   "property": "C61",
   "status": "proved",
   "theorems": [
    "Props.C61_two_sets",
    "Props.C61_example1",
    "Props.C61_compatible_iff",
    "Props.C61_no_failure",
    "Props.C61_rejections",
    "Props.C61_terminates",
    "Props.C61_example2",
    "Props.C61_drawn2",
    "Props.C61_no_failure2",
    "Props.C61_rejections2"
   ],
   "note": "Candidates and geometric computations arbitrary (also failing); counts for any targets (C61_two_sets). Angles that are NaN count as compatible, see C35 (C61_compatible_iff)."
  },
  {
   "property": "C62",
   "status": "proved",
   "theorems": [
    "Props.C62_network",
    "Props.C62_example3",
    "Props.C62_no_failure",
    "Props.C62_terminates"
   ],
   "note": "Candidates and geometric computations arbitrary (also failing); counts for any targets (C62_network). Angles that are NaN count as compatible, see C35 (C61_compatible_iff). C62_terminates: with candidates that are large enough and compatible with the ones before the loop ends, after the stated number of passes."
  },
  {
   "property": "C63",
   "status": "proved",
   "theorems": [
    "Props.C63_network",
    "Props.C63_terminates"
   ],
   "note": "Candidates and geometric computations arbitrary (also failing); counts for any targets. Angles that are NaN count as compatible, see C35 (C61_compatible_iff). C63_terminates: with candidates that are large enough and compatible with the ones before the loop ends."
  },
  {
   "property": "C64",
   "status": "proved",
   "theorems": [
    "Props.C64_network",
    "Props.C64_example4"
   ],
   "note": "Candidates and geometric computations arbitrary (also failing); any number of desired entities and tries (C64_network), in particular example 4 (C64_example4). Angles that are NaN count as compatible, see C35 (C61_compatible_iff)."
  },
  {
   "property": "C65",
   "status": "partial",
   "theorems": [
    "Props.C65_limit_disproof",
    "Props.C65_message_disproof",
    "Props.C65_limit_partial"
   ],
   "note": "Violated by the code: 501 candidates are tried (C65_limit_disproof), and a search that succeeds with the last two candidates is reported as unsuccessful (C65_message_disproof). Proved: at most 501 rejections per entity, unsuccessful searches are always reported."
  },
  {
   "property": "C66",
   "status": "partial",
   "theorems": [
    "Props.C66_disproof",
    "Props.C66_python_partial",
    "Props.C66_cpp_partial"
   ],
   "note": "Violated by the C++ version (C66_disproof: the distance 0.15 is assigned to the constraints of the second set); proved for the Python version, and with 0.15 for both sets in the C++ version."
  },
  {
   "property": "C67",
   "status": "partial",
   "theorems": [
    "Props.C67_print_partial",
    "Props.C67_overflow",
    "Props.C67_undefined",
    "Props.C67_disproof",
    "Props.C67_aligned_disproof"
   ],
   "note": "Violated by the code (C67_disproof, C67_undefined, C67_overflow, C67_aligned_disproof): printing is undefined before the first sample (NaN converted to int), throws from 100000 % progress on (unsigned padding wraps around), and columns are shifted if a ratio is rounded up to 10 or 100 %. Proved for all other histories with fewer than 10^13 samples."
  },
  {
   "property": "C68",
   "status": "proved",
   "theorems": [
    "Props.C68_messages",
    "Props.C68_header"
   ],
   "note": ""
  },
  {
   "property": "C69",
   "status": "proved",
   "theorems": [
    "Props.C69_sphere",
    "Props.C69_sphere_default",
    "Props.C69_sphere_default_excludes",
    "Props.C69_surface_construction",
    "Props.C69_surface_iff",
    "Props.C69_surface"
   ],
   "note": ""
  },
  {
   "property": "C70",
   "status": "proved",
   "theorems": [
    "Props.C70_cylinder",
    "Props.C70_surface_cylinder",
    "Props.C70_hollow_faces",
    "Props.C70_hollow_circles"
   ],
   "note": ""
  },
  {
   "property": "C71",
   "status": "partial",
   "theorems": [
    "Props.C71_segment",
    "Props.C71_box",
    "Props.C71_circle",
    "Props.C71_sphere",
    "Props.C71_cylinder",
    "Props.C71_surface",
    "Props.C71_hollow",
    "Props.C71_quadrilateral",
    "Props.C71_triangle",
    "Props.C71_polygon",
    "Props.C71_disk_disproof",
    "Props.C71_ellipse_disproof",
    "Props.C71_disk_partial"
   ],
   "note": "Violated by the code for disks and ellipses (C71_disk_disproof, C71_ellipse_disproof): their default tolerance is used as absolute distance to the plane and as relative tolerance within the plane. Proved for all other geometries; for disks and ellipses for points in the plane (C71_disk_partial). The default tolerance of triangles is undefined behaviour, see C17."
  },
  {
   "property": "C72",
   "status": "partial",
   "theorems": [
    "Props.C72_disproof",
    "Props.C72_hollow_disproof",
    "Props.C72_shape_partial",
    "Props.C72_line",
    "Props.C72_supported",
    "Props.C72_closed_arc_disproof"
   ],
   "note": "Violated by the code (C72_disproof, C72_hollow_disproof, C72_closed_arc_disproof): there is no overload for triangles and hollow cylinders, the general function throws; an arc that is a full ellipse and does not start on the major axis has equal parameters at both ends, which the kernel rejects. Proved for all other geometries, including arcs (C72_shape_partial, C72_supported)."
  },
  {
   "property": "C73",
   "status": "proved",
   "theorems": [
    "Props.C73_distance",
    "Props.C73_point_segment",
    "Props.C73_symmetric",
    "Props.C73_computed"
   ],
   "note": "Relative to the stated assumptions on the geometry kernel (Faithful), which are shown to be satisfiable."
  },
  {
   "property": "C74",
   "status": "proved",
   "theorems": [
    "Props.C74_kernel_boundary",
    "Props.C74_shape_edges",
    "Props.C74_point_edges",
    "Props.C74_box",
    "Props.C74_unsupported"
   ],
   "note": "Relative to the stated assumptions on the geometry kernel (Faithful)."
  },
  {
   "property": "C75",
   "status": "partial",
   "theorems": [
    "Props.C75_disproof",
    "Props.C75_lower_bound_partial",
    "Props.C75_supported",
    "Props.C75_boundary_subset"
   ],
   "note": "Violated by the code (C75_disproof): the Python binding calls the function for the distance to the geometry itself. Proved: what is returned, and that it is a lower bound."
  },
  {
   "property": "C76",
   "status": "partial",
   "theorems": [
    "Props.C76_face_ignores_tolerance",
    "Props.C76_disproof",
    "Props.C76_point_on_boundary_partial",
    "Props.C76_face_partial",
    "Props.C76_unsupported"
   ],
   "note": "Violated by the code for faces (C76_disproof, C76_face_ignores_tolerance): the given tolerance is ignored. Proved for disks and cylinder surfaces; for faces with the default tolerance."
  },
  {
   "property": "C77",
   "status": "proved",
   "theorems": [
    "Props.C77_unsupported",
    "Props.C77_order",
    "Props.C77_default_order",
    "Props.C77_bounding_boxes",
    "Props.C77_faces",
    "Props.C77_geometry_face",
    "Props.C77_default",
    "Props.C77_python"
   ],
   "note": "Relative to the stated assumptions on the geometry kernel (Faithful, NeverFails, BoundsContain), which are shown to be satisfiable. algorithmFor in the property file names the algorithm of each pair."
  },
  {
   "property": "C78",
   "status": "proved",
   "theorems": [
    "Props.C78_point",
    "Props.C78_vertex",
    "Props.C78_area",
    "Props.C78_bounds",
    "Props.C78_monotone",
    "Props.C78_additive",
    "Props.C78_face",
    "Props.C78_length",
    "Props.C78_length_bounds",
    "Props.C78_length_monotone",
    "Props.C78_length_additive",
    "Props.C78_domains",
    "Props.C78_value",
    "Props.C78_faces",
    "Props.C78_python"
   ],
   "note": "Relative to the stated assumptions on the geometry kernel (Faithful, ExactFaces, ExactEdges), which are shown to be satisfiable: the boolean operation returns pieces that overlap in, and leave out, only sets of measure zero, and measures of single pieces are exact."
  },
  {
   "property": "C79",
   "status": "partial",
   "theorems": [
    "Props.C79_apply",
    "Props.C79_disproof",
    "Props.C79_contained_partial",
    "Props.C79_constraints_partial",
    "Props.C79_rejected"
   ],
   "note": "Violated by the code for polygons (C79_disproof): only disks and quadrilaterals are supported behind pointers. Proved for those two types; all others raise an error (C79_rejected)."
  },
  {
   "property": "C80",
   "status": "proved",
   "theorems": [
    "Props.C80_bounds",
    "Props.C80_exact",
    "Props.C80_sharp"
   ],
   "note": "C80_sharp shows that the factor cannot be improved. See C56 for the claim that the length is exact."
  },
  {
   "property": "C81",
   "status": "proved",
   "theorems": [
    "Props.C81_inverse",
    "Props.C81_turns"
   ],
   "note": "Over the real numbers."
  },
  {
   "property": "C82",
   "status": "proved",
   "theorems": [
    "Props.C82_triangle",
    "Props.C82_quadrilateral",
    "Props.C82_polygon"
   ],
   "note": ""
  },
  {
   "property": "C83",
   "status": "proved",
   "theorems": [
    "Props.C83_euclidean",
    "Props.C83_vector_space",
    "Props.C83_affine",
    "Props.C83_equality",
    "Props.C83_direction",
    "Props.C83_list",
    "Props.C83_parallel_1d",
    "Props.C83_parallel"
   ],
   "note": "Over the real numbers. C83_list: constructing from an initializer list that is too short leaves coordinates without a value."
  },
  {
   "property": "C84",
   "status": "partial",
   "theorems": [
    "Props.C84_dropped_coordinate",
    "Props.C84_empty_list",
    "Props.C84_no_arguments",
    "Props.C84_single_keyword",
    "Props.C84_points_by_keyword",
    "Props.C84_single_number",
    "Props.C84_disproof",
    "Props.C84_point_partial",
    "Props.C84_vector_partial",
    "Props.C84_direction_partial",
    "Props.C84_circle_partial"
   ],
   "note": "Violated by the code (C84_disproof): lists with more than three coordinates are truncated (C84_dropped_coordinate), empty lists yield three-dimensional zeros (C84_empty_list), single arguments passed by keyword raise an error (C84_single_keyword), so do two three-dimensional points passed by keyword (C84_points_by_keyword) and `Vector(x)` (C84_single_number). Proved for all other arguments."
  },
  {
   "property": "C85",
   "status": "partial",
   "theorems": [
    "Props.C85_rejects",
    "Props.C85_disproof",
    "Props.C85_accepts_partial",
    "Props.C85_exclusive",
    "Props.C85_magnitude"
   ],
   "note": "Violated by the code (C85_disproof): in Python the overload for ellipses is called for arcs, the length of the whole ellipse is returned. Proved for all other objects (C85_accepts_partial), and which objects are rejected."
  },
  {
   "property": "C86",
   "status": "partial",
   "theorems": [
    "Props.C86_angle_partial",
    "Props.C86_constraint_partial",
    "Props.C86_boundary",
    "Props.C86_disproof",
    "Props.C86_parallel_accepted"
   ],
   "note": "Violated by the code (C86_disproof): the angle between two planes with the normal (1, 1, 1) is NaN, because the scalar product of the rounded normals exceeds one; the constraint on the minimum angle accepts such geometries (C86_parallel_accepted). Proved: the angle is accurate to 1e-7, or NaN and the exact angle is less than 1e-7."
  },
  {
   "property": "C87",
   "status": "proved",
   "theorems": [
    "Props.C87_direction",
    "Props.C87_zero",
    "Props.C87_length"
   ],
   "note": ""
  },
  {
   "property": "C88",
   "status": "partial",
   "theorems": [
    "Props.C88_sound",
    "Props.C88_not_parallel",
    "Props.C88_self_partial",
    "Props.C88_disproof"
   ],
   "note": "Violated by the code (C88_disproof): the vector (1, 1, 1) is not parallel to itself. Proved: whatever is found to be parallel encloses less than 1e-7 (C88_sound), and vectors are parallel to themselves if the computation of their length is exact (C88_self_partial). See C04 for vectors of opposite direction."
  },
  {
   "property": "C89",
   "status": "partial",
   "theorems": [
    "Props.C89_points_partial",
    "Props.C89_outside",
    "Props.C89_disproof",
    "Props.C89_center",
    "Props.C89_center_error",
    "Props.C89_volume"
   ],
   "note": "Violated by the code (C89_disproof): a unit box at the coordinate 2^40 does not contain its corner. Proved for boxes whose coordinates are at most 1e8 times as large as their diagonal."
  },
  {
   "property": "C90",
   "status": "partial",
   "theorems": [
    "Props.C90_common_point_partial",
    "Props.C90_disproof",
    "Props.C90_gap",
    "Props.C90_decision"
   ],
   "note": "Violated by the code (C90_disproof): unit boxes that touch at the coordinate 2^40 are not found to intersect. Proved for boxes whose coordinates are at most 1e8 times as large as the mean of the diagonals."
  },
  {
   "property": "C91",
   "status": "partial",
   "theorems": [
    "Props.C91_cylinder",
    "Props.C91_hollow_cylinder",
    "Props.C91_box",
    "Props.C91_python_partial",
    "Props.C91_python_disproof"
   ],
   "note": "Violated by the code in Python (C91_python_disproof): the Python sampler passes radii where squared radii are expected, so the points of a cylinder are uniformly distributed in a cylinder with the square root of the radius (C91_python_partial). Proved for the C++ samplers of boxes, cylinders and hollow cylinders."
  },
  {
   "property": "C92",
   "status": "partial",
   "theorems": [
    "Props.C92_parts",
    "Props.C92_quadrilateral",
    "Props.C92_once_disproof",
    "Props.C92_polygon",
    "Props.C92_python"
   ],
   "note": "Violated by the code in one respect (C92_once_disproof): sub-shapes that are shared are listed several times, e.g. every corner of a quadrilateral or polygon twice (C92_quadrilateral, C92_polygon). Proved: exactly the parts of the requested class are listed."
  },
  {
   "property": "C93",
   "status": "proved",
   "theorems": [
    "Props.C93_parse",
    "Props.C93_translate",
    "Props.C93_parts",
    "Props.C93_getters",
    "Props.C93_compose"
   ],
   "note": "For shapes placed by translations."
  },
  {
   "property": "C94",
   "status": "partial",
   "theorems": [
    "Props.C94_terminates",
    "Props.C94_add",
    "Props.C94_new",
    "Props.C94_refused",
    "Props.C94_translate",
    "Props.C94_snapshot_disproof",
    "Props.C94_snapshot_partial",
    "Props.C94_no_effect_disproof"
   ],
   "note": "Violated by the code: wrappers share the compound, later additions change shapes made from it (C94_snapshot_disproof), and the attempt to add a compound to itself makes it unusable (C94_no_effect_disproof). Proved: contents, end of the search, exact condition for refused calls, and that compounds which are part of another one never change."
  },
  {
   "property": "C95",
   "status": "proved",
   "theorems": [
    "Props.C95_expressions",
    "Props.C95_volume",
    "Props.C95_unsupported"
   ],
   "note": "With exact boolean operations of the kernel (up to sets without volume)."
  },
  {
   "property": "C96",
   "status": "partial",
   "theorems": [
    "Props.C96_partial",
    "Props.C96_arc",
    "Props.C96_lines_shapes",
    "Props.C96_disproof"
   ],
   "note": "Violated by the code (C96_disproof): ellipse arcs are registered as a subclass of ellipses, and the overloads for ellipses are registered first; all four functions treat an arc as the whole ellipse (C96_arc). Proved for all other geometries (C96_partial)."
  },
  {
   "property": "C97",
   "status": "partial",
   "theorems": [
    "Props.C97_partial",
    "Props.C97_distance_partial",
    "Props.C97_lines",
    "Props.C97_arcs",
    "Props.C97_lower_bound",
    "Props.C97_disproof",
    "Props.C97_list"
   ],
   "note": "Violated by the code (C97_disproof): arcs are treated as the whole ellipse, so that distances can be too small; the distance between a point and a line raises a TypeError although the C++ function computes it (C97_lines). Proved for all other arguments, lower bound for all, lists."
  },
  {
   "property": "C98",
   "status": "partial",
   "theorems": [
    "Props.C98_float",
    "Props.C98_flag",
    "Props.C98_flag_number",
    "Props.C98_partial",
    "Props.C98_int",
    "Props.C98_disproof",
    "Props.C98_arguments",
    "Props.C98_no_method",
    "Props.C98_plane"
   ],
   "note": "Violated by the code (C98_disproof): for segments, ellipses, arcs, triangles, quadrilaterals, polygons and disks an integer is taken as the flag that switches the test of the plane, not as the tolerance (C98_int): contains(p, 0) skips the test of the plane. Proved for all other geometries (C98_partial), for floating point tolerances (C98_float) and if the flag is given too (C98_flag)."
  },
  {
   "property": "C99",
   "status": "proved",
   "theorems": [
    "Props.C99_read",
    "Props.C99_groups",
    "Props.C99_order"
   ],
   "note": "For names without quotation marks: C99_read (every command), C99_groups, C99_order."
  },
  {
   "property": "C100",
   "status": "partial",
   "theorems": [
    "Props.C100_partial",
    "Props.C100_disproof",
    "Props.C100_one_size"
   ],
   "note": "Violated by the code (C100_disproof): numbers are written with the default precision of streams, so that only six significant digits are kept; 1/3 is read as 0.333333. Proved: numbers with at most six digits are read exactly, all others with a relative error of at most 5e-6 (C100_partial)."
  },
  {
   "property": "C101",
   "status": "partial",
   "theorems": [
    "Props.C101_partial",
    "Props.C101_disproof"
   ],
   "note": "Violated by the code (C101_disproof): the path given to write is repeated in the Merge command, which Gmsh resolves relative to the directory of the .geo file; for out/network it looks for out/out/network.brep. Proved: the path is right exactly for names without directories and absolute names (C101_partial)."
  },
  {
   "property": "C102",
   "status": "partial",
   "theorems": [
    "Props.C102_partial",
    "Props.C102_disproof"
   ],
   "note": "Violated by the code (C102_disproof): neither the return value of BRepTools::Write nor the state of the stream is tested. Proved if both paths can be written (C102_partial)."
  },
  {
   "property": "C103",
   "status": "partial",
   "theorems": [
    "Props.C103_network",
    "Props.C103_partial",
    "Props.C103_disproof"
   ],
   "note": "Violated by the code (C103_disproof): the id of a sub-domain is used as the tag, and the builder accepts the id 0, so that Physical Volume(0) is written. Proved: all other tags and all items are positive (C103_partial), and all are for networks without domains (C103_network)."
  },
  {
   "property": "C104",
   "status": "proved",
   "theorems": [
    "Props.C104_projection",
    "Props.C104_line_contains",
    "Props.C104_points",
    "Props.C104_segment_contains",
    "Props.C104_segment_default",
    "Props.C104_skip_line_check"
   ],
   "note": "C104_projection, C104_line_contains, C104_points, C104_segment_contains, C104_segment_default, C104_skip_line_check."
  },
  {
   "property": "C105",
   "status": "proved",
   "theorems": [
    "Props.C105_single",
    "Props.C105_list",
    "Props.C105_refinement"
   ],
   "note": "C105_single, C105_list, C105_refinement."
  },
  {
   "property": "C106",
   "status": "proved",
   "theorems": [
    "Props.C106_default_tolerance"
   ],
   "note": "C106_default_tolerance."
  },
  {
   "property": "C107",
   "status": "proved",
   "theorems": [
    "Props.C107_planes",
    "Props.C107_planes_failure",
    "Props.C107_plane_line",
    "Props.C107_plane_line_failure"
   ],
   "note": "C107_planes, C107_plane_line."
  },
  {
   "property": "C108",
   "status": "proved",
   "theorems": [
    "Props.C108_interval",
    "Props.C108_box",
    "Props.C108_hollow_cylinder",
    "Props.C108_cylinder"
   ],
   "note": "C108_interval, C108_box, C108_cylinder, C108_hollow_cylinder. Numbers of type double with unbounded exponent; sine and cosine assumed to be correctly rounded."
  },
  {
   "property": "C109",
   "status": "partial",
   "theorems": [
    "Props.C109_supporting_ellipse",
    "Props.C109_whole_ellipse_partial",
    "Props.C109_disproof"
   ],
   "note": "Violated by the code (C109_disproof): arcs inherit getParam from the class for ellipses, which returns the local coordinate on the supporting ellipse; for the point in the middle of a quarter circle 1/8 is returned. Proved: what is returned (C109_supporting_ellipse), and that both agree if the arc is the whole ellipse and begins at the major axis."
  },
  {
   "property": "C110",
   "status": "partial",
   "theorems": [
    "Props.C110_small_ids_partial",
    "Props.C110_refines",
    "Props.C110_disproof",
    "Props.C110_wrong_domain"
   ],
   "note": "Violated by the code (C110_disproof): fragment_ stores the identifiers as int, so that identifiers from 2^31 on are changed; building a network for such an identifier throws std::out_of_range, or the fragments are reported for a different sub-domain (C110_wrong_domain). Proved for identifiers below 2^31 (C110_small_ids_partial, C110_refines)."
  },
  {
   "property": "C111",
   "status": "partial",
   "theorems": [
    "Props.C111_constructs",
    "Props.C111_exports_partial",
    "Props.C111_disproof"
   ],
   "note": "Violated by the code (C111_disproof): entities that have been added for an identifier without a sub-domain are part of the network (the build prints a warning), but not exported. Proved: the writer can always be constructed (C111_constructs), and everything is exported if there is a sub-domain for each network (C111_exports_partial)."
  },
  {
   "property": "C112",
   "status": "proved",
   "theorems": [
    "Props.C112_shape",
    "Props.C112_distance",
    "Props.C112_point_segment",
    "Props.C112_python",
    "Props.C112_accepted"
   ],
   "note": "For kernels whose builders make the shapes they are asked for (as in C72, C73). Objects of lower dimension are compared with their images in space."
  },
  {
   "property": "C113",
   "status": "partial",
   "theorems": [
    "Props.C113_returns_arc",
    "Props.C113_agreement_partial",
    "Props.C113_disproof",
    "Props.C113_no_method"
   ],
   "note": "Violated by the code (C113_disproof): pybind11 returns the Python object of the arc itself, since the reference returned by C++ refers to an object of the class for arcs for which there is a Python object (C113_returns_arc); its getPoint gives the points of the arc. Proved: centre, axes and points for given angles agree with those of the ellipse (C113_agreement_partial)."
  },
  {
   "property": "C114",
   "status": "partial",
   "theorems": [
    "Props.C114_disproof",
    "Props.C114_values_partial",
    "Props.C114_frame",
    "Props.C114_effect",
    "Props.C114_write_through",
    "Props.C114_accessors",
    "Props.C114_normalised",
    "Props.C114_left_handed",
    "Props.C114_outcome"
   ],
   "note": "Violated by the code (C114_disproof, C114_write_through, C114_left_handed): the objects returned by center(), majorAxis(), minorAxis() and normal() refer to the members, so that c = disk.center(); c += v moves the disk, and disk.normal().invert() makes its frame left-handed. Proved: the claim for programs that do not modify such objects (C114_values_partial), no other object is affected (C114_frame), axes stay orthonormal (C114_normalised), and the effect of each modification (C114_effect)."
  },
  {
   "property": "C115",
   "status": "partial",
   "theorems": [
    "Props.C115_inside",
    "Props.C115_outside",
    "Props.C115_disproof",
    "Props.C115_surface_partial"
   ],
   "note": "Violated by the code (C115_disproof): the tolerance is compared with differences of squares, so that it is about 5e-15 in relation to the radius, and rounded points of the surface of the unit sphere around (2^20,0,0) are not contained. Proved: all points of the ball are contained (C115_inside), contained points exceed the radius by less than 1e-14 times the radius (C115_outside), rounded surface points are contained if the coordinates of the centre are at most 16 radii (C115_surface_partial)."
  },
  {
   "property": "C116",
   "status": "proved",
   "theorems": [
    "Props.C116_distance",
    "Props.C116_equal",
    "Props.C116_equal_default",
    "Props.C116_line"
   ],
   "note": "No overflow and underflow (exponents are unbounded in the model of double precision)."
  },
  {
   "property": "C117",
   "status": "partial",
   "theorems": [
    "Props.C117_points_partial",
    "Props.C117_disproof",
    "Props.C117_outside"
   ],
   "note": "Violated by the code (C117_disproof): the midpoint of the segment from (2^52,0,0) to (2^52+1,1,0) is not contained. Proved for segments whose source is at most 1e7 lengths away from the origin (C117_points_partial, C117_outside). No overflow and underflow."
  },
  {
   "property": "C118",
   "status": "partial",
   "theorems": [
    "Props.C118_groups_partial",
    "Props.C118_network_partial",
    "Props.C118_disproof"
   ],
   "note": "Violated by the code (C118_disproof): the offset between the tags of sub-domains is the number of fragments instead of the number of entities, so that faces of different sub-domains share a tag if a face is lost by confinement. Proved for all histories: parts of entities are in exactly one physical surface, members of physical surfaces stem from registered entities, solids are in the physical volume of their sub-domain; surfaces tell the entities apart if each entity keeps a fragment of its own, and the surface k consists of parts of the k-th entity if all entities are registered with the same id (C118_groups_partial, C118_network_partial)."
  },
  {
   "property": "C119",
   "status": "partial",
   "theorems": [
    "Props.C119_exclusive_partial",
    "Props.C119_single_partial",
    "Props.C119_warm_partial",
    "Props.C119_terminates",
    "Props.C119_disproof",
    "Props.C119_use_after_free"
   ],
   "note": "Violated by the code (C119_disproof, C119_use_after_free): the members are created on the first call without synchronisation, so that overlapping first calls delete an object to which a reference has been returned, and outerLateralFace can read a deleted circle. Proved: the claim if calls do not overlap (C119_exclusive_partial, C119_single_partial), for any overlap if the members exist already (C119_warm_partial), and at most nine steps per call in any schedule (C119_terminates). Accesses of pointers are taken as atomic steps."
  },
  {
   "property": "C120",
   "status": "proved",
   "theorems": [
    "Props.C120_rotate",
    "Props.C120_line",
    "Props.C120_plane",
    "Props.C120_plane_through_points",
    "Props.C120_segment",
    "Props.C120_elliptical_make",
    "Props.C120_elliptical",
    "Props.C120_ellipse_points",
    "Props.C120_arc",
    "Props.C120_circle_make",
    "Props.C120_sphere",
    "Props.C120_cylinder",
    "Props.C120_surface_and_hollow",
    "Props.C120_triangle",
    "Props.C120_quadrilateral",
    "Props.C120_polygon",
    "Props.C120_distance",
    "Props.C120_boundary",
    "Props.C120_angle"
   ],
   "note": "Boxes are aligned with the axes and excluded. Triangles with the default tolerance are undefined behaviour (C17) and not included."
  },
  {
   "property": "C121",
   "status": "proved",
   "theorems": [
    "Props.C121_segment_segment",
    "Props.C121_planar_planar",
    "Props.C121_quadrilateral_make",
    "Props.C121_disk_quadrilateral",
    "Props.C121_polygon",
    "Props.C121_cylinder_planar",
    "Props.C121_cylinder",
    "Props.C121_angle",
    "Props.C121_moved_kernel_exists"
   ],
   "note": "The algorithms of the geometry kernel are parameters; that they give moved results for moved arguments is assumed. For the circle in which a plane normal to the axis cuts a cylinder surface, the axes are those of the surface. Intersections of faces of the geometry kernel are not included."
  },
  {
   "property": "C122",
   "status": "partial",
   "theorems": [
    "Props.C122_python",
    "Props.C122_disproof",
    "Props.C122_cpp_partial",
    "Props.C122_cpp_same_centers",
    "Props.C122_cpp_copy",
    "Props.C122_copy_is_original"
   ],
   "note": "Holds in Python (C122_python). Violated by the code in C++ (C122_disproof): a geometry sampler owns a copy of the point sampler including its random number generator, so that two samplers made with the same point sampler place their geometries at the same centers (C122_cpp_same_centers); a copy of a disk or polygon sampler, as made by MultiGeometrySampler, returns the same shapes (C122_cpp_copy), while copies of quadrilateral samplers share one generator (C122_copy_is_original). Each sampler for itself returns successive points independently of all other calls (C122_cpp_partial)."
  },
  {
   "property": "C123",
   "status": "partial",
   "theorems": [
    "Props.C123_callable_partial",
    "Props.C123_first_value_lost",
    "Props.C123_exception",
    "Props.C123_outcome",
    "Props.C123_disproof",
    "Props.C123_number"
   ],
   "note": "Violated by the code (C123_disproof): if the first call of the callable raises an exception, the deprecated algorithm is selected and all calls fail (C123_exception). The first value of the callable is lost (C123_first_value_lost). Otherwise, and for numbers, the property holds (C123_callable_partial, C123_number)."
  },
  {
   "property": "C124",
   "status": "partial",
   "theorems": [
    "Props.C124_accepted_partial",
    "Props.C124_rejected",
    "Props.C124_set_partial",
    "Props.C124_disproof"
   ],
   "note": "Violated by the code: two entities that only touch in one point of the common line of their planes have an empty intersection (C50), so that constraints on angles, lengths and distances to boundaries are not checked (C124_disproof). Proved: accepted entities fulfil the constraints in all other cases and if a positive minimum distance is configured; rejected entities violate a constraint (always); sets of entities."
  },
  {
   "property": "C125",
   "status": "partial",
   "theorems": [
    "Props.C125_types_partial",
    "Props.C125_sets_partial",
    "Props.C125_borderline_partial",
    "Props.C125_disproof"
   ],
   "note": "Entities of different types are accepted in both orders or in none (C125_types_partial, C125_sets_partial). Violated by the code for entities of the same type (C125_disproof): a flat disk of radius 1 and an upright one of radius 1.05 around the same centre have an intersection of length 2.1 or 2 with the tolerance 0.1, depending on the order, because of two segments whose ends are closer than the tolerance the second one is returned. C125_borderline_partial: planar entities for which the two orders differ fulfil the constraints up to the tolerances and violate one of them up to the tolerances."
  },
  {
   "property": "C126",
   "status": "proved",
   "theorems": [
    "Props.C126_example1_samplers",
    "Props.C126_witness",
    "Props.C126_example3",
    "Props.C126_example3_python",
    "Props.C126_example3_exact",
    "Props.C126_witness3",
    "Props.C126_example1",
    "Props.C126_example2",
    "Props.C126_exact_library"
   ],
   "note": "For quadrilaterals without tiny edges (C27) whose corners are different and not on a line (Ordinary), disks, and geometry libraries that are exact for them (ExactQuads, ExactFractures). exact_quads, exact_fractures: there is a library for which the latter holds for all of them; C126_exact_library and C126_example3_exact need no hypothesis on the results. C126_witness, C126_witness3: draws for which the loops end with networks of such fractures. The domain boundary of example 3 (a shape read from a file) is not part of the statement."
  },
  {
   "property": "C127",
   "status": "partial",
   "theorems": [
    "Props.C127_example2",
    "Props.C127_disproof",
    "Props.C127_defined_partial",
    "Props.C127_polygons",
    "Props.C127_example2_box",
    "Props.C127_disks_python",
    "Props.C127_orientations"
   ],
   "note": "Violated by the code: example2.cc:53 constructs std::uniform_real_distribution(0.5, 0.1), whose lower bound is above the upper one: undefined behaviour (C127_example2, C127_disproof). Proved for the other C++ samplers (C127_defined_partial) and, for all possible draws, that polygons and quadrilaterals of the requested size are returned (C127_polygons), and disks in Python (C127_disks_python)."
  },
  {
   "property": "C128",
   "status": "proved",
   "theorems": [
    "Props.C128_example1",
    "Props.C128_example2",
    "Props.C128_example4",
    "Props.C128_example3",
    "Props.C128_tolerance"
   ],
   "note": "C128_example1 to C128_example4, from C43, C44 and C118 (one id for all entities, so that the violation of C118 does not occur). The CAD kernel is an arbitrary one without failures. C128_tolerance: the tolerance kept after clear() in example 3 (see C46). orders_exist: the traversal orders quantified over exist."
  },
  {
   "property": "C129",
   "status": "partial",
   "theorems": [
    "Props.C129_plane_projection",
    "Props.C129_plane_contains",
    "Props.C129_plane_partial",
    "Props.C129_disproof",
    "Props.C129_line_partial",
    "Props.C129_line_disproof",
    "Props.C129_three_points"
   ],
   "note": "Violated by the code: the default tolerance of Plane::contains and Line::contains is the fixed length 1e-7, the roundings of the projection grow with the coordinates. C129_disproof (plane) and C129_line_disproof (line) show projections that are not contained; C129_plane_partial and C129_line_partial prove the property for lengths up to 1e7 and 3e6. C129_plane_projection, C129_plane_contains (errors of the projection and of the decision, no restriction of the size) and C129_three_points (planes through three points) are proved as stated."
  },
  {
   "property": "C130",
   "status": "partial",
   "theorems": [
    "Props.C130_refines",
    "Props.C130_type_error",
    "Props.C130_no_type_error",
    "Props.C130_counts_partial",
    "Props.C130_finished_partial",
    "Props.C130_finished_unknown",
    "Props.C130_disproof",
    "Props.C130_id",
    "Props.C130_id_errors",
    "Props.C130_hash"
   ],
   "note": "Violated by the code: finished() raises IndexError after getCount(Id(i)) or resetCounter(Id(i)) for an id without target (C130_disproof), and getCount() is wrong for sums of 2^31 or more (C32_disproof). The rest is proved."
  },
  {
   "property": "C131",
   "status": "partial",
   "theorems": [
    "Props.C131_construct",
    "Props.C131_only",
    "Props.C131_type_error",
    "Props.C131_unique",
    "Props.C131_box",
    "Props.C131_cylinder",
    "Props.C131_default_plane",
    "Props.C131_disproof",
    "Props.C131_plane_partial"
   ],
   "note": "Violated by the code: Plane() is registered without arguments and makes a plane with zero normal vector that contains every point (C131_default_plane, C131_disproof). Proved for all other planes (C131_plane_partial); the rest of the property is proved without exception (C131_construct, C131_only, C131_type_error, C131_unique, C131_box, C131_cylinder). Segments and lines in three dimensions; points, vectors and directions are covered by C84."
  },
  {
   "property": "C132",
   "status": "partial",
   "theorems": [
    "Props.C132_listed",
    "Props.C132_ids_partial",
    "Props.C132_entities",
    "Props.C132_unknown",
    "Props.C132_dimensions",
    "Props.C132_lost_domain",
    "Props.C132_disproof"
   ],
   "note": "Violated by the code: if the same shape is registered for two sub-domains, the first of them is missing in the network (C132_lost_domain, C132_disproof). Proved for distinct shapes (C132_ids_partial); all other parts without restriction (C132_listed, C132_entities, C132_unknown, C132_dimensions)."
  },
  {
   "property": "C133",
   "status": "partial",
   "theorems": [
    "Props.C133_reference_partial",
    "Props.C133_python",
    "Props.C133_network",
    "Props.C133_disproof"
   ],
   "note": "Violated by the code in C++: a second successful build destroys the network that the first one returned a reference to (C133_disproof). C133_reference_partial: the reference is usable and unchanged exactly as long as no other build has succeeded. In Python the property holds (C133_python); C133_network for network()."
  },
  {
   "property": "C134",
   "status": "proved",
   "theorems": [
    "Props.C134_accepted_faces"
   ],
   "note": ""
  },
  {
   "property": "C135",
   "status": "partial",
   "theorems": [
    "Props.C135_samples_partial",
    "Props.C135_disproof"
   ],
   "note": "Violated by the code: the angle is evaluated in five points of each edge only (C135_disproof: a face that is twisted in between is accepted). Proved for touching points and for the five points of each edge (C135_samples_partial); for plane faces see C134."
  },
  {
   "property": "C136",
   "status": "partial",
   "theorems": [
    "Props.C136_no_holes_partial",
    "Props.C136_disproof"
   ],
   "note": "Violated by the code: only the outer wire of a face is considered, so that an intersection that ends close to a hole is accepted (C136_disproof). Proved for faces without holes (C136_no_holes_partial)."
  },
  {
   "property": "C137",
   "status": "proved",
   "theorems": [
    "Props.C137_network",
    "Props.C137_example4",
    "Props.C137_empty_part",
    "Props.C137_domain"
   ],
   "note": "For kernels with exact boolean operations (ExactTunnel; the common points of two faces by ExactFaceOps, pair by pair). C137_domain: the domain; C137_network: any numbers; C137_example4: the numbers of the C++ example. The domain and the parts may lack points of their boundaries."
  },
  {
   "property": "C138",
   "status": "partial",
   "theorems": [
    "Props.C138_corners",
    "Props.C138_others_partial",
    "Props.C138_disproof",
    "Props.C138_box",
    "Props.C138_edges_partial",
    "Props.C138_box_edges",
    "Props.C138_box_faces",
    "Props.C138_arguments",
    "Props.C138_counts"
   ],
   "note": "Violated by the code (C138_disproof): with assertions compiled out, corner(i) of triangles, quadrilaterals and polygons and edge(i) of polygons read beyond the array for i between the number of items and 2^32 - 1 (C138_others_partial, C138_edges_partial). Proved: valid indices for all geometries, boxes for all numbers, all other argument lists."
  },
  {
   "property": "C139",
   "status": "partial",
   "theorems": [
    "Props.C139_line",
    "Props.C139_plane",
    "Props.C139_segment",
    "Props.C139_box",
    "Props.C139_circle",
    "Props.C139_cylinder_surface",
    "Props.C139_sphere_partial",
    "Props.C139_cylinder_partial",
    "Props.C139_hollow_partial",
    "Props.C139_disk_partial",
    "Props.C139_ellipse_partial",
    "Props.C139_triangle_partial",
    "Props.C139_quadrilateral_partial",
    "Props.C139_polygon_partial",
    "Props.C139_solids_miss",
    "Props.C139_relative_tolerance",
    "Props.C139_area_tolerance",
    "Props.C139_disproof"
   ],
   "note": "Violated by the code. Proved for lines, planes, segments, boxes, circles and cylinder surfaces. Spheres, cylinders and hollow cylinders compare differences of squared distances with eps\u00b2 (points at 0.05 from a unit sphere are rejected for eps = 0.1); disks and ellipses use a tolerance relative to the axes (a point 41 away from a disk of radius 100 is contained for eps = 1); triangles, quadrilaterals and polygons compare areas with eps\u00b2 (C139_solids_miss, C139_relative_tolerance, C139_area_tolerance). The partial theorems give, for these geometries, the distance up to which points are contained and, except for figures with corners, the distance within which contained points are."
  },
  {
   "property": "C140",
   "status": "partial",
   "theorems": [
    "Props.C140_binary",
    "Props.C140_type_errors",
    "Props.C140_assignment",
    "Props.C140_augmented",
    "Props.C140_same_value",
    "Props.C140_division_by_zero",
    "Props.C140_disproof",
    "Props.C140_class_partial",
    "Props.C140_name_errors"
   ],
   "note": "Violated by the code: augmented assignment keeps the class of the variable except for `d *= x`, which makes a vector of a direction, and `v *= w`, which makes a number of a vector (C140_disproof, C140_class_partial). Proved: the exact table of expressions with a value, exceptions otherwise (natural expressions such as v * 2.0, 2.0 * v, p - q raise TypeError), aliases, division by zero."
  },
  {
   "property": "C141",
   "status": "partial",
   "theorems": [
    "Props.C141_line",
    "Props.C141_plane",
    "Props.C141_segment",
    "Props.C141_box",
    "Props.C141_circle",
    "Props.C141_cylinder_surface",
    "Props.C141_ellipse",
    "Props.C141_sphere_partial",
    "Props.C141_cylinder_partial",
    "Props.C141_hollow_partial",
    "Props.C141_disk_partial",
    "Props.C141_quadrilateral_partial",
    "Props.C141_polygon_partial",
    "Props.C141_lost_points",
    "Props.C141_disproof"
   ],
   "note": "Violated by the code: spheres, cylinders, hollow cylinders, disks and quadrilaterals of a size of about one do not contain some of their points after rounding at a distance of 524288 to the origin, since differences of squares and areas are compared with the squared tolerance (C141_lost_points, C141_disproof). Proved for lines, planes, segments, boxes, circles, ellipses and cylinder surfaces up to at least 10^8 times the size; for the other types (C141_*_partial) up to a few times the size, with the factor given. Only the rounding of the point is considered; the criterion itself is evaluated in real arithmetic."
  },
  {
   "property": "C142",
   "status": "partial",
   "theorems": [
    "Props.C142_stream",
    "Props.C142_repr",
    "Props.C142_class",
    "Props.C142_same_text_partial",
    "Props.C142_disproof",
    "Props.C142_far_points"
   ],
   "note": "Violated by the code: the representation in Python has six digits behind the point, so that points at a distance of 4e-7 (four times the tolerance) have the same text (C142_disproof); stream output has six significant digits, so that points at coordinates of one million and a distance of 4 have the same text (C142_far_points). Proved: class, dimension and coordinates are recovered, the coordinates as the nearest multiples of one millionth (ties to even), resp. with a relative error of 5e-6 and exactly for six digits."
  },
  {
   "property": "C143",
   "status": "partial",
   "theorems": [
    "Props.C143_round_trip",
    "Props.C143_parts",
    "Props.C143_disproof",
    "Props.C143_write_partial",
    "Props.C143_example3",
    "Props.C143_second",
    "Props.C143_example3_python",
    "Props.C143_box"
   ],
   "note": "Violated by the code: readShape returns a shape without parts for files that do not exist or cannot be read, and write does nothing if the file cannot be opened, both without an error (C143_disproof). Proved: the round trip, which errors are raised, the parts found in a file, the domain and the boundary faces of example 3 and the cases in which it stops, in C++ and Python (the script asks for six boundary faces in addition)."
  },
  {
   "property": "C144",
   "status": "proved",
   "theorems": [
    "Props.C144_cylinder",
    "Props.C144_cylinder_value",
    "Props.C144_disk",
    "Props.C144_quadrilateral",
    "Props.C144_polygon",
    "Props.C144_polygon_fails",
    "Props.C144_type_errors"
   ],
   "note": "C144_cylinder, C144_cylinder_value, C144_disk, C144_quadrilateral, C144_polygon, C144_polygon_fails: the bodies of the Python samplers as sequences of calls on objects (make, query, get, change of C114), executed after any program; the number of edges is arbitrary, by induction. A call does the same in every state (relocation), so the returned objects are new, have the drawn values, and share nothing with the existing ones. Numbers are values; the point returned by the user-supplied point sampler is taken as a new object"
  },
  {
   "property": "C145",
   "status": "partial",
   "theorems": [
    "Props.C145_once",
    "Props.C145_links_partial",
    "Props.C145_rejects",
    "Props.C145_single",
    "Props.C145_shareable_partial",
    "Props.C145_disproof"
   ],
   "note": "Violated by the code: several headers define ordinary functions without inline (geometryName of the OpenCASCADE shapes, the face-face intersection, helpers of breputilities, geomutilities and gputilities), so two source files that both include, say, frackit/intersection/intersect.hh do not link (C145_disproof). Proved: each header is read exactly once per file (C145_once), the exact condition for linking (C145_links_partial), the list of headers that may be used in any number of files (C145_shareable_partial), and that programs of one source file always link (C145_single)."
  },
  {
   "property": "C146",
   "status": "partial",
   "theorems": [
    "Props.C146_names",
    "Props.C146_disproof",
    "Props.C146_assign_partial",
    "Props.C146_undefined_partial",
    "Props.C146_defined_partial",
    "Props.C146_attempts_partial",
    "Props.C146_sets_partial",
    "Props.C146_sets_undefined",
    "Props.C146_point_sampler"
   ],
   "note": "Violated by the code: names do not contain the coordinate type, so assign with an object and a target of the same class but different coordinate types dereferences a null pointer (C146_disproof, C146_sets_undefined). Proved: names are injective over all classes and dimensions (C146_names), assign is right for one coordinate type (C146_assign_partial, C146_attempts_partial), the undefined calls are exactly null pointers and differing coordinate types (C146_undefined_partial, C146_defined_partial), entity sets (C146_sets_partial), and the choice of the sampler in Python (C146_point_sampler)."
  },
  {
   "property": "C147",
   "status": "partial",
   "theorems": [
    "Props.C147_python",
    "Props.C147_disproof",
    "Props.C147_double_partial",
    "Props.C147_sound",
    "Props.C147_agree"
   ],
   "note": "Violated by the code: the type trait is specialised for the default coordinate type only, so the empty intersection with coordinates of type float is not recognised (C147_disproof). Proved: exactness for double (C147_double_partial), soundness for all types (C147_sound), exactness of the search in names in Python (C147_python) and agreement of both (C147_agree)."
  },
  {
   "property": "C148",
   "status": "partial",
   "theorems": [
    "Props.C148_compiles_iff",
    "Props.C148_rejects",
    "Props.C148_exact_partial",
    "Props.C148_any_order_partial",
    "Props.C148_disproof"
   ],
   "note": "Violated by the code: frackit/geometryutilities/isplanar.hh uses DimensionalityTraits without including its header, and frackit/intersection/intersectionangle.hh includes it before frackit/geometry/dimension.hh, so that source files which include one of them first cannot be compiled (C148_disproof). Proved: exactly which source files compile (C148_exact_partial, C148_compiles_iff); all other headers can be included in any order (C148_any_order_partial). Names of classes and templates only, functions are left out."
  },
  {
   "property": "C149",
   "status": "partial",
   "theorems": [
    "Props.C149_imports",
    "Props.C149_order",
    "Props.C149_results",
    "Props.C149_rejects",
    "Props.C149_succeeds_iff",
    "Props.C149_callable_partial",
    "Props.C149_distributions",
    "Props.C149_disproof"
   ],
   "note": "Violated by the code: the constructors of UniformBoxPointSampler and UniformCylinderPointSampler take std::uniform_real_distribution objects, which no module registers, so no call of them succeeds (C149_distributions, C149_disproof). Proved: imports succeed in every order (C149_imports, C149_order), results are always of known classes (C149_results), other arguments give a TypeError (C149_rejects), and all other functions can be called, except the methods of the empty intersections in one and two dimensions, of which no function returns an object (C149_callable_partial)."
  },
  {
   "property": "C150",
   "status": "partial",
   "theorems": [
    "Props.C150_distance_partial",
    "Props.C150_degenerate",
    "Props.C150_disproof"
   ],
   "note": "Violated by the code: the projection of the point is looked up on the segment with a tolerance relative to its length; if the segment is far from the origin in relation to its length, the rounding of the projection exceeds the tolerance and the distance from an end of the segment is returned instead (C150_disproof: source (2^52, 0, 0), target (2^52 + 1, 1, 0), point (2^52, 1/2, 0), 0.5 instead of 0.354). C150_distance_partial: for segments whose source is at most 1e7 times as far from the origin as they are long, the error is at most 2e-6 times the length plus 2^-47 times the distance of the point from the source, for all points. C150_degenerate: segments of length zero."
  },
  {
   "property": "C151",
   "status": "partial",
   "theorems": [
    "Props.C151_triangle",
    "Props.C151_quadrilateral",
    "Props.C151_default_check",
    "Props.C151_corners_partial",
    "Props.C151_other_corners_partial",
    "Props.C151_disproof"
   ],
   "note": "Violated by the code: the tolerance for the difference of the areas is relative to the square of the diagonal between the first and the last corner, the rounding of the areas to the products of the sides; the convex quadrilateral (0, 0), (2^27 + 2, 2^27 + 1), (-2^21, 0), (-2^21, 2^21) with sides 64 times as long as this diagonal does not contain its first corner (C151_disproof). Proved: the areas (C151_triangle, C151_quadrilateral; area given by the lengths of the sides); if no side is longer than twice the diagonal from the first to the last corner, these two corners are contained (C151_corners_partial); if no side is longer than this diagonal, so are the other two corners of a convex quadrilateral in the plane z = 0 (C151_other_corners_partial)."
  },
  {
   "property": "C152",
   "status": "partial",
   "theorems": [
    "Props.C152_ellipse_axes",
    "Props.C152_circle_axes",
    "Props.C152_circle_partial",
    "Props.C152_circle_sound",
    "Props.C152_disproof",
    "Props.C152_ellipse_partial",
    "Props.C152_get_point",
    "Props.C152_default_check"
   ],
   "note": "Violated by the code for circles far from the origin: a circle of radius one around a point at distance 2^60 computes its own centre for the angle zero and does not contain it (C152_disproof). Proved for circles whose centre is at most 10^8 radii away from the origin (C152_circle_partial), for ellipses with an aspect ratio and a distance that are bounded (C152_ellipse_partial), together with the quality of the axes (C152_circle_axes, C152_ellipse_axes) and the soundness of Circle::contains (C152_circle_sound). Assumes correctly rounded sin and cos and no overflow or underflow."
  },
  {
   "property": "C153",
   "status": "proved",
   "theorems": [
    "Props.C153_rotation",
    "Props.C153_rigid",
    "Props.C153_disk"
   ],
   "note": "Assumes correctly rounded sin and cos and no overflow or underflow."
  },
  {
   "property": "C154",
   "status": "partial",
   "theorems": [
    "Props.C154_area",
    "Props.C154_contains_partial",
    "Props.C154_default_check",
    "Props.C154_supporting_plane",
    "Props.C154_centre",
    "Props.C154_disproof"
   ],
   "note": "Violated by the code for points of the boundary: the tolerance for the sum of squares is 1e-14, and the coordinates of the points are rounded relative to the distance of the disk from the origin; the disk with the radius 1 + 3/2^34 around (2^20, 0, 0) does not contain the point that its bounding ellipse computes for the angle zero (C154_disproof). Proved: the centre (C154_centre), points in the interior and the soundness of contains() with the stated margins (C154_contains_partial), the area (C154_area)."
  },
  {
   "property": "C155",
   "status": "partial",
   "theorems": [
    "Props.C155_less",
    "Props.C155_product",
    "Props.C155_sum",
    "Props.C155_difference",
    "Props.C155_quotient",
    "Props.C155_root",
    "Props.C155_nan",
    "Props.C155_moderate",
    "Props.C155_vectors",
    "Props.C155_direction_partial",
    "Props.C155_distance_partial",
    "Props.C155_decisions",
    "Props.C155_measures",
    "Props.C155_overflow",
    "Props.C155_underflow",
    "Props.C155_disproof"
   ],
   "note": "Violated by the code at both ends of the range of double: lengths are roots of sums of squares that are not scaled, so directions of vectors of length 2^512 or more are null vectors and their distances infinite (C155_overflow, C155_disproof), and below 2^-537 directions are NaN and distances of distinct points zero (C155_underflow). Proved for numbers that are multiples of 2^-200 up to 2^200 (C155_direction_partial, C155_distance_partial, C155_vectors, C155_decisions, C155_measures), which are all numbers of magnitude 2^-147 to 2^200 and zero (C155_moderate). For these functions and this range the assumption of an unbounded exponent made in the other properties on double precision is therefore justified."
  },
  {
   "property": "C156",
   "status": "proved",
   "theorems": [
    "Props.C156_corners",
    "Props.C156_planar",
    "Props.C156_centre",
    "Props.C156_closes",
    "Props.C156_sampled",
    "Props.C156_dimensions",
    "Props.C156_assertion"
   ],
   "note": "Every corner is compared with the exact position up to one translation (C156_corners), which gives the planarity (C156_planar); the centre of the bounding box (C156_centre), both directions of the closing assertion (C156_closes), and the whole sampler from the drawn values (C156_sampled, C156_dimensions, C156_assertion). The order of the edges is left open: the statements hold for every order, including the one of the rounded angles. As elsewhere, the exponent range is unbounded and sin and cos are correctly rounded."
  },
  {
   "property": "C157",
   "status": "partial",
   "theorems": [
    "Props.C157_inside_partial",
    "Props.C157_outside",
    "Props.C157_sampled_partial",
    "Props.C157_disproof"
   ],
   "note": "Violated by the code for points near the lateral surface: the square of the tolerance is added to the square of the radius, which is a relative tolerance of 1e-14 for the radius, while the coordinates of a sampled point are rounded relative to its distance from the origin. A cylinder with the radius 1 + 3/2^34 and the height 1 around (2^20, 0, 0) does not contain the point sampled for the angle zero and the largest number below one for the radius (C157_disproof). Proved: points in the interior (C157_inside_partial), the soundness of contains() (C157_outside), and sampled points unless the number drawn for the radius exceeds 1 - 1e-7 (C157_sampled_partial, for exactly orthonormal axes and proportions up to ten)."
  },
  {
   "property": "C158",
   "status": "proved",
   "theorems": [
    "Props.C158_quadrilateral",
    "Props.C158_polygon"
   ],
   "note": "Condition on the position of the edges as stated (without it the distance from a single edge may be wrong, see C150_disproof). Range of the exponents not limited (see C155 for this)."
  },
  {
   "property": "C159",
   "status": "proved",
   "theorems": [
    "Props.C159_near",
    "Props.C159_outside",
    "Props.C159_points",
    "Props.C159_area",
    "Props.C159_normal"
   ],
   "note": "Conditions on the proportions as stated (Proportioned). Range of the exponents not limited (see C155 for this)."
  },
  {
   "property": "C160",
   "status": "partial",
   "theorems": [
    "Props.C160_inside",
    "Props.C160_outside",
    "Props.C160_volume",
    "Props.C160_sampled_partial",
    "Props.C160_disproof"
   ],
   "note": "Violated by the code: points sampled in a hollow cylinder need not be contained in it with the default tolerance (C160_disproof, with the cylinder of C157_disproof and the inner radius zero). Proved: points inside (C160_inside), the soundness of contains() (C160_outside), the error of the volume (C160_volume), and sampled points unless the number drawn for the radius is below 1e-7 or above 1 - 1e-7 (C160_sampled_partial, for exactly orthonormal axes, proportions up to ten and inner radii up to half of the outer one)."
  },
  {
   "property": "C161",
   "status": "proved",
   "theorems": [
    "Props.C161_angle",
    "Props.C161_constraint",
    "Props.C161_curve"
   ],
   "note": "The points on arcs and ellipses are parameters. That angles below 1e-7 can be NaN is shown in C86_disproof. Range of the exponents not limited (see C155 for this)."
  },
  {
   "property": "C162",
   "status": "proved",
   "theorems": [
    "Props.C162_sphere",
    "Props.C162_cylinder",
    "Props.C162_triangle",
    "Props.C162_area",
    "Props.C162_center",
    "Props.C162_quadrilateral"
   ],
   "note": "double arithmetic without overflow and underflow; the loop over the triangulation of a polygon is followed step by step, the convexity of the polygon plays no role"
  },
  {
   "property": "C163",
   "status": "partial",
   "theorems": [
    "Props.C163_polygon_partial",
    "Props.C163_triangle",
    "Props.C163_disproof",
    "Props.C163_rejects",
    "Props.C163_degenerate",
    "Props.C163_default_check"
   ],
   "note": "Violated by the code: with the default tolerance, the triangle with the corners (0, 0, 0), (268435328, 0, 0)/2^27 and (-268435451/2^27, 134217729/2^37, 0), as a polygon, does not contain its second corner; the two computed areas differ in the last bit, which exceeds the squared tolerance (C163_disproof). Proved are the exact conditions up to rounding errors for any tolerance; the flag for convexity and the check of the plane are taken as computed"
  },
  {
   "property": "C164",
   "status": "proved",
   "theorems": [
    "Props.C164_polygon",
    "Props.C164_quadrilateral"
   ],
   "note": "double arithmetic without overflow and underflow; as in the code, the turn between the first and the second edge of a polygon is not among those that are compared with the one at the first corner"
  },
  {
   "property": "C165",
   "status": "proved",
   "theorems": [
    "Props.C165_range",
    "Props.C165_point",
    "Props.C165_ends",
    "Props.C165_construction",
    "Props.C165_contains_ends",
    "Props.C165_angle",
    "Props.C165_param",
    "Props.C165_rejects",
    "Props.C165_contains",
    "Props.C165_source_and_target"
   ],
   "note": "double arithmetic without overflow and underflow; sin, cos and atan are assumed to be correctly rounded"
  }
 ]
}