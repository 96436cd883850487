{
 "claims": [
  {
   "property": "C01",
   "status": "proved",
   "theorems": [
    "R3D.c01_dynvec_refines_list",
    "R3D.c01_constructors",
    "R3D.c01_get_usize_upgraded"
   ],
   "note": "all four storage modes, arbitrary histories"
  },
  {
   "property": "C02",
   "status": "partial",
   "theorems": [
    "R3D.c02_u32vec_refines_list_partial",
    "R3D.c02_u32vec_not_faithful",
    "R3D.c02_u32vec_push_get"
   ],
   "note": "holds for values below 2^32; negation: 2^32 is stored as 0"
  },
  {
   "property": "C03",
   "status": "proved",
   "theorems": [
    "R3D.c03_mesh_well_formed"
   ],
   "note": "every lawful index container, every call history"
  },
  {
   "property": "C04",
   "status": "proved",
   "theorems": [
    "R3D.c04_try_add_connection"
   ],
   "note": "both directions, error leaves the mesh unchanged"
  },
  {
   "property": "C05",
   "status": "proved",
   "theorems": [
    "R3D.c05_ids_stable",
    "R3D.c05_ids_consecutive"
   ],
   "note": ""
  },
  {
   "property": "C06",
   "status": "proved",
   "theorems": [
    "R3D.c06_half_edge_navigation",
    "R3D.c06_edges_of_face"
   ],
   "note": ""
  },
  {
   "property": "C07",
   "status": "partial",
   "theorems": [
    "R3D.c07_vertex_queries_partial",
    "R3D.c07_half_edge_faces_partial",
    "R3D.c07_unused_vertex_error",
    "R3D.c07_violated"
   ],
   "note": "exact for all vertices up to the largest used id; the code returns IncorrectVertexID for existing vertices above it (negation proved, exact characterisation)"
  },
  {
   "property": "C08",
   "status": "partial",
   "theorems": [
    "R3D.c08_twin_partial",
    "R3D.c08_twin_never_opposite",
    "R3D.c08_violated"
   ],
   "note": "the code never returns the opposite edge in a well formed mesh (proved for all meshes); None exactly for border edges, and the face is the right neighbour"
  },
  {
   "property": "C09",
   "status": "proved",
   "theorems": [
    "R3D.c09_face_edge_neighbours",
    "R3D.c09_face_vertex_neighbours"
   ],
   "note": "edge neighbours under the manifold hypothesis"
  },
  {
   "property": "C10",
   "status": "proved",
   "theorems": [
    "R3D.c10_pack_dupes"
   ],
   "note": "every type with lawful equality and hashing"
  },
  {
   "property": "C11",
   "status": "proved",
   "theorems": [
    "R3D.c11_heal_mesh"
   ],
   "note": ""
  },
  {
   "property": "C12",
   "status": "partial",
   "theorems": [
    "R3D.c12_violated",
    "R3D.c12_no_new_duplicates_partial"
   ],
   "note": "the documented removal of duplicate faces is not implemented: negation proved; the output is duplicate free iff the non degenerate input faces are"
  },
  {
   "property": "C13",
   "status": "proved",
   "theorems": [
    "R3D.c13_linear_subdivision",
    "R3D.c13_degenerate_error"
   ],
   "note": "midpoint function assumed symmetric, as center_nd is (c115_center_nd, c115_subdivide)"
  },
  {
   "property": "C14",
   "status": "proved",
   "theorems": [
    "R3D.c14_unify_faces",
    "R3D.c14_unifies"
   ],
   "note": "normal comparison is a parameter; termination included"
  },
  {
   "property": "C15",
   "status": "partial",
   "theorems": [
    "R3D.c15_new_2d_partial",
    "R3D.c15_new_3d_partial",
    "R3D.c15_violated_2d",
    "R3D.c15_violated_3d"
   ],
   "note": "exact for all non NaN inputs incl. infinities; new accepts NaN corners (negation)"
  },
  {
   "property": "C16",
   "status": "proved",
   "theorems": [
    "R3D.c16_from_iterator_2d",
    "R3D.c16_from_iterator_3d",
    "R3D.c16_order_independent_2d",
    "R3D.c16_order_independent_3d"
   ],
   "note": "all scalars with lawful comparison (reals and binary64)"
  },
  {
   "property": "C17",
   "status": "proved",
   "theorems": [
    "R3D.c17_combine_2d",
    "R3D.c17_combine_3d"
   ],
   "note": "all scalars with lawful comparison"
  },
  {
   "property": "C18",
   "status": "proved",
   "theorems": [
    "R3D.c18_collides_2d",
    "R3D.c18_collides_3d",
    "R3D.c18_collides_relation_2d",
    "R3D.c18_collides_relation_3d"
   ],
   "note": "exact arithmetic"
  },
  {
   "property": "C19",
   "status": "proved",
   "theorems": [
    "R3D.c19_point_distance_2d",
    "R3D.c19_point_distance_3d",
    "R3D.c19_box_distance_2d",
    "R3D.c19_box_distance_3d",
    "R3D.c19_point_distance_f64_2d",
    "R3D.c19_point_distance_f64_3d",
    "R3D.c19_box_distance_f64_2d",
    "R3D.c19_box_distance_f64_3d"
   ],
   "note": "exact arithmetic; for finite doubles no panic and the same up to an explicit rounding error whenever the result is finite"
  },
  {
   "property": "C20",
   "status": "proved",
   "theorems": [
    "R3D.c20_containment_2d",
    "R3D.c20_containment_3d",
    "R3D.c20_crossing_real_2d",
    "R3D.c20_crossing_real_3d"
   ],
   "note": ""
  },
  {
   "property": "C21",
   "status": "partial",
   "theorems": [
    "R3D.c21_move_scale_2d",
    "R3D.c21_move_scale_3d",
    "R3D.c21_history_valid_2d_partial",
    "R3D.c21_history_valid_3d_partial",
    "R3D.c21_violated_2d",
    "R3D.c21_violated_3d"
   ],
   "note": "exact arithmetic; rounding breaks it in binary64 (negation proved)"
  },
  {
   "property": "C22",
   "status": "proved",
   "theorems": [
    "R3D.c22_any_crossing",
    "R3D.c22_collision",
    "R3D.c22_float_miss",
    "R3D.c22_infinite_lost"
   ],
   "note": "crossing and any for finite boxes over reals and binary64, collisions exact arithmetic; float misses shown"
  },
  {
   "property": "C23",
   "status": "partial",
   "theorems": [
    "R3D.c23_any_crossing",
    "R3D.c23_collision",
    "R3D.c23_any_element",
    "R3D.c23_line_partial",
    "R3D.c23_line_f64_partial",
    "R3D.c23_line_violated"
   ],
   "note": "line queries: exact arithmetic for lines without zero direction component, doubles for all finite lines whose anchor is on no face plane parallel to the direction; negation on such planes in binary64; accuracy of the line test: C106"
  },
  {
   "property": "C24",
   "status": "proved",
   "theorems": [
    "R3D.KdTree.c24_build",
    "R3D.KdTree.c24_default"
   ],
   "note": ""
  },
  {
   "property": "C25",
   "status": "proved",
   "theorems": [
    "R3D.KdTree.c25_nearest",
    "R3D.KdTree.c25_nearest_f64",
    "R3D.c25_nearest_true_f64",
    "R3D.KdTree.c25_empty"
   ],
   "note": "exact arithmetic; finite doubles by computed distance, and by true distance up to an explicit rounding error"
  },
  {
   "property": "C26",
   "status": "partial",
   "theorems": [
    "R3D.KdTree.c26_knearest_partial",
    "R3D.KdTree.c26_knearest_f64_partial",
    "R3D.KdTree.c26_all",
    "R3D.KdTree.c26_all_f64",
    "R3D.KdTree.c26_violated"
   ],
   "note": "the k results need not be the k nearest (negation proved)"
  },
  {
   "property": "C27",
   "status": "proved",
   "theorems": [
    "R3D.KdTree.c27_in_sphere",
    "R3D.KdTree.c27_in_box",
    "R3D.KdTree.c27_empty"
   ],
   "note": "exact arithmetic; for doubles see C91, C102 and C108"
  },
  {
   "property": "C28",
   "status": "partial",
   "theorems": [
    "R3D.OcTree.c28_violated",
    "R3D.OcTree.c28_collect_violated",
    "R3D.OcTree.c28_keeps_partial",
    "R3D.OcTree.c28_keeps_f64_partial"
   ],
   "note": "the points spanning the box are always lost (proved for every successful build); points off the cell planes are kept (exact arithmetic); for doubles an exact description of the points kept, with the rounded middles"
  },
  {
   "property": "C29",
   "status": "proved",
   "theorems": [
    "R3D.OcTree.c29_terminates",
    "R3D.OcTree.c29_terminates_f64",
    "R3D.OcTree.c29_sound"
   ],
   "note": "termination with exact arithmetic and for all clouds of doubles, NaN and infinities included; soundness for every number type"
  },
  {
   "property": "C73",
   "status": "proved",
   "theorems": [
    "R3D.c73_corners_2d",
    "R3D.c73_corners_3d",
    "R3D.c73_corners_span_2d",
    "R3D.c73_corners_span_3d",
    "R3D.c73_bounding_box_2d",
    "R3D.c73_bounding_box_3d",
    "R3D.c73_default_2d",
    "R3D.c73_default_3d",
    "R3D.c73_default_2d_f64",
    "R3D.c73_default_3d_f64"
   ],
   "note": ""
  },
  {
   "property": "C30",
   "status": "proved",
   "theorems": [
    "R3D.Filter.c30_combinators",
    "R3D.Filter.c30_chains"
   ],
   "note": ""
  },
  {
   "property": "C31",
   "status": "proved",
   "theorems": [
    "R3D.View.c31_apply_view"
   ],
   "note": ""
  },
  {
   "property": "C32",
   "status": "proved",
   "theorems": [
    "R3D.FilterRA.c32_filter",
    "R3D.FilterRA.c32_retain"
   ],
   "note": ""
  },
  {
   "property": "C33",
   "status": "proved",
   "theorems": [
    "R3D.FilterRA.c33_all",
    "R3D.FilterRA.c33_order"
   ],
   "note": ""
  },
  {
   "property": "C34",
   "status": "partial",
   "theorems": [
    "R3D.FilterRA.c34_any_partial",
    "R3D.FilterRA.c34_violated"
   ],
   "note": "FilterAny for random access unions into the view it is given, so a restricting filter never restricts; proved what it does compute"
  },
  {
   "property": "C35",
   "status": "proved",
   "theorems": [
    "R3D.View.c35_union"
   ],
   "note": ""
  },
  {
   "property": "C36",
   "status": "proved",
   "theorems": [
    "R3D.c36_box",
    "R3D.c36_box_of_bb",
    "R3D.c36_round",
    "R3D.c36_box_f64",
    "R3D.c36_box_f64_3d",
    "R3D.c36_sphere_f64",
    "R3D.c36_circle_f64",
    "R3D.c36_violated_f64"
   ],
   "note": "exact arithmetic; for finite doubles the same up to an explicit rounding error of the borders, with a witness that the error occurs"
  },
  {
   "property": "C37",
   "status": "partial",
   "theorems": [
    "R3D.c37_positions_partial",
    "R3D.c37_violated"
   ],
   "note": "Sphere::z and FilterSphere::z return y"
  },
  {
   "property": "C38",
   "status": "partial",
   "theorems": [
    "R3D.c38_new",
    "R3D.c38_range_real",
    "R3D.c38_div_real",
    "R3D.c38_values_real",
    "R3D.c38_range_f64_partial",
    "R3D.c38_violated"
   ],
   "note": "full with exact arithmetic; for doubles proved under guards against underflow, 0*inf, division by zero and inf/inf, which are proved to break it"
  },
  {
   "property": "C74",
   "status": "proved",
   "theorems": [
    "R3D.c74_outlier"
   ],
   "note": "exact arithmetic; for doubles see C108"
  },
  {
   "property": "C39",
   "status": "partial",
   "theorems": [
    "R3D.c39_compose_2d_partial",
    "R3D.c39_compose_3d_partial",
    "R3D.c39_violated",
    "R3D.c39_affine_2d",
    "R3D.c39_affine_3d",
    "R3D.c39_algebra_2d",
    "R3D.c39_algebra_3d"
   ],
   "note": "exact arithmetic; composition proved when the right factor is affine, and proved to fail for other matrices because multiply_m ignores the last row"
  },
  {
   "property": "C40",
   "status": "proved",
   "theorems": [
    "R3D.c40_action_2d",
    "R3D.c40_rotation_2d",
    "R3D.c40_rotate",
    "R3D.c40_action_3d",
    "R3D.c40_rotation_axis",
    "R3D.c40_rotation_3d"
   ],
   "note": "exact arithmetic and trigonometry"
  },
  {
   "property": "C41",
   "status": "proved",
   "theorems": [
    "R3D.c41_pipe_2d",
    "R3D.c41_pipe_3d"
   ],
   "note": "exact arithmetic and trigonometry"
  },
  {
   "property": "C42",
   "status": "partial",
   "theorems": [
    "R3D.CompressedPointCloud3D.c42_error_partial",
    "R3D.CompressedPointCloud3D.c42_error_f64_partial",
    "R3D.CompressedPointCloud3D.c42_no_box",
    "R3D.CompressedPointCloud3D.c42_wide_fails",
    "R3D.CompressedPointCloud3D.c42_wide_fails_f64",
    "R3D.CompressedPointCloud3D.c42_violated",
    "R3D.CompressedPointCloud3D.c42_violated_tiny",
    "R3D.CompressedPointCloud3D.c42_violated_rounding"
   ],
   "note": "exact arithmetic for integers of less than 64 bits, and doubles with all roundings for at most 48 bits and extents of at least 2^-800 (errors of at most one unit plus 2^-48 of the largest coordinate); with 64 and 128 bits compressing always fails; with doubles coordinates may increase and the bounding box is not kept"
  },
  {
   "property": "C75",
   "status": "partial",
   "theorems": [
    "R3D.c75_look_at_partial",
    "R3D.c75_violated"
   ],
   "note": "exact arithmetic; the side vector is not normalised, so distances are only kept for unit targets orthogonal to up"
  },
  {
   "property": "C51",
   "status": "proved",
   "theorems": [
    "R3D.PointCloud.c51_history",
    "R3D.PointCloud.c51_read",
    "R3D.PointCloud.c51_insert"
   ],
   "note": ""
  },
  {
   "property": "C52",
   "status": "partial",
   "theorems": [
    "R3D.c52_insert_partial",
    "R3D.c52_violated"
   ],
   "note": "proved for indices inside; appending by insert fails for Vec and VecDeque but works for point clouds"
  },
  {
   "property": "C53",
   "status": "proved",
   "theorems": [
    "R3D.c53_sort_2d",
    "R3D.c53_sort_3d"
   ],
   "note": "any scalar type with lawful comparisons, keys not NaN"
  },
  {
   "property": "C54",
   "status": "partial",
   "theorems": [
    "R3D.c54_hash_2d_partial",
    "R3D.c54_hash_3d_partial",
    "R3D.c54_cmp_2d_partial",
    "R3D.c54_cmp_3d_partial",
    "R3D.c54_violated_hash",
    "R3D.c54_violated_ord",
    "R3D.c54_violated_nan"
   ],
   "note": "proved away from signed zeros / NaN; the rest is violated"
  },
  {
   "property": "C55",
   "status": "proved",
   "theorems": [
    "R3D.Polygon.c55_segment_ids",
    "R3D.Polygon.c55_cycle",
    "R3D.Polygon.c55_segment_vertices",
    "R3D.Polygon.c55_edit",
    "R3D.c55_length_2d",
    "R3D.c55_length_3d"
   ],
   "note": "lengths in exact arithmetic"
  },
  {
   "property": "C76",
   "status": "partial",
   "theorems": [
    "R3D.c76_center_of_gravity_2d",
    "R3D.c76_center_of_gravity_3d",
    "R3D.c76_move_2d",
    "R3D.c76_move_3d",
    "R3D.c76_scale_2d_partial",
    "R3D.c76_scale_3d_partial",
    "R3D.c76_scale_flat_2d",
    "R3D.c76_scale_flat_3d",
    "R3D.c76_segment_2d_partial",
    "R3D.c76_segment_3d_partial",
    "R3D.c76_violated"
   ],
   "note": "exact arithmetic; flat clouds and axis parallel segments are not scaled"
  },
  {
   "property": "C77",
   "status": "partial",
   "theorems": [
    "R3D.c77_center_partial",
    "R3D.c77_set_size_partial",
    "R3D.c77_violated",
    "R3D.c77_extrude"
   ],
   "note": "exact arithmetic; flat clouds are left unchanged"
  },
  {
   "property": "C43",
   "status": "partial",
   "theorems": [
    "R3D.c43_hull_partial",
    "R3D.c43_violated"
   ],
   "note": "exact arithmetic; proved when points with equal x are given bottom up; other orders lose corners"
  },
  {
   "property": "C44",
   "status": "partial",
   "theorems": [
    "R3D.c44_subsequence_partial",
    "R3D.c44_runs_partial",
    "R3D.c44_violated",
    "R3D.c44_negative"
   ],
   "note": "subsequence and end points proved for every scalar type; the error bound does not hold, what holds instead is proved (exact arithmetic)"
  },
  {
   "property": "C45",
   "status": "partial",
   "theorems": [
    "R3D.c45_bezier_partial",
    "R3D.c45_few",
    "R3D.c45_violated"
   ],
   "note": "exact arithmetic; up to 21 control points, above that the factorial overflows; for doubles see C107"
  },
  {
   "property": "C78",
   "status": "partial",
   "theorems": [
    "R3D.c78_linear_partial",
    "R3D.c78_cosine_partial",
    "R3D.c78_few",
    "R3D.c78_violated",
    "R3D.c78_linear_f64_partial",
    "R3D.c78_violated_last"
   ],
   "note": "exact arithmetic: the first two points differ and at least two points requested; doubles: linear interpolation with error bounds, where the last point may be missing"
  },
  {
   "property": "C79",
   "status": "partial",
   "theorems": [
    "R3D.c79_rectangle",
    "R3D.c79_arc_partial",
    "R3D.c79_ellipse_partial",
    "R3D.c79_involut_partial",
    "R3D.c79_violated"
   ],
   "note": "exact arithmetic and trigonometry"
  },
  {
   "property": "C46",
   "status": "partial",
   "theorems": [
    "R3D.c46_ray_triangle",
    "R3D.c46_ray_mesh",
    "R3D.c46_float_violated"
   ],
   "note": "exact arithmetic for all rays and non degenerate triangles; with floats a huge triangle has a NaN normal and every ray hits it; doubles of moderate size with rounding: C105"
  },
  {
   "property": "C47",
   "status": "partial",
   "theorems": [
    "R3D.c47_index_agrees",
    "R3D.c47_for_each",
    "R3D.c47_closest_partial",
    "R3D.c47_closest_real_partial",
    "R3D.c47_violated",
    "R3D.c47_nan"
   ],
   "note": "the minimum is over the distance to the reported points, which for boxes is the entry point of the whole line"
  },
  {
   "property": "C48",
   "status": "partial",
   "theorems": [
    "R3D.c48_line_box_partial",
    "R3D.c48_axis_float_partial",
    "R3D.c48_missed",
    "R3D.c48_phantom"
   ],
   "note": "exact arithmetic for non zero direction components, floats for axis parallel lines off the face planes; on the planes the test misses boxes or invents hits; general directions in doubles: C106"
  },
  {
   "property": "C49",
   "status": "partial",
   "theorems": [
    "R3D.c49_sat_iff",
    "R3D.c49_no_false_negative",
    "R3D.c49_colliders",
    "R3D.c49_objects",
    "R3D.c49_exact",
    "R3D.c49_false_positive",
    "R3D.c49_touching",
    "R3D.c49_sat_f64",
    "R3D.c49_colliders_f64",
    "R3D.c49_symmetric",
    "R3D.c49_violated_rounding"
   ],
   "note": "exact arithmetic: no false negatives; false positives exist since no axes for pairs of edges are tested; touching aligned boxes do not collide. Doubles: finite colliders never panic; overlaps deeper than 2^-41 of the coordinates are always reported, gaps along a tested axis of more than 2^-43 never; without a margin rounding loses collisions (c49_violated_rounding). Symmetry holds for all numbers"
  },
  {
   "property": "C50",
   "status": "partial",
   "theorems": [
    "R3D.c50_sphere",
    "R3D.c50_circle",
    "R3D.c50_box2d",
    "R3D.c50_box3d",
    "R3D.c50_scale",
    "R3D.c50_triangle",
    "R3D.c50_unaligned_points",
    "R3D.c50_unaligned_violated",
    "R3D.c50_unaligned_new",
    "R3D.c50_from_bb_doubled",
    "R3D.c50_sphere_f64_partial",
    "R3D.c50_circle_f64_partial",
    "R3D.c50_box2d_f64_partial",
    "R3D.c50_box3d_f64_partial",
    "R3D.c50_violated_f64"
   ],
   "note": "exact arithmetic: holds for all shapes but BoxUnaligned3D, where it fails for every box; doubles: the computed boxes of spheres, circles, Box2D and Box3D contain every double point of the exact shape, but computing them panics exactly if the borders collapse (small shapes far from the origin)"
  },
  {
   "property": "C56",
   "status": "partial",
   "theorems": [
    "R3D.c56_lines_partial",
    "R3D.c56_violated"
   ],
   "note": "all files whose last line ends with a line break; otherwise the last byte of the file is lost"
  },
  {
   "property": "C57",
   "status": "proved",
   "theorems": [
    "R3D.c57_xyz",
    "R3D.c57_xy",
    "R3D.c57_mixed",
    "R3D.c57_xyz_f64",
    "R3D.c57_xy_f64"
   ],
   "note": "for every number formatting that parses back (FloatText.Lawful), and for all doubles with the text Rust's std documents (Model/FloatText), and every separator made of one detectable delimiter; mixed separators fail to load"
  },
  {
   "property": "C58",
   "status": "proved",
   "theorems": [
    "R3D.c58_xyz",
    "R3D.c58_xy",
    "R3D.c58_fused"
   ],
   "note": "exact result for every byte sequence"
  },
  {
   "property": "C67",
   "status": "partial",
   "theorems": [
    "R3D.c67_load",
    "R3D.c67_points",
    "R3D.c67_roundtrip",
    "R3D.c67_roundtrip_f64",
    "R3D.c67_violated_panic",
    "R3D.c67_violated_quad"
   ],
   "note": "exact result for every byte sequence; index 0 panics and polygons lose corners"
  },
  {
   "property": "C72",
   "status": "proved",
   "theorems": [
    "R3D.c72_words",
    "R3D.c72_until",
    "R3D.c72_contains",
    "R3D.c72_trim_start",
    "R3D.c72_delimiter",
    "R3D.c72_skip",
    "R3D.c72_decimal"
   ],
   "note": "all byte sequences"
  },
  {
   "property": "C80",
   "status": "partial",
   "theorems": [
    "R3D.c80_mesh",
    "R3D.c80_points",
    "R3D.c80_roundtrip",
    "R3D.c80_roundtrip_f64",
    "R3D.c80_violated_truncated",
    "R3D.c80_violated_count"
   ],
   "note": "exact result for every byte sequence; the announced counts are not enforced"
  },
  {
   "property": "C81",
   "status": "partial",
   "theorems": [
    "R3D.c81_pts",
    "R3D.c81_violated"
   ],
   "note": "exact result for every byte sequence; a short last block is not reported"
  },
  {
   "property": "C69",
   "status": "partial",
   "theorems": [
    "R3D.c69_run_partial",
    "R3D.c69_line",
    "R3D.c69_violated_modal",
    "R3D.c69_violated_rapid",
    "R3D.c69_violated_tab"
   ],
   "note": "exact result for every byte sequence against a reference interpreter; G90/G91 without argument and G0 are ignored, tabs are rejected"
  },
  {
   "property": "C82",
   "status": "partial",
   "theorems": [
    "R3D.c82_scans",
    "R3D.c82_truncated",
    "R3D.c82_malformed",
    "R3D.c82_placed",
    "R3D.c82_exact",
    "R3D.c82_violated_fused"
   ],
   "note": "exact result for every byte sequence (c82_exact); partial since the iterator goes on after a malformed point (c82_violated_fused)"
  },
  {
   "property": "C71",
   "status": "partial",
   "theorems": [
    "R3D.c71_unsigned",
    "R3D.c71_unsigned_roundtrip",
    "R3D.c71_signed",
    "R3D.c71_f64",
    "R3D.c71_f32",
    "R3D.c71_array",
    "R3D.c71_violated_slice_be"
   ],
   "note": "all widths, orders and values (NaN payload not modelled); slice_from_bytes_be never succeeds, witnessed"
  },
  {
   "property": "C63",
   "status": "partial",
   "theorems": [
    "R3D.c63_loaders",
    "R3D.c63_exact",
    "R3D.c63_truncated",
    "R3D.c63_count",
    "R3D.c63_violated_auto"
   ],
   "note": "all files; with automatic format a binary file whose header starts with solid is taken for text, proved as the negation"
  },
  {
   "property": "C64",
   "status": "partial",
   "theorems": [
    "R3D.c64_roundtrip",
    "R3D.c64_roundtrip_f64",
    "R3D.c64_save",
    "R3D.c64_violated"
   ],
   "note": "all meshes that can be saved; for doubles the text of numbers is modelled as documented by std and proved to read back; saving a mesh with a degenerate face panics, witnessed"
  },
  {
   "property": "C65",
   "status": "partial",
   "theorems": [
    "R3D.c65_partial",
    "R3D.c65_violated"
   ],
   "note": "violated: the end of the file inside of a facet is never reported; exact description of what is accepted"
  },
  {
   "property": "C66",
   "status": "partial",
   "theorems": [
    "R3D.c66_unique",
    "R3D.c66_violated"
   ],
   "note": "all files; the key relation of the hash map is a parameter; 0.0 and -0.0 stay apart, witnessed"
  },
  {
   "property": "C68",
   "status": "partial",
   "theorems": [
    "R3D.c68_violated",
    "R3D.c68_first",
    "R3D.c68_partial",
    "R3D.c68_all_iff",
    "R3D.c68_truncated",
    "R3D.c68_exact"
   ],
   "note": "violated: whatever the file, one point is loaded at most; exact result for every byte sequence (c68_exact)"
  },
  {
   "property": "C70",
   "status": "partial",
   "theorems": [
    "R3D.c70_load",
    "R3D.c70_complete",
    "R3D.c70_truncated",
    "R3D.c70_header",
    "R3D.c70_violated_short"
   ],
   "note": "exact result for every byte sequence with records of at least 12 bytes; shorter records panic, proved as the negation"
  },
  {
   "property": "C59",
   "status": "proved",
   "theorems": [
    "R3D.c59_ascii",
    "R3D.c59_ascii_colored",
    "R3D.c59_ascii_f64",
    "R3D.c59_ascii_colored_f64"
   ],
   "note": "all well formed meshes, loaded by all three loaders; for any lawful number text (FloatText.Lawful) and for all doubles with the text documented by std (Model/FloatText)"
  },
  {
   "property": "C60",
   "status": "proved",
   "theorems": [
    "R3D.c60_binary",
    "R3D.c60_binary_colored",
    "R3D.c60_index_wraps"
   ],
   "note": "all well formed meshes with less than 2^32 vertices, loaded by all three loaders"
  },
  {
   "property": "C61",
   "status": "partial",
   "theorems": [
    "R3D.c61_partial",
    "R3D.c61_violated",
    "R3D.c61_violated_order",
    "R3D.c61_violated_types",
    "R3D.c61_violated_panic",
    "R3D.ply_header"
   ],
   "note": "violated: in y z x and z x y order the axes are rotated, for every file; types are looked up by axis instead of position; a fourth coordinate panics. Proved for the other orders and for types that do not move"
  },
  {
   "property": "C62",
   "status": "partial",
   "theorems": [
    "R3D.c62_load",
    "R3D.c62_partial",
    "R3D.c62_violated",
    "R3D.c62_violated_missing"
   ],
   "note": "violated: a missing last vertex line or missing face lines are not reported, for every file; exact result for every body"
  },
  {
   "property": "C83",
   "status": "partial",
   "theorems": [
    "R3D.c83_xyz",
    "R3D.c83_stl",
    "R3D.c83_ply_ascii",
    "R3D.c83_ply_binary_partial",
    "R3D.c83_violated",
    "R3D.c83_violated_interrupted"
   ],
   "note": "proved for all text savers; violated by save_ply_binary, which ignores how much write took"
  },
  {
   "property": "C84",
   "status": "proved",
   "theorems": [
    "R3D.Cluster.c84_complete",
    "R3D.Cluster.c84_near"
   ],
   "note": "completeness with doubles, including rounding, for every list of elements; nearness over the reals"
  },
  {
   "property": "C85",
   "status": "partial",
   "theorems": [
    "R3D.c85_cluster_vertices",
    "R3D.c85_result",
    "R3D.c85_violated_zero"
   ],
   "note": "proved over the reals for positive cluster sizes, and for every kind of numbers relative to the cell function; a cluster size of 0 is accepted and collapses triangles; with doubles see C116"
  },
  {
   "property": "C86",
   "status": "partial",
   "theorems": [
    "R3D.c86_normals_partial",
    "R3D.c86_isolated",
    "R3D.c86_flat",
    "R3D.c86_violated",
    "R3D.c86_violated_panic"
   ],
   "note": "violated: faces without area contribute z, large finite coordinates panic; exact result over the reals; with doubles see C113"
  },
  {
   "property": "C87",
   "status": "partial",
   "theorems": [
    "R3D.Cloud32.c87_container",
    "R3D.Cloud32.c87_pushes",
    "R3D.Cloud32.c87_rounding",
    "R3D.Cloud32.c87_sum",
    "R3D.Cloud32.c87_bounding_box_partial",
    "R3D.Cloud32.c87_violated_two",
    "R3D.Cloud32.c87_violated_box",
    "R3D.Cloud32.c87_violated_from_vec"
   ],
   "note": "container laws and rounding proved; violated: no bounding box for two points, it need not contain the pushed (unrounded) points, and a Vec of another length than a multiple of 3 shifts pushed points"
  },
  {
   "property": "C88",
   "status": "partial",
   "theorems": [
    "R3D.c88_3d_partial",
    "R3D.c88_3d_zero",
    "R3D.c88_violated_3d",
    "R3D.c88_2d_partial",
    "R3D.c88_violated_2d_lower",
    "R3D.c88_violated_2d_opposite",
    "R3D.c88_violated_2d_near"
   ],
   "note": "3D proved over the real numbers, violated with doubles (a unit vector may be denied where exactly it is expected); 2D violated: the angle used is that of the difference of the two directions, so that the opposite direction may be allowed and close ones denied"
  },
  {
   "property": "C89",
   "status": "partial",
   "theorems": [
    "R3D.c89_dist",
    "R3D.c89_new",
    "R3D.c89_set",
    "R3D.c89_from",
    "R3D.c89_zero",
    "R3D.c89_center_partial",
    "R3D.c89_violated"
   ],
   "note": "all but the midpoint proved for doubles; the midpoint over the real numbers, with doubles the sum may overflow, and in range it is accurate (C115)"
  },
  {
   "property": "C90",
   "status": "partial",
   "theorems": [
    "R3D.c90_parse_3d",
    "R3D.c90_parse_2d",
    "R3D.c90_roundtrip_3d",
    "R3D.c90_roundtrip_2d",
    "R3D.c90_parse_cloud",
    "R3D.c90_cloud_3d_partial",
    "R3D.c90_cloud_2d_partial",
    "R3D.c90_roundtrip_f64",
    "R3D.c90_cloud_f64_partial",
    "R3D.c90_violated",
    "R3D.c90_other_white_space"
   ],
   "note": "for any number text that reads back and for all doubles with the text documented by std; violated for the empty cloud, whose text is refused"
  },
  {
   "property": "C91",
   "status": "partial",
   "theorems": [
    "R3D.KdTree.c91_in_sphere_partial",
    "R3D.KdTree.c91_in_box_partial",
    "R3D.KdTree.c91_violated_tie",
    "R3D.KdTree.c91_violated_tiny"
   ],
   "note": "proved up to equality of computed distance and radius (radius at least 2^-511); violated at equality and for tiny radii"
  },
  {
   "property": "C92",
   "status": "partial",
   "theorems": [
    "R3D.c92_dist_3d",
    "R3D.c92_dist_2d",
    "R3D.c92_finite_3d",
    "R3D.c92_finite_2d",
    "R3D.c92_symmetric",
    "R3D.c92_monotone_3d",
    "R3D.c92_monotone_2d",
    "R3D.c92_abs_3d",
    "R3D.c92_abs_2d",
    "R3D.c92_self",
    "R3D.c92_violated"
   ],
   "note": "all parts proved for finite results; violated by overflow (points 2^600 apart) and, relative to the distance, by underflow (points 2^-600 apart)"
  },
  {
   "property": "C93",
   "status": "partial",
   "theorems": [
    "R3D.c93_set",
    "R3D.c93_edit_2d",
    "R3D.c93_edit_3d",
    "R3D.c93_rotate",
    "R3D.c93_laws_2d",
    "R3D.c93_laws_3d",
    "R3D.c93_build",
    "R3D.c93_sphere",
    "R3D.c93_violated",
    "R3D.c93_violated_f64"
   ],
   "note": "proved for points, boxes and circles (formulas for every Scalar, laws with exact numbers); violated by spheres, whose z() reads y: characterised exactly"
  },
  {
   "property": "C94",
   "status": "partial",
   "theorems": [
    "R3D.c94_history",
    "R3D.c94_vertices",
    "R3D.c94_transform",
    "R3D.c94_scale",
    "R3D.c94_parts",
    "R3D.c94_violated"
   ],
   "note": "invariant over all histories of edits proved for every Scalar, maps of corners with exact numbers; violated by From<(mesh, half edge)>, which accepts parts that do not belong together"
  },
  {
   "property": "C95",
   "status": "partial",
   "theorems": [
    "R3D.c95_order",
    "R3D.c95_swap",
    "R3D.c95_equal",
    "R3D.c95_hash_partial",
    "R3D.c95_violated_ord",
    "R3D.c95_violated_hash",
    "R3D.c95_violated_nan"
   ],
   "note": "shapes without NaN are ordered by the distance of the center to the origin, swapping swaps the result for all doubles; violated: Equal for shapes that differ, contradiction to partial_cmp, signed zeros hashed differently, not transitive with NaN"
  },
  {
   "property": "C96",
   "status": "partial",
   "theorems": [
    "R3D.c96_total",
    "R3D.c96_stl_reserve",
    "R3D.c96_reserve",
    "R3D.c96_off_mesh_partial",
    "R3D.c96_off_points_partial",
    "R3D.c96_pts_partial",
    "R3D.c96_ptx_partial",
    "R3D.c96_las_partial",
    "R3D.c96_ply_partial",
    "R3D.c96_obj_mesh_partial",
    "R3D.c96_violated_counts",
    "R3D.c96_violated_ply",
    "R3D.c96_violated_las"
   ],
   "note": "never for xyz, xy, psl, gcode, stl and the points of obj; violated by announced counts, which are reserved unchecked, vertex number 0 in obj, short records in las and a fourth coordinate in ply; these are proved to be the only causes; failing allocations (which abort) are not modelled"
  },
  {
   "property": "C97",
   "status": "proved",
   "theorems": [
    "R3D.c97_size",
    "R3D.c97_center",
    "R3D.c97_move",
    "R3D.c97_collides_2d",
    "R3D.c97_collides_3d",
    "R3D.c97_tree_2d",
    "R3D.c97_tree_3d"
   ],
   "note": "binary64 with all roundings; the exact relations (C18, C21, C22) are violated in the last bits, this is what remains"
  },
  {
   "property": "C98",
   "status": "proved",
   "theorems": [
    "R3D.c98_transform_2d",
    "R3D.c98_transform_3d",
    "R3D.c98_product_2d",
    "R3D.c98_product_3d",
    "R3D.c98_identity",
    "R3D.c98_translation",
    "R3D.c98_scale",
    "R3D.c98_violated_infinite"
   ],
   "note": "binary64 with all roundings"
  },
  {
   "property": "C99",
   "status": "proved",
   "theorems": [
    "R3D.c99_center_2d",
    "R3D.c99_center_3d",
    "R3D.c99_length_2d",
    "R3D.c99_length_3d",
    "R3D.c99_polygon_length_2d",
    "R3D.c99_polygon_length_3d",
    "R3D.c99_violated"
   ],
   "note": "binary64 with all roundings; c99_violated shows that the center is not exact"
  },
  {
   "property": "C100",
   "status": "partial",
   "theorems": [
    "R3D.c100_dot",
    "R3D.c100_cross",
    "R3D.c100_normalized_2d",
    "R3D.c100_normalized_3d",
    "R3D.c100_norm_2d",
    "R3D.c100_norm_3d",
    "R3D.c100_unit",
    "R3D.c100_axes",
    "R3D.c100_violated"
   ],
   "note": "binary64 with all roundings for lengths between 2^-480 and 2^500; outside of that range normalising fails, witnessed by c100_violated"
  },
  {
   "property": "C101",
   "status": "partial",
   "theorems": [
    "R3D.c101_scale_2d",
    "R3D.c101_scale_3d",
    "R3D.c101_move_2d",
    "R3D.c101_move_3d",
    "R3D.c101_center",
    "R3D.c101_set_size",
    "R3D.c101_extents",
    "R3D.c101_segment",
    "R3D.c101_violated"
   ],
   "note": "binary64 with all roundings, without overflow; scaling by 1 changes points (c101_violated)"
  },
  {
   "property": "C102",
   "status": "proved",
   "theorems": [
    "R3D.KdTree.c102_nearest",
    "R3D.KdTree.c102_in_sphere",
    "R3D.KdTree.c102_in_box",
    "R3D.KdTree.c102_distances",
    "R3D.c102_box_2d",
    "R3D.c102_box_3d",
    "R3D.c102_collides_2d",
    "R3D.c102_collides_3d",
    "R3D.c102_tree_2d",
    "R3D.c102_tree_3d",
    "R3D.c102_hull"
   ],
   "note": "binary64 with all roundings; the hull for points above each other given bottom up (as in C43)"
  },
  {
   "property": "C103",
   "status": "proved",
   "theorems": [
    "R3D.c103_real_2d",
    "R3D.c103_real_3d",
    "R3D.c103_round_2d",
    "R3D.c103_round_3d",
    "R3D.c103_laws",
    "R3D.c103_one",
    "R3D.c103_violated",
    "R3D.c103_opposite",
    "R3D.c103_recompose",
    "R3D.c103_recompose_round",
    "R3D.c103_moved",
    "R3D.c103_moved_round",
    "R3D.c103_plane",
    "R3D.c103_lift",
    "R3D.c103_project",
    "R3D.c103_foot"
   ],
   "note": "exact arithmetic for the vector space laws, binary64 for the rest; c103_violated proves that associativity and (a * f) / f = a fail for doubles; the several copies of one operator in the source (value, reference, assigning) have one definition in the model"
  },
  {
   "property": "C104",
   "status": "proved",
   "theorems": [
    "R3D.c104_rotation_2d",
    "R3D.c104_distance_2d",
    "R3D.c104_rotate",
    "R3D.c104_matrix",
    "R3D.c104_rotation_3d",
    "R3D.c104_distance_3d",
    "R3D.c104_axis",
    "R3D.c104_arc",
    "R3D.c104_arc_distance",
    "R3D.c104_violated_single"
   ],
   "note": "binary64; sine and cosine are any functions that are off by at most 2^-52 for finite arguments (hypothesis GoodTrig, shown satisfiable); points within 2^500..2^990 as stated; c104_violated_single proves that one point gives NaN"
  },
  {
   "property": "C105",
   "status": "proved",
   "theorems": [
    "R3D.c105_meets",
    "R3D.c105_ray_triangle",
    "R3D.c105_ray_mesh",
    "R3D.c105_violated_rounding"
   ],
   "note": "binary64; explicit error bounds depending on a condition number K of the triangle and the ray; c105_violated_rounding is a ray through the interior of a triangle that is lost by rounding (inside of the margin)"
  },
  {
   "property": "C106",
   "status": "proved",
   "theorems": [
    "R3D.c106_line_box",
    "R3D.c106_tree",
    "R3D.c106_violated_rounding"
   ],
   "note": "binary64; explicit margins; c106_violated_rounding is a line through the interior of a box that is missed (inside of the margin)"
  },
  {
   "property": "C107",
   "status": "proved",
   "theorems": [
    "R3D.c107_bezier",
    "R3D.c107_hull",
    "R3D.c107_violated_rounding"
   ],
   "note": "binary64; holds for every powi of the accuracy Spec.GoodPowi (met by repeated multiplication: goodPowi_mul); c107_violated_rounding: two equal control points, another point computed"
  },
  {
   "property": "C108",
   "status": "proved",
   "theorems": [
    "R3D.c108_in_sphere",
    "R3D.c108_in_box",
    "R3D.c108_outlier",
    "R3D.c108_outlier_grid",
    "R3D.c108_violated_rounding"
   ],
   "note": "binary64; explicit relative margins; c108_violated_rounding is a point within the radius that is missed (inside of the margin)"
  },
  {
   "property": "C109",
   "status": "partial",
   "theorems": [
    "R3D.c109_cosine_partial",
    "R3D.c109_violated_last"
   ],
   "note": "binary64; sine, cosine and PI of the platform are a parameter, assumed accurate to 2^-52 (GoodTrig, GoodPi, met by trigPi); partial since the code violates that the last point is returned (c109_violated_last)"
  },
  {
   "property": "C110",
   "status": "proved",
   "theorems": [
    "R3D.c110_rectangle",
    "R3D.c110_ellipse",
    "R3D.c110_involute",
    "R3D.c110_violated_rounding"
   ],
   "note": "binary64; sine, cosine and PI of the platform are a parameter, assumed accurate to 2^-52; c110_violated_rounding is the collapsed rectangle"
  },
  {
   "property": "C111",
   "status": "proved",
   "theorems": [
    "R3D.c111_accepted"
   ],
   "note": "the converse, that each such header with the vertices first is accepted, is part of C61 and C62"
  },
  {
   "property": "C112",
   "status": "partial",
   "theorems": [
    "R3D.c112_partial",
    "R3D.c112_violated_order",
    "R3D.c112_violated_list"
   ],
   "note": "partial since the code violates it for faces declared first (c112_violated_order) and further lists (c112_violated_list)"
  },
  {
   "property": "C113",
   "status": "partial",
   "theorems": [
    "R3D.c113_normals",
    "R3D.c113_flat",
    "R3D.c113_violated_thin"
   ],
   "note": "proved under the stated conditions; without the condition on thin faces it is violated (c113_violated_thin)"
  },
  {
   "property": "C114",
   "status": "proved",
   "theorems": [
    "R3D.c114_angle",
    "R3D.c114_filter"
   ],
   "note": "acos is a parameter with its accuracy as hypothesis (met by an instance); nearly parallel vectors are left out, there C88 is violated (c88_violated_3d)"
  },
  {
   "property": "C115",
   "status": "proved",
   "theorems": [
    "R3D.c115_center",
    "R3D.c115_center_nd",
    "R3D.c115_subdivide"
   ],
   "note": "beyond the range the sum overflows (c89_violated)"
  },
  {
   "property": "C116",
   "status": "partial",
   "theorems": [
    "R3D.c116_cluster",
    "R3D.c116_violated_small"
   ],
   "note": "proved for sizes of at least M/2^62; below the cast saturates and vertices far apart meet (c116_violated_small)"
  },
  {
   "property": "C117",
   "status": "partial",
   "theorems": [
    "R3D.c117_kd_build",
    "R3D.c117_kd_search",
    "R3D.c117_outlier",
    "R3D.c117_filters",
    "R3D.c117_hull",
    "R3D.c117_simplify",
    "R3D.c117_box_3d",
    "R3D.c117_box_2d",
    "R3D.c117_cloud",
    "R3D.c117_curves",
    "R3D.c117_rays",
    "R3D.c117_collide",
    "R3D.c117_octree",
    "R3D.c117_mesh",
    "R3D.c117_cluster",
    "R3D.c117_violated"
   ],
   "note": "proved for exact arithmetic; where the code divides by zero (simplifying points above each other, interpolating coinciding points, lines parallel to a side of a box) excluded; with doubles violated (c117_violated)"
  },
  {
   "property": "C118",
   "status": "partial",
   "theorems": [
    "R3D.c118_xyz",
    "R3D.c118_obj",
    "R3D.c118_off",
    "R3D.c118_pts",
    "R3D.c118_gcode",
    "R3D.c118_ptx_partial",
    "R3D.c118_psl",
    "R3D.c118_las",
    "R3D.c118_stl",
    "R3D.c118_ply_points",
    "R3D.c118_ply_mesh_partial",
    "R3D.c118_violated_ptx",
    "R3D.c118_violated_ply"
   ],
   "note": "proved for every format but the errors at points of .ptx and at vertices of meshes in .ply, where the code violates it"
  },
  {
   "property": "C119",
   "status": "proved",
   "theorems": [
    "R3D.c119_xyz",
    "R3D.c119_obj",
    "R3D.c119_off",
    "R3D.c119_pts",
    "R3D.c119_gcode",
    "R3D.c119_ptx",
    "R3D.c119_psl",
    "R3D.c119_las",
    "R3D.c119_stl",
    "R3D.c119_ply",
    "R3D.c119_ply_either",
    "R3D.c119_violated",
    "R3D.c119_silent"
   ],
   "note": "where one of the two runs panics (C96) nothing is said; c119_violated: cut within a line; c119_silent: an ASCII .ply file without its last vertex loads without an error"
  },
  {
   "property": "C120",
   "status": "proved",
   "theorems": [
    "R3D.c120_obj",
    "R3D.c120_off",
    "R3D.c120_ply",
    "R3D.c120_either",
    "R3D.c120_stl",
    "R3D.c120_unique"
   ],
   "note": "where one of the two runs panics (C96) nothing is said; which errors are about faces is listed by ObjFaceError, OffFaceError and PlyFaceError"
  },
  {
   "property": "C121",
   "status": "proved",
   "theorems": [
    "R3D.c121_obj",
    "R3D.c121_off",
    "R3D.c121_ply",
    "R3D.c121_stl",
    "R3D.c121_xyz",
    "R3D.c121_pts",
    "R3D.c121_gcode",
    "R3D.c121_binary",
    "R3D.c121_ptx",
    "R3D.c121_convert",
    "R3D.c121_convert_points",
    "R3D.c121_single"
   ],
   "note": "text is read by any function whose results are doubles (displayText_doubles: Rust's is one); panics (C96) load nothing; NaN is one value in the model, so its payload is not distinguished; c121_single: with f32 it is not lossless"
  },
  {
   "property": "C122",
   "status": "partial",
   "theorems": [
    "R3D.c122_obj",
    "R3D.c122_xyz_partial",
    "R3D.c122_violated_xyz",
    "R3D.c122_pts_partial",
    "R3D.c122_violated_pts",
    "R3D.c122_ptx",
    "R3D.c122_gcode_partial",
    "R3D.c122_violated_gcode",
    "R3D.c122_violated_stl"
   ],
   "note": ".obj and .ptx without further condition; violated for different delimiters, incomplete .pts blocks, G-code that ends elsewhere, and text .stl files of several solids, of which only the first is loaded without any error (proved for all such files)"
  },
  {
   "property": "C123",
   "status": "partial",
   "theorems": [
    "R3D.c123_face_partial",
    "R3D.c123_violated_face",
    "R3D.c123_cloud_partial",
    "R3D.c123_violated_cloud",
    "R3D.c123_obj",
    "R3D.c123_bezier_partial",
    "R3D.c123_bezier_zero",
    "R3D.c123_violated_bezier",
    "R3D.c123_octree"
   ],
   "note": ".obj files and octrees without further condition; violated for face ids and point indices beyond a third of the 64 bit range (a face or point mixed from two is returned or overwritten) and for Bezier curves of 22 control points (wrong weights); proved for smaller ids and up to 21 control points"
  },
  {
   "property": "C124",
   "status": "partial",
   "theorems": [
    "R3D.c124_octree_hash",
    "R3D.c124_octree",
    "R3D.c124_box_tree_2d",
    "R3D.c124_box_tree_3d",
    "R3D.c124_octree_f64",
    "R3D.c124_box_tree_2d_f64",
    "R3D.c124_box_tree_3d_f64",
    "R3D.c124_nearest_f64",
    "R3D.c124_range",
    "R3D.c124_center",
    "R3D.c124_violated_center",
    "R3D.c124_hull_partial",
    "R3D.c124_violated_hull",
    "R3D.c124_violated_knearest"
   ],
   "note": "octree against the order of the hash set for every number type; octree, box trees and nearest neighbour for doubles; range queries, outlier filter and center in exact arithmetic; violated by the rounded sum of the center, the hull of points above each other and knearest"
  },
  {
   "property": "C125",
   "status": "partial",
   "theorems": [
    "R3D.c125_crossing_2d_partial",
    "R3D.c125_crossing_3d_partial",
    "R3D.c125_collision_partial",
    "R3D.c125_violated"
   ],
   "note": "at least as often as the linear scan, at most 2^maxdepth times as often, exactly as often when everything fits into one bucket or the tree may not branch; violated otherwise: an element across the middle is reported once per side of every split"
  },
  {
   "property": "C126",
   "status": "partial",
   "theorems": [
    "R3D.c126_points",
    "R3D.c126_angle",
    "R3D.c126_collides",
    "R3D.c126_box_distance",
    "R3D.c126_colliders",
    "R3D.c126_objects",
    "R3D.c126_center_partial",
    "R3D.c126_violated_center",
    "R3D.c126_mirror_points",
    "R3D.c126_mirror_length",
    "R3D.c126_mirror_contains",
    "R3D.c126_mirror_distance",
    "R3D.c126_mirror_collides_partial",
    "R3D.c126_violated_mirror",
    "R3D.c126_violated_infinite"
   ],
   "note": "exact for doubles, except center of two points and collision of mirrored boxes: exact arithmetic only, violated by rounding because the center is computed from one of the corners; the distance of an infinite point from an infinite box panics on one side only"
  },
  {
   "property": "C127",
   "status": "partial",
   "theorems": [
    "R3D.c127_distance",
    "R3D.c127_runs",
    "R3D.c127_dropped",
    "R3D.c127_straight",
    "R3D.c127_violated"
   ],
   "note": "computed decisions for all doubles, true distances for base lines at least M/4096 wide; for narrower ones (map coordinates in metres or millimetres) the code violates it: straight lines keep points, peaks are dropped because the distance is nan"
  },
  {
   "property": "C128",
   "status": "partial",
   "theorems": [
    "R3D.c128_lines",
    "R3D.c128_loads",
    "R3D.c128_fetch_line",
    "R3D.c128_read_exact",
    "R3D.c128_skip_bytes",
    "R3D.c128_violated",
    "R3D.c128_pause",
    "R3D.c128_stl_binary",
    "R3D.c128_stl_ascii",
    "R3D.c128_stl_header",
    "R3D.c128_violated_stl",
    "R3D.c128_las",
    "R3D.c128_las_seek",
    "R3D.c128_ply",
    "R3D.c128_ply_text",
    "R3D.c128_ply_binary",
    "R3D.c128_violated_ply"
   ],
   "note": "portions and interruptions never matter (text loaders, and the reading of fixed numbers of bytes of which the binary ones consist); a failing reader is not reported by any line based loader: the loaders are proved to return what they return for the complete lines handed over so far; a failing reader of binary .stl, .ply and .las data is reported"
  },
  {
   "property": "C129",
   "status": "partial",
   "theorems": [
    "R3D.c129_kd_tree",
    "R3D.c129_box_trees",
    "R3D.c129_octree",
    "R3D.c129_octree_f64",
    "R3D.c129_octree_any_f64",
    "R3D.c129_collect",
    "R3D.c129_violated",
    "R3D.c129_simplify_violated"
   ],
   "note": "bounds proved for kd-tree, trees of boxes and octree (exact arithmetic, separated doubles, any doubles); collect works exactly for octrees of up to 128 levels, four doubles with a deeper one are given; Douglas-Peucker needs one nested call per point for zigzags of every length (exact arithmetic)"
  },
  {
   "property": "C130",
   "status": "partial",
   "theorems": [
    "R3D.c130_pack",
    "R3D.c130_heal_partial",
    "R3D.c130_heal_settles",
    "R3D.c130_unify_partial",
    "R3D.c130_unify_real_partial",
    "R3D.c130_filter",
    "R3D.c130_center",
    "R3D.c130_set_size",
    "R3D.c130_compress_partial",
    "R3D.c130_violated_heal",
    "R3D.c130_violated_unify",
    "R3D.c130_violated_unify_area",
    "R3D.c130_violated_compress",
    "R3D.c130_violated_simplify",
    "R3D.c130_violated_cluster",
    "R3D.c130_violated_octree"
   ],
   "note": "idempotent in full: pack_dupes, filters, center and set_size (exact); heal_mesh without degenerate faces, otherwise final after the second run; unify_faces for every test of triangles that sees when one is turned, in particular exact arithmetic and faces with an area; compress in exact arithmetic. Violated: heal_mesh with a degenerate face (leftover vertices), unify_faces with a face without area or with rounding (the face is turned by every run), compress of doubles, Douglas-Peucker, cluster_vertices; octrees always lose points"
  },
  {
   "property": "C131",
   "status": "partial",
   "theorems": [
    "R3D.c131_in_sphere",
    "R3D.c131_in_box",
    "R3D.c131_outlier",
    "R3D.c131_round",
    "R3D.c131_box",
    "R3D.c131_douglas_peucker",
    "R3D.c131_collision_partial",
    "R3D.c131_bounding_box",
    "R3D.c131_bounding_box_3d",
    "R3D.c131_nearest",
    "R3D.c131_violated_collides",
    "R3D.c131_violated_knearest",
    "R3D.c131_violated_cluster"
   ],
   "note": "searches, filters and simplification are monotone for reals and for doubles with all rounding, in any tree and in the same order; collision candidates for reals; bounding boxes for any numbers but NaN. Violated: collision candidates of doubles (growing a box away from another one can end the collision), knearest (a point found among two is missing among three), cluster_vertices (larger cells can keep faces that smaller ones remove)"
  },
  {
   "property": "C132",
   "status": "partial",
   "theorems": [
    "R3D.c132_line_ends",
    "R3D.c132_line_ends_stl",
    "R3D.c132_line_ends_ply",
    "R3D.c132_crlf",
    "R3D.c132_pts",
    "R3D.c132_off",
    "R3D.c132_obj",
    "R3D.c132_gcode",
    "R3D.c132_xyz",
    "R3D.c132_ptx",
    "R3D.c132_ply",
    "R3D.c132_violated_blank",
    "R3D.c132_violated_obj",
    "R3D.c132_violated_gcode",
    "R3D.c132_violated_off",
    "R3D.c132_violated_stl",
    "R3D.c132_violated_ply"
   ],
   "note": "line ends and trailing white space: proved for every text loader with identical results and errors; unused lines and spacing: proved for .pts, .off, .obj, .ptx, for the comments of .ply headers, and for .gcode and .xyz with the separators they know. Violated: blank lines are errors in .xy, .xyz, ASCII .stl and .ply; an indented line or a tab behind the keyword hides a vertex of an .obj and a move of a .gcode file; an indented OFF or comment is an error"
  },
  {
   "property": "C133",
   "status": "partial",
   "theorems": [
    "R3D.c133_segments",
    "R3D.c133_clouds",
    "R3D.c133_subdivide",
    "R3D.c133_heal",
    "R3D.c133_bezier",
    "R3D.c133_boxes",
    "R3D.c133_colliders",
    "R3D.c133_views",
    "R3D.c133_violated"
   ],
   "note": "proved for exact arithmetic, every matrix; Bezier curves with at most 21 control points (C45). Violated by rounding: the center of gravity of moved doubles is not the moved center"
  },
  {
   "property": "C134",
   "status": "partial",
   "theorems": [
    "R3D.c134_wrapped",
    "R3D.c134_bounding_boxes_partial",
    "R3D.c134_sat_faces",
    "R3D.c134_violated_faces",
    "R3D.c134_violated_box"
   ],
   "note": "wrapping for all numbers; shared inner points for faces and boxes along the axes; the library's test of a face against a box along the axes. Violated: two faces two units apart collide according to the library; a box with directions collides with what is outside of its own bounding box"
  },
  {
   "property": "C135",
   "status": "partial",
   "theorems": [
    "R3D.c135_boxes",
    "R3D.c135_collides",
    "R3D.c135_distances",
    "R3D.c135_distances_partial",
    "R3D.c135_filters",
    "R3D.c135_clouds",
    "R3D.c135_length",
    "R3D.c135_compress",
    "R3D.c135_searches",
    "R3D.c135_violated"
   ],
   "note": "everything without a sum over several coordinates for all numbers; distances bit by bit when x and y are exchanged, for exact arithmetic for any two axes, where cross products turn around; violated for doubles when y and z are exchanged: the sum of three squares is rounded in another order"
  },
  {
   "property": "C136",
   "status": "partial",
   "theorems": [
    "R3D.c136_exact",
    "R3D.c136_distances",
    "R3D.c136_kd",
    "R3D.c136_filters",
    "R3D.c136_hull",
    "R3D.c136_length",
    "R3D.c136_gravity",
    "R3D.c136_box_2d",
    "R3D.c136_box_3d",
    "R3D.c136_violated"
   ],
   "note": "proved bit by bit for magnitudes between 2^-300 and 2^300 and for zero; violated outside of it: squared distances underflow, so points at different distances become indistinguishable (c136_violated)"
  },
  {
   "property": "C137",
   "status": "proved",
   "theorems": [
    "R3D.c137_xyz",
    "R3D.c137_xy",
    "R3D.c137_obj_points",
    "R3D.c137_obj_mesh",
    "R3D.c137_off_mesh",
    "R3D.c137_off_points",
    "R3D.c137_pts",
    "R3D.c137_gcode",
    "R3D.c137_ptx",
    "R3D.c137_ply_mesh",
    "R3D.c137_ply_points",
    "R3D.c137_ply_either",
    "R3D.c137_stl_duped",
    "R3D.c137_stl_unique",
    "R3D.c137_stl_triplets",
    "R3D.c137_las",
    "R3D.c137_psl"
   ],
   "note": "the bounds hold for every file and outcome that is not a panic; what is merely reserved in advance is the subject of C96"
  },
  {
   "property": "C138",
   "status": "partial",
   "theorems": [
    "R3D.c138_bounding_box_2d",
    "R3D.c138_bounding_box_3d",
    "R3D.c138_closest",
    "R3D.c138_range",
    "R3D.c138_range_grid",
    "R3D.c138_violated_range",
    "R3D.c138_nearest",
    "R3D.c138_box_tree_2d",
    "R3D.c138_box_tree_3d",
    "R3D.c138_center",
    "R3D.c138_center_2d",
    "R3D.c138_violated_center",
    "R3D.c138_length",
    "R3D.c138_length_2d",
    "R3D.c138_pack_dupes",
    "R3D.c138_hull_partial"
   ],
   "note": "boxes, rays, nearest points and duplicates: any doubles (no NaN); searches: exact arithmetic and doubles on a grid, violated for a point on the border of arbitrary doubles; box trees, centers, lengths and hulls: exact arithmetic; hull: points that differ in x"
  },
  {
   "property": "C139",
   "status": "partial",
   "theorems": [
    "R3D.c139_points",
    "R3D.c139_points_f64",
    "R3D.c139_stl_duped",
    "R3D.c139_stl_unique",
    "R3D.c139_obj_partial",
    "R3D.c139_off_partial",
    "R3D.c139_ply_partial",
    "R3D.c139_violated",
    "R3D.c139_kept"
   ],
   "note": "points and .stl: in full (reserving the announced number permitted); .obj, .off and .ply: what was there stays and the vertices come behind it, but the added faces name the numbers of the file and so join the vertices that were there before (c139_violated for every file with a face)"
  },
  {
   "property": "C140",
   "status": "partial",
   "theorems": [
    "R3D.c140_ray",
    "R3D.c140_ray_mesh",
    "R3D.c140_triangle",
    "R3D.c140_collider",
    "R3D.c140_normals",
    "R3D.c140_flip_partial",
    "R3D.c140_length_2d",
    "R3D.c140_length_3d",
    "R3D.c140_linear",
    "R3D.c140_bezier_partial",
    "R3D.c140_violated_bezier",
    "R3D.c140_violated_simplify"
   ],
   "note": "exact arithmetic; rays, colliders, boxes, lengths and linear interpolation in full; flipping needs faces that are no lines (their normal is always the z axis); Bezier curves agree except at the ends, which only the curve starting there contains (c140_violated_bezier, for all ends and numbers of points); simplification keeps other points backwards (c140_violated_simplify)"
  },
  {
   "property": "C141",
   "status": "partial",
   "theorems": [
    "R3D.c141_move_2d",
    "R3D.c141_move_3d",
    "R3D.c141_scale_2d",
    "R3D.c141_scale_3d",
    "R3D.c141_transform_2d",
    "R3D.c141_transform_3d",
    "R3D.c141_center",
    "R3D.c141_set_size",
    "R3D.c141_move_grid_partial",
    "R3D.c141_violated_move",
    "R3D.c141_violated_rotation"
   ],
   "note": "exact arithmetic in full, flat clouds included (they are not scaled or centered at all); doubles: moving on a grid, up to the sign of zero; violated for other doubles (c141_violated_move: 1/3 moved by 1 and back; scaled by 2 and 1/2) and by rotation(-x,-y,-z), which does not undo rotation(x,y,z) (c141_violated_rotation)"
  },
  {
   "property": "C142",
   "status": "partial",
   "theorems": [
    "R3D.c142_dist",
    "R3D.c142_box_2d",
    "R3D.c142_box_3d",
    "R3D.c142_center",
    "R3D.c142_length",
    "R3D.c142_nearest",
    "R3D.c142_in_sphere",
    "R3D.c142_in_box",
    "R3D.c142_bezier_partial",
    "R3D.c142_violated_scale"
   ],
   "note": "exact arithmetic; boxes where both clouds have one; Bezier curves up to 21 control points (more panic, C45); violated by scaling, which leaves flat clouds as they are: arbitrarily close lines are scaled to lines 0.4 apart (c142_violated_scale)"
  },
  {
   "property": "C143",
   "status": "partial",
   "theorems": [
    "R3D.c143_center",
    "R3D.c143_linear_partial",
    "R3D.c143_bezier_partial",
    "R3D.c143_cosine_partial",
    "R3D.c143_linear_length_partial",
    "R3D.c143_bezier_length_partial",
    "R3D.c143_simplify_partial",
    "R3D.c143_violated_center",
    "R3D.c143_violated_cosine"
   ],
   "note": "exact arithmetic; interpolation under the conditions of C78 and C45 (outside them the code panics or answers NaN); cosine interpolation leaves half planes (c143_violated_cosine); for doubles the center of gravity of three equal points is another point (c143_violated_center)"
  },
  {
   "property": "C144",
   "status": "partial",
   "theorems": [
    "R3D.c144_sphere_filter",
    "R3D.c144_box_filter",
    "R3D.c144_nearest_sphere",
    "R3D.c144_outlier",
    "R3D.c144_sphere_in_box",
    "R3D.c144_box_in_sphere",
    "R3D.c144_bounding_box",
    "R3D.c144_nearest_sphere_f64_partial",
    "R3D.c144_violated_knearest",
    "R3D.c144_violated_filter",
    "R3D.c144_hull_partial",
    "R3D.c144_violated_hull"
   ],
   "note": "exact arithmetic; for doubles the nearest point and the sphere search agree except at a computed distance equal to the radius (c144_nearest_sphere_f64_partial), where filter and search can differ (c144_violated_filter); the k nearest points need not be those a sphere search finds (c144_violated_knearest, see C26); hulls under the condition of C43 (c144_violated_hull)"
  },
  {
   "property": "C145",
   "status": "partial",
   "theorems": [
    "R3D.c145_middle",
    "R3D.c145_subdivide",
    "R3D.c145_heal",
    "R3D.c145_unify",
    "R3D.c145_rigid",
    "R3D.c145_scale",
    "R3D.c145_volume",
    "R3D.c145_closed",
    "R3D.c145_closed_heal",
    "R3D.c145_closed_cluster",
    "R3D.c145_vertices",
    "R3D.c145_euler",
    "R3D.c145_euler_steps",
    "R3D.c145_violated_euler",
    "R3D.c145_violated_far"
   ],
   "note": "exact arithmetic; for doubles the new vertices of a mesh with coordinates from 2^1023 on are infinite (c145_violated_far), for others see C115; the Euler characteristic needs a mesh without two faces of the same corners (c145_violated_euler)"
  }
 ]
}