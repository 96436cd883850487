{"id": "C01", "title": "Adaptive-width index vector behaves like a plain vector of usize", "statement": "For every sequence of push / set / reserve / get / len / iteration calls on a DynamicPrecisionIndexVec, starting from new, with_capacity, with_capacity_and_support_for or any From<Vec<..>>, the observable contents are exactly those of a Vec<usize> under the same calls: the automatic width changes (u8 -> u16 -> u32 -> usize) never change, truncate, drop or reorder any stored index.", "quantifier": "all finite operation histories, all usize values, all starting widths", "why_tests_cant": "Tests fix a handful of values around 255/65535; loss could occur at any boundary value, at any position and after any history of widenings.", "anchors": ["src/dynamic_precision_index_vec.rs:33-35", "src/dynamic_precision_index_vec.rs:118-167", "src/dynamic_precision_index_vec.rs:182-225", "src/is_index_container.rs:27-70"]}
{"id": "C02", "title": "Fixed-width index vector stores indices faithfully", "statement": "A U32IndexVec returns from get exactly the value previously pushed / set, for every usize value.", "quantifier": "all usize values (64 bit) and all histories", "why_tests_cant": "The failing values are above 2^32 and no test pushes them; only a statement over all values separates faithful from truncating storage.", "anchors": ["src/u32_index_vec.rs:38-48"]}
{"id": "C03", "title": "Every Mesh3D reachable through its API is well formed", "statement": "After any history of successful or failing add_vertex, add_face, try_add_connection, change_vertex and reserve_* calls on a default Mesh3D: the number of stored indices is three times num_faces, every face id below num_faces yields a face whose three vertex ids are pairwise distinct and below num_vertices, and face_vertices never fails for a valid face id.", "quantifier": "all operation histories, all vertex ids and vertex payloads", "why_tests_cant": "An invariant over unbounded call histories; tests exercise a few fixed sequences.", "anchors": ["src/mesh_3d.rs:33-42", "src/mesh_3d.rs:58-72", "src/mesh_3d.rs:94-115", "src/mesh_3d.rs:128-140"]}
{"id": "C04", "title": "try_add_connection is all-or-nothing and classifies its errors", "statement": "try_add_connection(a,b,c) succeeds exactly when all three ids are existing vertices and pairwise distinct; otherwise it returns IncorrectVertexID (some id out of range) or FaceIDsNotUnique (ids in range but repeated) and leaves the mesh unchanged. On success the new face has exactly the ids a,b,c, the returned id is the old num_faces, and every earlier face and vertex is unchanged.", "quantifier": "all reachable meshes and all id triples", "why_tests_cant": "Needs the frame condition for every earlier face/vertex and every id combination.", "anchors": ["src/mesh_3d.rs:104-115", "src/face3.rs:41-43"]}
{"id": "C05", "title": "Ids handed out by a mesh stay valid and stable", "statement": "A vertex id / face id returned by add_vertex, add_face or try_add_connection keeps denoting the same vertex value / the same vertex ids through every later history that does not call change_vertex on it; ids are handed out consecutively and num_vertices / num_faces never decrease.", "quantifier": "all histories after the id was returned", "why_tests_cant": "Quantifies over all later histories.", "anchors": ["src/mesh_3d.rs:94-115", "src/mesh_3d.rs:128-140"]}
{"id": "C06", "title": "Half edge navigation is a 3-cycle per face", "statement": "For every mesh and every edge id of its half edge structure: next and prev are inverse to each other, next applied three times is the identity, next/prev stay within the face reported by face, edges_of_face(f) are exactly the edges whose face is f, and tail(e) is the vertex at the matching corner of that face; ids outside 0..3*num_faces give None everywhere.", "quantifier": "all meshes, all edge / face ids", "why_tests_cant": "Universal over mesh topologies and ids.", "anchors": ["src/half_edge.rs:123-131", "src/half_edge.rs:138-152", "src/searchable_mesh.rs:129-136", "src/searchable_mesh.rs:160-166"]}
{"id": "C07", "title": "Vertex to edge queries are exact", "statement": "edges_originating_from_vertex(v) appends exactly the edges whose tail is v, each once and in increasing order, edges_ending_at_vertex(v) exactly the edges whose head is v, edges_of_vertex(v) exactly the union, faces_of_vertex(v) exactly the faces having v as a corner; all of them succeed for every vertex of the mesh, for any prior contents of cache and result.", "quantifier": "all meshes with any number of vertices and faces, all vertex ids, all prior buffer contents", "why_tests_cant": "Needs all topologies; in particular unreferenced vertices, which tests do not contain.", "anchors": ["src/half_edge.rs:47-121", "src/half_edge.rs:154-195", "src/half_edge.rs:212-217", "src/half_edge.rs:264-273", "src/searchable_mesh.rs:25-247"]}
{"id": "C08", "title": "Twin of a half edge is the oppositely directed edge", "statement": "In a manifold, consistently oriented mesh edge_twin(e) is the edge that runs from head(e) to tail(e) in the neighbouring face, twin is an involution, and it is None exactly for border edges.", "quantifier": "all manifold meshes, all edges", "why_tests_cant": "Universal over topologies; a single closed test mesh can hide a systematic off-by-one.", "anchors": ["src/half_edge.rs:47-121", "src/half_edge.rs:133-136", "src/searchable_mesh.rs:176-178"]}
{"id": "C09", "title": "Face neighbour queries are exact", "statement": "face_edge_neighbours(f) yields exactly the faces that contain one of f's edges in opposite direction (manifold meshes), and face_vertex_neighbours(f) yields, sorted and without repetition, exactly the faces sharing at least one vertex with f (f included) merged with the prior contents of result.", "quantifier": "all meshes, all face ids, all prior buffer contents", "why_tests_cant": "Universal over topologies and buffer contents.", "anchors": ["src/is_searchable_mesh.rs:70-128"]}
{"id": "C10", "title": "Packing duplicates is lossless", "statement": "pack_dupes_indexed returns pairwise distinct values in order of first occurrence together with an index map such that looking every original element up through the map reproduces the input sequence exactly.", "quantifier": "all finite sequences over any type with lawful equality and hashing", "why_tests_cant": "A round-trip law for every sequence.", "anchors": ["src/utils.rs:80-98"]}
{"id": "C11", "title": "heal_mesh keeps the geometry and removes exactly the defects", "statement": "heal_mesh maps every face whose three corner positions are pairwise distinct to one output face with the same corner positions in the same order (faces keep their relative order), drops every face with coinciding corner positions, and the output has no two vertices with equal position.", "quantifier": "all well formed meshes", "why_tests_cant": "Universal over meshes with arbitrary duplicate structure.", "anchors": ["src/heal_mesh.rs:32-68", "src/utils.rs:80-98"]}
{"id": "C12", "title": "heal_mesh removes duplicate faces", "statement": "As documented, the result of heal_mesh does not contain two faces with the same three corners.", "quantifier": "all well formed meshes", "why_tests_cant": "The documentation promises it for every mesh; no test has a duplicated face.", "anchors": ["src/heal_mesh.rs:32-68"]}
{"id": "C13", "title": "Linear subdivision: counts, positions and shared midpoints", "statement": "For every mesh whose faces are non degenerate, subdivide::linear succeeds; the output has 4*num_faces faces, keeps the original vertices first and unchanged, adds exactly one vertex per undirected edge placed at the midpoint of its ends, and face i is replaced by the four faces (a,mab,mca),(mab,b,mbc),(mab,mbc,mca),(mca,mbc,c) where each midpoint vertex is shared between all faces using that edge. A mesh with a degenerate face gives an error.", "quantifier": "all meshes", "why_tests_cant": "Universal over topologies including non manifold sharing.", "anchors": ["src/subdivide.rs:36-81"]}
{"id": "C14", "title": "unify_faces only flips faces", "statement": "unify_faces returns a mesh with the same vertices and the same number of faces, in which every face is the input face or that face with two corners exchanged; it never panics on a mesh without degenerate faces.", "quantifier": "all well formed meshes", "why_tests_cant": "Universal over meshes and traversal orders.", "anchors": ["src/unify_faces.rs:25-161"]}
{"id": "C15", "title": "Bounding box construction accepts exactly ordered corner pairs", "statement": "BoundingBox2D/3D::new(min,max) succeeds exactly when min < max strictly in every dimension, reports MinMaxEqual if some dimension is equal, otherwise MinMaxSwapped if some dimension is swapped, and a successful box returns exactly the given corners.", "quantifier": "all pairs of points, including NaN and infinities", "why_tests_cant": "Ranges over all float pairs; special values are not covered by tests.", "anchors": ["src/bounding_box_2d.rs:38-59", "src/bounding_box_3d.rs:38-61"]}
{"id": "C16", "title": "Bounding box of a point set is tight", "statement": "For every sequence of at least two points with finite coordinates, from_iterator / from_into_iterator returns (when it succeeds) the least box with every point within its closed extent: each face of the box is touched by some point; the result is independent of the order of the points; fewer than two points gives TooFewPoints and a point set flat in some dimension gives MinMaxEqual.", "quantifier": "all finite point sequences and permutations", "why_tests_cant": "Universal over sequences and their permutations.", "anchors": ["src/bounding_box_2d.rs:61-143", "src/bounding_box_3d.rs:63-187"]}
{"id": "C17", "title": "Bounding boxes form a join semilattice under combine / consume", "statement": "combine returns the least box enclosing both operands, it is commutative, associative and idempotent, consume produces the same value as combine, and the result of combining two valid boxes is again valid.", "quantifier": "all pairs / triples of valid boxes", "why_tests_cant": "Algebraic laws over all boxes.", "anchors": ["src/bounding_box_2d.rs:333-377", "src/bounding_box_3d.rs:425-481"]}
{"id": "C18", "title": "Collision test of boxes is exactly overlap of interiors", "statement": "collides_with is true exactly when the interiors of the two boxes intersect; it is symmetric, reflexive and monotone under enlarging either box.", "quantifier": "all pairs of valid boxes (exact arithmetic)", "why_tests_cant": "An equivalence over all pairs of boxes, including touching faces and containment.", "anchors": ["src/bounding_box_2d.rs:197-201", "src/bounding_box_3d.rs:252-258"]}
{"id": "C19", "title": "Distances to boxes are true distances", "statement": "sqr_distance / distance between a box and a point is the minimum of the (squared) euclidean distance from the point to any point of the closed box and that minimum is attained; box-box distance likewise over both closed boxes; zero exactly when they share a point.", "quantifier": "all boxes and points / boxes (exact arithmetic; all finite doubles up to rounding)", "why_tests_cant": "A minimum over a continuum for every box and point.", "anchors": ["src/bounding_box_2d.rs:220-243", "src/bounding_box_2d.rs:298-317", "src/bounding_box_3d.rs:285-313", "src/bounding_box_3d.rs:381-407", "src/utils.rs:66-68"]}
{"id": "C20", "title": "Containment predicates of boxes are consistent", "statement": "a.is_inside(b) iff b.has_inside(a); both are transitive and irreflexive; a point contained in a is contained in b whenever a is inside b; contains implies zero distance; crossing_x_value / crossing_y_value hold exactly when some contained point has that coordinate.", "quantifier": "all boxes, points and values including NaN", "why_tests_cant": "Relational laws over all boxes.", "anchors": ["src/bounding_box_2d.rs:172-195", "src/bounding_box_2d.rs:203-209", "src/bounding_box_3d.rs:31-34", "src/bounding_box_3d.rs:221-250", "src/bounding_box_3d.rs:260-270", "src/bounding_box_3d.rs:285-313"]}
{"id": "C21", "title": "Moving and scaling keep boxes valid", "statement": "Every sequence of move_by, scale (positive factor), consume and combine applied to valid boxes gives a valid box (min < max per dimension), so the size accessors never panic; move_by keeps the sizes, scale keeps the center and multiplies the sizes by the factor.", "quantifier": "all operation sequences on all valid boxes", "why_tests_cant": "Invariant over unbounded histories; rounding can break it only for extreme magnitudes no test uses.", "anchors": ["src/bounding_box_2d.rs:153-155", "src/bounding_box_2d.rs:165-170", "src/bounding_box_2d.rs:280-283", "src/bounding_box_2d.rs:320-329", "src/bounding_box_3d.rs:31-187", "src/bounding_box_3d.rs:197-219", "src/bounding_box_3d.rs:362-367", "src/bounding_box_3d.rs:409-422"]}
{"id": "C22", "title": "AABBTree2D queries agree with a linear scan", "statement": "For every list of elements with valid bounding boxes and every maxdepth / bucket size, bb_colliding, for_each_collision_candidate, bb_crossing_x_value and bb_crossing_y_value report exactly the elements whose own box satisfies the test (each at least once, nothing else), any(f) is true exactly when f holds for some element, and construction terminates.", "quantifier": "all element lists, depth limits, bucket sizes and queries (exact arithmetic for the collision tests, any ordering incl. float for the crossing tests)", "why_tests_cant": "A refinement over all trees; pruning errors only show on particular layouts.", "anchors": ["src/aa_bb_tree_2d.rs:49-141", "src/aa_bb_tree_2d.rs:189-246", "src/aa_bb_tree_2d.rs:267-308"]}
{"id": "C23", "title": "AABBTree3D queries agree with a linear scan", "statement": "Same as for the 2D tree for bb_colliding / for_each_collision_candidate / crossing queries and for_each_intersection_candidate with a line: no element whose box satisfies the test is missed and nothing else is reported.", "quantifier": "all element lists, depth limits, bucket sizes and queries", "why_tests_cant": "A refinement over all trees; pruning errors only show on particular layouts.", "anchors": ["src/aa_bb_tree_3d.rs:49-161", "src/aa_bb_tree_3d.rs:215-293", "src/aa_bb_tree_3d.rs:314-371"]}
{"id": "C24", "title": "KdTree keeps exactly the input points", "statement": "After build the tree holds exactly the multiset of input points: size equals the number of points and to_pointcloud is a permutation of the input; an empty input is rejected with TooFewPoints and leaves the tree as it was.", "quantifier": "all finite point sequences", "why_tests_cant": "Universal over inputs including duplicates and ties.", "anchors": ["src/kd_tree.rs:59-82", "src/kd_tree.rs:135-145", "src/kd_tree.rs:166-213"]}
{"id": "C25", "title": "KdTree nearest returns a nearest point", "statement": "nearest(q) returns a point of the input whose distance to q is minimal among all input points (None on an empty tree).", "quantifier": "all point sets and all queries (exact arithmetic; all finite doubles with distances as computed)", "why_tests_cant": "Search-tree pruning is correct only if no layout of points makes it skip the optimum.", "anchors": ["src/kd_tree.rs:92-106", "src/kd_tree.rs:220-280"]}
{"id": "C26", "title": "KdTree knearest returns the k nearest points", "statement": "knearest(q,n) returns min(n,size) input points such that no other input point is closer to q than a returned one.", "quantifier": "all point sets, queries and n", "why_tests_cant": "The wrong result appears only for particular tree layouts.", "anchors": ["src/kd_tree.rs:92-99", "src/kd_tree.rs:220-280", "src/kd_tree.rs:405-423"]}
{"id": "C27", "title": "KdTree in_sphere and in_box are exact", "statement": "in_sphere(q,r) returns exactly the input points within distance r and in_box(q,sx,sy,sz) exactly the input points inside the box of those sizes around q, with multiplicity and irrespective of how the tree was split.", "quantifier": "all point sets and queries (exact arithmetic)", "why_tests_cant": "Pruning must be right for every layout.", "anchors": ["src/kd_tree.rs:113-117", "src/kd_tree.rs:124-128", "src/kd_tree.rs:282-403"]}
{"id": "C28", "title": "OcTree keeps all distinct points", "statement": "After build the tree contains every distinct input point: size is the number of distinct points and collect(-1) returns each of them once.", "quantifier": "all point clouds with at least two distinct points", "why_tests_cant": "Universal over clouds; boundary points need exact coordinates.", "anchors": ["src/oc_tree.rs:45-70", "src/oc_tree.rs:78-84", "src/oc_tree.rs:154-186", "src/oc_tree.rs:194-305", "src/oc_tree.rs:313-345"]}
{"id": "C29", "title": "OcTree construction terminates and never invents points", "statement": "Building an octree terminates for every finite point cloud, and every point returned by collect(-1) is an input point.", "quantifier": "all point clouds (exact arithmetic)", "why_tests_cant": "Termination needs an argument over all inputs (cells halve, distinct points separate).", "anchors": ["src/oc_tree.rs:78-84", "src/oc_tree.rs:194-257", "src/oc_tree.rs:313-345"]}
{"id": "C30", "title": "Filter combinators are the boolean connectives", "statement": "FilterAND/OR/XOR/Negate/OuterInner/Allow/Deny/All/Any decide is_allowed exactly by the corresponding boolean combination of their parts, for all parts and elements (empty All allows everything, empty Any allows nothing).", "quantifier": "all inner filters, all elements", "why_tests_cant": "Quantifies over arbitrary inner filters.", "anchors": ["src/filter_and.rs:25-64", "src/filter_or.rs:25-64", "src/filter_xor.rs:25-64", "src/filter_negate.rs:25-59", "src/filter_outer_inner.rs:25-59", "src/filter_allow.rs:25-43", "src/filter_deny.rs:25-43", "src/filter_all.rs:25-55", "src/filter_any.rs:25-55"]}
{"id": "C31", "title": "Applying a view keeps exactly the selected elements in order", "statement": "apply_view on a container with a Restricted view keeps exactly the elements at the selected indices in their original order, Full keeps everything, and a view with an out-of-range index returns IndexOutOfBounds and leaves the container unchanged.", "quantifier": "all containers, all index sets", "why_tests_cant": "Universal over views; the error path must not modify data.", "anchors": ["src/impls/vec.rs:25-174", "src/impls/vec_deque.rs:25-145", "src/impls/linked_list.rs:25-99", "src/point_cloud_2d.rs:25-398", "src/point_cloud_3d.rs:25-408", "src/view.rs:25-49"]}
{"id": "C32", "title": "Random accessible filtering selects exactly the allowed elements of the view", "statement": "Filtering a random accessible collection with a view leaves in the view exactly the indices that were in the view, are in range and whose element is allowed.", "quantifier": "all collections, filters and starting views", "why_tests_cant": "Universal over starting views.", "anchors": ["src/filter_random_accessible.rs:25-92"]}
{"id": "C33", "title": "FilterAll over random accessible filters is the intersection", "statement": "FilterAllRandomAccessible restricts the view to the indices every filter keeps, independent of the order of the filters.", "quantifier": "all lists of filters and views", "why_tests_cant": "Universal over filter lists.", "anchors": ["src/filter_all_random_accessible.rs:25-47"]}
{"id": "C34", "title": "FilterAny over random accessible filters is the union", "statement": "FilterAnyRandomAccessible restricts the view to the indices at least one filter keeps.", "quantifier": "all lists of filters and views", "why_tests_cant": "Universal over filter lists and views.", "anchors": ["src/filter_any_random_accessible.rs:25-50"]}
{"id": "C35", "title": "Views form a union lattice", "statement": "union keeps Full absorbing and is set union on Restricted views; it is commutative, associative and idempotent.", "quantifier": "all views", "why_tests_cant": "Algebraic laws.", "anchors": ["src/view.rs:38-48"]}
{"id": "C36", "title": "Geometric filters decide membership of the closed shape", "statement": "FilterBox2D/3D allow exactly the points within half a size of the center per dimension, FilterCircle / FilterSphere exactly the points with distance at most the radius; a box filter built from a bounding box allows exactly the closed box.", "quantifier": "all shapes and points (exact arithmetic; all finite doubles up to rounding)", "why_tests_cant": "Universal over shapes.", "anchors": ["src/filter_box_2d.rs:130-135", "src/filter_box_2d.rs:144-152", "src/filter_box_3d.rs:140-147", "src/filter_box_3d.rs:156-165", "src/filter_circle.rs:129-131", "src/filter_sphere.rs:138-140", "src/box_2d.rs:33-37", "src/box_2d.rs:191-199", "src/box_3d.rs:33-38", "src/box_3d.rs:212-221", "src/circle.rs:33-36", "src/sphere.rs:33-36"]}
{"id": "C37", "title": "Positions reported by shapes are their centers", "statement": "For Sphere, Circle, Box and the corresponding filters x(), y(), z() are the coordinates of the center.", "quantifier": "all shapes", "why_tests_cant": "A constant accessor error is invisible if the tested center has equal coordinates.", "anchors": ["src/sphere.rs:75-77", "src/filter_sphere.rs:64-66", "src/circle.rs:33-36", "src/circle.rs:64-67", "src/box_3d.rs:33-38", "src/box_3d.rs:97-100", "src/box_3d.rs:107-110"]}
{"id": "C38", "title": "Positive / NonNegative hold their invariant", "statement": "A Positive always holds a number > 0 and a NonNegative a number >= 0 through every arithmetic operation offered on them; construction fails exactly on the other numbers.", "quantifier": "all values and operation sequences", "why_tests_cant": "Invariant over all histories; NaN, overflow and underflow are not tested.", "anchors": ["src/positive.rs:37-58", "src/positive.rs:72-142", "src/non_negative.rs:37-71", "src/non_negative.rs:82-176"]}
{"id": "C39", "title": "Matrix product is composition of transformations", "statement": "For 3x3 (2D) and 4x4 (3D) matrices transforming with a*b equals transforming with b first and then a; the identity transforms to the same point; the product is associative with the identity neutral; products of affine matrices are affine.", "quantifier": "all matrices and points (exact arithmetic)", "why_tests_cant": "Algebraic identities over all matrices.", "anchors": ["src/matrix3.rs:33-154", "src/matrix4.rs:33-165", "src/matrix4.rs:224-307", "src/is_buildable_2d.rs:65-69", "src/is_buildable_3d.rs:51-65", "src/point_2d.rs:321-323", "src/point_3d.rs:350-352"]}
{"id": "C40", "title": "Rotation matrices are isometries", "statement": "Rotation matrices (2D, 3D by angles, 3D around an axis) and rotate preserve distances and the origin (center), turn by the given angle in the right handed sense, a rotation by -a undoes a rotation by a, rotations about one axis add up, rotation(x, y, z) rotates about z, then y, then x, and translation/scale matrices act as their names say.", "quantifier": "all angles, points (exact trigonometry)", "why_tests_cant": "Identities over all angles.", "anchors": ["src/matrix3.rs:51-71", "src/matrix4.rs:61-165", "src/is_editable_2d.rs:85-97"]}
{"id": "C41", "title": "Transformation pipes apply steps in documented order", "statement": "The matrix produced by a Matrix3Pipe / Matrix4Pipe equals the composition of the added transformations in the documented order, for every set of configured steps.", "quantifier": "all pipe configurations", "why_tests_cant": "Order errors need a non commuting pair of steps.", "anchors": ["src/matrix3_pipe.rs:25-68", "src/matrix4_pipe.rs:25-115"]}
{"id": "C42", "title": "Compression keeps count, order and bounded error", "statement": "Compressing a point cloud to integer precision and decompressing returns the same number of points in the same order, each coordinate off by less than one quantisation unit (extent / max integer) and never larger than the original.", "quantifier": "all clouds with a bounding box, all integer widths (exact arithmetic)", "why_tests_cant": "Error bound for every point.", "anchors": ["src/compressed_point_cloud_3d.rs:25-114"]}
{"id": "C43", "title": "Convex hull encloses the input", "statement": "The 2D convex hull consists of input points, turns strictly left at every corner and has every input point on or left of every hull edge.", "quantifier": "all point sets (exact arithmetic)", "why_tests_cant": "Universal geometric statement over point sets.", "anchors": ["src/convex_hull_2d.rs:32-86"]}
{"id": "C44", "title": "Line simplification error bound", "statement": "simplify (Douglas Peucker) with tolerance eps keeps first and last point, returns a subsequence of the input, and every dropped point is within eps of the simplified line.", "quantifier": "all polylines, eps >= 0", "why_tests_cant": "A bound over all polylines.", "anchors": ["src/douglas_peucker_2d.rs:30-103"]}
{"id": "C45", "title": "Bezier interpolation stays in the hull of its control points", "statement": "interpolate_bezier returns the requested number of points, starts at the first control point, and every point is a convex combination of the control points (weights are non negative and sum to 1).", "quantifier": "all control polygons, all sample counts (exact arithmetic)", "why_tests_cant": "Partition of unity for every degree and parameter.", "anchors": ["src/interpolate_2d.rs:31-46", "src/interpolate_2d.rs:64-86"]}
{"id": "C46", "title": "Ray triangle intersection is sound and complete", "statement": "intersection_ray_triangle returns Some(p) exactly when the ray hits the interior of the triangle, and then p is the unique common point of ray and triangle plane.", "quantifier": "all rays and non degenerate triangles (exact arithmetic)", "why_tests_cant": "Equivalence over a continuum.", "anchors": ["src/functions.rs:256-299"]}
{"id": "C47", "title": "Closest intersecting element is a true minimum", "statement": "closest_intersecting / index_closest_intersecting return an element that the ray intersects and no intersecting element is closer to the ray's anchor; None exactly if nothing intersects.", "quantifier": "all element sequences and rays", "why_tests_cant": "Argmin over all sequences incl. ties.", "anchors": ["src/functions.rs:302-392"]}
{"id": "C48", "title": "Line against box test is exact", "statement": "intersection(line, box) is Some exactly when the half line hits the closed box and the returned point lies on the line.", "quantifier": "all lines and boxes (exact arithmetic)", "why_tests_cant": "Slab test over all directions including axis-parallel ones.", "anchors": ["src/functions.rs:443-471"]}
{"id": "C49", "title": "SAT collision never misses a collision", "statement": "If two SAT objects share a point, the separating axis test reports a collision (no false negatives); AABB against AABB is exact.", "quantifier": "all convex objects given by points and axes (exact arithmetic)", "why_tests_cant": "Universal over shapes.", "anchors": ["src/sat_collider.rs:35-98", "src/collider_3d.rs:30-70", "src/is_sat_object.rs:30-38"]}
{"id": "C50", "title": "Shape bounding boxes enclose the shape", "statement": "bounding_box of Sphere, Circle, Box2D/3D, BoxUnaligned3D, TriFace3D, polygons and clouds encloses every point the shape enumerates.", "quantifier": "all shapes (exact arithmetic)", "why_tests_cant": "Universal over shapes and orientations.", "anchors": ["src/sphere.rs:33-36", "src/sphere.rs:64-67", "src/sphere.rs:139-153", "src/sphere.rs:161-165", "src/circle.rs:33-36", "src/circle.rs:64-67", "src/circle.rs:129-141", "src/circle.rs:149-153", "src/box_2d.rs:33-37", "src/box_2d.rs:91-94", "src/box_2d.rs:158-170", "src/box_2d.rs:178-183", "src/box_3d.rs:33-38", "src/box_3d.rs:97-100", "src/box_3d.rs:176-190", "src/box_3d.rs:198-204", "src/box_unaligned_3d.rs:31-69", "src/box_unaligned_3d.rs:82-84", "src/box_unaligned_3d.rs:99-116", "src/box_unaligned_3d.rs:130-154", "src/tri_face_3d.rs:30-44", "src/tri_face_3d.rs:62-69", "src/tri_face_3d.rs:93-98"]}
{"id": "C51", "title": "Point cloud editing behaves like list editing", "statement": "push, insert, get/set, append, consume/combine, len of PointCloud2D/3D act exactly like the list operations; insert at any index 0..=len succeeds, beyond len it fails and changes nothing.", "quantifier": "all histories", "why_tests_cant": "Refinement over histories.", "anchors": ["src/point_cloud_2d.rs:25-398", "src/point_cloud_3d.rs:25-408", "src/impls/vec.rs:25-174"]}
{"id": "C52", "title": "Insertion is uniform across containers", "statement": "insert(index, v) with index == len appends for every IsRandomInsertible container.", "quantifier": "all containers", "why_tests_cant": "A cross-implementation law.", "anchors": ["src/impls/vec.rs:36-42", "src/impls/vec_deque.rs:38-44", "src/point_cloud_2d.rs:170-177", "src/point_cloud_3d.rs:170-177"]}
{"id": "C53", "title": "Sorting helpers sort and permute", "statement": "sort_dim / sort_x / sort_y / sort_z rearrange the points into an ordered permutation of the input (stable for equal keys) for every cloud without NaN.", "quantifier": "all clouds", "why_tests_cant": "Universal over clouds.", "anchors": ["src/functions.rs:109-174", "src/point_cloud_2d.rs:282-294"]}
{"id": "C54", "title": "Equality, ordering and hashing of points are coherent", "statement": "For points and norms a == b implies equal hashes and cmp == Equal exactly for equal points, as required by HashMap / BTreeMap users.", "quantifier": "all pairs of points", "why_tests_cant": "Violations need special pairs (+0.0/-0.0, equal norms).", "anchors": ["src/point_2d.rs:36-41", "src/point_2d.rs:51-66", "src/point_3d.rs:37-43", "src/point_3d.rs:54-68", "src/norm_2d.rs:25-148", "src/norm_3d.rs:25-161"]}
{"id": "C55", "title": "Polygon segments form one closed cycle", "statement": "segment_vertex_ids(i) is (i, i+1) and wraps to 0 for the last one, so for every polygon the segments form a single cycle visiting every vertex once; length is the sum of the segment lengths.", "quantifier": "all polygons", "why_tests_cant": "Universal over sizes.", "anchors": ["src/polygon_2d.rs:33-38", "src/polygon_2d.rs:118-126", "src/polygon_3d.rs:33-38", "src/polygon_3d.rs:118-126"]}
{"id": "C56", "title": "Lines are read completely", "statement": "Reading a text file line by line yields each line's content without its line break and trailing blanks, for every file, whether or not the last line ends with a line break.", "quantifier": "all byte sequences", "why_tests_cant": "Requires files with and without terminating newline and all trailing characters.", "anchors": ["src/io/utils.rs:92-114"]}
{"id": "C57", "title": "Saved .xy / .xyz files load back to the same points", "statement": "save followed by load (same delimiters) yields the same points in the same order for every cloud, for every delimiter the loader can detect.", "quantifier": "all clouds; all admissible delimiters", "why_tests_cant": "Round trip for every cloud.", "anchors": ["src/io/xy.rs:131-160", "src/io/xyz.rs:58-68", "src/io/xyz.rs:136-175", "src/utils.rs:128-135"]}
{"id": "C58", "title": "Text loaders stop at the first malformed line and keep the prefix", "statement": "load_xy / load_xyz on malformed input reports an error and has pushed exactly the points of the well formed lines before it; iterators stay exhausted after an error.", "quantifier": "all byte sequences", "why_tests_cant": "Universal over inputs and error positions.", "anchors": ["src/io/xy.rs:39-51", "src/io/xyz.rs:39-51"]}
{"id": "C59", "title": "Saved ASCII .ply meshes load back", "statement": "save_ply_ascii followed by load_ply_mesh gives the same vertices and faces, for every well formed mesh.", "quantifier": "all meshes", "why_tests_cant": "Round trip for every mesh.", "anchors": ["src/io/ply/save.rs:34-75", "src/io/ply/load.rs:86-112", "src/io/ply/header.rs:25-276"]}
{"id": "C60", "title": "Saved binary .ply meshes load back", "statement": "save_ply_binary followed by load_ply_mesh gives the same faces and the same vertices (P64 exactly, P32 rounded to f32), for every well formed mesh with fewer than 2^32 vertices.", "quantifier": "all meshes and both precisions", "why_tests_cant": "Round trip for every mesh and byte pattern (including bytes that look like newlines).", "anchors": ["src/io/ply/save.rs:148-220", "src/io/ply/iterators_internal.rs:25-554", "src/io/byte_reader.rs:25-284"]}
{"id": "C61", "title": "PLY vertex property order is honoured", "statement": "A .ply file declaring x,y,z in any order and with any mix of float and double loads each coordinate into the right axis.", "quantifier": "all six orders, all type combinations, all values", "why_tests_cant": "Cyclic orders are not in any test file.", "anchors": ["src/io/ply/utils.rs:85-97", "src/io/ply/header.rs:36-274", "src/io/ply/types.rs:106-113"]}
{"id": "C62", "title": "Truncated .ply data is reported", "statement": "If an ASCII .ply file has fewer vertex (or face) lines than the header announces, loading fails.", "quantifier": "all truncation points", "why_tests_cant": "Every crash/truncation point of a writer.", "anchors": ["src/io/ply/iterators_internal.rs:298-310", "src/io/ply/iterators_internal.rs:414-424"]}
{"id": "C63", "title": "Binary STL parsing is exact", "statement": "load_stl on a binary file written according to the format returns exactly the stored triangles and normals in order; any truncation is reported as an error and an over-large face count is rejected.", "quantifier": "all triangle lists, all truncation points", "why_tests_cant": "Universal over files and cut positions.", "anchors": ["src/io/stl.rs:152-163", "src/io/stl.rs:499-513"]}
{"id": "C64", "title": "ASCII STL round trip", "statement": "save_stl_ascii followed by load_stl yields the same triangles in order, for every mesh.", "quantifier": "all meshes", "why_tests_cant": "Round trip for every mesh.", "anchors": ["src/io/stl.rs:56-86", "src/io/stl.rs:254-265", "src/io/stl.rs:517-584"]}
{"id": "C65", "title": "Truncated ASCII STL is reported", "statement": "An ASCII STL file cut in the middle of a facet makes loading fail.", "quantifier": "all cut positions", "why_tests_cant": "Every truncation point.", "anchors": ["src/io/stl.rs:254-265", "src/io/stl.rs:517-584"]}
{"id": "C66", "title": "STL vertex unification", "statement": "load_stl_mesh_unique yields the same triangles (as positions) as load_stl_mesh_duped except degenerate ones, no two vertices with equal position, and one normal per face.", "quantifier": "all triangle sequences", "why_tests_cant": "Universal over triangle soups.", "anchors": ["src/io/stl.rs:336-424"]}
{"id": "C67", "title": "OBJ loading keeps every vertex and face", "statement": "load_obj_mesh on a well formed file adds the v lines as vertices in order and each f line as a face with 1-based indices shifted to 0-based; bad indices give an error, never a panic.", "quantifier": "all files", "why_tests_cant": "Universal over files; index 0 is not tested.", "anchors": ["src/io/obj.rs:186-224"]}
{"id": "C68", "title": "PSL loading returns all points", "statement": "load_psl on a well formed file returns every point of every line of every pass.", "quantifier": "all files", "why_tests_cant": "Universal over counts.", "anchors": ["src/io/psl.rs:74-100"]}
{"id": "C69", "title": "G-code interpretation follows the modal state", "statement": "Loading g-code yields the sequence of positions a reference interpreter of G0/G1/G2/G3/G90/G91/G92 produces.", "quantifier": "all command sequences", "why_tests_cant": "Universal over command histories (modal state).", "anchors": ["src/io/gcode.rs:194-207"]}
{"id": "C70", "title": "LAS header decision and point decoding", "statement": "load_las returns offset + scale*raw for each of the announced number of records, uses the legacy count when it is non zero, rejects unsupported versions/formats, and truncated data is an error.", "quantifier": "all byte sequences", "why_tests_cant": "Universal over headers and truncation points.", "anchors": ["src/io/las/load.rs:142-158", "src/io/las/types.rs:25-194"]}
{"id": "C71", "title": "Fixed width number decoding is the inverse of encoding", "statement": "Little and big endian readers decode exactly what the corresponding encoder wrote, for every integer of every width; short input is an error.", "quantifier": "all integers and widths", "why_tests_cant": "Universal over values.", "anchors": ["src/io/byte_reader.rs:77-284", "src/io/from_bytes.rs:30-103"]}
{"id": "C72", "title": "Byte utilities", "statement": "to_words_skip_empty returns exactly the maximal runs of non blank bytes, until returns the prefix before the first stop byte, contains decides sub-sequence occurrence, trim_start drops exactly leading blanks, estimate_delimiter picks the first candidate occurring often enough.", "quantifier": "all byte sequences", "why_tests_cant": "Universal over inputs.", "anchors": ["src/utils.rs:35-37", "src/utils.rs:45-47", "src/utils.rs:58-63", "src/utils.rs:128-135", "src/io/utils.rs:35-92"]}
{"id": "C73", "title": "Corners, default and bounding box of bounding boxes", "statement": "corners() lists exactly the 4 (2D) or 8 (3D) points each of whose coordinates is the min or max coordinate, and from_iterator over them gives the box back; bounding_box() of a valid box is the box itself and does not panic; the default box is the unit box around the origin and valid.", "quantifier": "all valid boxes", "why_tests_cant": "A test fixes one box; a swapped coordinate in one of the corners only shows when the coordinates are pairwise different.", "anchors": ["src/bounding_box_2d.rs:211-218", "src/bounding_box_2d.rs:249-254", "src/bounding_box_2d.rs:287-289", "src/bounding_box_3d.rs:272-283", "src/bounding_box_3d.rs:319-332", "src/bounding_box_3d.rs:370-372"]}
{"id": "C74", "title": "Outlier filter counts neighbours", "statement": "FilterOutlier3D over a k-d tree allows exactly the points that have at least min_neighbours points of the tree within the search distance.", "quantifier": "all point clouds, points, distances and counts", "why_tests_cant": "Depends on the tree search visiting every branch that can hold a neighbour; a test fixes one cloud.", "anchors": ["src/filter_outlier_3d.rs:80-95", "src/kd_tree.rs:33-51"]}
{"id": "C75", "title": "look_at is a rigid camera rotation", "statement": "Matrix4::look_at fails exactly for a target without length; otherwise the matrix turns the target onto the positive z axis at its distance, keeps the origin and keeps distances.", "quantifier": "all targets and unit up vectors (exact arithmetic)", "why_tests_cant": "Holds for unit targets orthogonal to up, which is what a test picks.", "anchors": ["src/matrix4.rs:192-219"]}
{"id": "C76", "title": "Moving and scaling clouds and line segments", "statement": "move_by shifts every point, the bounding box and the center of gravity by the offset; scale(f) multiplies all mutual distances and the bounding box sizes by f and keeps the middle of the bounding box, for point clouds and line segments.", "quantifier": "all clouds, segments, offsets, factors (exact arithmetic)", "why_tests_cant": "Fails silently for flat clouds and axis-parallel segments, which have no bounding box.", "anchors": ["src/point_cloud_2d.rs:196-200", "src/point_cloud_2d.rs:216-237", "src/point_cloud_2d.rs:331-338", "src/point_cloud_3d.rs:196-200", "src/point_cloud_3d.rs:216-240", "src/point_cloud_3d.rs:341-348", "src/line_segment_2d.rs:33-36", "src/line_segment_2d.rs:46-76", "src/line_segment_3d.rs:33-36", "src/line_segment_3d.rs:46-76"]}
{"id": "C77", "title": "center, set_size and extrude", "statement": "After center the bounding box of a cloud is centred at the origin, after set_size it has the requested sizes; extrude returns the points at height zero and a copy moved by the direction.", "quantifier": "all clouds, sizes and directions (exact arithmetic)", "why_tests_cant": "Universal over clouds; flat clouds are left unchanged without an error.", "anchors": ["src/functions.rs:178-194", "src/functions.rs:212-235"]}
{"id": "C78", "title": "Linear and cosine interpolation sample the polyline evenly", "statement": "interpolation_linear and interpolate_cosine return exactly the requested number of points, sampled at equal distances along the polyline from its first to its last point.", "quantifier": "all polylines and sample counts (exact arithmetic)", "why_tests_cant": "Universal over polylines; duplicates and small counts give NaN or too few points.", "anchors": ["src/interpolate_2d.rs:89-170"]}
{"id": "C79", "title": "The 2D factories build the described curves", "statement": "rectangle, arc, ellipse and involut_circle return the requested number of points, all on the described curve, from the start to the end angle.", "quantifier": "all centers, sizes, angles and point counts (exact arithmetic and trigonometry)", "why_tests_cant": "Needs exact trigonometry; wrong for decreasing angles, non zero start angles and the lower half of the ellipse.", "anchors": ["src/factory_2d.rs:32-115"]}
{"id": "C80", "title": "OFF loading", "statement": "load_off_mesh / load_off_points yield exactly the announced vertices and triangles in order (comments and empty lines anywhere are skipped), a mesh written as .off loads back, the first malformed line is reported with its number, and a file whose data does not match the announced counts is rejected.", "quantifier": "all byte sequences; all meshes", "why_tests_cant": "Universal over files, comment positions and truncation points.", "anchors": ["src/io/off.rs:303-348"]}
{"id": "C81", "title": "PTS loading", "statement": "load_pts returns the points of every block (a count followed by that many points) in order, reports the first malformed line, and reports a block with fewer points than announced.", "quantifier": "all byte sequences", "why_tests_cant": "Universal over the number and sizes of blocks.", "anchors": ["src/io/pts.rs:178-194"]}
{"id": "C82", "title": "PTX loading", "statement": "load_ptx returns the points of every scan in order, each transformed by the matrix of its scan (a scan with the identity matrix is left alone, which makes no difference); a file that ends within a scan and a malformed point line are reported as errors after the points before them, and the iterator yields nothing after an error.", "quantifier": "all files made of scans of any size, all truncation points, all malformed lines", "why_tests_cant": "Universal over the number and sizes of scans, matrices and truncation points.", "anchors": ["src/io/ptx.rs:227-243"]}
{"id": "C83", "title": "Savers deliver the whole file", "statement": "Whenever a saver (save_xyz, save_xy, save_stl_ascii, save_ply_ascii, save_ply_binary and the colored ones) returns Ok, the writer has taken exactly the bytes of the file; otherwise it has taken a beginning of them. A writer that takes only a part of a buffer or is interrupted, but makes progress, never makes a saver fail.", "quantifier": "all meshes and point lists, all writers (short writes, interruptions and errors in any order)", "why_tests_cant": "Tests write to a file or a Vec, which take every buffer as a whole; short writes happen with sockets, pipes and compressors only.", "anchors": ["src/io/ply/save.rs:34-323", "src/io/stl.rs:56-87", "src/io/stl.rs:336-336", "src/io/xyz.rs:136-159", "src/io/xy.rs:131-144"]}
{"id": "C84", "title": "Cluster index finds every candidate", "statement": "Cluster::new on a non empty list of elements with finite bounding boxes succeeds without panic (BoundingBoxMissing for the empty list). for_each_candidate(x, y) then calls its function with every element whose bounding box contains the position (x, y), never with an element twice, and in the order of the data. A candidate is at most one cell away: its box is less than one increment from (x, y) along x and y.", "quantifier": "all lists of elements, all cell counts (also 0), all positions; the last sentence over the real numbers, for positions inside the grid", "why_tests_cant": "Rounding of the cell indices decides whether an element at the border of a cell is lost; tests sample few positions.", "anchors": ["src/cluster.rs:25-106"]}
{"id": "C85", "title": "cluster_vertices snaps to one vertex per cell", "statement": "cluster_vertices fails with BoundingBoxMissing when the mesh has no bounding box and with ClusterTooBig when it has less than two clusters along some axis. Otherwise it returns, without panic, the faces of the mesh in order with every corner moved to the last vertex of its grid cell, without those of which corners met; corners move less than the cluster size along every axis, every vertex is a vertex of the input and none occurs twice.", "quantifier": "all well formed meshes, all cluster sizes", "why_tests_cant": "Universal over meshes; the indices of vertices, cells, faces and healed vertices have to agree for all of them.", "anchors": ["src/cluster_vertices.rs:33-97", "src/heal_mesh.rs:25-68"]}
{"id": "C86", "title": "normals_of_mesh", "statement": "normals_of_mesh returns one unit normal per vertex: the direction of the sum of the unit normals (right hand rule) of its faces; faces without area contribute nothing; vertices without faces get z; within a flat part it is the normal of the faces. It does not panic on well formed meshes with finite coordinates.", "quantifier": "all well formed meshes, all vertices", "why_tests_cant": "Universal over meshes and the number of faces around a vertex.", "anchors": ["src/utils.rs:101-125", "src/norm_3d.rs:25-161"]}
{"id": "C87", "title": "PointCloud3Df32 is a container of rounded points", "statement": "PointCloud3Df32 behaves as a list of points rounded to f32 (to the nearest f32): len_d, get_d (None beyond the end, no panic), set_d (panics exactly beyond the end), push, move_by (the f32 sum with the rounded offset). The bounding box is that of the points, as for PointCloud3D, and contains the pushed points.", "quantifier": "all sequences of operations, all coordinates, all Vec<f32> converted into a cloud", "why_tests_cant": "Index arithmetic with three numbers per point, for all lengths; rounding for all numbers.", "anchors": ["src/point_cloud_3d_f32.rs:27-201"]}
{"id": "C88", "title": "Direction filters allow exactly the directions close to the expected one", "statement": "FilterDirectionField2D/3D allow a normal at a position exactly if the angle between it and the direction the field expects there is at most the allowed error, and never panic; the expected direction itself is allowed.", "quantifier": "all fields of unit vectors, all allowed errors, positions and unit normals", "why_tests_cant": "The angle is computed in floats from quotients that may leave the domain of acos; tests try axis aligned normals only.", "anchors": ["src/filter_direction_field_2d.rs:53-56", "src/filter_direction_field_3d.rs:53-60", "src/is_2d.rs:58-58", "src/is_3d.rs:74-74"]}
{"id": "C89", "title": "The dimension independent view agrees with the 2D and 3D ones", "statement": "IsND / IsBuildableND / IsEditableND on Point2D and Point3D agree with the named coordinates: dist_nd and sqr_dist_nd give exactly the doubles dist_2d / dist_3d give; new_nd succeeds exactly for as many coordinates as dimensions; set_position changes that coordinate only and fails exactly beyond the dimensions; from_nd copies and fails on another dimension; zero is zero; center_nd is the midpoint. No panic occurs.", "quantifier": "all doubles including NaN and infinities, all lists of coordinates, all dimensions", "why_tests_cant": "Bitwise agreement of two summation orders for all doubles, including signed zeros and overflow.", "anchors": ["src/is_nd.rs:28-35", "src/is_buildable_nd.rs:30-65", "src/is_editable_nd.rs:25-33", "src/distances_nd.rs:30-57", "src/point_2d.rs:38-41", "src/point_2d.rs:257-269", "src/point_2d.rs:288-297", "src/point_3d.rs:39-43", "src/point_3d.rs:279-291", "src/point_3d.rs:311-321"]}
{"id": "C90", "title": "Points and point clouds survive the way through text", "statement": "parse(to_str(p)) is p for points and point clouds in 2D and 3D. Point parse accepts exactly the texts with 2 / 3 blank separated words that are numbers, cloud parse exactly the texts with at least one line, each not empty line being a point; everything else gives ParseError without a panic.", "quantifier": "all points, all clouds of any length, all texts", "why_tests_cant": "Unbounded texts with any pattern of blanks and empty lines.", "anchors": ["src/is_2d.rs:61-66", "src/is_3d.rs:77-83", "src/is_buildable_2d.rs:71-82", "src/is_buildable_3d.rs:80-92", "src/point_cloud_2d.rs:48-50", "src/point_cloud_2d.rs:58-64", "src/point_cloud_2d.rs:85-96", "src/point_cloud_3d.rs:48-50", "src/point_cloud_3d.rs:58-64", "src/point_cloud_3d.rs:85-96", "src/skip_empty_string.rs:26-75"]}
{"id": "C91", "title": "KdTree range searches with doubles agree with their own computed test", "statement": "With finite doubles in_sphere returns exactly the points whose computed dist_3d to the center is at most the radius, and in_box exactly those whose computed coordinate distances are at most half the sizes: rounding of the borders used to skip branches never loses an accepted point.", "quantifier": "all finite doubles, all point sets and tree layouts", "why_tests_cant": "A point is lost only if several roundings conspire for a particular layout of the tree.", "anchors": ["src/kd_tree.rs:113-117", "src/kd_tree.rs:124-128", "src/kd_tree.rs:282-403"]}
{"id": "C92", "title": "Computed distances are accurate, symmetric and monotone", "statement": "For finite points dist_2d/dist_3d and abs return the euclidean distance with a relative error of at most 2^-50 (2^-536 absolute); swapping the points returns the same bits; moving a point away in every coordinate never decreases the distance; a point has distance 0 to itself.", "quantifier": "all finite doubles; accuracy whenever the result is finite, which holds for coordinates at most 2^511 apart", "why_tests_cant": "An error bound and monotonicity over all pairs of doubles.", "anchors": ["src/distances_2d.rs:30-45", "src/distances_3d.rs:30-45", "src/is_2d.rs:53-55", "src/is_3d.rs:65-68"]}
{"id": "C93", "title": "Editing a position changes exactly what it says", "statement": "For points, boxes and circles set_x/set_y/set_z, set_xy, set_xyz, add, subtract, scale_pos and increase_distance_to_by change the coordinates as their formulas say and nothing else (sizes and radii stay); rotate keeps the distance to its center, rotating by a and then b is rotating by a + b, a quarter turn is counter clockwise; subtract undoes add; new_from, from and center take the position of the other object.", "quantifier": "all shapes implementing the traits, all coordinates and angles", "why_tests_cant": "Laws over all positions and angles and every implementor of the traits.", "anchors": ["src/is_editable_2d.rs:38-97", "src/is_editable_3d.rs:30-109", "src/is_buildable_2d.rs:45-50", "src/is_buildable_2d.rs:61-63", "src/is_buildable_2d.rs:85-90", "src/is_buildable_3d.rs:34-48", "src/is_buildable_3d.rs:75-78", "src/is_buildable_3d.rs:94-103", "src/sphere.rs:63-78"]}
{"id": "C94", "title": "Changing positions of a mesh keeps its topology and everything computed from it", "statement": "However often vertices are added or changed and a SearchableMesh is scaled, it equals SearchableMesh::new of its mesh, so edge and face queries stay exact; faces never change and a well formed mesh stays well formed; change_vertex changes exactly one vertex or reports an unknown id; move_by, transform and scale of a mesh map the corners of every face.", "quantifier": "all meshes and all sequences of edits", "why_tests_cant": "An invariant over all histories of edits.", "anchors": ["src/searchable_mesh.rs:107-113", "src/searchable_mesh.rs:210-212", "src/searchable_mesh.rs:230-232", "src/searchable_mesh.rs:240-246", "src/mesh_3d.rs:175-177", "src/mesh_3d.rs:192-194", "src/mesh_3d.rs:203-205"]}
{"id": "C95", "title": "Equality, ordering and hashing of circles, spheres and boxes are coherent", "statement": "cmp is a total order consistent with ==, equal shapes have equal hashes, partial_cmp agrees with cmp.", "quantifier": "all shapes of doubles including NaN and signed zeros", "why_tests_cant": "Laws over all pairs and triples of shapes.", "anchors": ["src/circle.rs:41-50", "src/sphere.rs:41-50", "src/box_2d.rs:65-77", "src/box_3d.rs:68-83", "src/positive.rs:67-69"]}
{"id": "C96", "title": "Loading an arbitrary file never panics", "statement": "Every loader returns for every byte sequence: either the loaded data or an error, never a panic. This holds for .xyz, .xy, .psl, .gcode, .stl and the points of .obj files. For the other formats the causes of a panic are exactly known: numbers of elements announced by the file are reserved unchecked (.off, .pts, .ptx, .las, .ply), a vertex number 0 in a face (.obj), point records of less than 12 bytes (.las), a fourth coordinate property (.ply). Reserving has no other effect on the result.", "quantifier": "all byte sequences, all targets", "why_tests_cant": "All files, malformed ones included; a fuzzer samples them.", "anchors": ["src/io/off.rs:303-348", "src/io/pts.rs:178-194", "src/io/ptx.rs:227-243", "src/io/las/load.rs:142-158", "src/io/ply/load.rs:36-133", "src/io/obj.rs:186-208", "src/io/stl.rs:336-459", "src/io/xyz.rs:162-175", "src/io/xy.rs:147-160", "src/io/psl.rs:152-165", "src/io/gcode.rs:194-207"]}
{"id": "C97", "title": "Bounding boxes of doubles: sizes, centers, moves and collisions with all roundings", "statement": "For boxes with finite corners: size_x/y/z never panic (not even for corners that differ in the last bit) and are the widths up to one rounding; center_bb never leaves the closed box and is the middle up to three roundings; move_by adds up to one rounding and never swaps the corners, the moved box is a box again unless corners collapse; collides_with never panics and is right whenever the boxes overlap, or are apart, by 2^-49 of the largest coordinate; the collision queries of the AABB trees report every element overlapping by as much and none that is apart by as much.", "quantifier": "all boxes of finite doubles (coordinates up to 2^1020 for collisions), all moves, all lists of elements, depths and bucket sizes", "why_tests_cant": "Rounding, gradual underflow and cancellation differ for every combination of exponents; a test sees a few of them.", "anchors": ["src/bounding_box_2d.rs:31-59", "src/bounding_box_2d.rs:153-170", "src/bounding_box_2d.rs:197-201", "src/bounding_box_2d.rs:279-290", "src/bounding_box_3d.rs:31-61", "src/bounding_box_3d.rs:197-219", "src/bounding_box_3d.rs:252-258", "src/bounding_box_3d.rs:362-373", "src/aa_bb_tree_2d.rs:33-40", "src/aa_bb_tree_2d.rs:49-51", "src/aa_bb_tree_2d.rs:61-75", "src/aa_bb_tree_2d.rs:207-226", "src/aa_bb_tree_2d.rs:280-294", "src/aa_bb_tree_3d.rs:33-40", "src/aa_bb_tree_3d.rs:49-51", "src/aa_bb_tree_3d.rs:69-83", "src/aa_bb_tree_3d.rs:244-263", "src/aa_bb_tree_3d.rs:336-350"]}
{"id": "C98", "title": "Matrices of doubles: transforms and products with all roundings", "statement": "Transforming a finite point by a matrix with finite entries, and multiplying two matrices, never overflows below 2^1000 and gives every entry up to a relative error of 2^-50 of the sum of the magnitudes (plus 2^-1069). Identity, translation and scale matrices cost nothing extra: the identity changes no finite point, a translation matrix gives exactly what move_by gives, a scale matrix exactly the rounded products. For an infinite coordinate even the identity produces NaN.", "quantifier": "all finite points and matrices of doubles with row sums up to 2^1000, all translations and scales", "why_tests_cant": "Rounding, cancellation and gradual underflow differ for every combination of exponents; a test sees a few of them.", "anchors": ["src/matrix3.rs:33-43", "src/matrix3.rs:51-61", "src/matrix3.rs:74-126", "src/matrix4.rs:33-48", "src/matrix4.rs:61-81", "src/matrix4.rs:224-279", "src/point_2d.rs:38-41", "src/point_2d.rs:212-217", "src/point_2d.rs:320-328", "src/point_3d.rs:39-43", "src/point_3d.rs:227-233", "src/point_3d.rs:349-357"]}
{"id": "C99", "title": "Centers of gravity and lengths of doubles with all roundings", "statement": "For a non-empty cloud of at most 2^52 finite points with coordinates up to M, center_of_gravity exists, is finite and every coordinate is the mean up to n*2^-51*M (plus 2^-1074). The length of a path or polygon with coordinates up to 2^500 is finite and the exact length up to a relative error of (n+1)*2^-50 (plus n*2^-535); the polygon length includes the closing segment. The center is not exact: for three equal points it is a different point.", "quantifier": "all point clouds and polygons of up to 2^52 points of bounded finite doubles", "why_tests_cant": "The accumulated error of a sum depends on the number, the order and the exponents of all summands.", "anchors": ["src/point_cloud_2d.rs:216-237", "src/point_cloud_2d.rs:244-254", "src/point_cloud_3d.rs:216-240", "src/point_cloud_3d.rs:247-257", "src/polygon_2d.rs:33-38", "src/polygon_2d.rs:118-126", "src/polygon_3d.rs:33-38", "src/polygon_3d.rs:118-126"]}
{"id": "C100", "title": "Vectors of doubles: scalar and cross products and normalisation with all roundings", "statement": "dot and cross of finite vectors give every value up to a relative error of 2^-50 of the sum of the magnitudes (plus 2^-1069), without overflow below 2^1000. normalized, Norm2D::new and Norm3D::new succeed for every finite vector of length between 2^-480 and 2^500, every coordinate is the exact one up to 2^-48 and the length of the result is 1 up to 2^-45. The constructors of the axes never panic. A vector of length 2^600 is normalised to the zero vector and one of length 2^-600 is said to have no length.", "quantifier": "all finite vectors of doubles within the stated magnitudes", "why_tests_cant": "Rounding, cancellation, overflow and underflow differ for every combination of exponents; a test sees a few of them.", "anchors": ["src/is_2d.rs:43-50", "src/is_3d.rs:60-62", "src/functions.rs:60-69", "src/norm_2d.rs:131-148", "src/norm_3d.rs:143-161", "src/is_buildable_2d.rs:52-58", "src/is_buildable_3d.rs:67-73", "src/is_normalized_2d.rs:36-51", "src/is_normalized_3d.rs:36-59"]}
{"id": "C101", "title": "Clouds and segments of doubles: move, scale, center and set_size with all roundings", "statement": "For clouds of finite doubles of size up to M: move_by shifts every coordinate up to one rounding; scale(f) scales every coordinate about the middle of the extent up to (1+f)*2^-49*M; center moves the middle of the extent to the origin up to 2^-51*M; set_size never panics and gives the requested sizes up to 2^-49*M times the factor (plus terms of the order of 2^-1073). All of them keep the number and order of the points and never swap coordinates that are in order. Line segments scale exactly like the cloud of their end points. Scaling by 1 need not be the identity.", "quantifier": "all clouds of finite doubles that are not flat, all positive finite factors and sizes within the exponent range", "why_tests_cant": "Rounding errors depend on all coordinates, the extent and the factor; tests use small integers for which nothing is rounded.", "anchors": ["src/point_cloud_2d.rs:196-200", "src/point_cloud_2d.rs:331-338", "src/point_cloud_3d.rs:196-200", "src/point_cloud_3d.rs:341-348", "src/is_editable_2d.rs:25-98", "src/is_editable_3d.rs:25-110", "src/functions.rs:212-235", "src/line_segment_2d.rs:33-36", "src/line_segment_2d.rs:46-49", "src/line_segment_2d.rs:71-76", "src/line_segment_3d.rs:33-36", "src/line_segment_3d.rs:46-49", "src/line_segment_3d.rs:71-76"]}
{"id": "C102", "title": "Doubles on a fixed point grid: searches, collisions and hulls are exact", "statement": "When all coordinates are multiples of one power of two with few enough steps (for example whole numbers up to 2^23, or up to 2^50 for boxes), rounding does not show: the k-d tree returns a truly nearest point, in_sphere and in_box return exactly the points of the closed ball / box (points at the border included), comparing computed distances with each other and with a radius is comparing the exact ones; sizes and centers of bounding boxes are exact, collides_with is exactly 'the open boxes have a common point', and the collision query of the AABB trees returns exactly the colliding elements; the convex hull of points (points above each other given bottom up) is exactly what C43 says of exact arithmetic.", "quantifier": "all point sets, queries and boxes on any grid 2^e with -500 <= e <= 400 (boxes -1000 <= e <= 900)", "why_tests_cant": "The claim is that no rounding anywhere in these algorithms (square roots, borders of branches, cross products) changes a decision, for all grids and all inputs; off the grid the same claims are false (C91, C22, C43 violations).", "anchors": ["src/kd_tree.rs:25-424", "src/distances_3d.rs:25-45", "src/bounding_box_2d.rs:31-59", "src/bounding_box_2d.rs:153-170", "src/bounding_box_2d.rs:197-201", "src/bounding_box_3d.rs:31-61", "src/bounding_box_3d.rs:197-219", "src/bounding_box_3d.rs:252-258", "src/aa_bb_tree_2d.rs:33-40", "src/aa_bb_tree_2d.rs:49-51", "src/aa_bb_tree_2d.rs:61-75", "src/aa_bb_tree_2d.rs:207-226", "src/aa_bb_tree_2d.rs:280-294", "src/aa_bb_tree_3d.rs:33-40", "src/aa_bb_tree_3d.rs:49-51", "src/aa_bb_tree_3d.rs:69-83", "src/aa_bb_tree_3d.rs:244-263", "src/aa_bb_tree_3d.rs:336-350", "src/convex_hull_2d.rs:32-75"]}
{"id": "C103", "title": "Operators of points and normals, moved lines and rays, projections", "statement": "With exact arithmetic +, -, * f, / f and unary - of Point2D/3D and * f, - of Norm2D/3D are the operations of the vector space, and a vector is its normal times its length. With doubles every coordinate is the exact one up to one rounding; addition commutes, a - b = a + (-b), -(-a) = a, (-a) * f = -(a * f) and a * 1 = a hold bit for bit, the opposite vector has bit for bit the same length and the opposite normal, and normal times length is the vector up to 2^-46 of its length. Addition is not associative and (a * f) / f may differ from a. Moving a line or ray moves exactly its points and keeps its direction. Projecting to 2D never increases a computed distance, lifting to 3D keeps it, and project(lift(p, z)) = p.", "quantifier": "all points, factors, lines, rays and displacements; all doubles where bit for bit is said", "why_tests_cant": "The operators exist in many copies (by value, by reference, assigning, 2D, 3D, normals); a wrong coordinate or a wrong sign in one shows only for some inputs, and the laws range over all doubles including infinite ones and signed zeros.", "anchors": ["src/point_2d.rs:36-41", "src/point_2d.rs:68-217", "src/point_2d.rs:312-317", "src/point_3d.rs:37-43", "src/point_3d.rs:71-233", "src/point_3d.rs:340-347", "src/norm_2d.rs:61-103", "src/norm_2d.rs:131-148", "src/norm_3d.rs:63-109", "src/norm_3d.rs:143-161", "src/line_2d.rs:33-49", "src/line_3d.rs:33-49", "src/ray_2d.rs:33-48", "src/ray_3d.rs:33-48", "src/plane_3d.rs:31-53", "src/plane_3d.rs:60-74"]}
{"id": "C104", "title": "Rotations and arcs of doubles stay close to the exact ones", "statement": "If sine and cosine of the platform are off by at most 2^-52, then for doubles within the stated magnitudes: a point transformed by Matrix3::rotation or Matrix4::rotation, or moved by rotate(center), is the exactly rotated point up to 2^-49 (plane) or 2^-46 (space) of its size per coordinate; the computed distance of two points rotated alike is their exact distance up to 2^-46 (plane) or 2^-43 (space) of their size; every entry of the matrices of rotation and rotation_axis is the exact one up to 2^-47 and 2^-45; and arc(center, n, d, s, e) with 2 <= n <= 2^53 returns n points whose angles are the n equal steps up to 2^-49 of the angles and whose computed distance to the center is d/2 up to 2^-47 of the sizes. An arc, ellipse or involute of one point is never a number.", "quantifier": "all sine and cosine functions with that accuracy; all finite points, angles, centers, diameters and numbers of points within the stated magnitudes", "why_tests_cant": "Whether errors stay small for every angle and every point, e.g. near multiples of a quarter turn or for coordinates of very different size, cannot be sampled, and the accuracy of the platform's sine and cosine differs between machines.", "anchors": ["src/matrix3.rs:63-71", "src/matrix4.rs:33-35", "src/matrix4.rs:83-165", "src/is_editable_2d.rs:85-97", "src/factory_2d.rs:47-115", "src/is_buildable_2d.rs:65-69", "src/is_buildable_3d.rs:51-65"]}
{"id": "C105", "title": "Rays against triangles of doubles", "statement": "For finite doubles with a triangle that is not too thin (squared longest edge E^2 <= K * twice the area), a ray that is not too flat (sine of its angle to the plane at least 1/K), K <= 2^10, everything between 2^-100 and 2^100 and not farther from the origin than 2^14 times the distance D of anchor and triangle, intersection_ray_triangle does not panic; whenever it returns Some(p), p is finite and within K^3 D / 2^36 per coordinate of the exact point where the line meets the plane, that point is not farther than K^3 D / 2^38 behind the anchor, and its barycentric coordinates exceed -mu for any mu > K^4 D / (2^28 E); and it returns Some whenever the exact point is in front of the anchor by more than K^3 D / 2^38 with barycentric coordinates of at least mu. collect_intersections_ray_mesh keeps what was collected and appends these points face by face. Without a margin the claim is false: a hit of the interior can be lost.", "quantifier": "all finite rays and triangles, all meshes whose faces satisfy the conditions, all D, E, K, mu", "why_tests_cant": "Whether a near miss or a grazing hit is classified correctly depends on rounding for each of continuum many rays; a test can only sample rays far from the edges.", "anchors": ["src/functions.rs:238-299", "src/functions.rs:395-402"]}
{"id": "C106", "title": "Lines against boxes of doubles", "statement": "For finite doubles with coordinate differences between anchor and box of at most M (2^-500 <= M <= 2^500), an anchor within A <= 2^1000 of the origin and direction components that are zero (then the anchor is on none of the face planes of this axis) or of size 2^-400 to 2^400, the line test of AABBTree3D answers Some whenever the half line hits the box shrunk by M/2^50, and whenever it answers Some(p), the half line hits the box grown by M/2^50 and p is within (A + 2M)/2^52 per coordinate of a point of the line that is in the grown box and not behind any point of the line in the shrunk box. Hence the tree's query reports every element whose shrunk box is hit and only elements whose grown box is hit. Without a margin this is false: a line through the interior of a box can be missed.", "quantifier": "all such lines and boxes, all element lists, depths and bucket sizes", "why_tests_cant": "Slab comparisons after rounding and with infinite reciprocals; a test can only try lines far from the edges of the boxes.", "anchors": ["src/functions.rs:443-471", "src/aa_bb_tree_3d.rs:61-67", "src/aa_bb_tree_3d.rs:233-242", "src/aa_bb_tree_3d.rs:327-334"]}
{"id": "C107", "title": "Bezier interpolation of doubles", "statement": "If powi is accurate to 2^-47 relative (plus 2^-1000) for bases from 0 to 1 and exponents up to 20 and exact for the bases 0 and 1, then interpolate_bezier of 2 to 21 finite control points with coordinates of size at most M (2^-100 <= M <= 2^500) and up to 2^50 points returns exactly n_points finite points. The first has exactly the coordinates of the first control point. Point i is, up to M/2^44 per coordinate, the point of the Bezier curve at a parameter within 2^-51 of i/n_points, and every half plane which contains all control points contains all computed points up to M/2^44 per coordinate. Without this margin the curve can leave the hull of the control points, even if all control points are equal.", "quantifier": "all lists of 2 to 21 such control points, all n_points up to 2^50, all powi of the stated accuracy", "why_tests_cant": "The rounding of weights, products and sums depends on all control points; tests compare a few curves with a tolerance.", "anchors": ["src/interpolate_2d.rs:64-86", "src/interpolate_2d.rs:48-61", "src/interpolate_2d.rs:44-46"]}
{"id": "C108", "title": "Range searches and the outlier filter of doubles in terms of true distances", "statement": "For finite points and a finite search center: KdTree::in_sphere with a radius R from 2^-400 to 2^511 returns, with their multiplicity, all points whose true distance is at most R(1 - 2^-49) and none whose true distance exceeds R(1 + 2^-49). in_box with sizes from 2^-900 to 2^1000 does the same with the box scaled by 1 - 2^-49 and 1 + 2^-49. FilterOutlier3D allows a point with min_neighbours points within R(1 - 2^-49) and denies one with fewer within R(1 + 2^-49); for points and radius on a fixed point grid it is exact. Without the margin this is false: a point truly within the radius can be missed and not counted.", "quantifier": "all clouds of finite points, all such searches, all neighbour counts", "why_tests_cant": "Rounding errors of distances and of the pruning bounds matter only for points next to the border; a test hits those only by chance.", "anchors": ["src/kd_tree.rs:113-117", "src/kd_tree.rs:282-337", "src/kd_tree.rs:124-128", "src/kd_tree.rs:339-403", "src/filter_outlier_3d.rs:80-95"]}
{"id": "C109", "title": "Cosine interpolation of doubles", "statement": "interpolate_cosine of a polyline of doubles (at most 2^40 points, coordinates of at most M <= 2^500, a first segment of at least 2^-400, 2 to 2^40 requested points) returns all requested points, in order and no others. The i-th point belongs to the position after i/(n-1) of the length along the polyline, up to a relative error of (N+2) 2^-47 of the length: x is the linear mean of the neighbours, y the mean along half a cosine wave, each up to 2^-46 M, so points leave the bounds of their segment by at most that. The first point is the first of the polyline, exactly in x. That all points are returned is false: the last one can be missing.", "quantifier": "all polylines of finite doubles in that range, all numbers of points, all platforms whose cosine is accurate to 2^-52", "why_tests_cant": "The accumulated rounding of lengths decides whether the last point is found; tests with round numbers see it succeed.", "anchors": ["src/interpolate_2d.rs:89-128"]}
{"id": "C110", "title": "Rectangles, ellipses and involutes of doubles", "statement": "With doubles, the rectangle factory returns an exactly axis aligned rectangle whose corners are half the width and half the height from the center up to 2^-51 of the sizes. The ellipse factory returns n points within 2^-49 of the sizes of points of the exact ellipse (upper half), at n equally spaced angles from 0 to a half turn up to 2^-48. The involute factory returns n points within 2^-49 of the sizes of points of the exact involute at n equally spaced angles from 0 to the difference of the angles. A rectangle of positive width can still collapse to a line far away from the origin.", "quantifier": "all finite centers, sizes and angles in an explicit range, 2 to 2^53 points, all platforms whose sine, cosine and PI are accurate to 2^-52", "why_tests_cant": "Errors grow with the distance to the origin and the size; a test samples a few shapes with a hand-chosen tolerance.", "anchors": ["src/factory_2d.rs:32-44", "src/factory_2d.rs:97-115", "src/factory_2d.rs:47-69"]}
{"id": "C111", "title": "Only well-formed PLY headers are accepted", "statement": "If a PLY loader gets past the header, the lines it read are, comments (comment, obj_info) aside: 'ply', a known format line, the declaration of the vertices (an 'element vertex' line with a number, then property lines of known types, among them x, y and z exactly once each, of type float or double) and at most one declaration of the faces, in either order, then 'end_header'. Nothing else is accepted. What the loader knows then (counts, types by axis, order of the coordinates, bytes and words of the other properties before, between and after them) is what these lines say, and it goes on reading right behind the header.", "quantifier": "all byte strings", "why_tests_cant": "A test shows that a few malformed headers are refused; that no other malformed header slips through is a claim about all files.", "anchors": ["src/io/ply/header.rs:36-274", "src/io/utils.rs:92-114"]}
{"id": "C112", "title": "PLY data is read as declared", "statement": "For every accepted header the data behind it is read in the order and layout of the declarations. Proved for headers with the vertices in front of the faces and one list per face. False otherwise: with the faces declared first the vertices are read from the lines of the faces, and a further list of a face is skipped in the header but not in the data; both load a wrong mesh without any error.", "quantifier": "all byte strings whose header is accepted", "why_tests_cant": "Files in the wild declare vertices first, so tests never see the other order; the claim is about all accepted headers.", "anchors": ["src/io/ply/header.rs:36-274", "src/io/ply/iterators.rs:36-43", "src/io/ply/load.rs:86-112"]}
{"id": "C113", "title": "Normals of meshes of doubles", "statement": "With doubles, for a well-formed mesh whose faces have finite corners, edges from 2^-100 to 2^100 and squared edges of at most K times twice the area (1 <= K <= 2^20), and at most 2^20 faces per vertex: normals_of_mesh does not panic; a vertex without faces gets exactly the z axis; a vertex with c faces, whose exact unit normals have the sum s of length at least c(K+c)/2^42, gets s/|s| in each coordinate up to 2^-48 + c(K+c)/(2^42 |s|); where the mesh is flat the common normal up to (K+c)/2^41. Without the condition on thin faces this is false: a thin triangle facing down gets a normal facing up.", "quantifier": "all such meshes of doubles", "why_tests_cant": "Rounding errors add up over arbitrarily many faces and depend on the shapes; tests compare a few meshes with exact results.", "anchors": ["src/utils.rs:101-125", "src/functions.rs:395-402", "src/norm_3d.rs:144-160"]}
{"id": "C114", "title": "Angles of doubles", "statement": "With doubles and an acos accurate up to 2^-50, for finite vectors of lengths from 2^-480 to 2^499: rad_to of 3D vectors neither panics nor fails, and unless they are nearly parallel (the sine of the angle is at least 2^-21) gives the angle up to 2^-42 divided by its sine. FilterDirectionField3D with an eps of at most pi then allows every normal whose angle is smaller than eps by that much, and denies every normal whose cosine is smaller than that of eps by 2^-43.", "quantifier": "all such vectors of doubles and directions", "why_tests_cant": "The error of acos grows without bound towards its ends; that it stays below the bound for all directions cannot be sampled.", "anchors": ["src/is_3d.rs:70-75", "src/filter_direction_field_3d.rs:53-60"]}
{"id": "C115", "title": "Midpoints of doubles and subdivided meshes of doubles", "statement": "With finite doubles center_2d, center_3d and center_nd give a finite point that is between the two ends in each dimension and the exact middle up to 2^-52 (center_nd: 2^-53) of the larger coordinate, if the difference (center_nd: twice each coordinate) is in range; center_nd does not depend on the order. So subdivide::linear of a well-formed mesh keeps the vertices, places each new one between the ends of its edge and never exceeds the bounds of the mesh.", "quantifier": "all finite doubles in range, all well-formed meshes", "why_tests_cant": "Midpoints of adjacent doubles, subnormal numbers and numbers close to overflow are rounded in special ways; tests use round numbers.", "anchors": ["src/functions.rs:35-56", "src/is_buildable_nd.rs:45-64", "src/subdivide.rs:36-81"]}
{"id": "C116", "title": "Clustering the vertices of meshes of doubles", "statement": "With doubles, for a well-formed mesh with coordinates of at most M and a positive cluster size of at least M/2^62, cluster_vertices never panics. It fails with BoundingBoxMissing if the vertices agree along an axis, with ClusterTooBig if they differ along each axis but are less than two clusters apart along one (up to 2^-49 clusters), and succeeds if they are at least two clusters apart along each (up to the same). A result is well formed, has no vertex twice, only vertices of the mesh, and exactly the faces of the mesh, in order, with each corner moved to its representative, without those of which corners met. No coordinate of a corner moves by more than the size up to (size + 2M)/2^50. Vertices in the same cell, off its borders by the rounding errors, meet. For smaller sizes this is false: vertices about 2^70 clusters apart meet and a triangle disappears.", "quantifier": "all such meshes of doubles and sizes", "why_tests_cant": "Cells are found by a rounded division and a saturating cast; vertices next to borders of cells and huge quotients are not met by tests.", "anchors": ["src/cluster_vertices.rs:33-97", "src/bounding_box_3d.rs:63-124"]}
{"id": "C117", "title": "Results do not depend on the origin and the unit of the coordinates", "statement": "Moving all points by a vector and multiplying them with a positive factor (e.g. metres to millimetres, with the other lengths multiplied as well) changes nothing but the coordinates of the results, in exact arithmetic: the k-d tree is the same tree, and nearest, knearest, in_sphere, in_box and the outlier filter select the same points in the same order; the filters of spheres, circles and boxes allow the same points; the convex hull and the Douglas-Peucker simplification keep the same points; bounding boxes, their combination, centers, corners, sizes, distances, collisions and containment follow, as do lengths, centers of gravity, linear, cosine and Bezier interpolation, rays against triangles and meshes, lines against boxes, collisions of boxes and triangles, octree build and collect, vertex normals, healing, subdivision and clustering of meshes. With doubles this is false: moving a circle and a point by 2^53 lets the point enter the circle.", "quantifier": "all point sets, meshes and queries, all vectors, all positive factors", "why_tests_cant": "Relates runs on infinitely many coordinate systems; an absolute tolerance hidden in any of the functions would break it only for some of them.", "anchors": ["src/kd_tree.rs:33-403", "src/oc_tree.rs:33-70", "src/oc_tree.rs:78-84", "src/oc_tree.rs:154-186", "src/bounding_box_3d.rs:31-481", "src/filter_outlier_3d.rs:80-95", "src/functions.rs:238-252", "src/convex_hull_2d.rs:32-75", "src/douglas_peucker_2d.rs:30-72", "src/interpolate_2d.rs:64-170", "src/sat_collider.rs:35-98", "src/cluster_vertices.rs:33-97"]}
{"id": "C118", "title": "Iterators over files stay at their end", "statement": "Once the iterator over a file of any format has returned None, every later call returns None (as promised by FusedIterator), and once it has returned an error, every later call returns None: nothing is delivered from the data behind a malformed line or record. Violated twice: after a malformed point a .ptx iterator goes on with the next line, and after a malformed vertex the mesh iterator of a .ply file goes on with the faces, reading them from where the vertices stopped. All other errors of these two formats are final as well.", "quantifier": "all states of the iterators, reachable or not, hence all files; any number of further calls", "why_tests_cant": "A statement on all states and all numbers of later calls; tests only see that the last call of a loop returns None.", "anchors": ["src/io/xyz.rs:39-51", "src/io/xyz.rs:58-95", "src/io/xyz.rs:105-123", "src/io/xy.rs:39-51", "src/io/xy.rs:71-90", "src/io/xy.rs:100-118", "src/io/obj.rs:74-92", "src/io/obj.rs:140-173", "src/io/off.rs:80-137", "src/io/off.rs:234-290", "src/io/pts.rs:100-167", "src/io/ptx.rs:39-52", "src/io/ptx.rs:59-70", "src/io/ptx.rs:171-214", "src/io/psl.rs:57-67", "src/io/psl.rs:109-139", "src/io/las/load.rs:94-129", "src/io/stl.rs:124-129", "src/io/gcode.rs:84-181", "src/io/ply/iterators.rs:36-43", "src/io/ply/iterators.rs:50-76", "src/io/ply/iterators.rs:86-106", "src/io/ply/iterators.rs:133-153", "src/io/ply/iterators.rs:163-177", "src/io/ply/iterators_internal.rs:25-554"]}
{"id": "C119", "title": "The beginning of a file loads as the beginning of its content", "statement": "If a file is cut off (a transfer that was interrupted, a disk that was full), what is loaded from the cut file is the beginning of what is loaded from the whole file: the same points, vertices, faces and normals in the same order, just fewer. Text files (xyz, xy, obj, off, pts, ptx, gcode, ASCII stl and ply, headers of ply) are cut behind a line, binary data (stl, ply, las, psl) anywhere. An error of the cut file which is none of those saying that the file ends too early is the error of the whole file, and then both results are the same. Within a line this does not hold, since the last byte of a file is dropped whatever it is.", "quantifier": "all files and all positions of the cut; all loaders; any initial mesh or points", "why_tests_cant": "Relates the results of all pairs of files; a loader looking ahead, or one that depends on the size of the file, would break it for some pairs only.", "anchors": ["src/io/xyz.rs:162-175", "src/io/xy.rs:147-160", "src/io/obj.rs:186-224", "src/io/off.rs:303-348", "src/io/pts.rs:178-194", "src/io/ptx.rs:227-243", "src/io/psl.rs:152-165", "src/io/psl.rs:262-264", "src/io/psl.rs:283-287", "src/io/las/load.rs:142-158", "src/io/stl.rs:336-460", "src/io/stl.rs:638-642", "src/io/gcode.rs:194-207", "src/io/ply/load.rs:36-133", "src/io/ply/load.rs:141-238", "src/io/ply/header.rs:25-276", "src/io/utils.rs:92-114"]}
{"id": "C120", "title": "The loaders of one format agree about every file", "statement": "Loading only the points of an .obj, .off or .ply file gives the vertices of the mesh the same file loads as, in the same order, and the same error if that is none of those about faces; if the mesh loader fails at a face, its vertices are the beginning of the points. The .ply loader that finds out by itself whether there are faces does exactly what one of the two others does. The three .stl loaders deliver the same triangles, normals and end: as triplets of points, as separate triangles with consecutive indices, and with unified corners, where only triangles that would have two equal corners are left out.", "quantifier": "all files, well-formed or not; any initial mesh or points; for unified corners any equivalence as equality of points", "why_tests_cant": "The loaders of one format are separate copies of the same code; a difference shows only for files on which one copy behaves differently, e.g. invalid ones, and tests use well-formed files with each loader on its own.", "anchors": ["src/io/obj.rs:186-224", "src/io/off.rs:303-348", "src/io/ply/load.rs:36-133", "src/io/ply/load.rs:141-238", "src/io/stl.rs:336-459"]}
{"id": "C121", "title": "Whatever file is loaded, the result is sound and can be converted without loss", "statement": "Whatever bytes are loaded as .obj, .off, .ply or .stl mesh, and whether loading ends with an error or not, every face of the mesh refers to three different vertices that exist, and every coordinate is a double; the points loaded from any of the point formats are doubles, too. So a loaded mesh (of less than 2^32 vertices) that is saved as .obj, .off, ASCII .ply or binary .ply with doubles and loaded from there is exactly the same mesh, infinities, NaN and the sign of zero included, and loaded points saved as .xyz or .xy come back exactly.", "quantifier": "all files, well-formed or not; all meshes to load into that are sound themselves; any equality of corners for .stl", "why_tests_cant": "Chains every loader with every saver for all files; a single face with a wrong index or a number not printed exactly in some format breaks it for some files only.", "anchors": ["src/io/obj.rs:186-224", "src/io/off.rs:303-348", "src/io/ply/load.rs:36-133", "src/io/ply/load.rs:141-238", "src/io/ply/save.rs:34-75", "src/io/ply/save.rs:148-220", "src/io/stl.rs:336-424", "src/io/stl.rs:631-631", "src/io/stl.rs:638-642", "src/io/xyz.rs:136-175", "src/io/xy.rs:131-160", "src/io/pts.rs:178-194", "src/io/ptx.rs:227-243", "src/io/gcode.rs:194-207", "src/io/las/load.rs:142-158", "src/io/psl.rs:152-165"]}
{"id": "C122", "title": "Joined files load as one after the other", "statement": "If a file that ends with a line break is followed by a second one of the same format (`cat a b`), loading the result is loading the second file after the first: the same vertices, faces or points in order, vertex numbers in an .obj file counting the vertices of the first, and errors of the second file reported with line numbers that count the lines of the first; if the first file has an error, that is reported and nothing else is loaded.", "quantifier": "all .obj files; all .xyz and .xy files with the same delimiter; all .pts files whose blocks are complete; all .ptx files that can be loaded; all G-code files after which the machine is at its start; all text .stl files (violated)", "why_tests_cant": "Quantifies over all pairs of files; loaders that keep state between lines (delimiter, counts, position) break it only for certain combinations.", "anchors": ["src/io/obj.rs:186-224", "src/io/xyz.rs:162-175", "src/io/xy.rs:147-160", "src/io/pts.rs:100-167", "src/io/pts.rs:178-194", "src/io/ptx.rs:227-243", "src/io/ptx.rs:262-269", "src/io/gcode.rs:194-207", "src/io/stl.rs:46-51", "src/io/stl.rs:336-336", "src/io/stl.rs:429-460", "src/io/stl.rs:638-642"]}
{"id": "C123", "title": "Without overflow checks the library still answers correctly or not at all", "statement": "In a release build, where integer arithmetic wraps around silently, an operation that would overflow gives an error, None or a panic, never a wrong answer: a face id or point index that names nothing is refused, a face of an .obj file with vertex number 0 is an error, a Bezier curve stays in the hull of its control points, and an octree of any depth collects all of its points.", "quantifier": "both kinds of builds; all meshes and ids, all clouds of 32 bit floats and indices, all .obj files, all control polygons, all octrees", "why_tests_cant": "Overflow needs particular huge ids or large inputs, and test builds have overflow checks which release builds have not, so the tested program is not the one that is used.", "anchors": ["src/mesh_3d.rs:58-72", "src/point_cloud_3d_f32.rs:97-109", "src/io/obj.rs:294-312", "src/interpolate_2d.rs:31-86", "src/oc_tree.rs:313-365"]}
{"id": "C124", "title": "Results do not depend on the order of the points", "statement": "What is computed from a set of points or elements does not depend on the order in which they are given: an octree is the same tree whatever order the (randomly seeded) hash set lists its points in, the queries of a box tree report the same elements equally often, a k-d tree finds a point of the same distance and the same points in a sphere or box, the outlier filter decides the same, and center of gravity and convex hull are the same.", "quantifier": "all clouds and element lists, all of their permutations, all queries; octree, box trees and nearest neighbour also for doubles", "why_tests_cant": "A test fixes one order; there are n! others, and the order of a hash set changes from run to run.", "anchors": ["src/oc_tree.rs:56-70", "src/oc_tree.rs:194-257", "src/aa_bb_tree_2d.rs:93-141", "src/aa_bb_tree_3d.rs:109-161", "src/kd_tree.rs:74-130", "src/convex_hull_2d.rs:32-75", "src/functions.rs:109-119"]}
{"id": "C125", "title": "Box tree queries report every match, and as often as a linear scan", "statement": "The queries of the 2D and 3D box trees report every matching element exactly as often as it is among the elements the tree was built from.", "quantifier": "all lists of elements with valid boxes, all depths and bucket sizes, all queries", "why_tests_cant": "Whether an element is stored on both sides of a split, and how often, depends on the positions of all others.", "anchors": ["src/aa_bb_tree_2d.rs:93-141", "src/aa_bb_tree_2d.rs:61-91", "src/aa_bb_tree_3d.rs:109-161", "src/aa_bb_tree_3d.rs:61-107"]}
{"id": "C126", "title": "Swapped arguments and mirrored coordinates give the same result", "statement": "Functions that are symmetric by their meaning (distance, scalar product, equality, angle between two vectors, collision of boxes, colliders and objects, distance of two boxes, center of two points) return the same for swapped arguments, and mirroring all inputs at coordinate planes leaves distances, lengths, scalar products, containment, distances from boxes and collisions as they are, bit by bit.", "quantifier": "all doubles (infinities and nan where stated), all choices of mirrored coordinates", "why_tests_cant": "Rounding and the treatment of nan differ between the two orders only for few values; a test samples some of them.", "anchors": ["src/bounding_box_2d.rs:165-170", "src/bounding_box_2d.rs:197-201", "src/bounding_box_2d.rs:228-243", "src/bounding_box_2d.rs:298-317", "src/bounding_box_3d.rs:252-258", "src/bounding_box_3d.rs:381-407", "src/collider_3d.rs:40-57", "src/has_colliders_3d.rs:36-64", "src/is_3d.rs:70-75", "src/distances_3d.rs:30-45", "src/functions.rs:33-57"]}
{"id": "C127", "title": "Line simplification of doubles drops only what is within the tolerance", "statement": "douglas_peucker_2d run on doubles drops no point whose computed distance to the base line of its run exceeds the tolerance, whatever the doubles. For finite coordinates of size at most M and base lines at least M/4096 wide in x, the computed distance is finite and is the true distance to the line up to 2^-39*M*(M/w)^3; therefore dropped points are truly within the tolerance plus that error, and a polyline that is straight up to the tolerance less that error is reduced to its two ends.", "quantifier": "all polylines of doubles, all tolerances that are not negative, all sizes from 2^-190 to 2^190", "why_tests_cant": "The distance formula cancels terms of third degree; whether the decision is right depends on the rounding of about forty operations and on where the polyline lies, which examples near the origin never show.", "anchors": ["src/douglas_peucker_2d.rs:30-72", "src/douglas_peucker_2d.rs:76-103"]}
{"id": "C128", "title": "How a reader hands over a file does not matter, and its failure is reported", "statement": "Whatever portions a BufRead hands over a file in, and however often it is interrupted, the loaders return the same points, faces, line numbers and errors as for the file in one piece; every fixed number of bytes read and every line fetched is the same. If the reader fails before the end (a broken disk or connection), loading returns an error.", "quantifier": "all readers: all splittings of all files into non empty portions, all interruptions, all positions of the failure; all text formats, .stl, .ply and .las files", "why_tests_cant": "Tests read from memory or from small files, which arrive in one piece, and never see an I/O error; a file of n bytes can be split in 2^(n-1) ways.", "anchors": ["src/io/utils.rs:35-45", "src/io/utils.rs:92-114", "src/io/utils.rs:130-134", "src/io/xyz.rs:104-125", "src/io/obj.rs:78-100", "src/io/off.rs:85-110", "src/io/pts.rs:104-130", "src/io/gcode.rs:88-120"]}
{"id": "C129", "title": "Trees and nested calls stay as shallow as the data allow", "statement": "Building and reading trees and simplifying lines nests only as deep as the data demand, so that neither the stack nor a depth counter overflows: a kd-tree of n points has exactly as many levels as n has binary digits, whatever the coordinates; a tree of boxes has at most maxdepth + 1 levels; an octree whose points differ by at least 1/2^k of the extent has at most k + 1 levels, at most 53 for doubles that are at least 2^-49 of their size apart, and building it nests at most 2652 calls for any doubles at all; collect and to_pointcloud of an octree never panic; Douglas-Peucker nests only logarithmically deep.", "quantifier": "all point clouds (real and double coordinates, NaN and infinities included where stated), all trees, all depth limits, all lines of any length", "why_tests_cant": "Depth depends on the number and the distribution of the points; tests use a handful of well spread ones, whereas the deep cases need two close points in a large cloud or a line of a special shape.", "anchors": ["src/kd_tree.rs:74-82", "src/kd_tree.rs:166-213", "src/aa_bb_tree_2d.rs:93-141", "src/aa_bb_tree_3d.rs:109-161", "src/oc_tree.rs:78-84", "src/oc_tree.rs:194-257", "src/oc_tree.rs:297-365", "src/douglas_peucker_2d.rs:30-72"]}
{"id": "C130", "title": "A cleaning step applied to its own result changes nothing", "statement": "Steps that bring data into a normal form are idempotent: packing packed values, healing a healed mesh, unifying the faces of a unified mesh, clustering a clustered mesh with the same size, filtering a filtered view, centring a centred cloud, setting the size just set, compressing a decompressed cloud, simplifying a simplified line with the same tolerance and building an octree from the points of an octree all return what they got.", "quantifier": "all inputs: meshes of any size, lists, views, filters, clouds, sizes and bit widths below 64; real coordinates for the positive statements about geometry", "why_tests_cant": "Idempotence relates two runs of the same function on unrestricted inputs; the runs that differ need degenerate faces, grids that move or rounding in the last bit, and a test that calls the function once cannot see them.", "anchors": ["src/utils.rs:80-99", "src/heal_mesh.rs:32-68", "src/unify_faces.rs:34-161", "src/cluster_vertices.rs:33-97", "src/filter_random_accessible.rs:57-91", "src/functions.rs:212-235", "src/compressed_point_cloud_3d.rs:49-113", "src/douglas_peucker_2d.rs:30-72", "src/oc_tree.rs:52-84"]}
{"id": "C131", "title": "Asking for more never gives less", "statement": "Searches and filters are monotone in their limits: whatever in_sphere, in_box, a sphere, circle or box filter, or the outlier filter finds or allows is also found or allowed with a larger radius, box or distance (and fewer required neighbours); a larger tolerance of the line simplification keeps no point the smaller one drops; a larger box has all the collision candidates of a smaller one; more points have an enclosing bounding box and a nearest point no further away; asking for more nearest neighbours keeps those found before; larger clusters leave no more faces.", "quantifier": "all trees, points, centers, radii, sizes, tolerances; real numbers and, for searches, filters and simplification, all doubles with their rounding", "why_tests_cant": "The claim compares two calls for every pair of limits; failures hide in ties, in the order of tree traversal or in the last bit of a center, and no finite table of queries excludes them.", "anchors": ["src/kd_tree.rs:215-403", "src/filter_sphere.rs:138-140", "src/filter_circle.rs:129-131", "src/filter_box_2d.rs:130-135", "src/filter_box_3d.rs:140-147", "src/filter_outlier_3d.rs:80-95", "src/douglas_peucker_2d.rs:30-72", "src/aa_bb_tree_2d.rs:207-226", "src/aa_bb_tree_3d.rs:244-263", "src/bounding_box_2d.rs:60-95", "src/cluster_vertices.rs:33-97"]}
{"id": "C132", "title": "The layout of a text file does not matter", "statement": "Line ends and trailing white space never matter: a file and its copy with CRLF line ends, trailing blanks removed or added, or the last line end missing give the same points, the same mesh, the same error in the same line with the same text, with every text loader (.xy, .xyz, .obj, .off, .pts, .ptx, .gcode, ASCII .stl, ASCII .ply and the header of binary .ply). Lines a format does not use (blank lines, comments, other keywords) and the amount of white space between words do not matter for .pts, .off, .obj and .ptx, nor do comment and obj_info lines anywhere in the header of a .ply file of any format; .gcode and .xyz ignore what their scanners are said to ignore.", "quantifier": "all files as byte sequences, all word contents, all parsers of numbers", "why_tests_cant": "The claim relates any two files that differ only in layout; tests load a few files written by one tool on one system, and a scanner that is position dependent misreads only certain layouts.", "anchors": ["src/utils.rs:30-144", "src/io/xyz.rs:30-160", "src/io/off.rs:30-330", "src/io/obj.rs:30-260", "src/io/pts.rs:30-190", "src/io/ptx.rs:30-318", "src/io/gcode.rs:30-190", "src/io/stl.rs:60-420", "src/io/ply/load.rs:60-238", "src/io/ply/header.rs:67-77"]}
{"id": "C133", "title": "Transforming before or after gives the same result", "statement": "Everything computed from positions in an affine way commutes with transformations: a transformed line segment consists of the transformed points; the center of gravity of a transformed cloud, segment or mesh is the transformed one; subdividing, healing or sampling a Bezier curve and transforming can be exchanged, whatever the matrix (healing: if it keeps points apart); a moved box, also one with any direction, allows the moved points, has the moved bounding box and corners, and collides with whatever moved along exactly as before; selecting points by a view and changing them one by one can be exchanged.", "quantifier": "all matrices and vectors, all clouds, meshes, segments, boxes, colliders, views; real numbers (views: any points)", "why_tests_cant": "The claim compares two orders of operations for every matrix and every mesh; a test picks a few axis aligned transformations where wrong entries or a forgotten coordinate do not show.", "anchors": ["src/line_segment_2d.rs:80-89", "src/line_segment_3d.rs:80-89", "src/point_cloud_2d.rs:66-73", "src/point_cloud_2d.rs:216-271", "src/point_cloud_2d.rs:345-355", "src/point_cloud_3d.rs:355-365", "src/mesh_3d.rs:164-205", "src/subdivide.rs:36-81", "src/interpolate_2d.rs:31-86", "src/box_2d.rs:158-189", "src/box_3d.rs:176-210", "src/box_unaligned_3d.rs:70-154", "src/is_buildable_3d.rs:51-65"]}
{"id": "C134", "title": "Colliding objects have colliding bounding boxes", "statement": "A search by bounding boxes first loses no collision: objects that share a point inside both have bounding boxes that collide, and objects that collide according to collides_with have bounding boxes that at least touch; asking a collider directly or as an object with colliders is the same.", "quantifier": "all colliders; real numbers, wrapping for all doubles with all panics", "why_tests_cant": "A lost collision needs a particular position of two objects; the claim is about all pairs.", "anchors": ["src/collider_3d.rs:30-92", "src/has_colliders_3d.rs:30-64", "src/sat_collider.rs:35-98", "src/tri_face_3d.rs:39-98", "src/box_unaligned_3d.rs:70-154", "src/bounding_box_3d.rs:485-509"]}
{"id": "C135", "title": "No axis is special", "statement": "Exchanging two coordinates of everything that goes in exchanges the two coordinates of everything that comes out: bounding boxes, their making, joining, scaling, containment and collisions, filters, centers of gravity, scaled and centered clouds, compressed clouds, distances, lengths, box distances, and searches in k-d trees; what is refused stays refused with the same error.", "quantifier": "all points, clouds, boxes and both generating exchanges (hence all orders of the axes); all doubles with infinities and nan for everything without sums over several coordinates and for exchanging x and y; real numbers otherwise", "why_tests_cant": "A coordinate mixed up in one of many similar lines shows only for inputs whose coordinates differ in just the right way; the claim compares two runs for every input.", "anchors": ["src/bounding_box_2d.rs:38-377", "src/bounding_box_3d.rs:38-481", "src/distances_2d.rs:30-45", "src/distances_3d.rs:30-45", "src/box_2d.rs:158-189", "src/box_3d.rs:176-210", "src/point_cloud_3d.rs:196-348", "src/point_cloud_2d.rs:196-338", "src/compressed_point_cloud_3d.rs:49-113", "src/kd_tree.rs:48-340"]}
{"id": "C136", "title": "A unit that differs by a power of two gives the same bits", "statement": "With doubles, multiplying all coordinates, radii and sizes by 2^k changes distances, lengths of curves and polygons, centers of gravity, bounding boxes, their sizes, centers and distances by exactly that factor, bit by bit, and changes no decision: the same k-d tree is built and every search returns the same points in the same order, filters allow the same points, boxes contain and collide alike, convex hulls have the same points.", "quantifier": "all k from -100 to 100; all finite doubles that are zero or between 2^-300 and 2^300 in magnitude; all clouds (of fewer than 2^52 points for sums), trees, boxes, spheres and queries", "why_tests_cant": "A test compares a few clouds in two units; an absolute tolerance or a constant hidden in one of the formulas shows only at particular magnitudes, and equality of every rounded bit for all inputs needs an argument about the format.", "anchors": ["src/distances_2d.rs:30-45", "src/distances_3d.rs:30-45", "src/kd_tree.rs:74-423", "src/filter_sphere.rs:138-140", "src/filter_circle.rs:129-131", "src/filter_box_2d.rs:130-135", "src/filter_box_3d.rs:140-147", "src/convex_hull_2d.rs:32-85", "src/point_cloud_2d.rs:216-254", "src/point_cloud_3d.rs:216-257", "src/polygon_2d.rs:118-126", "src/polygon_3d.rs:118-126", "src/bounding_box_2d.rs:38-243", "src/bounding_box_3d.rs:38-313"]}
{"id": "C137", "title": "A file cannot produce more than it contains", "statement": "Whatever counts a file announces, a loader delivers no more points, vertices, faces and normals than the bytes of the file can hold: at least 4 bytes per point of .xy, 6 per point of .xyz, .pts, .ptx, .gcode and .off, 8 per point, vertex and face of .obj, 6 per vertex and 8 per face of .off, 6 per vertex and 4 per face of .ply in all three formats, 50 per face and normal of .stl, text or binary, and 12 per point of .las and .psl. What is loaded is therefore linear in the size of the file.", "quantifier": "all files (any bytes), all targets with any contents, all conversions of text to numbers, all outcomes of the load (success or error)", "why_tests_cant": "hostile files can announce any count, repeat headers, point offsets into other parts of the file or nest zero sized records; tests try a few files, the bound is about every sequence of bytes", "anchors": ["src/io/xyz.rs:162-175", "src/io/xy.rs:147-160", "src/io/obj.rs:186-224", "src/io/off.rs:303-348", "src/io/pts.rs:178-194", "src/io/ptx.rs:227-243", "src/io/gcode.rs:194-207", "src/io/ply/load.rs:36-133", "src/io/stl.rs:336-460", "src/io/las/load.rs:142-158", "src/io/psl.rs:152-165"]}
{"id": "C138", "title": "Data may be divided into parts", "statement": "What is computed for two parts of the data determines what is computed for all of it: the bounding box of all points is the combination of the boxes of the parts; searching a sphere or a box in the trees of the parts one after the other, into the same list, finds the points the tree of all points finds, each as often; the nearer of the parts' nearest points is as near as the nearest of all; the closest hit of a ray is the nearer of the parts' closest hits; box trees of the parts report together what the tree of all elements reports; the center of gravity is the mean of the parts' centers weighted by their numbers of points; a line cut at one of its points has the sum of the lengths of its pieces; duplicates may be removed from the parts first; the hull of the parts' hulls is the hull of all points.", "quantifier": "all data and all ways to cut it in two (and so in any number of parts), all queries; doubles or exact numbers as stated per theorem", "why_tests_cant": "a test divides a handful of points in a handful of ways; where the cut falls decides which splits and which pruning decisions the trees of the parts make, and the points on borders that only one of the trees loses are rare", "anchors": ["src/bounding_box_2d.rs:61-95", "src/bounding_box_3d.rs:63-105", "src/bounding_box_2d.rs:333-365", "src/bounding_box_3d.rs:425-465", "src/kd_tree.rs:101-135", "src/kd_tree.rs:282-395", "src/aa_bb_tree_2d.rs:49-85", "src/aa_bb_tree_3d.rs:49-95", "src/functions.rs:302-370", "src/utils.rs:80-110", "src/point_cloud_2d.rs:216-254", "src/point_cloud_3d.rs:216-257", "src/convex_hull_2d.rs:32-75"]}
{"id": "C139", "title": "Loading into a target that is not empty", "statement": "A file loaded into a target that already holds data is added behind that data, which stays as it was: points behind the points, and a mesh behind the mesh so that the added faces join the added vertices; the outcome of the load does not depend on the target.", "quantifier": "all bytes of a file, all targets, all outcomes of the load (also failures halfway), for .pts, .ptx, .off, .obj, .ply (ASCII and both binary formats), .stl (ASCII and binary, duplicated or unified vertices, triplets) and .las", "why_tests_cant": "tests load into fresh targets; that a loader numbers vertices from the start of the file and not from the start of the target shows only in meshes with data, and only as faces between the wrong vertices, never as an error", "anchors": ["src/io/obj.rs:186-207", "src/io/off.rs:303-348", "src/io/ply/load.rs:84-240", "src/io/stl.rs:336-460", "src/io/pts.rs:178-195", "src/io/ptx.rs:227-244", "src/io/las/load.rs:142-158", "src/mesh_3d.rs:94-131"]}
{"id": "C140", "title": "Order of corners and direction of walking", "statement": "Where order has no meaning it has no effect: the answer of a ray to a triangle or mesh, whether a triangle collides, and its bounding box are the same for every order of its corners; vertex normals do not depend on the corner a face starts with and turn around when all faces are walked the other way; lengths are the same in both directions and, for polygons, wherever they start; interpolated and simplified lines walked backwards are the results walked backwards.", "quantifier": "all triangles (also those that are lines), all six orders of their corners, all meshes with any choice of orders for their faces, all rays and colliders, all lines and polygons, all numbers of interpolated points", "why_tests_cant": "every triangle has six orders and a mesh a power of six; tests try one, and a rejection test that is right for one orientation only, or a rotation that loses a corner, answers wrongly just for triangles met from the other side", "anchors": ["src/functions.rs:238-299", "src/functions.rs:395-405", "src/tri_face_3d.rs:39-98", "src/sat_collider.rs:35-98", "src/collider_3d.rs:40-57", "src/utils.rs:101-125", "src/point_cloud_2d.rs:244-254", "src/polygon_2d.rs:118-126", "src/polygon_3d.rs:118-126", "src/interpolate_2d.rs:64-86", "src/interpolate_2d.rs:131-170", "src/douglas_peucker_2d.rs:30-103"]}
{"id": "C141", "title": "Changes can be undone", "statement": "A change followed by its opposite leaves everything as it was: moving by a vector and by its negative, scaling by a factor and by its inverse, turning by an angle and back (a rotation around three axes by the single rotations in the opposite order), translating and scaling by matrices, centering and moving back, setting another size and the old size again.", "quantifier": "all points, clouds, meshes, lines, rays, segments and boxes with any number of points, all vectors, all positive factors and sizes, all angles and unit axes; doubles: all coordinates and vectors on a grid of at most 2^23 steps", "why_tests_cant": "tests compare one object after one change; a pivot taken from the changed object instead of the unchanged one, or a coordinate left out on the way back, shows only for objects off the origin or after the second change", "anchors": ["src/point_2d.rs:213-216", "src/point_cloud_2d.rs:196-200", "src/point_cloud_2d.rs:331-355", "src/point_cloud_3d.rs:196-200", "src/point_cloud_3d.rs:341-365", "src/mesh_3d.rs:175-205", "src/bounding_box_2d.rs:280-330", "src/box_2d.rs:186-188", "src/box_3d.rs:207-209", "src/functions.rs:212-235", "src/matrix3.rs:57-71", "src/matrix4.rs:72-165"]}
{"id": "C142", "title": "Small changes have small effects", "statement": "When every point of a cloud moves by at most some amount, so do the sides of its bounding box, its center of gravity and the points of a Bezier curve over it; distances change by at most twice the amount, lengths by at most that for each segment; the distance to the nearest point of a tree changes by at most the movement of points and search point together, and range searches enlarged by it still find everything they found.", "quantifier": "all clouds of any number of points and all amounts, each point moved in its own direction; all trees, search points, spheres and boxes", "why_tests_cant": "tests compare results for fixed points; that noise in the input is never amplified is a statement about all pairs of inputs, and a tree over moved points has another shape altogether", "anchors": ["src/distances_2d.rs:30-44", "src/distances_3d.rs:30-45", "src/point_cloud_2d.rs:216-254", "src/point_cloud_3d.rs:216-257", "src/point_cloud_2d.rs:331-338", "src/bounding_box_2d.rs:61-100", "src/kd_tree.rs:92-129", "src/kd_tree.rs:220-380", "src/interpolate_2d.rs:30-86"]}
{"id": "C143", "title": "Derived points stay within the data, derived lines grow no longer", "statement": "Nothing is invented outside the data: the center of gravity, the points of a linearly interpolated line and of a Bezier curve are in every half plane or half space that contains the points they come from, cosine interpolation stays in every rectangle around them, simplified lines consist of points of the line with the same ends; interpolated and simplified lines are never longer than the line they come from.", "quantifier": "all clouds and lines of any number of points, all half planes, half spaces and rectangles, all numbers of points asked for, all tolerances", "why_tests_cant": "a test looks at some samples of some line; that no half plane separates any result from its data, and that no choice of points makes the line longer, are statements about all of them", "anchors": ["src/point_cloud_2d.rs:216-254", "src/point_cloud_3d.rs:216-257", "src/interpolate_2d.rs:30-170", "src/douglas_peucker_2d.rs:30-103"]}
{"id": "C144", "title": "Different ways to ask for the same points agree", "statement": "A search of a k-d tree for a sphere or a box finds the points the sphere filter or box filter allows, as often as they are there; the nearest point is found by every sphere search around the search point that finds anything, and nothing is found exactly if the nearest point is outside; the outlier filter asking for one neighbour keeps exactly the points whose nearest point is close enough; a sphere search finds no more than the search for the cube around it, a box search no more than the search for a sphere reaching its corners; the search for the bounding box of the points finds all of them; the convex hull is in the same half planes and has the same bounding box as the points.", "quantifier": "all lists of points with any duplicates, all trees built from them, all search points, spheres, boxes and distances", "why_tests_cant": "two independent implementations can agree on every example tried and differ at a border or for duplicates; the agreement is about every tree and every shape", "anchors": ["src/kd_tree.rs:87-129", "src/kd_tree.rs:216-403", "src/filter_sphere.rs:138-140", "src/filter_box_3d.rs:140-147", "src/filter_outlier_3d.rs:80-95", "src/convex_hull_2d.rs:32-75"]}
{"id": "C145", "title": "Subdividing, healing and unifying a mesh keep its surface", "statement": "subdivide::linear applied any number k of times to a mesh succeeds and changes only the description: there are 4^k times as many faces, the old vertices keep their ids, every step adds exactly one vertex for every edge, the area of the surface, the volume it encloses and the bounding box stay the same, nothing leaves a half space the mesh is in, and every face points in the direction of a face of the mesh, with 4^-k of its area and 2^-k of its perimeter. heal_mesh keeps area and volume too, unify_faces and movements and rotations keep the area, and scaling by k multiplies it by k squared; the volume of a closed mesh does not change when it is moved, and is multiplied by the determinant when it is transformed and by the cube of the factor when it is scaled. A subdivision keeps the Euler characteristic (vertices - edges + faces). A closed mesh stays closed when it is subdivided, whatever the midpoints are, as long as they do not depend on the direction of the edge. The results of heal_mesh and cluster_vertices on a closed mesh are closed, too.", "quantifier": "all well formed meshes of any size, open or closed, any number of subdivisions, all movements, distance keeping matrices and factors", "why_tests_cant": "a test subdivides some mesh once or twice and compares some numbers; that no subdivision of any mesh ever changes area, volume or directions is an induction over the number of steps and faces", "anchors": ["src/subdivide.rs:36-81", "src/is_buildable_nd.rs:45-64", "src/heal_mesh.rs:32-68", "src/cluster_vertices.rs:33-97", "src/unify_faces.rs:34-161", "src/mesh_3d.rs:175-205"]}
