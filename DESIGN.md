# rust-3d: formal model and proofs

Subject: `I3ck/rust-3d` v0.34.0, source in `/repo` (read as text, never built).
Tool: Lean 4.33.0 with Mathlib. Project in `/verif/lean`, built with `lake build`.

## 1. Layout

* `lean/Verif/Model/*.lean` – the code, function by function. Every definition cites
  file and lines in `/repo` and states its simplifications.
* `lean/Verif/Spec/*.lean` – specification vocabulary shared by several property files.
* `lean/Verif/Lemmas/*.lean` – helper lemmas about the model.
* `lean/Verif/Props/*.lean` – the property theorems with, beside each, an `example`
  showing that a concrete non trivial case meets its hypotheses. Specifications
  (what a property means) are small definitions placed at the head of these files,
  written without the model's helpers.
* `properties.jsonl` – the properties, `MANIFEST.json` – property → theorems,
  `seeded/LOG.jsonl` – mutation attempts on the model. Limits: builds were stopped
  shortly after the first failure, so `theorems_failed` is what failed first and not everything that fails. In 342 of the 743 lines this is
  only a lemma or an example: it shows that the proofs of the theorems above it break, not by itself that their statements become false. The
  claim of scripted edits was noted beforehand or taken from the theorem that failed. That printed decimals are the shortest or closest ones
  is modelled, but not proved (edits of `shortest` and `decCandidates` survive).

## 2. Modelling decisions

* **Scalars.** Code working on `f64` is modelled once, generic in a class
  `Scalar α` (the operations `+ - * / neg abs sqrt`, literals, and Bool valued
  `<  <=  ==` exactly as the Rust float comparisons are used). Two instances:
  `ℝ` (exact arithmetic) and `F64`, a concrete IEEE-754 binary64 model (NaN,
  infinities, signed zeros, round-to-nearest-even, correctly rounded square root).
  Code which only compares is proved for every scalar type with lawful comparisons
  (`LawfulScalar`), which covers `F64` with NaN. Code which computes is proved over
  `ℝ` (such theorems say "exact arithmetic" in their doc comment) and, in C91–C104 and the
  theorems named there, for `F64` with every rounding, overflow and underflow: error bounds
  (`Lemmas/F64Appr`), exactness on grids (`Lemmas/F64Grid`), correctly rounded roots
  (`Lemmas/Sqrt`). Float pitfalls are shown on `F64` by kernel evaluation.
* **Panics** (`unwrap` on `None`/`Err`, index out of range, integer underflow in
  debug builds) are an explicit outcome (`Outcome.panic` / `none` in functions whose
  only failure is a panic), never a default value.
* **`&mut` arguments** become returned values. On an error path the value the
  caller observes is returned too whenever it is observable.
* **`usize`** is `Nat`; where 64 bit wrap-around or truncation by `as` matters the
  cast is modelled explicitly (`% 2^32`, ...).
* **HashMap / HashSet** are modelled as association lists / membership predicates
  with the key type's equality; iteration order is not used by the modelled code
  unless stated.
* **`sort_by`** is a stable insertion sort (`stableSort`) with the same comparator.
* **Text IO.** Files are `List UInt8`; float formatting and parsing are parameters
  `fmt : α → List UInt8`, `parse : List UInt8 → Option α`. Round-trip theorems assume
  `parse (fmt x) = some x` and that `fmt x` is non-empty and free of blanks, line breaks and the
  delimiter (`FloatText.Lawful`). For doubles this is proved: `Model/FloatText.lean` models
  `f64::from_str`, `to_string` and `{:e}` as documented by std (grammar of numbers, correctly rounded
  result, shortest digits that read back; the sign of a zero is printed, as since Rust 1.53) and
  `Lemmas/FloatText.lean` shows every double, including infinities, NaN and both zeros, reads back.
  The theorems ending in `_f64` carry no assumption on the text of numbers.

## 3. Trusted base

* The Lean kernel (4.33.0) and the axioms `propext`, `Classical.choice`,
  `Quot.sound`. No own axioms, no `sorry`, no `native_decide`.
* The hand translation Rust → Lean described by the citations in the model files.
* The facts about Rust's standard library named above (stable sort, hash maps,
  float formatting/parsing as in `Model/FloatText.lean`, `Write::write` and `write_all` as in `Model/Write.lean`, `BufRead::read_until` and `Read::read_exact` as in `Model/Device.lean`).
* The `num` crate's float to unsigned conversion as described at the head of
  `Model/Compress.lean` (truncation; rejects values below 0 or above the type's range).

## 4. Properties: what is modelled and how it is proved

| id | modelled | method |
|----|----------|--------|
| C01 | `DynamicPrecisionIndexVec`, all four modes | refinement to `List Nat`, induction over operation histories |
| C02 | `U32IndexVec` | refinement under `< 2^32`; negation with witness `2^32` |
| C03–C05 | `Mesh3D` over any index container refining a list | invariant by induction over histories |
| C06–C09 | `HalfEdge::new`, navigation, `IsSearchableMesh` defaults | structural lemmas on the construction fold; twin property violated by the code: negation + exact description of what is returned |
| C10–C12 | `pack_dupes_indexed`, `heal_mesh` | induction over the fold; C12 violated: negation |
| C13 | `subdivide::linear` | loop invariant |
| C14 | `unify_faces` | loop invariant |
| C15–C21 | `BoundingBox2D/3D` | comparison-only parts for every `LawfulScalar`; arithmetic parts over ℝ; float witnesses on `F64` |
| C22, C23 | `AABBTree2D/3D` | structural induction on the construction |
| C24–C27 | `KdTree` | structural induction; C26 violated for n ≥ 2: negation + partial; C25 and C26 also for doubles (`Props/KdTreeFloat`) with rounding, overflow and underflow, by the correctly rounded square root (`Lemmas/Sqrt`) |
| C28, C29 | `OcTree`, `OcTreeFloat`, `OcTreeKeep` | C28 violated: negation + exact description (for doubles by rounded halving, coordinates 0 or ≥ 2^-1020, extents ≤ 2^1023); termination via fuel bound, also for doubles |
| C30–C37 | filters, views, shapes | decision logic; C34, C37 violated: negation |
| C38 | `Positive`, `NonNegative` | invariant over ℝ, negation on `F64` |
| C39–C41 | matrices and pipes | ring identities over ℝ |
| C42 | `CompressedPointCloud3D` | bound over ℝ, and for doubles with all roundings (`Props/CompressFloat.lean`) |
| C43–C45 | convex hull, Douglas-Peucker, Bezier | loop invariants / algebra; C43, C44 violated in corner cases: negation + partial |
| C46–C49 | intersections, SAT | real geometry; C49 also for doubles with rounding (`Props/SatFloat.lean`) |
| C50 | shape bounding boxes | real geometry, and doubles (Props/ShapeBBFloat); violated for `BoxUnaligned3D`, and by panics when computed borders collapse |
| C51–C54 | clouds, containers, sorting, hashing | refinement; C52, C54 violated |
| C55 | polygons | arithmetic |
| C76, C77 | moving, scaling, centering of clouds and segments | real geometry; violated for flat inputs |
| C78, C79 | linear / cosine interpolation, factories | real geometry; violated in corner cases; C78 linear also for doubles with error bounds (`InterpFloat`) |
| C84–C86 | `Cluster`, `cluster_vertices`, `normals_of_mesh` | association lists for the maps; C84 with rounding; C85 for size 0 and C86 violated |
| C87 | `PointCloud3Df32` | refinement to a list of points; `f32` rounding proved nearest |
| C88 | `FilterDirectionField2D`, `FilterDirectionField3D` | `acos`, `atan2` as a class with the real instance; 3D partial, 2D violated |
| C89 | `IsND`, `IsBuildableND`, `IsEditableND`, `dist_nd` | doubles bit by bit against the 2D and 3D functions |
| C90 | `to_str`, `parse` of points and clouds | byte lists; accepted texts characterised, round trips |
| C91 | `KdTree` range searches with doubles | result between the strict and the non strict computed test; ties and tiny radii violated |
| C92 (and C19, C25, C36 for doubles) | distances with doubles | standard error analysis over the rounding of `F64`: relative error of a rounded sum, difference, product and square root (`Lemmas/F64Err`); overflow and underflow witnesses |
| C93 | editing positions | the provided methods of the traits as functions over any implementor, get/set laws per implementor, formulas and laws from them; spheres characterised and refuted |
| C94 | edits of meshes | induction over all histories of edits: the half edges equal those built from the current mesh |
| C95 (and C54) | ordering of shapes | `cmp` as a comparison of extended reals; antisymmetry for all doubles; witnesses against `Eq`, `Hash`, `PartialOrd` and transitivity |
| C96 | panics of the loaders | `Model/Reserve.lean` repeats the loaders with `reserve` (capacity overflow panics); any missing result is traced back to a line or a header field by an invariant of the loop |
| C97 | boxes of doubles | Props/BoxFloat: sizes, centers, moves, collisions and tree queries with all roundings, from the one-operation error lemmas of Lemmas/F64Op and F64Box |
| C98 | matrices of doubles | Props/MatrixFloat: error calculus `Appr` of Lemmas/F64Appr (value, magnitude, number of roundings) applied to the dot products |
| C99 | centers and lengths of doubles | Props/SumFloat: running error of a sum by induction over the list |
| C100 | vectors of doubles | Props/VectorFloat: dot, cross, normalisation with the calculus of C98 and the lengths of C92 |
| C101 | moving, scaling, centering and resizing clouds of doubles | Props/ScaleFloat: error per coordinate, order kept exactly (`NearMap`), extents |
| C102 | fixed point doubles are exact | Props/BoxGrid, Props/HullGrid, Props/KdGrid: sums, products and halves of few steps are exact (Lemmas/F64Grid), square roots compare exactly (Lemmas/F64GridSqrt), so the results over the reals transfer |
| C103 | operators of points and normals, lines, rays, projections | Props/PointOps: transport along `at2` / `at3` to `Fin n → ℝ`, one rounding per coordinate for doubles, exact laws by cases of `F64` |
| C104 | rotations and arcs of doubles | Props/RotFloat, RotFloat3, ArcFloat: `Appr` error calculus over any `Trig F64` with `GoodTrig` (sine and cosine off by at most 2^-52, a hypothesis about the platform, shown satisfiable by `F64.trig_good`); distances via the triangle inequality (Lemmas/Triangle) |
| C105 | rays against triangles of doubles | Props/RayFloat: absolute error calculus `Near` (Lemmas/F64Near: value, bound of the exact value, bound of the error) through normal, ray parameter, hit point and the three edge tests; exact side stated with barycentric coordinates (`Meets`), existence proved; margins explicit |
| C106 | lines against boxes of doubles | Props/LineFloat: per slab the computed bounds as extended reals (`SlabOk`, zero components give infinite bounds), margins M/2^50; monotonicity of the slab test in the box under rounding and overflow gives the tree query of C23 for doubles |
| C107 | Bezier interpolation of doubles | `Appr` bounds through weights, products and the summation loop, for any `powi` of a stated accuracy (`Spec.GoodPowi`, met by repeated multiplication) |
| C108 | range searches of doubles by true distance | C91 (agreement with the computed test) combined with C92 (accuracy of distances); grid version from C102 |
| C109 | cosine interpolation of doubles | the walk along the polyline shared with C78 (`interpolation_f64`), Lipschitz bound of the cosine; cosine and PI are parameters (`GoodTrig`, `GoodPi`) |
| C110 | rectangles, ellipses, involutes of doubles | error algebra `Appr`; the angles are equal steps (`step_appr`), the coordinates as in C104 |
| C111 | only well-formed PLY headers are accepted | inversion of each step of the header loop; the lines of each declaration as a list of items |
| C112 | PLY data is read as declared | an accepted header in the usual order is one of C61/C62 (partial); two witnesses |
| C113 | normals of meshes of doubles | normals of faces as in C105 (`Near`), their sum, one normalisation; witness for thin faces |
| C114 | angles of doubles | error algebra `Near` for the cosine; concavity of the sine for the angle; `acos` a parameter with its accuracy as hypothesis |
| C115 | midpoints and subdivision of doubles | doubles are multiples of `2^-1074`, rounding is monotone; C13 for the mesh |
| C116 | `cluster_vertices` of doubles | C85 for the structure, C16 for the box, error of one subtraction and one division for the cells |
| C117 | all geometric functions under a change of origin and unit (exact arithmetic) | two runs side by side: every comparison of the code is between quantities which change alike; inductions over the trees, loops and folds |
| C118 | all iterators over files after `None` and after an error | the flag `is_done` (or its counterpart) as invariant: set by every call that returns `None` or an error, kept and honoured by every later call |
| C119 | all loaders on a file and on its beginning | simulation: the states of the two runs differ in the bytes left only, and a step of the shorter run that delivers something or fails for another reason than the end is a step of the longer run |
| C120 | the loaders of one format on the same file | simulation: the mesh iterator delivers what the iterator of points does, then faces; for .stl through the triangles both are described by (C63, C66) |
| C121 | all loaders, then the savers | an invariant of the loading loop (faces valid, coordinates doubles), composed with the round trips C57, C59, C60, C67, C80 |
| C122 | the line based loaders on a joined file | the run over the joined lines splits at the end of the first file; what follows is the run over the second file with the state left, related by a simulation to the run from the start (line numbers shifted) |
| C123 | the functions in which a caller or a file can provoke integer overflow, in both kinds of builds (`Model/Release.lean`) | wrapping arithmetic equals exact arithmetic while the numbers fit; where the checked build panics, the wrapped value is computed and followed |
| C124 | octree, box trees, k-d tree, center of gravity, convex hull on permuted input | two runs side by side: the permuted input gives the same tree (up to the order in the leaves), since it is split by filters and its box is a commutative fold; for the k-d tree from C25 and C27 |
| C125 | the queries of both box trees, with multiplicities | induction over the construction: every element goes to at least one and at most two sides of a split |
| C126 | symmetric functions with swapped arguments, everything mirrored at coordinate planes, doubles | commutativity and sign rules of the rounded operations; search loops over colliders by induction |
| C127 | Douglas-Peucker on doubles | forward error analysis of the foot of the perpendicular (numerator, denominator, two divisions), distances of C92; runs by induction; violated far from the origin |
| C128 | readers that portion the data, are interrupted or fail | `read_until` and `read_exact` of the standard library on lists of portions, induction over the portions; failure violated: treated as the end of the file; .stl files (`Model/DeviceStl.lean`) by a simulation of the iterator over portions by the one over bytes; readers that pause (`c128_pause`); .las files (`Model/DeviceLas.lean`): readers that can be sent to positions, and a failing `seek`; .ply files of all formats (`Model/DevicePly.lean`), text failing silently, binary data with an error |
| C129 | levels of the trees, nesting of the calls | counting levels; one level per halving of the separation; for doubles the computed middle shrinks the box to 9/16 or, on the grid of the doubles, by one step; violated for `collect` of deep octrees and for Douglas-Peucker |
| C130 | two runs of the cleaning steps | `heal_mesh` only looks at the corner positions; `unify_faces` visits the faces in the same order on its own result (neighbours are sorted), lockstep of both runs; quantising is a projection; clouds via C77; violated for six of the steps |
| C131 | two calls with different limits | `in_sphere`/`in_box` visit a superset in the same order (any tree, monotone rounding); Douglas-Peucker splits at the same points whatever the tolerance; `visit` of the box trees is monotone in the test; violated for `knearest`, `cluster_vertices` and collisions of doubles |
| C132 | two files that differ only in layout | `Spec.SameEnds` relates files line by line up to trailing white space; the loaders are simulated step by step on the two line lists; ignored lines and spacing: `Spec.SameWords` of the lines a format uses (`ptsMatters`, `offMatters`, `objMatters`, `gcodeMatters` are stated on raw lines), results compared up to number and text of the offending line; comments of .ply headers (`plyMatters`) by induction over the lines of the header; violated for blank lines of .xy, .xyz, .stl, .ply and for indentation and tabs of .obj, .gcode, .off |
| C133 | objects and their transformed copies (exact arithmetic) | `transformed` ignores the last row of the matrix, so every matrix is an affine map; sums of points, midpoints and Bernstein sums commute with it; healing and subdivision are renamings of vertices |
| C134 | colliders against their bounding boxes | inner points of faces and boxes are inner points of the bounding boxes; the axes of an aligned box are among the tested ones; violated for two faces and for boxes with directions |
| C135 | two runs whose inputs differ by exchanged coordinates | the two generating exchanges (x with y, y with z) commute with each function; bit by bit where no sum over three coordinates is formed |
| C136 | two runs whose inputs differ by a factor `2^k`, doubles | rounding commutes with moving the exponent for multiples of `2^n` (`Lemmas/F64Scale.lean`); carried through `+ - * / sqrt`, comparisons, sums and the recursions |
| C137 | bytes of a file against the number of items a loader delivers | every loop pays for what it delivers: a cost of the state (bytes or lines left) falls by the price of each item; prices from the number of words a line must have or the bytes a record must have |
| C138 | results for two parts against the results for the parts put together | boxes from C16, C17; searches as permutations of a filter (C27, C102) and `filter_append`; nearest from C25; closest hit by induction over the second part; box trees from C22, C23; hull regions from C43 |
| C139 | loading into a target that holds data against loading into an empty one | a map of targets that every push respects (`forEach_target`), or respects until a face is refused (`forEach_related`); `appended` shifts the numbers of the faces, `piled` does not |
| C140 | corners and lines given in another order | permutations of three corners from two swaps (`corners_of_perm`); `Turned`, `Flipped` faces; a polyline has one point at each walked length (`walk_unique`) |
| C141 | a change and its opposite | the middle of the box does not move when scaling (`scale_undo_2d`, `scale_undo_3d`); the factors of two `set_size` multiply to 1 because tight boxes are unique; grid of doubles from C102 |
| C142 | moved points, moved results | `Near2`, `Near3`: pairs of clouds; triangle inequality of `eucl`; weighted means do not enlarge distances (`eucl_weighted`, `near_mean`) |
| C143 | half planes around the data, lengths of derived lines | weighted means stay in half planes; points at walked lengths `s` and `t` are at most `t - s` apart (`walk_lip`); leaving out points shortens (`pairSum_sublist`); the weights of later control points grow along a Bezier curve (`bernTail_mono`) |
| C144 | tree searches against filters, each other and bounding boxes | both sides enumerate the same selection of the input (C27, C36); the nearest point bounds every distance |
| C145 | repeated linear subdivision; area and volume of healed, unified, moved, scaled meshes | one step: area and signed volume are sums over the four triangles, whose area vectors are a quarter (`sub_step`); induction over the number of steps; the area vectors of a closed mesh cancel edge by edge (`closed_normals`); closed means that everything that changes sign with the direction of an edge cancels (`closed_iff_sums`), which subdivision keeps, and moving corners together and leaving out faces of which corners met too (`closed_corners`); midpoints joined inside of a face determine its corners (`joined_corners`), which gives the number of edges |
| C56–C72, C80–C83 | text and binary IO | parsers over byte lists, round-trip laws, negations where the code loses data |

## 5. Where the code disagrees with a property

Each entry is proved in Lean as a negation with a concrete witness.

* C02 `U32IndexVec` stores indices truncated to 32 bits.
* C07 vertex queries of `HalfEdge` fail for existing vertices above the largest used id.
* C08 `twin` never returns the opposite half edge.
* C12 `heal_mesh` keeps duplicate faces.
* C15 `BoundingBox::new` accepts NaN corners.
* C21 `move_by` with a large offset collapses a box (rounding), the size accessors then panic.
* C22 pruning by rounded arithmetic can lose a colliding element; boxes with infinite corners are
  lost altogether (the split position becomes NaN).
* C23 a line with zero direction components: a NaN drops constraints of the slab test for the element
  but not for its parent node, so the tree misses an element a linear scan reports.
* C26 while descending, `knearest` compares a new candidate with the last one of a list that is not sorted
  yet, so that a nearer point can be dropped.
* C28 the cells of an octree are open boxes: the points spanning the bounding box are never kept. The
  depth counter of `collect` is an `i8` and overflows for deep trees.
* C34 `FilterAny` for random access starts from the view it is given and unions the results into it, so that
  it never restricts a view.
* C37 `Sphere::z` and `FilterSphere::z` return the y coordinate.
* C38 a `NonNegative` can become NaN (`0/0`, `0*inf`), a `Positive` can underflow to zero, dividing two infinite
  `Positive`s panics.
* C39 `multiply_m` ignores the last row of the matrix, so that a product with a right factor that is not affine
  (`perspective`) is not the composition.
* C42 compressing to `u64` always fails: the largest coordinate is converted to a number just out of range.
* C75 `look_at` does not normalise its side vector: distances across change with the distance of the target.
* C52 `insert` at `len` fails for `Vec` / `VecDeque` but appends for point clouds.
* C54 `0.0 == -0.0` but the hashes differ; `cmp` compares distances to the origin, so that different points (any two
  norms) are `Equal`; with NaN it is not transitive.
* C76, C77 clouds without a bounding box (flat in one direction) and axis parallel segments are silently left
  unchanged by `scale`, `center`, `set_size`.
* C43 `sort_x` leaves points with equal x in input order, so that the monotone chain can miss corners; the hull of a
  single point is empty.
* C44 the point before the split point is dropped whatever its distance; a vertical base line gives NaN distances
  and drops everything; a single point is doubled; a negative tolerance recurses forever.
* C45 22 or more control points overflow the factorial.
* C78 zero points requested panics, one point requested returns none, equal starting points give NaN. With
  doubles the last point can be missing, since `(n - 1) * (length / (n - 1))` can round to more than the length
  (26 points on a segment of the length 7 give 25 points).
* C79 `arc` with end < start runs the wrong way, `ellipse` covers only its upper half, `involut_circle` ignores the start.
* C46 the normal of a triangle with huge coordinates is NaN, all comparisons that reject are then false: every ray hits.
* C47 for a box around the anchor of the ray the distance is measured to the point where the line enters the box behind
  the anchor, so that a further box can win.
* C48 with a zero direction component and the anchor on a face plane `0 * inf` is NaN: boxes are missed or hit wrongly.
* C49 the separating axis test uses no cross products of edges: a box and a triangle that are apart are reported as
  colliding. Two axis aligned boxes sharing a face are not reported, with a collider of any other type they are.
* C50 the points of `BoxUnaligned3D` are `center ± size` (not half of it) while its bounding box is
  `center ± max size / 2`: corners lie outside for every box, and a box made from a bounding box is twice as large.
* C56 `fetch_line` always drops the last byte of what it read, also when the file does not end with a line break.
* C57 a separator such as `", "` is detected as a blank, so that what was saved does not load.
* C67 a face index 0 overflows (panic, or a huge index in release builds); of faces with more than three corners only the
  first triangle is kept.
* C80, C81 a file that ends before the announced number of vertices, faces or points is loaded without an error; `.off`
  faces beyond the announced number are loaded as well.
* C69 G90/G91 on a line of their own are ignored (the trailing blank the code looks for was trimmed), G0 is ignored, axis
  words separated by tabs make the file unreadable; G92 reports a position although nothing moves.
* C82, C118: the PTX iterator goes on with the next line after a malformed point (`c118_violated_ptx`).
* C71: `slice_from_bytes_be` multiplies the wrong side of its size check, so it rejects right-sized buffers and can
  panic on others (`c71_violated_slice_be`; the function is not called in the library).
* C63 with `StlFormat::Auto` a binary file the header of which starts with `solid` is read as text; without a line break in it
  nothing is loaded and nothing is reported (`c63_violated_auto`).
* C64 `save_stl_ascii` unwraps `face_normal`, which fails for degenerate faces: saving such a mesh panics (`c64_violated`).
* C65 the end of the file between two lines of a facet ends loading without an error (`c65_violated`).
* C66 `FnvHashMap` finds keys by hash and `==`; `hash_f64` hashes the bits, so that 0.0 and -0.0 stay different vertices
  (`c66_violated`).
* C68 `PslIterator::fetch_counts` resets the counts unless they are 0: after the first point loading ends without an error, for
  every file (`c68_violated`, `c68_first`).
* C70 a header can announce point records of less than 12 bytes, `fetch_one` then panics (`c70_violated_short`). The errors
  `UnsupportedVersion` and `UnknownPointFormat` are never seen, `Header` is reported instead (`c70_header`).
* C61 `.ply` files with the coordinates in the order y z x or z x y are loaded with rotated axes (`c61_violated_order`); the types
  are stored by axis and used by position, so that mixed types are misread unless the order is x y z (`c61_violated_types`); a
  fourth coordinate property panics (`c61_violated_panic`).
* C62 the end of an ASCII file in place of the last vertices or faces ends loading without an error (`c62_violated_missing`).
* C83 `save_ply_binary` and `save_ply_binary_colored` call `write` and ignore how many bytes were taken (`c83_violated`), and fail
  when interrupted (`c83_violated_interrupted`).
* C85 `cluster_vertices` accepts a cluster size of 0, for which all vertices off the lower sides of the bounding box become one
  (`c85_violated_zero`).
* C86 `normals_of_mesh` counts faces without area as facing z (`c86_violated`) and panics when the cross product of finite edges is
  not a number (`c86_violated_panic`).
* C87 `PointCloud3Df32` has no bounding box for two points (`c87_violated_two`); the bounding box is that of the rounded points
  (`c87_violated_box`); pushing to a cloud made of a vector whose length is no multiple of 3 shifts the points
  (`c87_violated_from_vec`).
* C88 `FilterDirectionField3D` may deny exactly the expected direction, as the computed cosine of a unit vector with itself can exceed
  1 and `acos` is then NaN (`c88_violated_3d`). `FilterDirectionField2D` uses `rad_to`, the angle of the difference of the two vectors
  taken as positions: the opposite of the expected direction may be allowed and directions arbitrarily close to it denied
  (`c88_violated_2d_lower`, `_opposite`, `_near`).
* C89 `center` of two finite points may be infinite, as the coordinates are added first (`c89_violated`).
* C90 the text of an empty cloud can not be parsed (`c90_violated`); lines ending in `\r\n` and tabs are refused
  (`c90_other_white_space`).
* C91 with doubles `in_sphere` and `in_box` may leave out a point their own test accepts with equality, and for radii below
  about 2^-537 also others: which copies of a point are returned depends on the branch they are stored in
  (`c91_violated_tie`, `c91_violated_tiny`).
* C92 squaring overflows or underflows for points more than about 2^511 or less than about 2^-511 apart: the computed
  distance is then infinite, or 0 for distinct points (`c92_violated`).
* C36 with doubles the rounded border of a box filter may allow points further from the center than half the size
  (`c36_violated_f64`).
* C93 `z()` of `Sphere` (and of `FilterSphere`, which wraps it) returns y: `add`, `subtract`, `scale_pos`, `new_from` overwrite z
  with values computed from y (`c93_violated`, `c93_violated_f64`).
* C94 `From<(M, HalfEdge)> for SearchableMesh` accepts half edges of another mesh (`c94_violated`).
* C95 circles, spheres and boxes that differ in size compare as `Equal`, `partial_cmp` contradicts `cmp`, equal shapes at 0 and -0
  have different hashes, and with NaN `cmp` is not transitive (`c95_violated_ord`, `_hash`, `_nan`).
* C96 the numbers of points, faces, rows, columns announced by .off, .pts, .ptx, .las and .ply files are given to `reserve` unchecked: a
  file of a few bytes makes the loader panic (`c96_violated_counts`, `_ply`, `_las`); with smaller numbers the allocation may abort,
  which is not modelled.
* C50 `bounding_box` of `Sphere`, `Circle`, `Box2D`, `Box3D` unwraps `BoundingBox::new` and panics if the shape is too small to change
  its center's coordinates, e.g. a sphere of radius 1 at `2^60` (`c50_violated_f64`; exactly then, `c50_sphere_f64_partial` …).
* C97 `move_by` may collapse a box (`[0,1]` moved by `2^60`); `size_x` and `bounding_box` of the result panic (example beside `c97_tree_3d`).
* C42 with doubles: two points `2^-1074` apart have a bounding box but cannot be compressed (the unit underflows to 0 and `0/0` is no integer); the largest coordinate may lose a whole unit (33 comes back as 32.87 with `u8`), so the bounding box is not kept; coordinates may increase by rounding.
* C98 the identity matrix turns points with an infinite coordinate into NaNs (`0 * inf`, `c98_violated_infinite`).
* C99 `center_of_gravity` of three equal points is not that point (`c99_violated`): it lies outside of their bounding box.
* C100 `Norm3D::new` of a vector of length `2^600` is `Ok` of the zero vector: its computed length is infinite (`c100_violated`).
* C29 with doubles (Props/OcTreeFloat): every step of the construction strictly shrinks the first extent of the box, which is a
  multiple of `2^-1074`, or the sub boxes are refused or contain no point (NaN, infinite corners).
* C101 scaling by 1 changes points (`c101_violated`: a point is moved to the origin); flat clouds are not scaled at all (C76).
* C49 for doubles: rounding of the projections makes the separating axis test miss collisions. Two triangles, where a
  vertex of one is exactly the middle of an edge of the other, are reported as apart (`c49_violated_rounding`). The
  test is reliable with a margin of 2^-41 of the size of the coordinates (`c49_colliders_f64`). The points of an
  unaligned box are those the code computes, i.e. the margin is relative to the computed corners.
* C103 for doubles: adding points is not associative and `(p * f) / f` need not be `p` (`c103_violated`).
* C104: `arc`, `ellipse` and `involut_circle` with one point divide by zero and return a point of NaN (`c104_violated_single`),
  for all centers, sizes and angles.
* C107: rounding moves points of a Bezier curve out of the hull of the control points (`c107_violated_rounding`).
* C108: a point truly within the radius is missed by `in_sphere` since its computed distance is one ulp larger (`c108_violated_rounding`).
* C109: the last point of `interpolate_cosine` can be missing, as for `interpolation_linear` (`c109_violated_last`).
* C110: a rectangle of positive width can collapse to a line (`c110_violated_rounding`).
* C112: faces declared in front of the vertices, or a further list of a face, are accepted, and the data misread without any error
  (`c112_violated_order`, `c112_violated_list`).
* C113: a thin triangle facing down gives its corners normals facing up (`c113_violated_thin`).
* C116: with clusters of `2^-70` all cells saturate and a triangle with edges longer than 1 disappears (`c116_violated_small`).
* C117 for doubles: moving a circle and a point by `2^53` lets the point enter the circle (`c117_violated`).
* C118: after a malformed vertex the mesh iterator of a .ply file goes on with the faces, reading them behind the malformed vertex
  (`c118_violated_ply`); the loader stops at the error, users of the iterator see the faces.
* C119: an ASCII .ply file without its last vertex loads without an error, as the check of the number of vertices comes after the counter
  was raised (`c119_silent`).
* C122: of a text .stl file with several solids only the first is loaded, without any error (`c122_violated_stl`, for all files); .xyz files
  with different delimiters, .pts files with incomplete blocks and G-code files that leave the machine elsewhere do not join.
* C123: without overflow checks `face_vertex_ids(FId(12297829382473034411))` of any mesh with two faces returns a face mixed from both
  (`c123_violated_face`), with overflow checks it panics; likewise `get_d` and `set_d` of `PointCloud3Df32`. C03, C87 speak of ids whose triple
  fits 64 bits. Bezier curves of 22 equal control points pass through other points (`c123_violated_bezier`), those of 67 divide by zero.
* C124: the center of gravity of doubles, the hull of points above each other and the points found by `knearest` depend on the order of the
  input (`c124_violated_center`, `c124_violated_hull`, `c124_violated_knearest`).
* C125: an element across the middle of a split is stored on both sides, so callbacks run repeatedly for it: of two boxes one is reported
  eleven times by a tree of depth ten (`c125_violated`).
* C126: `center_2d` / `center_3d` of doubles depend on the order of their points (1 and 2^53+2), and so the center of a mirrored box is not the
  mirrored center: two boxes collide while their mirror images do not. The distance of an infinite point from a box with an infinite upper
  side panics, its mirror image has distance 0.
* C127: `distance_point_line` multiplies out terms of third degree. For points around (500000, 5000000) one metre apart the
  computed distance of collinear points is 46, so that nothing is simplified; with millimetres the denominator cancels to
  zero, the distance is NaN and a peak of any height is dropped.
* C128: all line based loaders use `while let Ok(line) = fetch_line(..)` (or convert the error to the end of the file), so that a
  reader failing in the middle of a file gives the lines before, without any error.
* C129: the octree is built as deep as two points are close, but `collect` counts the levels in an `i8`; `c129_violated` gives four
  doubles whose tree is complete and deeper than 128 levels, `c129_collect` says that 128 is the exact limit. Douglas-Peucker recurses
  once per point for the zigzags of `c129_simplify_violated`, so a long enough line overflows the stack.
* C130: `heal_mesh` keeps the vertices of the faces it drops (`c130_violated_heal`), so a second run changes the mesh again;
  `unify_faces` turns a face without area next to a face looking down with every run (`c130_violated_unify`), and by rounding also
  faces with an area (`c130_violated_unify_area`); `compress` of decompressed doubles loses a whole unit per round
  (`c130_violated_compress`); Douglas-Peucker drops further points, further off than the tolerance (`c130_violated_simplify`);
  `cluster_vertices` moves its grid with the bounding box of what is left (`c130_violated_cluster`); an octree built from the points
  of an octree is always smaller (`c130_violated_octree`).
- C131: `knearest(3)` can miss a point that `knearest(2)` finds, on small integers (`c131_violated_knearest`); `cluster_vertices`
  with larger cells can keep faces that smaller cells remove (`c131_violated_cluster`); growing a box of doubles away from another
  box can end their collision (`c131_violated_collides`).
- C132: a blank line ends loading with an error in .xy, .xyz, ASCII .stl and .ply files, even at the end (`c132_violated_blank`,
  `c132_violated_stl`, `c132_violated_ply`); an .obj vertex with an indented `v` or a tab behind it is silently lost
  (`c132_violated_obj`), likewise a .gcode move (`c132_violated_gcode`); an .off file may not indent its first line or a comment
  (`c132_violated_off`).
- C133: the center of gravity of moved doubles differs from the moved center of gravity (`c133_violated`).
- C134: `collides_with` of two faces reports a collision although their bounding boxes are two units apart, so a search by boxes
  first gives a different answer (`c134_violated_faces`); a `BoxUnaligned3D` collides with boxes outside of its own bounding box
  (`c134_violated_box`), because its corners are a whole size, not half of it, away from the center.
- C135: with y and z exchanged, doubles give another squared distance and another scalar product (`c135_violated`), since
  `(x² + y²) + z²` is rounded in the order of the axes.
- C136: outside of the magnitudes 2^-300 … 2^300 a change of the unit changes answers: the squared distances to two points at
  2^-600 and 2^-599 are both zero, in a unit smaller by 2^100 they differ (`c136_violated`).
- C138: for arbitrary doubles dividing the data can change the result: of three equal points on the border of a sphere the
  tree of all three finds two, the trees of two and one find three (`c138_violated_range`), and the weighted mean of the
  parts' centers of gravity is not the center of the whole after rounding (`c138_violated_center`).
- C139: the loaders of .obj, .off and .ply meshes hand the vertex numbers of the file to `try_add_connection` as they are, so
  that the faces of a file loaded into a mesh with vertices join the vertices that were there before (`c139_violated`, for every
  file with a face and every such mesh). The .stl loaders do number the added vertices from the end of the mesh.
- C140: a Bezier curve never contains its last control point, so the curve of the reversed control points has another set of
  points (`c140_violated_bezier`); `douglas_peucker_2d` keeps the first of equally distant points, so that a line walked
  backwards is simplified differently (`c140_violated_simplify`).
- C141: moving doubles and moving them back does not restore them, already for 1/3 and 1, and moves far away make different
  points equal; scaling by 2 and then by 1/2 changes a cloud too, since the middle of the box is rounded
  (`c141_violated_move`). `Matrix4::rotation(-x, -y, -z)` does not undo `Matrix4::rotation(x, y, z)`, even in exact
  arithmetic (`c141_violated_rotation`).
- C142: since clouds without a bounding box are not scaled, arbitrarily close lines, one of them horizontal, are 0.4 apart after
  both were scaled by 2 (`c142_violated_scale`, for every distance of the lines).
- C143: the center of gravity of three times the point 0.1 is larger than 0.1 (`c143_violated_center`, doubles); cosine
  interpolation of a segment leaves the segment (`c143_violated_cosine`).
- C144: a sphere search finds two points, the two nearest points asked for are others (`c144_violated_knearest`, follows C26);
  for doubles a search finds two of three equal points all of which the filter allows (`c144_violated_filter`, follows C91);
  the bounding box of a hull may be smaller than that of its points (`c144_violated_hull`, follows C43).
- C145: for doubles the midpoints of a mesh with coordinates from `2^1023` on are infinite (`c145_violated_far`, follows C89).
- C145: of two faces with the same three corners (front and back) `subdivide::linear` lets the inner faces share all their edges, since edges are identified by the ids of their ends: the Euler characteristic rises from 2 to 5 (`c145_violated_euler`).
