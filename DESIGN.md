# Formal model of cpmech/gemlab in Lean 4 — design

Layout (`lean/Verif/`):

* `Model/*.lean`  — transcriptions of the Rust functions, each with `file:lines` citations and its simplifications.
* `Spec/*.lean`   — small specifications, independent of the model (walks, Euclidean distances, reference shapes, integrals …).
* `Lib/*.lean`    — generic lemmas and data structures (lists, insertion-ordered maps, reified polynomials).
* `Proofs/*.lean` — helper lemmas and invariants.
* `Props/*.lean`  — the property theorems (names start with the property id), with non-vacuity examples.
* `tools/gen_shapes.py`, `tools/gen_gauss.py` — generators of `Model/GeoKind.lean`, `Model/Shapes.lean`, `Model/Gauss.lean` from
  the tables and formulas of the Rust source (the generated modules are committed and are what is checked).
* `seeded/LOG.jsonl` — realistic wrong edits of the model and the theorems that then fail.

## Trusted base

* Lean 4.33.0's kernel. Axioms used by the theorems: at most `propext`, `Classical.choice`, `Quot.sound` (Mathlib's standard
  ones; check with `#print axioms`). No axioms of our own, no compiled evaluation: finite computations are `decide +kernel`.
* The translation from Rust to Lean (this is a model; `rustc`, `std` and the `russell_*` crates are not verified).
* Statements: the `Spec` files and the statements in `Props` have to be read by the user.

### Modelling conventions

* Results: `Res α` = `ok`, `err msg` (`Result::Err`) or `panic` (index out of range, `unwrap` on `None`, failed `assert!`). So
  "does not panic" and "returns an error" are part of the theorems.
* `f64` is an exact ordered field (ℝ, ℚ or any field `K`): rounding, overflow, NaN, infinities are NOT modelled, except in C88, C91, C92 and C93 (rounding) and C11, which is proved
  for an abstract monotone inflationary addition (as IEEE addition of non-negative numbers is). Literals such as
  `0.5773502691896257` are the rationals that they denote.
* `usize` is `ℕ` (no overflow; subtractions that could underflow are panics; the sentinel `usize::MAX` is a distinguished value).
* `HashMap`/`HashSet`: insertion-ordered association lists (`Lib/HMap`); where the *iteration order* is observable, the theorem
  quantifies over every order (an oracle permutation).
* Loops are folds or fuel-free structural recursion where possible; the `while` loops of BFS/backtracking carry
  a fuel argument that is *proved* to be sufficient (the theorems are about the result, for all sizes).
* Callbacks (`FnMut`) are pure functions of their arguments, possibly failing. In one call of an integration routine each index is used
  once, so a stateful callback is also such a function.
* Functions of other crates are abstract parameters with a stated contract: `argsort` (`ArgsortSpec`: a sorting permutation, ties in any
  order), the inverse of small matrices (`InverseSpec`: returns an inverse and the determinant exactly when the
  determinant is not zero, otherwise an error); Newton iteration uses any inverse satisfying this contract.

### What is modelled

| module | code | not modelled |
|--------|------|--------------|
| `Model/GraphUnd` | `graph/graph_und.rs` (complete; statistics and printing in `Model/Reports`) | |
| `Model/GraphDir` | `graph/graph_dir.rs` (complete; `str_mat` in `Model/Reports`, `draw` in `Model/DrawGraph`) | |
| `Model/GeoKind`, `Shapes`, `ShapeFns` | `shapes/enums.rs`, the 20 shape-function files, `shapes/geo_case`, tables of edges/faces/inner nodes/triangulation | |
| `Model/Mesh` | `mesh/mesh.rs` queries, `mesh/check.rs::check_ids_and_kind`, `renumber_points` | the file system |
| `Model/Geometry` | `geometry/*.rs` (distances, points on line/segment/circle/cylinder, tri-areal coordinates) | |
| `Model/GridSearch` | `util/grid_search.rs` (complete; `draw` in `Model/DrawGrids`) | |
| `Model/Features`, `FeaturesQueries`, `FeaturesPairs` | `mesh/features.rs`, `mesh/algorithms/*` (extraction, neighbours, `search_*`, cells via edges and faces; `Display` in `Model/Reports`) | |
| `Model/AnyPath`, `Join` | `Features::any_path`, `join_two_meshes`, `check_overlapping_points` | |
| `Model/Scratchpad` | `shapes/scratchpad*.rs` (set_xx, interpolation, Jacobian, gradient, normal, approximate_ksi); drawing in `Model/DrawShape` | |
| `Model/Integ` | `integ/vec_*.rs`, `integ/mat_*.rs`, `scalar_field.rs`, `common_args.rs` | — |
| `Model/Analytical` (generated) | `integ/analytical_tri3.rs`, `_tet4.rs`, `_qua4.rs`, `_qua8.rs` | `LinElasticity` of russell_tensor (the modulus is a parameter) |
| `Model/Gauss` | `integ/gauss.rs` (tables and selection) | |
| `Model/MeshText` | `mesh/read_text_mesh.rs`, `Display for Mesh`, `mesh/write_text_file.rs` | file system; float formatting/parsing is a parameter (`FloatText`) assumed lossless on the coordinates |
| `Model/GridCells` | `mesh/grid_cells.rs`: `new`, `in_cell`, `search`; `Display`, `stat`, `limits` in `Model/Reports`, `draw` in `Model/DrawGrids` | degenerate cells (division by zero) are outside the hypotheses; float rounding |
| `Model/Block` | `mesh/block.rs`: construction, setters, `subdivide` (with constraints, ring, markers); `draw` in `Model/DrawGrids` | `Display`; float rounding; `dist > 0` tests are exact |
| `Model/Convert2d` | `mesh/convert_2d.rs` completely | `usize::MAX` as the mark of unset nodes; the numbers of nodes are assumed to be smaller (else: modelled as a panic) |
| `Model/Recovery`, `Model/RecoveryTables` | `recovery/*.rs` completely; the tables digit by digit | `mat_inverse`, `mat_pseudo_inverse` of `russell_lab` (parameters with contracts); float rounding |
| `Model/TriSurface` | `shapes/scratchpad_triangulate.rs`, `mesh/triangulate_surface.rs`, `Features::triangulate_3d_boundary` | float rounding; allocation failures; fewer than `usize::MAX` corners |
| `Model/Generators` | `mesh/generators_qua_hex.rs` completely | float rounding; `√2`, `π` etc. are exact |
| `Model/Unstructured` | `mesh/generators_tri_tet.rs` completely | the package `tritet` (Triangle, TetGen): a parameter with a contract (`Spec/Unstructured`); float rounding; division by zero (a constraint on a point at the axis) is outside the hypotheses |
| `Model/Paraview` | `mesh/paraview.rs`: the content of the file | creation, writing and synchronisation of the file; float formatting is a parameter |
| `Model/Draw` | `mesh/draw_cell.rs` completely: the calls received by the canvas | the package `plotpy`: the meaning of the calls is part of the specification (`Spec/Draw`); float rounding |

| `Model/DrawMarks` | `mesh/draw.rs`: labels, markers, normals, boundary, ranges, `Draw::all` | styles, zoom, callbacks, camera, the package `plotpy` |
| `Model/DrawShape` | `shapes/scratchpad_draw_shape.rs` (`draw_shape`, `draw_edge`) as lists of calls | colors, fonts, the file of `draw_shape_simple`, the package `plotpy` |
| `Model/DrawGrids` | `draw` of `util/grid_search.rs`, `mesh/grid_cells.rs`, `mesh/block.rs` as lists of calls | colors, fonts, the package `plotpy` |
| `Model/DrawGraph` | `GraphDir::draw` (`graph/graph_dir.rs`) as lists of calls | colors, fonts, the file, the package `plotpy` |
| `Model/Rounded` | `num_divisions`, `GridSearch::new`, `insert`, `search`, `point_point_distance` with rounding after every operation | overflow, underflow, infinities, NaN; the other queries |
| `Model/RoundedTriangle` | `src/geometry/triangle.rs` `triangle_coords` with rounding; not modelled: overflow, underflow, NaN |
| `Model/RoundedTetrahedron` | `src/geometry/tetrahedron.rs` `tetrahedron_coords` with rounding; not modelled: overflow, underflow, NaN |
| `Model/Check` | `mesh/check.rs` completely | float rounding |
| `Model/MeshJson` | `read_json`, `write_json` of `Mesh`, `Blocks2d`, `Blocks3d`, with the derived code and a JSON reader and writer in place of `serde_json` | escape sequences `\\u`; float formatting/parsing is a parameter |
| `Model/Programs` | `bin/*.rs` | command line, file names, file system, screen |

Code that is not modelled at all: the styles of drawings, the external mesh generators (package `tritet`), binary serialisation.

## Plan and proof method per property

| id | what is modelled | how it is proved |
|----|------------------|------------------|
| C01 | `from_adjacency_set` BFS loop | queue invariant: explored = reachable ∪ queued closure |
| C02 | `calc_distance` | BFS level invariant (queue holds levels d, d+1 sorted), minimality by induction on walks |
| C03 | `shortest_path_bfs` | BFS predecessor invariant + backtracking |
| C04 | `cuthill_mckee` | loop invariant: ordering entries = explored nodes, no repetition; connectedness ⇒ all |
| C05 | `get_old_to_new_map` | array fold; inverse of a permutation |
| C06 | `renumber_points` | per-cell node-by-node equality of coordinates |
| C07 | `calc_bandwidth` | max over edges |
| C08 | `from_edges`, `from_mesh`, `from_adjacency_set` | set-theoretic characterisation of the folds |
| C09 | `calc_dist_and_next`, `shortest_paths_fw` | Floyd–Warshall phase invariant |
| C10 | `path` | next-hop invariant + well-founded measure |
| C11 | the same over an abstract addition | monotonicity only |
| C12–C14, C16, C50 | `GridSearch` | interval arithmetic on floor indices; triangle inequality |
| C15 | `num_divisions` | direct |
| C17, C18 | printing and parsing of mesh files | character-level model of text (`lines`, `split_whitespace`, decimal integers); acceptance characterised by an independent grammar of data lines; round trip by induction on lists |
| C19 | `check_ids_and_kind` | fold characterisation |
| C20 | `join_two_meshes` | fold invariant on the map of points |
| C21–C23 | edge/face extraction, neighbours | map characterisation |
| C24 | marker/limits queries | fold characterisation |
| C25–C29 | 20 shape-function files | formulas reified as polynomial expressions, normalised by a verified checker in the kernel; calculus (`HasDerivAt`) for the derivatives of the reified form |
| C30, C44, C45 | tables in `enums.rs` | kernel evaluation over the complete finite domain (20 kinds); triangulations by a BSP certificate (every point is in a triangle, no overlap) proved sound for all points |
| C31–C33, C53 | scratchpad routines, `check_jacobian` | matrix algebra under `InverseSpec` |
| C34, C36 | geometry | linear arithmetic / `EuclideanSpace` |
| C35 | `GridCells` | limits/boxes/large cells by loop invariants; a cell smaller than the side length only touches the containers of its corners; barycentric coordinates are unique |
| C37–C39 | integ | every routine is a `runPoints` fold; block-sum specification; linear algebra on finite sums |
| C40 | Gauss tables | rational evaluation of monomials in the kernel + closed-form moments (Mathlib integrals) + linearity to all polynomials |
| C41, C42, C54–C57 | `Block` | positions of nodes in the reference space are computed independently (`nodePos`); loop invariant: points = list of different positions in order of first occurrence (the search grid is exact for nodes that are far enough apart, C13); coordinates after the fixes of middle nodes are a function of the position only, hence independent of the order of cells and of hash maps |
| C43 | `any_path` | loop invariant |
| C46 | `convert_2d` | loop invariant over cells and nodes: two nodes that have a point share it exactly if their `place` (a corner, a rational position on an edge, or the inside of a cell) is the same; corner map is injective; coordinates are isoparametric images; tables of nodes checked in the kernel for the ten 2D kinds; the reproduction of shape functions by those of higher order is an identity of polynomials |
| C47, C51 | searches of features | filter characterisation on top of C12–C16 |
| C48, C58 | recovery | matrix algebra with the Moore–Penrose conditions (existence proved by the spectral theorem); full rank of the interpolation matrices of all kinds and rules by a left inverse modulo 1000003 computed and checked in the kernel; residual of the tables checked in the kernel; the error of affine fields is an orthogonal projection of the residual |
| C59, C60 | surface triangulation | loop invariant: a duplicate-free list labelling the output points with vertices (mesh point / extra node of a cell), rows related to the expected vertex triangles; tables by kernel evaluation; boundary faces from the characterisation of the features (C34, C47) |
| C61 | `write_vtu` against an independent reader of the VTU format and a table of VTK cell types | the text is a list of lines of words; loops by induction; reader evaluated symbolically; tables by kernel evaluation |
| C62 | cells attached to stored edges and faces with their points | reuses C51; insertion sort as the (unique) stable sort |
| C63 | outward normals of edges (2D) and faces (3D), against the definition “leaving the boundary point towards any interior point one is on the negative side of the tangent plane” | chain rule for the isoparametric map along curves: `n · J (b − a)` is `det J` times a positive number; local node tables by kernel evaluation |
| C64 | `Structured::quarter_ring_2d/3d`, with the renumbering; spec `IsPatch`: cells at the places of a grid, ticks along each direction, map to space | from C41, C54–C57 (block, weights, ring map, subdivision); the renumbering succeeds because the grid graph is connected, its diameter is the eccentricity of point 0, and point 0 is the first point of minimum degree (C49_converges) |
| C65 | `join_two_meshes`, `join_meshes`; spec `Spec/Assembly`: a mesh as the list of its cells with the coordinates of the nodes (`geomCells`), marked edges and faces by places | the search finds exactly the points at the same place (C13, C47 and the separation of the nodes); invariants of the loops; induction over the list of meshes |
| C66 | `from_blocks_2d`, `from_blocks_3d`; spec `Spec/Blocks`: regions, `IsRegionBlock`, `IsRegionMesh` (= `IsSubdivision` + `IsMarked` of C55/C57), `IsAssembly` of C65 | each setter changes only its setting (C41, C42, C54, C57); loops over edges and faces by induction; the keys of the marker maps are sorted, so the last entry with the same corners wins; then C55, C57 and C65; `renumber_points` by C06 |
| C67 | `Structured::rectangle`; spec `IsPatch` over the grid of the whole rectangle | each block is a part of the grid (C41, C55, C56); after each block the cells form a staircase, whose boundary corners enclose it, so that C65 applies; then as for C64 |
| C68 | the six generators of quarter disks and of quarter plates with a hole (`generators_qua_hex.rs:360-1021`); spec `Spec/Disks`: blocks given by points at distances and angles, arcs, prisms; `IsPieceMesh` (= `IsSubdivision` of C55), `IsAssembly` of C65, `sidePlaces` | the Jacobian at the centre and the distance of the arcs from the axis by trigonometry and `nlinarith`; C54–C57 for each block; on a side the isoparametric map is the interpolation of the nodes of the side, so common sides agree; prisms reduce to the plane |
| C69 | `AnalyticalTri3/Tet4/Qua4/Qua8` (generated by `tools/gen_analytical.py`); spec: iterated integrals over the reference element times the Jacobian (`elementIntegral`), gradients by the chain rule | the Jacobian is constant; integrals of products of shape functions are computed exactly by the kernel (`intPE`); each entry then by ring arithmetic; for the simplices the reference integral is also shown to be the Lebesgue integral over the convex hull of the corners (`C69_triangle_integral`, `C69_tetrahedron_integral`) |
| C70 | `from_trigen`, `from_tetgen`, `call_trigen`, `call_tetgen`; the functions of `tritet` are parameters, with a contract for the setters (`Trigen.Contract`, `Tetgen.Contract`: a call with valid indices writes down the data) and an explicit hypothesis on the shape of the output (`GoodOutput`); spec `IsPslg`, `IsPlc`, `triMesh`, `tetMesh` | invariants of the loops: after `i` passes the first `i` entries are written; features by C47/C51 (each edge or face once, sorted); renumbering by C06. Non-vacuity: generators that write down their input (`UnstructuredExample`) |
| C71 | `Unstructured::quarter_ring_2d/3d`, `apply_constraints`; spec `IsRing2d`, `IsRing3d` (positions by cosines and sines, corner and side markers, facets), `IsConstrained` | invariants of the loops as for C70; watertightness: each side of a facet is given a type and an index, two places for each of them, and `omega`; conversion to `tri10`/`tri15` by C46 |
| C72 | `Mesh::draw_cell`, `add_curve`; the canvas is the list of the calls; spec `bezier` (Bernstein polynomials), `IsCurve` (move, line, quadratic and cubic Bézier pieces), `IsPolyline`, `cellMap` (isoparametric map), `edgeLine`, `IsCubic` | control points by identities between Bernstein and Lagrange polynomials; the nodes drawn are those of the edge run backwards (`interpolate_rev`) and C29 turns the interpolation on the edge into the map of the cell; sanity of `curveOrder`: `curveOrder_sorted` |
| C73 | no new code: `Features::new`, `triangulate_3d_boundary` and `Block::subdivide` (see C47, C60, C55); spec `OrientedEdges`, `OrientedFaces`, `MatchingFaces`, `triSides`, `rim` | sum over all (cell, local edge/face) of the signed count of a point/side: zero for each cell (tables), shared entities cancel in pairs, so the boundary is balanced (`boundary_sum`); for blocks the place in the lattice of divisions determines the neighbour |
| C74 | no new code: `calc_gradient`, `calc_normal_vector` (C31, C32), `get_pad`/`set_pad` (C53), `Features::new` (C47), `Block::subdivide` (C55); spec `Spec/Divergence.lean` (`totalDivergence`, `totalFlux`, `ConformingEdges`, `ConformingFaces`) | densities are polynomials in the reference coordinates (`fieldPoly`), the pulled-back field has the divergence det·div (Piola, symmetric second derivatives), Gauss' theorem on the reference cells for polynomials (`gauss_edges`, `gauss_faces`), edge/face traces by C27; on meshes the flux seen from the other side is the negative (`flux_mirror`), shared entities cancel (`boundary_sum`) |
| C75 | no new code: `vec_04_bt`, `vec_03_bv`, `vec_02_nv_bry`, `vec_01_ns_bry`, `mat_10_bdb`, `mat_03_btb` (C37), `Gauss::new`, `new_sized` (C40), `Features::new` (C47); spec `Spec/PatchTest.lean` (assembled forces and flows, `Accurate` rules, degree needed by each kind) | the densities integrated by the loops are polynomials of the degree `cellNeed`/`sideNeed` (`Proofs/PatchDegree.lean`: supports of the shape functions), so an accurate rule gives the exact integral; the test function of the point q is a nodal field, hence C74; affine fields have exact gradients (C31) at every integration point; the tables of C40 give the accuracy of the default rules |
| C76 | `Model/Check.lean`: `check_all` (with `check_ids_and_kind`, `check_jacobian` of C19/C53), `check_2d_edge_normals`, `check_face_normals` (check.rs:63-118); spec `Spec/Check.lean` (normal vectors as derivatives of the interpolated positions, norms, tolerances) | outcome of the loop in any iteration order; `calc_normal_vector` reduced to the normal of the specification (C32); affine edges and faces (C28); outward direction from C63 |
| C77 | `Model/DrawMarks.lean`: the public functions of draw.rs:687-1023 as lists of marks and `Draw::all` (draw.rs:1076-1192) as a list of layers; spec `Spec/DrawMarks.lean` (mean of nodes, point at a distance along a normal, diagonal of the box) | each function is computed on valid meshes (features by C47/C51, triangulations by C59/C60, cells by C72); normals by C32 and C63; `all` by composing them |
| C78 | no new model code; spec `Spec/Winding.lean`: side of a line, crossing of a directed side with the ray to the right (half-open rule), winding number, convex polygon, interior, corner polygon of a cell | the crossings of a convex triangle/quadrilateral add up to one inside and zero outside (case analysis on the corners above and below the point, interpolation along the level line); shared edges cancel (crossing is antisymmetric, C73 machinery `edges_total`), so the sum over all cells is the sum over the extracted boundary; with C35 for the search |
| C79 | no new model code (pads of `Model/Scratchpad.lean`, `checkAll`, `getPad`); spec: convex polygons of `Spec/Winding.lean`, reference cells of `Spec/Gauss.lean` | interpolation functions of degree two satisfy `N(a) − N(b) = N'((a+b)/2)(a−b)` (checked for each node by `ring`), so `x(a) − x(b) = J(halfway)(a − b)` and a regular Jacobian gives injectivity; the determinant of a Qua4 is interpolated from the areas of the corner triangles; surjectivity by the intermediate value theorem; explicit counterexample for `check_all` |
| C80 | `Model/MeshJson.lean`: tokens, grammar, conversion to the types, writer (serde_json and the derived code); spec `Spec/Json.lean`, `Spec/Json2.lean`: RFC 8259 grammar as token sequences of values, layouts, values that stand for meshes and blocks | the lexer and the recursive descent parser are sound and complete for the grammar (`parse_iff`), by induction on the bound of the steps and on values; conversions are equivalences with the relations; the text written denotes the value of the mesh |
| C81 | `Model/Programs.lean`: the five programs as functions from the text of the input file and the options to the files written (in this order) and the status; spec `Spec/Programs.lean` | composition of C80 (input), C66 (blocks), C70 (generators), C76 (checks), C17/C18 (MSH files), C61 (VTU files) and C77 (drawings) |
| C82 | `Model/Reports.lean`: the statistics and texts of graphs, edges and faces as lists of characters | counts: bijection between the entries of the rows of the graph and the linked pairs; texts: uniqueness of reading (splitting at separators, padded columns), combined with C01/C08 (adjacency) and C09/C10 (shortest paths) |
| C83 | `Model/Reports.lean`: `Display` of the grids, `stat`, `limits`, for every iteration order of the hash tables | membership from C12–C16 and C35; strictly ascending lists with the same members are equal; folding invariant for the tallies |
| C84 | `Model/DrawShape.lean`: `draw_shape` and `draw_edge` as lists of calls; spec `Spec/DrawShape.lean` | invariants of the loops that set the coordinates of the edge; the edge interpolation is the trace of the interpolation of the cell (C29) |
| C85 | `Model/DrawGrids.lean`: the `draw` functions of the search grid, of the grid of cells and of blocks as lists of calls; spec `Spec/DrawGrids.lean` | the invariants of C12–C16 and C35 say what the containers hold in any order of iteration; C84 for the shape of a block |
| C86 | `Model/DrawGraph.lean`: `GraphDir::draw` as lists of calls; spec `Spec/DrawGraph.lean` (distances and sides in the plane) | identities of the unit vectors along and across the edge; the fold over the nodes for the range |
| C87 | no new model code; spec `Spec/Piercing.lean`: ray, triangle, signed piercing, interior of a tetrahedron, positive volume | the signed piercings of the four faces of a positive tetrahedron add up to one inside and zero outside (signs of six volumes with the edges, a finite case distinction over sign patterns); shared faces cancel (C73 machinery), so the sum over the cells is the sum over the extracted boundary; finitely many roots for the existence of a direction; with C35 for the search; example with two tetrahedra |
| C88 | `Model/Rounded.lean`: `GridSearch::new`, `insert`, `search`, `num_divisions`, `point_point_distance` with a rounding after every operation (`C88_exact`: without rounding they are the functions of `Model/GridSearch`); spec `Spec/Rounding.lean` (assumptions about rounding; double precision with ties to even) | error bounds for limits, scaled coordinates and halo corners; monotonicity of rounding puts a query between the corners of the halo; double precision is shown to meet the assumptions; example in double precision |
| C89 | `Model/GraphUnd.lean` (`cuthill_mckee`, `pseudo_peripheral`, `calc_bandwidth`), `Model/Mesh.lean` (`renumber_mesh`); spec `Spec/CuthillMckee.lean`: first neighbours, degree, size of a level | The discovery log of the breadth-first loop is a concatenation of blocks, one for each node taken out of the queue, each a sublist of its sorted row (loop invariant `OrdInv`); first neighbours, distances and the bound follow from that, and uniqueness from the order alone. |
| C90 | `Model/Mesh.lean` (`renumber_points`), `Model/Features.lean` (extraction, neighbours) | From the exact characterisations C06, C21, C22, C23: entities of renumbered cells share a key exactly when the old ones do (injective relabelling; the placeholder `usize::MAX` stays), so the groups, the first members and the single members agree. |
| C91 | `Model/RoundedTriangle.lean` (`triangle_coords` with a rounding after each operation, `Spec/Rounding.lean`) | Error analysis of the determinant (`Proofs/RoundedTriangle.lean`); the sign of the computed determinant is never opposite to the sign of the exact sum of the three rounded products (monotonicity and idempotence), and this sum changes its sign exactly when the edge is reversed (oddness); sign change in a cyclic sequence for the fan; evaluation in double precision for the gap. |
| C92 | `Model/RoundedTetrahedron.lean` (`tetrahedron_coords` with a rounding after each operation, `Spec/Rounding.lean`) | Bounds on size and error propagated through each operation (`Proofs/RoundedTetrahedron.lean`); the exact values are the volumes of C34; evaluation in double precision (nearest, ties to even) for the counterexamples. |
| C93 | `Model/GraphDir.lean` over the type of rounded numbers (`Spec/RoundedNumbers.lean`: the numbers unchanged by rounding, with rounded sums) | Invariant of the phases of Floyd–Warshall with the bounds `(1+u)^k`, `(1-u)^k` for walks through the first `k` nodes; along the `next` table the stored distances do not increase and each hop keeps the bound; termination as in C11 (rank: nodes with smaller stored distance), even with zero weights (`Proofs/GraphDirRounded.lean`). |
| C94 | `Model/Scratchpad.lean`, `Model/Integ.lean`; spec `Spec/RigidMotion.lean` (rotation, rotated vectors and tensors, moved element) | The Jacobian is multiplied by `Q` (derivatives of the shape functions sum to zero), the gradients are rotated (chain rule), cofactors of a rotation are the rotation (normals); then the closed forms of C37 for both runs are compared (`Proofs/RigidMotion.lean`). |
| C95 | `Model/RoundedCells.lean`: `GridCells` with each operation followed by a rounding; spec `Spec/RoundedCells.lean` (depth of a point in a cell, thick cells, floats) | Containers: the computed container indices of two points at a distance of at most the (computed) largest cell differ by at most one, because `2 tolerance` dominates the rounding errors, hence a corner of the bounding box has the key of the point (`Proofs/RoundedCells2.lean`); cells by C91/C92; examples evaluated in binary64. |
| C96 | the integration functions of C37; spec `Spec/Definite.lean` (quadratic forms, energy densities, usual arguments, affine elements, rigid motions) | The form of a block sum is the quadrature of the forms; positive weights and Jacobians make it a sum of nonnegative terms; the values at the points of the default rule determine a field (rank of the table of shape functions, checked by the kernel modulo a prime), and derivatives of shape functions are combinations of shape functions (kernel-checked tables), so that zero gradients at the points are zero everywhere; zero strains in an affine element give a skew gradient that is constant. |
| C97 | `Scratchpad::approximate_ksi` (`Model/Scratchpad.lean`); spec `Spec/InverseMap.lean` (image of local coordinates, step of Newton's method, first guess, variation of the Jacobian) | Contraction: mean value theorem along the segment to the exact coordinates, row-sum norms. `Qua4`: the map is bilinear, so after one step the error stays on a line and follows `u -> u^2/(1+2u)`, which converges to 0 from every `u > -1/2`; `1+2u` is the ratio of the Jacobian determinants. The wrong coordinates of the example are the second solution of the bilinear equations. |
| C98 | The integration routines (`Model/Integ.lean`) and the functions of the pad (`Model/Scratchpad.lean`); spec `Spec/Scaling.lean` (`Scaled`, `order`) | Scaling of the Jacobian, the gradient and the normal vector; the closed forms of C37 for both runs, compared term by term. |
| C99 | The integration routines (`Model/Integ.lean`), the pad (`Model/Scratchpad.lean`), the shape functions and the tables of points (`Model/Gauss.lean`); spec `Spec/Renumber.lean` (`rotations`, `MovesNodes`, `MovesPoints`, `Renumbered`, `ExactTable`) | The shape functions composed with a rotation are the shape functions of the moved nodes (polynomial identities, checked by the kernel); chain rule for the Jacobian, the gradient and the normal vector; permutation of the points found and checked by the kernel for every table; the closed forms of C37 for both runs. |
| C100 | The integration routines (`Model/Integ.lean`), the pad, the shape functions and the default tables of points (`Model/Gauss.lean`); spec `Spec/Exactness.lean` (`degree`, `Enough`, `AffineImage`, `GoodRule`, `Coupled`, `AffineFacet`, `boundaryIntegral`, `tol`), the exact integral `elementIntegral` of `Spec/Analytical.lean` | The products of two shape functions or derivatives are expanded into monomials (kernel computation, one finite certificate per kind); the exactness of the tables (C40) bounds the error monomial by monomial; the Jacobian of an affine element is constant; the closed forms of C37. |
| C49 | errors and panics of the graph API | case analysis |
| C52 | `check_overlapping_points` | invariant on the grid |

Status and theorem names: `MANIFEST.json`.

## Findings: places where the code differs from what its documentation suggests

(P) = proved as a theorem about the model; (R) = found by reading.

1. (P, C06) `renumber_points` does not update `marked_edges`/`marked_faces` points, and on `Err` it leaves the mesh changed.
2. (P, C20) `join_two_meshes`: triangular marked faces of the second mesh cause an index panic.
3. (P, C22) `Tet10`/`Tet20` face keys involve a mid-edge node; the two cells sharing a face may produce different keys, so an internal face is reported as boundary.
4. (P, C09–C11) `GraphDir`: parallel edges/self loops and the `ready` flag.
5. (P, C04) `cuthill_mckee` on a disconnected graph does not give a permutation.
6. (R) `GridCells` with `large_pct = Some(1.0)` and all cells large leads to a negative side length.
7. (P, C13) `GridSearch`: inserting an id again leaves stale entries.
8. (R) `Mesh::from_text` panics if `ndim < 2`; `parse_marked_face` does not reject extra values.
9. (P, C04) `pseudo_peripheral` may stop with an error after 10 iterations.
10. (P, C47) `search_point_ids` with `At::XY` in 2D / `At::XYZ` in 3D ignores the filter.
11. (P, C43) `any_path` can use an edge twice.
12. (P, C08) `from_edges` with no edge or with gaps in the numbering panics; a self loop is half an edge.
13. (R) `check_ids_and_kind` does not check the space dimension.
14. (P, C15) `GridSearch::new` with `ndiv = 1` is an error.
15. (P, C47) `Features::new` panics if the points have zero extent in some dimension.
16. (R) `search_edge_keys`/`search_face_keys` only test the key points.
17. (P, C52) `check_overlapping_points` may miss near but unequal points across container borders.
18. (R) `calc_normal_vector` does not test that all coordinates were set; the flag only tracks the last component.
19. (P, C53) `check_jacobian` is documented as "non-negative", but it requires positive determinants.
20. (P) `vec_01_ns`, `vec_02_nv`, `scalar_field` on a shell (surface in 3D) silently integrate with "determinant" −1.
21. (P, C37) `mat_10_bdb_alt` ignores `ii0`, `jj0` and panics unless the matrix has exactly the size `nnode·ndim`.
22. (P, C37) An error in the middle of an integration routine leaves the output cleared or partially filled.
23. (P, C40) The 14-point rule of tetrahedra is documented as degree 4; it is of degree 5.
24. (P, C17) The text of a mesh with points and marked edges or faces but without cells is printed but cannot be read back.
25. (P, C18) `from_text`/`read` panic (index out of bounds) if the header says `ndim` 0 or 1 and the first point line is parseable.
26. (P, C18) Accepted silently: extra words in the header, extra words after the fourth point of a marked face, data lines after the last
    section, `ndim ≥ 4` (only two coordinates are read, the others are zero).
27. (P, C35) With `large_pct = 1` and all cells large (e.g. a mesh with one cell, or cells of equal size), `GridCells` gets a negative side
    length and no divisions; the search of every point then fails with "outside the grid".
28. (P, C35) `GridCells::new` accepts meshes with other cell kinds; `search` then panics for every point inside a cell. `new` panics for
    meshes without cells, or flat meshes when `border_tol = 0`.
29. (P, C41) Zero or negative weights are accepted by `set_div_weights_*` (negative lengths of divisions); positive weights with a sum below 1
    are rejected.
30. (P, C41) A failing `set_ndiv` (a zero in a later direction) leaves the earlier directions modified.
31. (C55) Divisions shorter than the tolerance of the search grid (in the reference space, `1e-4`) are merged silently: cells with repeated
    points. The theorems assume more than `7e-4`.
32. (P, C56) Where a constrained side meets another side, the middle nodes of the edges orthogonal to the constrained side are straightened;
    if that other side is constrained as well, its middle nodes are no longer on its circle.
33. (P, C54) `new_square` accepts negative lengths (a square on the other side of the origin), `new_cube` panics for them; zero panics.
34. (P, C56) `set_transform_into_ring` does not check that the radii are positive; constraints are ignored for a ring.
35. (R, C46) `convert_2d` on a mesh with triangles and quadrilaterals may panic (index of an edge of the neighbour) instead of returning the
    error "all cells must have the same GeoKind"; it never returns a mesh.
36. (P, C46) `convert_2d` drops marked edges; the marker of the new points of an edge is the one of the last middle point of this edge in the
    first cell having it; it panics for flat meshes (as `Features::new`).
37. (P, C46) Conversions `qua9` → `qua12` and `qua16` → `qua17` do not contain the given shape functions, although the number of nodes
    increases: curved cells change.
38. (P, C48) With one integration point, `get_extrap_matrix` does not recover constant fields, except for `lin2`, `tri3`, `qua4`, `tet4`
    (e.g. `qua8`: a constant 1 becomes −0.2 at the corners and 0.4 at the middle nodes).
39. (P, C48) A rule of another class (e.g. 4 points on `hex8`) makes `get_extrap_matrix` panic (`unreachable!`) instead of returning an error.
40. (R, C48; computed outside Lean) The matrices for `qua12`/9, `qua17`/16 (the default rule of `qua17`), `hex8`/6 and `hex32`/27 points do not have full rank.
41. (P, C61) `write_vtu` declares `Int32` arrays: point numbers or a total number of entries of 2³¹ or more are written but are not valid in
    the file (the hypothesis `InInt32`); a mesh with other than 2 or 3 dimensions is written with wrong numbers of components.
42. (P, C64) Quarter rings accept `rmin = 0` (and negative radii): the points on the axis are duplicated, and the cells there are degenerate.
43. (P, C67) `rectangle` panics if a layer has no divisions (`ny[l] = 0`), where all other invalid arguments are errors; it ignores `renumber`
    for one layer without `xb`; it rejects `nb = 0` also where `nb` is not used.
44. (P, C66) `from_blocks_2d`/`_3d` with one region are an error (joining needs two meshes).
45. (P, C66) With `renumber = true` the lists of marked edges and faces keep the old numbers of the points (they are wrong after renumbering); see also C06.
46. (P, C66) Weights are ignored without notice if they are given for some directions only
47. (P, C69) `AnalyticalTri3` silently ignores the third coordinate of a triangle in space; a clockwise triangle gives negative areas and integrals (as the
    numerical integrals do), a degenerate one divides by zero without an error; the side is checked by a panic only.
48. (P, C68) The radius of the disks of version A (2D) and the inner radius of version B are not checked: a negative radius `r` is accepted by the blocks (the block at
    the origin is rotated by 180°, its Jacobian is positive), a radius below 10⁻⁸ fails only in the projection onto the circle. Zero radius and non-positive height are
    errors (`C68_zero_radius`, `C68_no_height`), but with the message about the Jacobian. For version B the common sides of the blocks 1/2 and 1/3 are not on the circle
    of radius `a` (they are parabolas through three points of the circle).
49. (P, C70) `from_trigen`/`from_tetgen` (and with them `call_trigen`, `call_tetgen`, the unstructured quarter rings) panic if the generator returns no cells.
50. (P, C70) With `renumber = true` the marked edges and faces keep the old numbers of the points (as in 45).
51. (P, C70) `call_trigen` checks "edges must have 2 points" only for the first cell of each edge; linear (`lin*`) cells get a region of their own, at their mean point;
    the seed of a region is the mean of the points of the cell, which may be outside of a cell that is not convex. `call_tetgen` does not check the
    kinds of cells at all: the facets are polygons through all nodes of a face in the order of the local numbering (wrong for `hex20`, `tet10`).
52. (P, C71) The unstructured quarter rings do not check `0 < rmin < rmax`; the seed of the region, `1e-4` from the corner A, is outside the ring if
    `rmax ≤ rmin + 1e-4` (`C71_seed`).
53. (P, C71) `quarter_ring_2d` ignores `renumber` for `tri10` and `tri15`, and loses the marked edges there (C46).
54. (R, C71) In `quarter_ring_3d` a marked face with the marker 0 would reset negative markers of its points; TetGen is assumed not to report such faces.
55. (R, C71) `apply_constraints` divides by zero for a constrained point on the axis.
56. (P, C82) `density` of an undirected graph counts self-loops in `nedge` but not in the possible pairs: it may exceed 1 (`C82_density_self_loops`).
57. (P, C82) `str_mat` of an empty directed graph prints a row without its left bar (`C82_empty_graph`).
58. (P, C82) The text of a triangular face with six or more nodes shows its three corners and one middle point, in one ascending list (`C82_tri6_face`), while
    that of a three-node face shows the three corners and `MAX`.
59. (P, C84) `draw_shape` replaces a zero extent by 1 in the directions x and y but not in z: the range of a flat shape has zero height (`C84_flat_shape`).
60. (C86) `GraphDir::draw` adds the texts of the edges twice if the numbers of the edges are shown (graph_dir.rs:514-519; visible in the list of layers of `C86_draw`).
61. (C89) `GraphUnd::renumber_mesh` does not check whether the new numbers are better: on a star of four bars numbered with the centre in the middle the bandwidth grows from 3 to 4 (`C89_may_increase`).
62. (C91) `triangle_coords`/`in_triangle` can lose a point of the mesh in double precision: for the triangles around (1.5, 1.25) with the other corners (1, 1), (1.75, 0.5), (1.75, 2), the point (1.5, 1.25 - 2^-52) is in the first triangle, but the test says no for all three (C91_gap). Hence `GridCells::search` may find nothing at points of the mesh very near to inner corners. On common edges this cannot happen (C91_shared_edge).
63. (C92) `tetrahedron_coords`/`in_tetrahedron` often lose points on the boundary of a cell in double precision: with the corners (0.25, 0, 1), (0.7, 0, 0.5), (0.5, 0, 0), (0.5, 3, 0) the test says that the first corner is not in the tetrahedron (C92_corner_lost), and points of common faces can be lost between two cells (C92_face_lost). Hence `GridCells::search` may find no cell at a point of the mesh.
64. (C95) `GridCells::search` in double precision with default parameters may find no cell at a point strictly inside a cell: next to an axis-aligned edge the test of its own cell fails by rounding and the bounding box of the neighbour (compared without tolerance) excludes the point (C95_gap).
65. (C95) with `border_tol = 0` (accepted by `GridCells::new`) the rounded product of side and number of containers may be less than the largest coordinate, so that `search` rejects a node of the mesh as outside the grid (C95_border_zero).
66. (C96) the default rule of `Qua17` has 16 points for 17 nodes, so the matrix of `mat_01_nsn` (a mass matrix) is singular for every element and every coefficient function (C96_mat_01_qua17).
67. (C97) `approximate_ksi` may return `Ok` with wrong local coordinates for a point of a valid element: in the convex `Qua4` with corners (3,8), (0,8), (4,3), (8,7) the result for the second corner is near (-1.5, -2.43) instead of (1, -1) (C97_wrong); the result is never compared with the reference cell.
68. (C98) integrals over surfaces in space with the routines that use `calc_jacobian` (e.g. `scalar_field`) do not depend on the unit of length, because `calc_jacobian` returns the constant −1 for them (C98_shell): areas of shells computed this way are wrong without any error.
69. (C99) the triangle tables with 7, 12, 16 points and the tetrahedron tables with 8, 14, 15, 24 points have the symmetry of the cell only up to their last decimals: with them (they are the default tables of Tri6, Tri10, Tri15, Tet10 and Tet20) the results depend on the starting corner in the last digits, and C99 excludes them.
70. (C100) the default table of Qua17 (16 points, exact to degree 7 in each variable) is not sufficient for its shape functions of degree 4: on the reference square the diagonal entry of node 4 in `mat_01_nsn` is 0.296, the integral is 0.420 (see also C96_mat_01_qua17).
