{"id": "C01", "title": "Connectivity check is exact", "statement": "GraphUnd construction with check_connectivity=true succeeds if and only if every node can be reached from every other node by following edges; it never accepts a disconnected graph and never rejects a connected one.", "quantifier": "all finite undirected adjacency structures with at least one node, any number of nodes/edges", "why_tests_cant": "a test can only try a few graphs; the claim is over every graph and every order in which the breadth-first queue is filled", "anchors": ["src/graph/graph_und.rs::GraphUnd::from_adjacency_set", "src/graph/graph_und.rs::GraphUnd::from_edges"]}
{"id": "C02", "title": "BFS level structure equals graph distance", "statement": "After calc_distance(root), distance[u] is the length of a shortest edge path from root to u for every reachable u, unreachable nodes are left at distance 0, and the returned depth is the largest distance found.", "quantifier": "all graphs, all roots, all nodes", "why_tests_cant": "needs minimality over all paths of all lengths", "anchors": ["src/graph/graph_und.rs::GraphUnd::calc_distance"]}
{"id": "C03", "title": "shortest_path_bfs returns a shortest edge path", "statement": "For a reachable destination the returned node list starts at the start node, ends at the destination, every consecutive pair is an edge of the graph, and no walk from start to destination has fewer edges. For an unreachable destination the list is just [destination].", "quantifier": "all graphs, all (start,dest) pairs with dest reachable", "why_tests_cant": "minimality quantifies over all walks", "anchors": ["src/graph/graph_und.rs::GraphUnd::shortest_path_bfs"]}
{"id": "C04", "title": "Cuthill-McKee ordering is a permutation", "statement": "For a connected graph, cuthill_mckee(start) returns every node id exactly once (so that it can be used for renumbering), whatever the start node (explicit or pseudo-peripheral).", "quantifier": "all connected graphs, all start nodes, all degree-sorted adjacency rows", "why_tests_cant": "the ordering vector is pre-filled with zeros, so a single missed or repeated node would be silent", "anchors": ["src/graph/graph_und.rs::GraphUnd::cuthill_mckee"]}
{"id": "C05", "title": "old-to-new map inverts the ordering", "statement": "get_old_to_new_map(ordering) of a permutation p returns its inverse: map[p[i]] = i and p[map[j]] = j, and is itself a permutation.", "quantifier": "all permutations of any length", "why_tests_cant": "all sizes, all permutations", "anchors": ["src/graph/graph_und.rs::GraphUnd::get_old_to_new_map"]}
{"id": "C06", "title": "Renumbering points preserves the mesh", "statement": "renumber_points(map) with a permutation map succeeds, gives sequential ids, and every cell keeps its kind, attribute and, node by node, the same coordinates and the same point markers; only the numbering changes (marked edges and faces are NOT renumbered, and a rejected map may leave the mesh modified); any other map is rejected; renumber_mesh on a connected mesh either fails leaving the mesh unchanged or renumbers with a permutation.", "quantifier": "all meshes with in-range cell points, all permutations", "why_tests_cant": "quantifies over all meshes and permutations", "anchors": ["src/mesh/mesh.rs::Mesh::renumber_points", "src/graph/graph_und.rs::GraphUnd::renumber_mesh"]}
{"id": "C07", "title": "Bandwidth and profile values are what they claim", "statement": "calc_bandwidth returns 1 + max |i-j| over all edges i-j of the graph (the half-bandwidth including the diagonal), independently of the order in which the edges or cells were given.", "quantifier": "all graphs", "why_tests_cant": "maximum over all edges of arbitrary graphs", "anchors": ["src/graph/graph_und.rs::GraphUnd::calc_bandwidth"]}
{"id": "C08", "title": "Adjacency data is exact and symmetric", "statement": "In a constructed GraphUnd row i lists exactly the nodes sharing an edge (or, from_mesh, a cell) with i, without repetition, sorted by the documented key; degree[i] is its length; has_edge(i,j) iff has_edge(j,i) iff the input had that edge; get_edges lists each edge between distinct nodes exactly once with i<j (a self-loop is not listed); p_min_degree is a node of minimum degree.", "quantifier": "all edge lists / meshes", "why_tests_cant": "universally quantified set equality", "anchors": ["src/graph/graph_und.rs::GraphUnd::from_adjacency_set", "src/graph/graph_und.rs::GraphUnd::from_edges", "src/graph/graph_und.rs::GraphUnd::from_mesh", "src/graph/graph_und.rs::GraphUnd::get_edges"]}
{"id": "C09", "title": "Floyd-Warshall computes all-pairs minimal distances", "statement": "After shortest_paths_fw the stored distance between any ordered pair is the minimum of the total weight over all directed walks between them, for non-negative weights.", "quantifier": "all directed graphs without parallel edges or self loops, all non-negative weights, all pairs", "why_tests_cant": "minimum over infinitely many walks", "anchors": ["src/graph/graph_dir.rs::GraphDir::shortest_paths_fw", "src/graph/graph_dir.rs::GraphDir::calc_dist_and_next"]}
{"id": "C10", "title": "Path reconstruction returns a minimal path or reports unreachability", "statement": "After shortest_paths_fw, path(a,b) returns Ok with a walk from a to b along existing edges whose total weight equals the minimum, exactly when b is reachable from a; otherwise it returns Err; it always terminates.", "quantifier": "all directed graphs, all weights >= 0 (including zero weights and ties), all pairs", "why_tests_cant": "termination and minimality over all graphs; zero-weight cycles are the critical corner", "anchors": ["src/graph/graph_dir.rs::GraphDir::path"]}
{"id": "C11", "title": "Path reconstruction terminates even with rounding", "statement": "The successor matrix built by shortest_paths_fw has no cycles, so path() terminates, for any addition that is monotone and never returns less than its operands (as rounded floating-point addition of non-negative numbers).", "quantifier": "all graphs, all weights, all monotone inflationary additions", "why_tests_cant": "floating-point corner cases cannot be enumerated", "anchors": ["src/graph/graph_dir.rs::GraphDir::path", "src/graph/graph_dir.rs::GraphDir::shortest_paths_fw"]}
{"id": "C12", "title": "GridSearch finds every point within tolerance", "statement": "If a point x was inserted and the query q satisfies |q_i - x_i| <= tolerance in every direction and both are inside the grid, then search(q) returns Some id, wherever x and q lie relative to container borders.", "quantifier": "all grids (any limits, divisions, tolerances accepted by new), all insertion histories, all query points", "why_tests_cant": "the interesting inputs lie on container borders and corners, a measure-zero set that sampling misses", "anchors": ["src/util/grid_search.rs::GridSearch::search", "src/util/grid_search.rs::GridSearch::insert", "src/util/grid_search.rs::GridSearch::set_halo"]}
{"id": "C13", "title": "GridSearch never returns a far point", "statement": "If search(q) returns Some(id), then id was inserted with coordinates at Euclidean distance <= the grid's distance tolerance from q; and after any insertion history with distinct ids, None is returned only if no inserted point is within tolerance in every direction.", "quantifier": "all insertion histories and queries", "why_tests_cant": "all histories", "anchors": ["src/util/grid_search.rs::GridSearch::search"]}
{"id": "C14", "title": "Line/circle/cylinder/plane queries are exact", "statement": "search_on_line / circle / cylinder / plane_* return exactly the ids of inserted points whose distance to the entity is <= tolerance and which satisfy the filter: the container pre-selection loses nothing.", "quantifier": "all grids, point sets (distinct ids), entities and filters", "why_tests_cant": "pre-selection by circumscribed radius can lose points only in corner configurations", "anchors": ["src/util/grid_search.rs::GridSearch::search_on_line", "src/util/grid_search.rs::GridSearch::search_on_circle", "src/util/grid_search.rs::GridSearch::search_on_cylinder", "src/util/grid_search.rs::GridSearch::search_on_plane_xy"]}
{"id": "C15", "title": "Number of divisions is well formed", "statement": "num_divisions returns, for valid input, at least ndiv_min divisions in every direction, exactly ndiv_long in the longest direction, never more than ndiv_long in any, and errors exactly on invalid input.", "quantifier": "all limits and division counts, 2D/3D", "why_tests_cant": "real-valued inputs", "anchors": ["src/util/num_divisions.rs::num_divisions"]}
{"id": "C16", "title": "Container keys are in range and unique", "statement": "The container key of a point inside the grid is < the total number of containers, distinct index tuples have distinct keys, the pivot-index function inverts the key, and the key is None exactly outside the grid.", "quantifier": "all grids and points", "why_tests_cant": "all sizes", "anchors": ["src/util/grid_search.rs::GridSearch::calc_container_key", "src/util/grid_search.rs::GridSearch::container_pivot_indices", "src/util/calc_container_key.rs::calc_container_key"]}
{"id": "C17", "title": "Mesh text format round-trips", "statement": "Parsing the text produced by printing a valid mesh gives back the same mesh (points, coordinates, markers, cells, attributes, marked edges and faces).", "quantifier": "all well-formed meshes; float printing assumed to round-trip", "why_tests_cant": "all meshes", "anchors": ["src/mesh/read_text_mesh.rs::Mesh::from_text", "src/mesh/mesh.rs::Display for Mesh"]}
{"id": "C18", "title": "Mesh parser rejects malformed input and never accepts an inconsistent mesh", "statement": "from_text returns Ok(mesh) if and only if the data lines of the text (those that are neither blank nor comments) are the header, the points, the cells, the marked edges and the marked faces of that mesh, in this order; then the numbers of points and cells match the header, ids are sequential, each point has ndim coordinates and each cell has nnode(kind) point ids. Comments and blank lines have no effect, and the only panic is caused by a header with ndim < 2 followed by a parseable point.", "quantifier": "all texts", "why_tests_cant": "all strings", "anchors": ["src/mesh/read_text_mesh.rs::Mesh::from_text"]}
{"id": "C19", "title": "check_ids_and_kind is exact", "statement": "check_ids_and_kind never panics and succeeds if and only if all point ids are sequential, all cell ids are sequential, every cell has as many points as its kind prescribes and these points exist (the space dimension, the coordinates and the marked edges/faces are not inspected); meshes returned by new_zero_homogeneous pass it.", "quantifier": "all meshes", "why_tests_cant": "iff over all meshes", "anchors": ["src/mesh/check.rs::Mesh::check_ids_and_kind"]}
{"id": "C20", "title": "Joining meshes preserves both inputs", "statement": "join_two_meshes(A,B): points of A keep their ids; every cell of B appears with the same kind/attribute and, node by node, points whose coordinates coincide with B's within tolerance; new points are appended exactly for unmatched B points; ids are sequential; marked edges/faces are carried over.", "quantifier": "all pairs of valid meshes", "why_tests_cant": "all pairs of meshes, all overlaps", "anchors": ["src/mesh/join_meshes.rs::join_two_meshes", "src/mesh/join_meshes.rs::join_meshes"]}
{"id": "C21", "title": "2D edges are extracted exactly", "statement": "extract_all_2d_edges maps each unordered pair of end-points to exactly the (cell, local edge) pairs that have it; boundary features are exactly the edges with one cell (or all edges, when extract_all is requested), each carrying the nodes of the first cell that has it and the marker of the last matching marked-edge entry; the feature points are exactly the points of such edges and the min/max coordinates are their bounding box.", "quantifier": "all 2D meshes", "why_tests_cant": "all meshes", "anchors": ["src/mesh/algorithms/extract_all_2d_edges.rs", "src/mesh/algorithms/extract_features_2d.rs"]}
{"id": "C22", "title": "3D faces are extracted exactly", "statement": "extract_all_faces maps each face key to exactly the (cell, local face) pairs that have it, boundary faces are exactly those with one cell, edges and points are those of such faces; for faces with up to four corner-only identifying nodes (Tet4, Hex*) two local faces with the same corner set share a key.", "quantifier": "all 3D meshes", "why_tests_cant": "all meshes", "anchors": ["src/mesh/algorithms/extract_all_faces.rs", "src/mesh/algorithms/extract_features_3d.rs"]}
{"id": "C23", "title": "2D neighbours are exact and symmetric", "statement": "get_neighbors_2d(c) lists exactly the cells sharing an edge with c together with the local edge numbers on both sides; the relation is symmetric with the edge numbers swapped.", "quantifier": "all 2D meshes in which an edge is shared by at most two cells", "why_tests_cant": "all meshes", "anchors": ["src/mesh/features.rs::Features::get_neighbors_2d"]}
{"id": "C24", "title": "Marker and limit queries are exact", "statement": "search_marked_points returns exactly the ids with the mark (and satisfying the filter), sorted and unique; get_limits/get_cell_bounding_box return the tight bounding box.", "quantifier": "all meshes, marks, filters", "why_tests_cant": "all meshes", "anchors": ["src/mesh/mesh.rs::Mesh::search_marked_points", "src/mesh/mesh.rs::Mesh::get_limits"]}
{"id": "C25", "title": "Partition of unity", "statement": "For every shape kind and every reference coordinate, interpolation functions sum to one, and derivative columns sum to zero.", "quantifier": "all 20 kinds, all real reference coordinates", "why_tests_cant": "real-valued inputs; tests sample", "anchors": ["src/shapes/*.rs::calc_interp", "src/shapes/*.rs::calc_deriv"]}
{"id": "C26", "title": "Nodal (Kronecker) property", "statement": "Interpolation function m evaluates to 1 at reference node m and 0 at all other nodes.", "quantifier": "all kinds, all node pairs", "why_tests_cant": "exactness for every pair of every kind as exact rationals (floating tests use tolerance)", "anchors": ["src/shapes/*.rs::calc_interp", "src/shapes/enums.rs::GeoKind::reference_coords"]}
{"id": "C27", "title": "Coded derivatives are the derivatives", "statement": "The matrix computed by calc_deriv holds, entry by entry, the true partial derivatives of the functions computed by calc_interp.", "quantifier": "all kinds, all real reference coordinates", "why_tests_cant": "numerical differentiation in tests only samples with tolerance", "anchors": ["src/shapes/*.rs::calc_deriv"]}
{"id": "C28", "title": "Affine completeness", "statement": "For every kind, interpolating nodal values of an affine function reproduces it at every reference coordinate; hence an affinely mapped element has calc_coords equal to the affine map and nodes map to nodes.", "quantifier": "all kinds, all coordinates, all affine functions", "why_tests_cant": "real-valued inputs", "anchors": ["src/shapes/scratchpad.rs::Scratchpad::calc_coords"]}
{"id": "C29", "title": "Conforming traces on edges and faces", "statement": "Restricting the interpolation to local edge e (or face f) of a kind equals the interpolation of the edge (face) kind on the nodes listed in the edge (face) node table, and the other functions vanish there; so neighbouring elements of equal edge kinds interpolate compatibly: on a conforming mesh the field interpolated from any values at the points is continuous across common edges and faces.", "quantifier": "all kinds, all edges/faces, all edge/face coordinates", "why_tests_cant": "real-valued inputs; table typos at a single node", "anchors": ["src/shapes/enums.rs::GeoKind::edge_node_id", "src/shapes/enums.rs::GeoKind::face_node_id"]}
{"id": "C30", "title": "Topology tables are mutually consistent", "statement": "Edge/face/face-edge node tables are in range, list distinct nodes, inward edges are reversals of outward edges, every face edge is an edge of the cell (same nodes) and each cell edge of a solid belongs to exactly two faces; counts match nedge/nface/edge_nnode/face_nnode.", "quantifier": "all kinds, edges, faces", "why_tests_cant": "finite but must agree across five independent tables; a model-level theorem ranges over all of them exactly", "anchors": ["src/shapes/enums.rs"]}
{"id": "C31", "title": "Gradients and Jacobian are consistent", "statement": "If calc_gradient succeeds, the gradient matrix B satisfies sum_m X_mi B_mj = delta_ij and reproduces the exact gradient of any affine field interpolated on the element; it fails when the Jacobian determinant is zero.", "quantifier": "all kinds, coordinates and nodal positions (2D and 3D solids)", "why_tests_cant": "real-valued inputs", "anchors": ["src/shapes/scratchpad_calc_gradient.rs", "src/shapes/scratchpad_calc_jacobian.rs"]}
{"id": "C32", "title": "Normal vectors are orthogonal and scaled", "statement": "calc_normal_vector returns a unit vector orthogonal to the tangents of the line/surface, with magnitude equal to the length/area scaling.", "quantifier": "all line-in-2D and surface-in-3D kinds, coordinates, nodal positions with non-zero normal", "why_tests_cant": "real-valued inputs", "anchors": ["src/shapes/scratchpad_calc_normal_vector.rs"]}
{"id": "C33", "title": "Inverse isoparametric map is sound", "statement": "When approximate_ksi returns Ok, the returned reference coordinates map back (via calc_coords) within the tolerance of the given point; it always terminates within the iteration limit.", "quantifier": "all kinds, points, iteration limits", "why_tests_cant": "real-valued inputs", "anchors": ["src/shapes/scratchpad_approximate_ksi.rs"]}
{"id": "C34", "title": "Point-in-triangle / point-in-tetrahedron are exact", "statement": "in_triangle (in_tetrahedron) of barycentric coordinates is true exactly for points in the closed convex hull of the vertices; coordinates sum to one and reproduce the point.", "quantifier": "all non-degenerate simplices and all points", "why_tests_cant": "real-valued inputs", "anchors": ["src/geometry/triangle.rs", "src/geometry/tetrahedron.rs"]}
{"id": "C35", "title": "GridCells finds a containing cell", "statement": "On a mesh of non-degenerate tri3 (2D) or tet4 (3D) cells with accepted parameters, GridCells::new succeeds with limits containing all cells plus the border; GridCells::search(zeta, x) returns a cell that contains x, with its non-negative barycentric coordinates in zeta, whenever x lies in some cell of the mesh; it returns None for other points inside the grid limits, and an error outside or for wrong lengths. Out-of-range parameters are errors. A cell reported always contains the point.", "quantifier": "all tri3/tet4 meshes, all points, all hash iteration orders, all parameters", "why_tests_cant": "real-valued, border cases, hash order", "anchors": ["src/mesh/grid_cells.rs::GridCells::new", "src/mesh/grid_cells.rs::GridCells::search"]}
{"id": "C36", "title": "Distance functions are metric-correct", "statement": "point_line_distance is the minimum distance to the infinite line; point_circle/cylinder distances are signed distances to the curve/surface.", "quantifier": "all points and entities", "why_tests_cant": "real-valued inputs", "anchors": ["src/geometry/algorithms.rs"]}
{"id": "C37", "title": "Integration routines only touch their block and accumulate linearly", "statement": "Every vec_*/mat_* routine modifies only entries in [ii0..,jj0..] blocks (after optional clearing), adds exactly the quadrature sum, scales linearly with alpha, and rejects undersized outputs without modification.", "quantifier": "all kinds, gauss rules, callbacks, offsets, outputs", "why_tests_cant": "all offsets, sizes and callbacks", "anchors": ["src/integ/vec_01_ns.rs", "src/integ/mat_01_nsn.rs", "src/integ/mat_10_bdb.rs"]}
{"id": "C38", "title": "Symmetric integrands give symmetric matrices", "statement": "mat_01_nsn is symmetric; mat_03_btb is symmetric for (symmetric) T; mat_08_ntn and mat_10_bdb are symmetric when the tensor is minor/major symmetric.", "quantifier": "all kinds, coordinates, rules, coefficients", "why_tests_cant": "all real inputs", "anchors": ["src/integ/mat_01_nsn.rs", "src/integ/mat_03_btb.rs", "src/integ/mat_08_ntn.rs", "src/integ/mat_10_bdb.rs"]}
{"id": "C39", "title": "Conservation by partition of unity", "statement": "The entries of vec_01_ns sum to the quadrature value of scalar_field with the same s; rows of mat_01_nsn sum to vec_01_ns; sums over nodes of gradient-type vectors (vec_03_bv, vec_04_bt) vanish; rigid motions are in the null space of mat_03_btb and mat_10_bdb.", "quantifier": "all kinds, coordinates, rules, coefficients", "why_tests_cant": "all real inputs", "anchors": ["src/integ/vec_01_ns.rs", "src/integ/mat_01_nsn.rs", "src/integ/vec_03_bv.rs", "src/integ/mat_03_btb.rs", "src/integ/mat_10_bdb.rs"]}
{"id": "C40", "title": "Quadrature exactness", "statement": "Each tabulated Gauss rule integrates all polynomials up to its degree over its reference domain (up to the decimal rounding of the table, with an explicit bound), all points lie inside the domain, and weights sum to the domain measure.", "quantifier": "all rules, all polynomials of the degree", "why_tests_cant": "all polynomials, not a sample of monomials", "anchors": ["src/integ/gauss.rs"]}
{"id": "C41", "title": "Block divisions partition the reference interval", "statement": "For every block obtained through the API, whatever setters were called and whether they failed, each direction has at least one division, as many lengths as divisions, and the lengths cover [-1,1] exactly (sum 2). set_ndiv gives equal divisions, set_div_weights_2d/3d lengths proportional to the weights; the accepted arguments are exactly: one number >= 1 per direction; non-empty lists of weights with sums >= 1. Positive weights give positive lengths.", "quantifier": "all blocks, all histories of setter calls, all ndiv and weights", "why_tests_cant": "any history of calls and all real weights", "anchors": ["src/mesh/block.rs::Block::set_ndiv", "src/mesh/block.rs::Block::set_div_weights_2d", "src/mesh/block.rs::Block::set_div_weights_3d"]}
{"id": "C42", "title": "Curved constraints are enforced", "statement": "A node of a subdivision is moved exactly if it is on a constrained side and does not satisfy the constraint; it is then moved radially onto the circle/cylinder of the first violated constraint (distance from the axis equal to |r|, third coordinate unchanged); a node at the centre is an error. With a single constrained side, all nodes of the mesh on that side (corner, middle, interior; all cell kinds) are on the circle/cylinder. set_edge_constraint / set_face_constraint change the constraint of the given side only.", "quantifier": "all blocks, divisions, target kinds, circles and cylinders", "why_tests_cant": "real-valued inputs, any number of divisions", "anchors": ["src/mesh/block.rs::Block::handle_constraints", "src/mesh/block.rs::Block::apply_constraint_2d", "src/mesh/block.rs::Block::apply_constraint_3d"]}
{"id": "C43", "title": "Boundary edge chaining returns a path", "statement": "Edges::any_path never panics on line edges; it returns edge indices and points forming a walk: consecutive edges share the point between them, every edge belongs to the input, and the points (with the interior nodes of each edge in travel order) are those met; it starts at the smallest extremity (or smallest point). If the edges form an open chain, or a closed ring, in any storage order and orientation, every edge is used exactly once and the walk goes from the smaller extremity to the other (back to the smallest point).", "quantifier": "all lists of line edges; chains and rings of any length", "why_tests_cant": "all chains, any order/orientation of input", "anchors": ["src/mesh/edges.rs::Edges::any_path"]}
{"id": "C44", "title": "Kind names and classes round-trip", "statement": "GeoKind::from(to_string(kind)) = kind, unknown names are rejected, and class/ndim/nnode/edge_kind/face_kind are coherent (the edge kind has edge_nnode nodes, etc.).", "quantifier": "all kinds and all strings", "why_tests_cant": "rejection ranges over all strings", "anchors": ["src/shapes/enums.rs::GeoKind::from"]}
{"id": "C45", "title": "Triangulations cover the element", "statement": "The triangles (tetrahedra) in triangulate tables use valid local nodes and have total signed reference area equal to the reference element measure, each non-degenerate and positively oriented.", "quantifier": "all kinds with a triangulation table", "why_tests_cant": "exactness for all table rows, and for all affine images", "anchors": ["src/shapes/enums.rs::GeoKind::triangulate_lin_or_tri"]}
{"id": "C46", "title": "2D conversion keeps geometry", "statement": "convert_2d of a valid mesh of cells of one 2D kind to any kind of the same class gives a valid mesh with the same cells, cell markers and corner coordinates; if the given mesh is conforming, two nodes are one point exactly if they are at the same place (corner, position on a common edge, inside of a cell), every node is at its isoparametric position, no point is unused. Conversion to a kind with at least as many nodes leaves the isoparametric map of every cell unchanged. Wrong dimension, class, or no cells: an error. Mixed kinds are never converted.", "quantifier": "all 2D meshes of one kind, all target kinds, all hash-map orders", "why_tests_cant": "all meshes and iteration orders", "anchors": ["src/mesh/convert_2d.rs::Mesh::convert_2d"]}
{"id": "C47", "title": "Feature queries by location are exact", "statement": "search_point_ids / search_edge_keys / search_face_keys return, sorted and without repetition, exactly the feature points (resp. the extracted edges/faces all of whose key points are feature points) lying at the requested location within the search tolerance and satisfying the filter; a full point location (XY in 2D, XYZ in 3D) returns at most one id and ignores the filter.", "quantifier": "all meshes, locations, filters", "why_tests_cant": "all meshes and locations", "anchors": ["src/mesh/features.rs::Features::search_point_ids", "src/mesh/features.rs::Features::search_edge_keys"]}
{"id": "C48", "title": "Extrapolation inverts interpolation", "statement": "get_extrap_matrix with any rule of the class of the cell never panics (given exact linear algebra it succeeds). With at least as many points as nodes it recovers the nodal values of every interpolated field exactly; with fewer points (more than one) it recovers affine fields of the reference coordinates up to 5e-14 times the size of the coefficients (accuracy of the tables). With at most as many points as nodes, interpolating the extrapolated values gives back the values at the points (except for four combinations with rank-deficient matrices). With one point the value is distributed in proportion to the shape functions; constants are recovered exactly for lin2, tri3, qua4, tet4 only.", "quantifier": "all kinds, all rules, all fields", "why_tests_cant": "all real inputs and all 108 kind/rule combinations", "anchors": ["src/recovery/get_extrap_matrix.rs::get_extrap_matrix", "src/recovery/get_interp_matrix.rs::get_interp_matrix"]}
{"id": "C49", "title": "Pseudo-peripheral search is safe and never loses eccentricity", "statement": "For a connected graph get_pseudo_peripheral never panics; it either reports an error (iteration limit) or returns a node id of the graph whose eccentricity is at least that of the starting node (explicit, or the node of minimum degree).", "quantifier": "all connected graphs, all start nodes", "why_tests_cant": "eccentricity is a maximum over all nodes of minimal walk lengths", "anchors": ["src/graph/graph_und.rs::GraphUnd::pseudo_peripheral"]}
{"id": "C50", "title": "Triangle areas and angles are those of Euclidean geometry", "statement": "Triangle2d::internal_angles returns, for three different vertices, the Euclidean angles at the vertices: each in [0,π], summing to π; signed_area is cyclically invariant, antisymmetric, additive under splitting at a point, and its absolute value is half the product of two sides times the sine of the angle between them.", "quantifier": "all triangles", "why_tests_cant": "real-valued inputs; the relations hold for every triangle", "anchors": ["src/geometry/entities.rs: Triangle2d::signed_area, Triangle2d::internal_angles, Vector2d::cross"]}
{"id": "C51", "title": "Queries returning edges, faces and cells are exact", "statement": "search_edges/search_faces/search_many_*/search_marked_* return exactly the stored features that match, sorted by key, once each; get_cells_via_2d_edge(s)/get_cells_via_face(s) return the sorted cells that have the feature (one entry per feature); get_boundary_edges returns exactly the edges on the boundary; search_features_2d returns the matching points, edges and attached cells.", "quantifier": "all valid meshes, locations, filters, markers, hash orders", "why_tests_cant": "all meshes and hash iteration orders", "anchors": ["src/mesh/features.rs::Features::search_edges", "src/mesh/features.rs::Features::search_marked_edges", "src/mesh/features.rs::Features::get_boundary_edges", "src/mesh/features.rs::Features::get_cells_via_2d_edge", "src/mesh/features.rs::Features::search_features_2d"]}
{"id": "C52", "title": "check_overlapping_points finds duplicates and gives no false alarms", "statement": "On a valid mesh the check never panics; two different points with equal coordinates always give an error; an error (when the search grid can be built) means that two different points are within sqrt(ndim)*tol; success means that different points of the same grid container are farther apart than that. Near points across a container border may be missed.", "quantifier": "all valid meshes, tolerances and hash-map iteration orders", "why_tests_cant": "all point sets and all iteration orders of the hash maps", "anchors": ["src/mesh/check.rs:Mesh::check_overlapping_points"]}
{"id": "C53", "title": "Mesh pads and Jacobian check", "statement": "On a valid mesh, get_pad/set_pad fill the pad with exactly the coordinates of the points of the cell (all marked as set); get_pad panics exactly when the cell does not fit in the space; check_jacobian never panics and succeeds exactly when all cells fit and the Jacobian determinants of all solid cells at (1/3,1/3,1/3) are positive.", "quantifier": "all valid meshes and cells", "why_tests_cant": "all meshes and coordinates", "anchors": ["src/mesh/mesh.rs:Mesh::set_pad", "src/mesh/mesh.rs:Mesh::get_pad", "src/mesh/check.rs:Mesh::check_jacobian"]}
{"id": "C54", "title": "Blocks are built exactly from non-degenerate arrays", "statement": "Block::new returns Ok exactly for 4 or 8 points in 2D (8 or 20 in 3D) whose isoparametric map has a positive Jacobian determinant at the centre, an error otherwise (never a panic); the new block has marker 1, two equal divisions per direction, no constraints, no markers. new_square(l) panics exactly for l = 0, new_cube(l) exactly for l <= 0; they map the reference block linearly onto [0,l]^n.", "quantifier": "all arrays of coordinates", "why_tests_cant": "all real coordinates", "anchors": ["src/mesh/block.rs::Block::new", "src/mesh/block.rs::Block::new_square", "src/mesh/block.rs::Block::new_cube"]}
{"id": "C55", "title": "Subdividing a block gives a conforming mesh", "statement": "For every block obtained through the API (divisions larger than 0.0007 of the reference length 2) and every quadrilateral (hexahedron) kind, subdivide never panics, fails exactly if a node to be moved by a constraint is at its centre, and otherwise returns a mesh with nx*ny*nz cells of the kind, numbered x-first, with the marker of the block; two nodes are the same point exactly if they are at the same position; there are no unused or duplicated points, point ids are in order of first occurrence, and the mesh is valid. (nx+1)(ny+1)(nz+1) points for Qua4/Hex8. The result does not depend on the iteration order of hash maps. Wrong kinds are an error.", "quantifier": "all blocks, divisions, kinds, hash-map orders", "why_tests_cant": "unbounded numbers of divisions, all iteration orders", "anchors": ["src/mesh/block.rs::Block::subdivide"]}
{"id": "C56", "title": "Subdividing a block keeps its geometry", "statement": "Without constraints every point of the mesh is the image of its reference position by the isoparametric map of the given array, or by the ring map (radius, angle and z linear, within the given limits). With constraints, corner nodes have the mapped coordinates (C42), nodes within an edge pulled by a constraint of an orthogonal side are on the straight line between the ends, the other nodes within edges have the mapped coordinates.", "quantifier": "all blocks, all nodes of all kinds", "why_tests_cant": "real-valued inputs, any number of divisions", "anchors": ["src/mesh/block.rs::Block::subdivide", "src/mesh/block.rs::Block::map_coords_cylindrical"]}
{"id": "C57", "title": "Markers of block sides reach exactly the right cell edges and faces", "statement": "The marked edges (faces) of a subdivision are exactly the cell edges (faces) lying on the edges (faces) of the block that have a marker, with that marker and sorted points, each listed once. set_edge_marker / set_face_marker accept exactly the valid indices and change only that marker.", "quantifier": "all blocks, divisions, kinds, markers", "why_tests_cant": "unbounded numbers of divisions", "anchors": ["src/mesh/block.rs::Block::subdivide", "src/mesh/block.rs::Block::set_edge_marker", "src/mesh/block.rs::Block::set_face_marker"]}
{"id": "C58", "title": "Interpolation at integration points", "statement": "get_interp_matrix has the shape functions at the integration points as rows, so that its product with nodal values is the interpolation of the values; get_points_coords returns the images of the integration points by the isoparametric map, and fails exactly if the nodal coordinates are not set.", "quantifier": "all pads, rules, nodal values", "why_tests_cant": "all real inputs", "anchors": ["src/recovery/get_interp_matrix.rs::get_interp_matrix", "src/recovery/get_point_coords.rs::get_points_coords"]}
{"id": "C59", "title": "Triangulating a surface covers every cell exactly and shares points", "statement": "Triangulation::from_surface on any list of cells or faces whose points exist succeeds; non Tri/Qua cells are skipped; the triangles of each cell are consecutive and in the order of the reference triangulation; two corners are the same output point exactly if they are the same mesh point or the same extra node of the same cell; every point is used and has the coordinates of the isoparametric map of its cell at the reference corner (mesh points keep their coordinates exactly); the sides of the triangles are matched within the cell or join consecutive nodes of an edge, so that neighbouring cells are triangulated compatibly; flat cells are covered. Scratchpad::triangulate calls its callback once per corner, in order, and rejects other shapes and wrong work vectors.", "quantifier": "all meshes, all surfaces of any length and mix of kinds", "why_tests_cant": "unbounded lists of cells sharing points arbitrarily, real coordinates", "anchors": ["src/mesh/triangulate_surface.rs::Triangulation::from_surface", "src/shapes/scratchpad_triangulate.rs::Scratchpad::triangulate"]}
{"id": "C60", "title": "The triangulated boundary of a solid consists of its boundary faces", "statement": "Features::triangulate_3d_boundary of any valid mesh in space succeeds and triangulates exactly the faces that belong to one cell only, each once, whatever the hash-map iteration order and whether all features or only those at the boundary were extracted; it panics in the plane.", "quantifier": "all valid 3D meshes, all iteration orders, both extraction modes", "why_tests_cant": "unbounded meshes, all iteration orders", "anchors": ["src/mesh/features.rs::Features::triangulate_3d_boundary"]}
{"id": "C61", "title": "A VTU file says exactly what the mesh is", "statement": "Mesh::write_vtu fails without cells or if a cell has no VTK type and succeeds otherwise (for meshes whose points have all coordinates); reading the file as the VTK XML format prescribes gives back the coordinates of the points (z = 0 in 2D), the points of every cell (cut at the offsets), the VTK type of its kind, and the markers; the VTK types are those of the VTK tables and the nodes of every kind are in VTK's order.", "quantifier": "all meshes of any size, all formatters of floats that are lossless", "why_tests_cant": "unbounded text produced from arbitrary meshes; needs a reader that is an inverse", "anchors": ["src/mesh/paraview.rs::Mesh::write_vtu", "src/shapes/enums.rs::GeoKind::vtk_type"]}
{"id": "C62", "title": "Cells attached to edges and faces, with their points", "statement": "For stored edges (2D) or faces (3D) of a mesh, get_cells_pairs_via_2d_edge / get_cells_pairs_via_face return exactly the cells that have this edge (face), sorted by cell, each with the points of the edge (face); get_cells_pairs_via_2d_edges / get_cells_pairs_via_faces return the pairs of all edges (faces) of the list, none lost or added, sorted by cell, with the pairs of one cell in the order of the list. An edge unknown to the mesh panics.", "quantifier": "all valid meshes, all lists of stored edges or faces, all hash-map iteration orders", "why_tests_cant": "all meshes and all lists", "anchors": ["src/mesh/features.rs: Features::get_cells_pairs_via_2d_edge, get_cells_pairs_via_face, get_cells_pairs_via_2d_edges, get_cells_pairs_via_faces"]}
{"id": "C63", "title": "Normals of edges (2D) and faces (3D) point out of the cell", "statement": "For every kind of plane (solid) cell with any nodal coordinates, the normal vector that calc_normal_vector computes with the nodes of a local edge (face), in the order given by edge_node_id (face_node_id), is a unit vector, orthogonal to the edge (face), that points out of the cell at every point of the edge (face) where the determinant of the Jacobian of the cell is positive; in particular the normals of the boundary edges (faces) stored by Features point out of the mesh.", "quantifier": "all kinds, all nodal coordinates, all local edges and faces, all points on them, all meshes", "why_tests_cant": "the docs promise outward normals in general; tests look at the reference cells and some sample meshes", "anchors": ["src/shapes/scratchpad_calc_normal_vector.rs: Scratchpad::calc_normal_vector", "src/shapes/enums.rs: GeoKind::edge_node_id, GeoKind::face_node_id", "src/mesh/features.rs: Features"]}
{"id": "C64", "title": "Quarter rings are structured meshes of the right geometry", "statement": "Structured::quarter_ring_2d / quarter_ring_3d return an error exactly if there are no weights, their sum is less than one, a number of divisions is zero, rmin >= rmax (or z <= 0), or the kind of cells is not a quadrilateral (hexahedron); they never panic. Otherwise, for weights and divisions that are not too small for the search grid, the mesh has one cell for each combination of divisions, numbered along the radius first, then the angle, then z, with marker 1; node m of the cell is at the radius, angle and height obtained by linear interpolation between the division lines (radii proportional to the weights, equal angles between 0 and 90 degrees, equal heights); two nodes are the same point exactly if they are at the same place of the grid; no point is unused; renumbering (renumber = true) always succeeds and changes only the numbers of the points. All points are in the first quadrant between the two circles, and have different coordinates if rmin > 0.", "quantifier": "all radii, weights, numbers of divisions, kinds of cells, both values of renumber, all hash-map orders", "why_tests_cant": "any number of divisions; success of the renumbering needs the eccentricity of the grid graph", "anchors": ["src/mesh/generators_qua_hex.rs::Structured::quarter_ring_2d", "src/mesh/generators_qua_hex.rs::Structured::quarter_ring_3d"]}
{"id": "C65", "title": "Joining meshes puts their cells together and nothing else", "statement": "join_two_meshes and join_meshes of meshes (2D or 3D) without unused or duplicated points, whose nodes are at the same place or farther apart than the tolerance, and where each partial mesh is enclosed by the corners of its boundary, succeed: the result has the cells of the meshes, one mesh after the other, with the same kinds, markers and node coordinates; it has again no unused and no duplicated points, and every point is one of the given meshes, with its marker; an edge or face is marked exactly if it is marked in one of the meshes, with the marker of the first of them, once; the points and cells of the first mesh keep their numbers.", "quantifier": "all lists of meshes, all hash-map orders", "why_tests_cant": "any number of meshes of any size; equality of the geometry, not of a count", "anchors": ["src/mesh/join_meshes.rs: join_two_meshes, join_meshes"]}
{"id": "C67", "title": "Rectangles with layers are structured meshes of the right geometry", "statement": "Structured::rectangle returns an error if xc <= xa, xb is not between xa and xc, na or nb is zero, or the lengths of y, ny, markers do not fit; if the y-coordinates are not increasing; or if the kind of cells is not a quadrilateral (and the first layer is valid); it panics exactly where a layer has no divisions (ny[l] = 0). Otherwise (cells larger than 0.0006, fewer than 2857 divisions) the mesh has one cell for each place of the grid of the rectangle, with the marker of its layer; layers are numbered one after the other, in each layer first the cells before xb; the nodes are at their positions in the grid; two nodes are the same point exactly if they are at the same position, also across layers and xb; no point is unused; no edge is marked. Renumbering changes only the numbers of the points, and is not done at all for one layer without xb.", "quantifier": "all coordinates, divisions, numbers of layers, markers, kinds of cells, both values of renumber, all hash-map orders", "why_tests_cant": "any number of layers and divisions; the blocks are joined by searching for nearby points", "anchors": ["src/mesh/generators_qua_hex.rs::Structured::rectangle"]}
{"id": "C66", "title": "Meshes from blocks: each region gives the subdivision of its block, and the result is their union", "statement": "Structured::from_blocks_2d / from_blocks_3d: if the data of a region is missing (corner, weights or constraint not in the lists) no mesh is returned. Otherwise there is an error exactly if there are fewer than two regions, the map to a region has no positive Jacobian at its centre, the weights of a region (given for all directions) have a sum less than one, the constraint is for a side that does not exist, a node to be moved by a constraint is at its centre, or the kind of cells is not a quadrilateral (hexahedron). Otherwise each region gives the mesh of its block: marker of the region, divisions in proportion to the weights (two equal ones if there are no weights for some direction), the constraint on the given side only, and the edges (and faces) of the block marked by the last entry of the lists with these corners in any order; without a constraint it is the bilinear (trilinear) image of the grid. The result is the union of these meshes (in the sense of joining meshes). With renumbering the points are only reordered; the numbers in the lists of marked edges and faces are not changed.", "quantifier": "all lists of points, regions, weights, constraints and markers, kinds of cells, all hash-map orders", "why_tests_cant": "any number of regions, with any geometry", "anchors": ["src/mesh/generators_qua_hex.rs::Structured::from_blocks_2d", "src/mesh/generators_qua_hex.rs::Structured::from_blocks_3d", "src/mesh/blocks2d.rs", "src/mesh/blocks3d.rs"]}
{"id": "C69", "title": "The analytical integrals are the integrals", "statement": "AnalyticalTri3::new and AnalyticalTet4::new accept exactly pads of kind Tri3 and Tet4 (anything else is a panic). For every plane triangle, tetrahedron in space (signed area or volume not zero) and rectangle parallel to the axes, every vector and matrix returned by AnalyticalTri3 (17 integrals, with the axisymmetric variants and the integrals along a side), AnalyticalTet4 (16), AnalyticalQua4 (2) and AnalyticalQua8 (6, those with a lower-order pad included) has the documented numbers of rows and columns and each entry is the exact integral, over the element, of the integrand of the corresponding numerical integration function, with the shape functions and gradients of the element; area, volume, lengths and gradients are those of the element; a side that does not exist is a panic.", "quantifier": "all triangles, tetrahedra and rectangles, all values of the fields, all moduli, all entries", "why_tests_cant": "unit tests compare the numerical integrals with these formulas on a few elements; an error common to both, or visible for other shapes only, is not seen", "anchors": ["src/integ/analytical_tri3.rs::AnalyticalTri3", "src/integ/analytical_tet4.rs::AnalyticalTet4", "src/integ/analytical_qua4.rs::AnalyticalQua4", "src/integ/analytical_qua8.rs::AnalyticalQua8"]}
{"id": "C68", "title": "Quarter disks and plates with a hole consist of conforming blocks with the right boundary", "statement": "Structured::quarter_disk_2d_a, quarter_disk_2d_b, quarter_disk_3d_a, quarter_disk_3d_b, quarter_plate_hole_2d and quarter_plate_hole_3d return an error if a number of divisions is zero, the kind of cells is not a quadrilateral (hexahedron), or (version B) the inner radius is not smaller than the outer one; a non-positive height and a zero radius are errors, too. Otherwise (if the nodes of the blocks are far enough from each other for the search of points) the mesh consists of the meshes of three (disk) or four (plate) blocks, put together: each is a grid with the requested numbers of equal divisions, whose nodes are the isoparametric images of the positions in the grid; the nodes on the arcs are on the circle (cylinder) of the right radius; the nodes on the axes are exactly on the axes, and those on the outer sides of the plate exactly on these; the nodes of neighbouring blocks on their common side are at the same places; the meshes in space are prisms above those in the plane; all cells have the marker 1 and no edge or face is marked. Renumbering changes only the numbers of the points.", "quantifier": "all radii (at least 2e-8), thicknesses, heights, all numbers of divisions (fewer than 2857), all quadrilateral and hexahedral kinds of cells, both values of renumber", "why_tests_cant": "Tests check the points of a few meshes with fixed radii and few divisions; conformity at the common sides has to hold for all radii, divisions and kinds of cells.", "anchors": ["src/mesh/generators_qua_hex.rs: quarter_disk_2d_a, quarter_disk_2d_b, quarter_disk_3d_a, quarter_disk_3d_b, quarter_plate_hole_2d, quarter_plate_hole_3d", "src/mesh/block.rs: new, set_ndiv, set_edge_constraint, set_face_constraint, subdivide"]}
{"id": "C70", "title": "The triangle and tetrahedron generators get exactly the geometry of the mesh, and their output comes back unchanged", "statement": "Unstructured::call_trigen / call_tetgen reject a mesh of the wrong dimension. Otherwise, for a valid mesh (of Tri3/Qua4 cells in 2D; an edge with more than two points is an error), the generator is given the points with their markers, every edge of the cells once (in 3D: every 2D cell, then every face of the 3D cells once), in a fixed order that does not depend on hash maps, with the marker of the edge (face); one region for each cell, at the mean of its points (3D: the given regions), with the maximum area of its marker; the holes. An error of the generator is returned. If the generator returns no cells, the call panics; otherwise the mesh has exactly the points, cells and markers of the output, Tri3/Tri6 (Tet4/Tet10) as requested, and the segments (faces) with a nonzero marker as marked edges (faces); TetGen's own marker 1 of points is removed. Renumbering changes only the numbers of points.", "quantifier": "all meshes, all regions and holes, all hash-map orders, all behaviours of the external generators that store their input", "why_tests_cant": "unbounded meshes, all iteration orders of hash maps, arbitrary outputs of an external library", "anchors": ["src/mesh/generators_tri_tet.rs: Unstructured::call_trigen, call_tetgen, from_trigen, from_tetgen"]}
{"id": "C71", "title": "Unstructured quarter rings: the boundary is a closed polygon (complex) of the ring, and boundary points end up on the circles", "statement": "Unstructured::quarter_ring_2d / quarter_ring_3d return an error for zero divisions (no thickness) or a wrong kind of cells. Otherwise the generator is given the closed polygon of the quarter ring (2 nr + 2 na different points, at equal distances on the axes and equal angles on the circles, markers -1 to -4 only at the corners; sides with the markers -5 inner, -6 outer, -7 y=0, -8 x=0) with a region inside the ring; in 3D the polygon at both heights and facets with markers (-9, -10 for the caps) that are watertight: each side of a facet belongs to exactly one other facet. In the mesh returned, the points with the marker -5 (-6) are at the distance rmin (rmax) from the axis, within 1e-15, moved along the ray through them; nothing else of the output of the generator is changed (3D: points take the greatest marker of their marked faces); Tri10 and Tri15 are obtained by converting the Tri6 mesh.", "quantifier": "all radii, all numbers of divisions, all kinds, all behaviours of the external generators that store their input", "why_tests_cant": "unbounded numbers of divisions; real radii; arbitrary outputs of an external library", "anchors": ["src/mesh/generators_tri_tet.rs: Unstructured::quarter_ring_2d, quarter_ring_3d, apply_constraints"]}
{"id": "C72", "title": "Drawing of a cell: the curves drawn are the edges of the cell under its isoparametric map", "statement": "Drawing a cell of a valid mesh succeeds (an error is returned only for a cell that does not exist). In the plane, a triangle or quadrilateral of any order is drawn as one closed curve with one piece per edge; the piece of an edge at parameter t (line, quadratic or cubic Bezier curve) is at the place where the isoparametric map of the cell sends the corresponding point of that edge of the reference cell: for all t if the edge has at most four nodes; at the ends and at the thirds for five nodes, and everywhere if that edge is a cubic curve. A line cell is drawn as one piece in the same way. In space, line cells are polylines through their points in the order of the positions, triangles and quadrilaterals closed polylines through the points of all their edges, and solids one polyline per edge.", "quantifier": "all valid meshes, all cells of all kinds, all parameters along the edges", "why_tests_cant": "the control points are formulas that must agree with the interpolation functions for every position of the nodes and every parameter; tests only produce image files that are looked at", "anchors": ["src/mesh/draw_cell.rs: draw_cell, add_curve"]}
{"id": "C73", "title": "The boundary is closed", "statement": "For every valid mesh whose cells fit together (no two cells run through an edge in the same direction; a face belongs to at most two cells, and these agree on it) the extracted boundary is closed: in the plane, at every point as many boundary edges begin as end, so the boundary consists of closed polygons; in space, the triangulation of the boundary (all orders of faces, including the extra points of the triangulation) is a closed oriented surface: every side of a triangle is used equally often in both directions. Without orientation: an even number of ends of boundary edges is at every point, and every side is used by an even number of triangles. The cells of every subdivided block (any divisions, weights, constraints and kind of cell) fit together.", "quantifier": "all valid meshes in the plane and in space with cells of any kinds that fit together, all hash-map orders; all blocks reached by any sequence of calls of the setters, all admissible subdivisions and kinds", "why_tests_cant": "the number of cells and the way they are connected is unbounded; the counting concerns all cells at once", "anchors": ["src/mesh/features.rs: Features::new, triangulate_3d_boundary", "src/mesh/algorithms/extract_features_2d.rs", "src/mesh/block.rs: Block::subdivide", "src/shapes/enums.rs: GeoKind::edge_node_id, face_node_id, triangulate_node_id"]}
{"id": "C74", "title": "Divergence theorem for interpolated fields", "statement": "For a field given by vectors at the points of a mesh and interpolated with the shape functions, the divergence computed with calc_gradient, integrated over a cell, is the flux through the edges (faces) of the cell computed with calc_normal_vector on pads filled with the nodes of these edges (faces), for every kind of cell with the dimension of the space, straight or curved. For a whole mesh in which neighbours see their common edge (face) from both sides with the same points, the integral over all cells is the sum of the fluxes through the boundary edges (faces) returned by Features::new. Hence the area (volume) of the mesh is one half (one third) of the flux of the position through the boundary, and the integrated normals of the boundary add up to zero. The meshes of all subdivided blocks (any kind of cell) are of this sort.", "quantifier": "all kinds of cells with any node coordinates for which the gradient can be computed at the points of the cell, all nodal vectors, all valid conforming meshes in the plane and in space (kinds may be mixed), all blocks reached by any sequence of setters and admissible subdivisions", "why_tests_cant": "a statement about integrals of all nodal fields on cells with arbitrary coordinates and about unbounded meshes", "anchors": ["src/shapes/scratchpad_calc_gradient.rs: Scratchpad::calc_gradient", "src/shapes/scratchpad_calc_normal_vector.rs: Scratchpad::calc_normal_vector", "src/mesh/features.rs: Features::new", "src/mesh/mesh.rs: Mesh::get_pad, Mesh::set_pad", "src/shapes/enums.rs: GeoKind::edge_node_id, face_node_id"]}
{"id": "C75", "title": "Patch test", "statement": "On a mesh whose neighbours fit together, a constant stress is in equilibrium: the nodal forces of vec_04_bt for a constant stress, assembled over all cells, are at each point the nodal forces of the tractions (vec_02_nv_bry, stress times the unit normal given to the callback) on the edges (faces) returned by Features::new, so they vanish at the points inside. The same holds for a constant flux with vec_03_bv and vec_01_ns_bry. The stiffness matrices of mat_10_bdb times nodal displacements that are linear in the position give exactly the nodal forces of the corresponding constant stress, and mat_03_btb times linear nodal temperatures the flows of the constant flux. The error is a constant of the mesh times the accuracy of the integration rules, and the default rules are good enough in all plane meshes, and in meshes of tet4, tet10, hex8 and hex20.", "quantifier": "all valid conforming meshes in the plane and in space (any kinds, mixed, curved) on which gradients can be computed, all constant stresses, fluxes, stiffnesses and linear fields, all points, all rules exact up to an accuracy for the degree needed", "why_tests_cant": "the patch test is run by users on a handful of meshes with a tolerance; whether the volume integrals, the boundary integrals, the normals, the boundary extraction and the default rules agree for every mesh and element is a statement about all of them", "anchors": ["src/integ/vec_04_bt.rs:vec_04_bt", "src/integ/vec_03_bv.rs:vec_03_bv", "src/integ/vec_02_nv_bry.rs:vec_02_nv_bry", "src/integ/vec_01_ns_bry.rs:vec_01_ns_bry", "src/integ/mat_10_bdb.rs:mat_10_bdb", "src/integ/mat_03_btb.rs:mat_03_btb", "src/integ/gauss.rs:Gauss::new", "src/mesh/features.rs:Features::new"]}
{"id": "C76", "title": "Mesh checks accept exactly the correct meshes and normals", "statement": "Mesh::check_all never panics on a mesh whose points have as many coordinates as the space has dimensions; if it succeeds, ids, numbers of nodes and point ids are consistent, all cells fit in the space, and the Jacobian determinant of the solid cells is positive at (1/3,1/3,1/3); conversely it succeeds under these conditions. check_2d_edge_normals (check_face_normals) with the edges (faces) of the features of a valid mesh succeeds exactly if every listed edge (face) is stored and the magnitude and each component of the unit normal at its reference origin are the listed ones within the tolerance, whatever the iteration order; it panics only if a magnitude is wrong and returns an error only if a feature is missing or a direction is wrong. For straight edges the magnitude is half the length, for flat triangles twice the area, for parallelograms a quarter of the area; normals that are accepted exactly point out of the cell.", "quantifier": "all meshes, all maps of expected normals, all tolerances and iteration orders", "why_tests_cant": "Tests run the checks on sample meshes; acceptance and rejection for every mesh and list of normals is universal.", "anchors": ["src/mesh/check.rs:Mesh::check_all", "src/mesh/check.rs:Mesh::check_2d_edge_normals", "src/mesh/check.rs:Mesh::check_face_normals"]}
{"id": "C77", "title": "Marks drawn on a mesh are at the right places, and Draw::all draws what is asked for", "statement": "For every valid mesh: point_dots and point_ids put one dot and one text (id, and marker if asked for and not zero) at each point; cell_ids puts the label of each cell (id, and marker) at a mean of its nodes with non-negative weights, so inside the cell if its map is affine; normal_vectors draws, for each boundary edge (plane), boundary face and shell (space), exactly one line from its centre along its unit normal, which points out of the cell; its length is the multiplier times the diagonal of the box; edge_markers and face_markers draw for each marked edge and face that is stored (the points in any order) the marker and a line along its normal, text turned by angles in (-90, 90]; in space the edge markers are at the middles; boundary_edges_3d draws each edge of the boundary faces once, boundary_faces the triangulation of exactly the boundary faces, cells all cells and the triangulation of exactly the shells; the range contains all points. Draw::all succeeds and gives exactly the layers asked for, if the features can be found or are not needed; it panics if they are needed and the points have no extent in one direction (e.g. a flat shell in space).", "quantifier": "all valid meshes in the plane and in space, all options, all hash-map orders", "why_tests_cant": "Tests only check that figures are written; the positions for every mesh are universal.", "anchors": ["src/mesh/draw.rs:Draw::all", "src/mesh/draw.rs:Draw::point_dots", "src/mesh/draw.rs:Draw::point_ids", "src/mesh/draw.rs:Draw::cells", "src/mesh/draw.rs:Draw::cell_ids", "src/mesh/draw.rs:Draw::edge_markers", "src/mesh/draw.rs:Draw::face_markers", "src/mesh/draw.rs:Draw::normal_vectors", "src/mesh/draw.rs:Draw::boundary_edges_3d", "src/mesh/draw.rs:Draw::boundary_faces", "src/mesh/draw.rs:Draw::config_plot_range"]}
{"id": "C78", "title": "The extracted boundary encloses exactly the cells", "statement": "For every valid mesh in the plane whose cells fit together (no edge is run through twice in the same direction) and have convex counterclockwise corner polygons (triangles and quadrilaterals of any order): the boundary edges returned by Features::new(mesh, false), taken as directed sides from their second to their first point, run around a point (on no side of a cell) exactly as often as there are cells whose corner polygon contains the point. So points inside the boundary are in a cell, points outside are in none, and cells do not overlap where the boundary runs at most once around the points. It does not matter how the boundary is subdivided. In a mesh of Tri3, the cell search (GridCells) finds a cell exactly for the points enclosed by the boundary, and it is the only one where the winding number is one.", "quantifier": "all meshes, kinds of plane cells, points of the plane that are on no side of a cell, iteration orders, settings of the grid", "why_tests_cant": "the winding number is a sum over a boundary of arbitrary size and holds for a continuum of points; overlap and holes cannot be excluded by sampling points", "anchors": ["src/mesh/features.rs:Features::new", "src/mesh/algorithms/extract_features_2d.rs", "src/shapes/tri3.rs:EDGE_NODE_IDS", "src/shapes/qua4.rs:EDGE_NODE_IDS", "src/mesh/grid_cells.rs:GridCells"]}
{"id": "C79", "title": "Maps of cells are one-to-one; which cells are valid", "statement": "For pads of kind Tri3, Tri6, Qua4, Tet4 and Tet10 (dimension of the cell = dimension of the space): if calc_jacobian succeeds at all local coordinates of the reference cell, different local coordinates of the reference cell give different points in calc_coords. For a Qua4 in the plane, calc_jacobian succeeds with a positive determinant at all local coordinates if and only if the four corners are a convex counterclockwise polygon; then calc_coords maps the reference square onto exactly this polygon and every point has one pair of local coordinates; the same for Tri3. Mesh::check_all guarantees a positive determinant everywhere and a one-to-one map for Tri3 and Tet4, but not for Qua4: it accepts a quadrilateral with a reentrant corner. The local coordinates returned by approximate_ksi are as near to the exact ones as the tolerance and the Jacobian halfway allow. In a mesh of convex Tri3 and Qua4 whose cells fit together, every point that the extracted boundary runs around once (on no side) is at exactly one pair of local coordinates of exactly one cell, and points that it does not run around are in no cell.", "quantifier": "all coordinates of nodes, local coordinates, points, meshes", "why_tests_cant": "injectivity is a statement about all pairs of points of a continuum; sampled points do not reveal folded cells", "anchors": ["src/shapes/scratchpad_calc_jacobian.rs:Scratchpad::calc_jacobian", "src/shapes/scratchpad_calc_coords.rs:Scratchpad::calc_coords", "src/shapes/scratchpad_approximate_ksi.rs:Scratchpad::approximate_ksi", "src/mesh/check.rs:Mesh::check_all", "src/mesh/mesh.rs:Mesh::get_pad"]}
{"id": "C80", "title": "JSON files of meshes and blocks", "statement": "Mesh::read_json returns a mesh exactly when the file is a JSON document (blanks anywhere between the tokens, nothing after the value) whose value is an object in which each of the five fields occurs in exactly one member, in any order and among any other members (or an array with the five values), with values of the types of the fields; otherwise it returns the error 'cannot parse JSON file' and never panics; integers out of the range of their types are errors. Mesh::write_json writes such a document. Reading what was written returns the same mesh, whatever its contents (nothing is checked), each coordinate being replaced by what its decimal notation is read as; hence the same mesh if the conversion of the numbers is exact. A mesh with a coordinate that is not finite is written, but the file cannot be read. The same for Blocks2d and Blocks3d with their constraints.", "quantifier": "all meshes, blocks and texts", "why_tests_cant": "tests write and read a few meshes; the claim is about every mesh and every text", "anchors": ["src/mesh/mesh.rs:Mesh::read_json", "src/mesh/mesh.rs:Mesh::write_json", "src/mesh/blocks2d.rs:Blocks2d::read_json", "src/mesh/blocks2d.rs:Blocks2d::write_json", "src/mesh/blocks3d.rs:Blocks3d::read_json", "src/mesh/blocks3d.rs:Blocks3d::write_json"]}
{"id": "C81", "title": "Command-line programs", "statement": "qua2msh and hex2msh choose the quadrilateral (hexahedron) with the number of nodes asked for and reject other numbers; if the input file, the number of nodes or the generator fails nothing is written. Given the file of usable blocks that can be put together, the MSH file written is read as the mesh that is nothing but the meshes of the regions put together (with renumbering: in another order of the points); a VTU file follows if and only if the cells have a VTK type (it cannot fail after the MSH file was written), then the drawing if it was asked for. msh2tri and msh2tet give the generator exactly the PSLG (PLC) of the mesh of the input file, and write its answer in a file that is read as this mesh, or nothing; msh2tet panics without the option --region. drawmsh writes nothing if the file cannot be read, the mesh does not pass check_all (unless skipped) or the glyph is not given by three numbers, and otherwise one drawing whose layers are those asked for by the options.", "quantifier": "all input texts, options, formats of the numbers, iteration orders and (contract-abiding) generators", "why_tests_cant": "the programs have no tests; the claims are about every input file and option", "anchors": ["src/bin/qua2msh.rs:main", "src/bin/hex2msh.rs:main", "src/bin/msh2tri.rs:main", "src/bin/msh2tet.rs:main", "src/bin/drawmsh.rs:main", "src/bin/drawmsh.rs:get_glyph_origin"]}
{"id": "C82", "title": "Statistics and printed graphs, edges and faces", "statement": "The number of nodes of an undirected graph is that of its source, and without self-loops the number of edges is the number of linked pairs and the density is the fraction of the pairs of nodes that are linked (0 for fewer than two nodes; with self-loops it may exceed 1); the printed pattern has one line for each node in which the symbol of a node is # if the two nodes are linked, and otherwise D on the diagonal and a dot elsewhere. For a directed graph, after any history of calls, the numbers of nodes and edges are those of the table of edges; the printed table of distances after shortest_paths_fw has in row i and column j the length of a shortest path from i to j, or the sign for infinity if and only if there is no path, and the table of next hops the first node of a shortest path. A list of edges (faces) is always printed, and two lists are printed as the same text if and only if they consist of edges (faces) with the same ends (corner points) in the same order.", "quantifier": "all graphs, edge tables, histories of calls, iteration orders, and lists of edges and faces of a checked mesh", "why_tests_cant": "unit tests print a few tiny graphs and meshes; the claims are about every graph and list", "anchors": ["src/graph/graph_und.rs:get_nnode", "src/graph/graph_und.rs:get_nedge", "src/graph/graph_und.rs:density", "src/graph/graph_und.rs:print_non_zero_pattern", "src/graph/graph_dir.rs:get_nnode", "src/graph/graph_dir.rs:get_nedge", "src/graph/graph_dir.rs:str_mat", "src/mesh/edges.rs:Display", "src/mesh/faces.rs:Display"]}
{"id": "C83", "title": "Printed summaries of the grids", "statement": "The summary of a grid search structure, after any history of insertions, has one line for each non-empty container, in ascending order, with the ascending identifiers of the items touching this container, followed by all identifiers inserted and the numbers of items, containers and divisions. The summaries of a grid of cells list the containers, the cells they hold (those whose bounding box touches the container and that are not large) and the large cells, each in ascending order and independently of the order of the hash tables; the total number of cells is that of the mesh, since every cell is either large or in a container, and the maximum and the list of the numbers of items are those of the containers; the limits given back are those of the grid.", "quantifier": "all histories of insertions, all meshes and parameters within the hypotheses of C12 and C35, all iteration orders of the hash tables", "why_tests_cant": "unit tests print a few grids; the order of the hash tables is random in Rust", "anchors": ["src/util/grid_search.rs:Display", "src/mesh/grid_cells.rs:Display", "src/mesh/grid_cells.rs:stat", "src/mesh/grid_cells.rs:limits"]}
{"id": "C84", "title": "Drawing of a shape", "statement": "draw_shape draws nothing and returns an error before all coordinates are set, and never fails afterwards. A shape of two or three dimensions is drawn by one open broken line for each of its edges, through the images under the isoparametric map of the eleven evenly spaced points of the reference edge, from the node of its first end to that of its second end (for linear shapes: the evenly spaced points of the straight segment); a line by one such broken line. If asked for, every node gets one label with its number at its position, those of corners told apart in the plane and for solids; and the range of the plot is the box of the nodes with margins of 2% (of 0.02 if the box is flat in x or y; a box that is flat in z has no margin).", "quantifier": "all kinds, space dimensions, coordinates and options", "why_tests_cant": "unit tests draw a few shapes without looking at the result", "anchors": ["src/shapes/scratchpad_draw_shape.rs:draw_shape", "src/shapes/scratchpad_draw_shape.rs:draw_edge"]}
{"id": "C85", "title": "Drawings of grids and blocks", "statement": "Drawing a search grid, a grid of cells or a block never fails. The drawing of a search grid shows the grid and one dot (with the number of the item, if asked for) per stored item: every item has a dot at its current position, and there is no dot at a position that was never inserted. The drawing of a grid of cells shows every cell of the mesh (with its number at the mean of its points), the grid, and the bounding box of every cell, each side of a box once. The drawing of a block shows the circle of every constrained side and the shape of the block.", "quantifier": "all histories of insertions, valid meshes, histories of calls of the setters of a block, options, and orders of iteration of the hash tables", "why_tests_cant": "unit tests draw a few grids without looking at the result, in one order of iteration", "anchors": ["src/util/grid_search.rs:draw", "src/mesh/grid_cells.rs:draw", "src/mesh/block.rs:draw"]}
{"id": "C86", "title": "Drawing of a directed graph", "statement": "GraphDir::draw returns an error iff the number of positions differs from the number of nodes, and otherwise succeeds. It shows a circle at each node with its number (or the text given for it), and for each edge, in the order of the table, an arrow that starts on the circle of its first node and ends on that of its second node, runs in parallel to the line of the centers and on its right by half of the gap (at most the radius), in the direction of the edge if the circles are apart; so that opposite edges are drawn on opposite sides. The text of an edge (its number, its weight, both, or the text given for it) is as far from both nodes, on the right of the arrow. The range is the box of the nodes widened by two radii.", "quantifier": "all graphs with ids 0..n-1, histories of calls, positions (pairwise different at the ends of an edge) and options", "why_tests_cant": "unit tests draw a few graphs without looking at the result", "anchors": ["src/graph/graph_dir.rs:draw"]}
{"id": "C87", "title": "The extracted boundary of a mesh of tetrahedra encloses exactly the cells", "statement": "For every valid mesh in space whose solid cells are tetrahedra (Tet4) with positive volume that fit together (cells with a common face run through its rim in opposite directions, and no three cells have a common face): a ray from a point (on no face of a cell) in a direction passing by all edges of the cells pierces the triangles returned by Features::new(mesh, false), counted +1 outwards and -1 inwards, exactly as often as there are cells that contain the point. So points enclosed by the boundary are in a cell, other points are in none, the number does not depend on the direction, and cells do not overlap at points where it is at most one. Such a direction exists for every point that is on no line through two nodes of a cell. The cell search (GridCells) finds a cell exactly for the points enclosed by the boundary, and it is the only one where the number is one.", "quantifier": "all meshes of tetrahedra, points of space on no face of a cell, directions that pass by the edges, iteration orders, settings of the grid", "why_tests_cant": "the count is a sum over a boundary of arbitrary size and holds for a continuum of points and directions; overlap and holes cannot be excluded by sampling points", "anchors": ["src/mesh/features.rs:Features::new", "src/mesh/algorithms/extract_features_3d.rs", "src/mesh/algorithms/extract_all_faces.rs", "src/shapes/tet4.rs:FACE_NODE_IDS", "src/mesh/grid_cells.rs:GridCells"]}
{"id": "C88", "title": "The search grid works with rounding", "statement": "For floating-point arithmetic with correctly rounded operations (relative error u at most 1/100, e.g. double precision, without overflow and underflow), GridSearch::insert and GridSearch::search accept exactly the points that are not outside the grid; a search at the coordinates of an inserted point always finds a point; if the containers are larger than twice the tolerance by 40 rounding errors of the largest coordinate, then container numbers are in range and a search at floating-point coordinates finds a point whenever an inserted point is within (1 - 8u) times the tolerance in each direction; a point found is at most (1 + 8u) times the square root of the dimension times the tolerance away.", "quantifier": "all roundings that keep the order, do nothing to floating-point numbers and have a relative error of at most u; all grids, histories of insertions, points, iteration orders", "why_tests_cant": "rounding errors depend on all digits of the coordinates; a search that fails may need one particular pair of points near the border of a container", "anchors": ["src/util/grid_search.rs:GridSearch", "src/util/num_divisions.rs", "src/geometry/algorithms.rs:point_point_distance"]}
{"id": "C89", "title": "Cuthill-McKee numbers level by level", "statement": "For a connected graph, the ordering returned by GraphUnd::cuthill_mckee, read backwards, starts at the given node (or at the node returned by pseudo_peripheral); every other node comes after one of its neighbours; nodes are sorted by the place of their first neighbour, then by degree, then by id. This fixes the ordering completely, whatever was done before with the graph object. The distance to the root never decreases along it, so adjacent nodes are never farther apart than two consecutive levels are long together; consequently the bandwidth of a mesh after GraphUnd::renumber_mesh, as calc_bandwidth reports it, is at most the number of points of two consecutive levels around the pseudo-peripheral point. The bandwidth may nevertheless increase: a star of four bars goes from 3 to 4.", "quantifier": "all connected graphs and meshes, all start nodes, all states of the graph object, all pairs of adjacent nodes", "why_tests_cant": "the ordering depends on a queue, on flags and on sorted rows that interact over the whole run; tests compare a few orderings with stored lists, and cannot show a bound for every mesh", "anchors": ["src/graph/graph_und.rs:GraphUnd::cuthill_mckee", "src/graph/graph_und.rs:GraphUnd::pseudo_peripheral", "src/graph/graph_und.rs:GraphUnd::calc_bandwidth", "src/graph/graph_und.rs:GraphUnd::renumber_mesh"]}
{"id": "C90", "title": "Renumbering the points does not change the features", "statement": "Renumber the points of a valid mesh (Mesh::renumber_points with any permutation, hence also GraphUnd::renumber_mesh) and extract the features before and after, with any iteration orders of the hash maps. The same number of boundary (or all) edges in 2D and faces in 3D is found; each is found again with the same kind and with the new numbers of the same points in the same order; the edges of the faces join the new numbers of the same end points; the points of the features are the new numbers of the old ones; the limits are equal; the neighbours of a cell are the same cells across the same local edges.", "quantifier": "all valid meshes, all permutations, all iteration orders, with and without inner entities", "why_tests_cant": "the extraction groups entities by sorted point numbers, and every permutation changes all keys and orders; a test can try a few permutations", "anchors": ["src/mesh/mesh.rs:Mesh::renumber_points", "src/mesh/algorithms/extract_features_2d.rs:extract_features_2d", "src/mesh/algorithms/extract_features_3d.rs:extract_features_3d", "src/mesh/algorithms/extract_all_2d_edges.rs:extract_all_2d_edges", "src/mesh/algorithms/extract_all_faces.rs:extract_all_faces", "src/mesh/features.rs:Features::get_neighbors_2d"]}
{"id": "C91", "title": "Point-in-triangle test in floating-point arithmetic", "statement": "With every operation of triangle_coords rounded (as in double precision, u = 2^-53) and all coordinates at most M in magnitude: points farther from the edges than the rounding error (depth = edge length times distance at least 23 u M^2) are found by in_triangle exactly if they are inside; the corners of a triangle are always found; two triangles on the two sides of a common edge never both exclude a point because of that edge, whatever corners they start with, so points on or near a common edge are not lost; and a point in a fan of triangles around a corner is found in one of them unless it is within the rounding error of the corner. There it can be lost: a concrete point one unit in the last place from the common corner of three triangles is found in none of them.", "quantifier": "all roundings that keep the order, are odd, idempotent and have relative error u <= 1/100 (so IEEE binary64 without overflow and underflow); all triangles not flatter than the rounding error; all points; all fans", "why_tests_cant": "the loss of points between cells depends on the last bits of the coordinates; tests use a few exact values", "anchors": ["src/geometry/triangle.rs:triangle_coords", "src/geometry/triangle.rs:in_triangle"]}
{"id": "C92", "title": "Point-in-tetrahedron test in floating-point arithmetic", "statement": "With every operation of tetrahedron_coords rounded (as in double precision, u = 2^-53) and all coordinates at most M in magnitude: for tetrahedra not flatter than the rounding error (six times the volume above 400 u M^3), points farther from the faces than the rounding error (twice the area of the face times the distance at least 225 u M^3) are found by in_tetrahedron exactly if they are inside. Unlike in 2D, the margin is needed everywhere on the faces: a concrete tetrahedron does not contain its own corner according to the test, and a concrete point in the middle of the common face of two tetrahedra is found in neither.", "quantifier": "all roundings that keep the order, are idempotent and have relative error u <= 1/100 (so IEEE binary64 without overflow and underflow); all tetrahedra and points", "why_tests_cant": "the computed signs depend on the last bits of the coordinates; tests use a few exact values", "anchors": ["src/geometry/tetrahedron.rs:tetrahedron_coords", "src/geometry/tetrahedron.rs:in_tetrahedron"]}
{"id": "C93", "title": "Shortest paths in floating-point arithmetic", "statement": "With every addition rounded (as in double precision, u = 2^-53) and n nodes: after shortest_paths_fw the stored distance of two nodes is at most (1+u)^n times the length of every walk and at least (1-u)^n times the length of some walk, so that its relative error is at most 2 n u; if there is no walk, it is f64::MAX. path(a, b) always terminates; it returns a walk without repeated nodes along the given edges whose exact length is at most ((1+u)/(1-u))^(n^2) (1+u)^n times the least one, or the error no path found.", "quantifier": "all roundings that keep the order, are idempotent and have relative error u <= 1/100 (so IEEE binary64 without underflow); all simple graphs, all non-negative weights below the largest number, all call sequences", "why_tests_cant": "the order in which sums are rounded depends on the graph and on the phase of the algorithm; tests use weights whose sums are exact", "anchors": ["src/graph/graph_dir.rs:GraphDir::shortest_paths_fw", "src/graph/graph_dir.rs:GraphDir::path", "src/graph/graph_dir.rs:GraphDir::calc_dist_and_next"]}
{"id": "C94", "title": "Results do not depend on the frame of reference", "statement": "If an element is rotated and translated (and the vectors and tensors returned by the callback are rotated with it), then: calc_coords gives the moved points, calc_jacobian the same determinant, calc_gradient the rotated gradients, calc_normal_vector the same magnitude and the rotated normal; scalar_field and the routines with scalar results (vec_01_ns, vec_01_ns_bry, vec_03_bv, mat_01_nsn, mat_01_nsn_bry, mat_02_bvn, mat_03_btb) give the same vector or matrix; in the others (vec_02_nv, vec_02_nv_bry, vec_04_bt, mat_04_nsb to mat_10_bdb) the components of each node are rotated.", "quantifier": "all kinds, coordinates, rotations and translations in 2D and 3D, all integration points, all callbacks (plane or 3D, not axisymmetric)", "why_tests_cant": "a property of pairs of runs over all rotations; tests use a few elements aligned with the axes", "anchors": ["src/integ/vec_04_bt.rs:vec_04_bt", "src/integ/mat_03_btb.rs:mat_03_btb", "src/integ/mat_10_bdb.rs:mat_10_bdb", "src/shapes/scratchpad_calc_jacobian.rs:calc_jacobian", "src/shapes/scratchpad_calc_gradient.rs:calc_gradient", "src/shapes/scratchpad_calc_normal_vector.rs:calc_normal_vector"]}
{"id": "C95", "title": "Finding the cell of a point with rounded arithmetic", "statement": "GridCells::new and GridCells::search with every arithmetic operation rounded (any rounding to nearest with relative error u, e.g. double precision), on meshes of triangles or tetrahedra with coordinates of size at most M, if tolerance >= 5u(M+border_tol) and border_tol >= 10u(M+border_tol): new succeeds and all nodes are in the grid; search returns a cell at every point that is deeper in some cell than the rounding error (23uM^2 in area, 225uM^3 in volume); a returned cell contains the point up to that error and its bounding box contains it exactly; nodes of triangles are always found; an error is returned exactly for wrong lengths or points outside the limits of the grid; there is no panic. With exact arithmetic these are the functions of C35. The bounds matter: a point strictly inside a cell may be found in no cell (next to an axis-aligned edge), and with border_tol = 0 a node may be rejected as outside the grid.", "quantifier": "all meshes of Tri3 in 2D or Tet4 in 3D with cells thicker than the rounding error, all parameters as stated, all points, all iteration orders of hash sets, all roundings", "why_tests_cant": "rounding errors depend on all coordinates; tests use a few meshes and points", "anchors": ["src/mesh/grid_cells.rs:GridCells::new", "src/mesh/grid_cells.rs:GridCells::search", "src/util/calc_container_key.rs:calc_container_key"]}
{"id": "C96", "title": "Element matrices are definite; only constants and rigid motions have no energy", "statement": "With the default integration rule, positive thickness and positive Jacobians (positive radii if axisymmetric): the quadratic form of the matrix added by mat_01_nsn, mat_03_btb, mat_08_ntn or mat_10_bdb is the quadrature of the energy density of the interpolated field (s f^2, g.T.g, u.T.u, E:D:E). Hence the matrices are positive semidefinite if the coefficients are; with positive definite coefficients the mass matrices (01, 08) are positive definite, constant fields are the only ones without conduction energy (03), rigid motions have no strain energy, and in affine elements no other displacements do (10): the default rules have no spurious zero-energy modes. The exception is Qua17, whose default rule has fewer points (16) than nodes (17): its mat_01_nsn is always singular.", "quantifier": "all kinds of elements of the plane and space, all node coordinates with positive Jacobians, all coefficient functions, all blocks of the matrix, all nodal values", "why_tests_cant": "definiteness quantifies over all nodal values and geometries; tests compare a few matrices with reference values", "anchors": ["src/integ/mat_01_nsn.rs:mat_01_nsn", "src/integ/mat_03_btb.rs:mat_03_btb", "src/integ/mat_08_ntn.rs:mat_08_ntn", "src/integ/mat_10_bdb.rs:mat_10_bdb", "src/integ/gauss.rs:Gauss::new"]}
{"id": "C97", "title": "When approximate_ksi finds the local coordinates, and when it finds wrong ones", "statement": "If x is the image of local coordinates in the reference cell and the Jacobian matrix varies by less than 1/3 (relative to a fixed matrix), approximate_ksi succeeds with enough iterations (an explicit number for each tolerance), the distance to the exact coordinates shrinks by a fixed factor in each iteration, and the result is accurate up to a constant times the tolerance; the exact coordinates are then unique. For a Qua4 of any shape: if the Jacobian determinant after the first iteration has the sign of the determinant at the exact coordinates, approximate_ksi converges to them for every tolerance; if two sides are parallel it needs at most two iterations. Otherwise it may converge to wrong coordinates: for a corner of a certain convex quadrilateral with positive Jacobian everywhere, it returns Ok with coordinates far outside the reference square, whatever the tolerance.", "quantifier": "all elements of the plane and space with the stated Jacobian, all points, all tolerances, all numbers of iterations", "why_tests_cant": "convergence of an iteration quantifies over all shapes and points; tests try a few nearly regular elements", "anchors": ["src/shapes/scratchpad_approximate_ksi.rs:Scratchpad::approximate_ksi"]}
{"id": "C98", "title": "Change of the unit of length", "statement": "If all node coordinates are multiplied by c > 0 and the callbacks give the same numbers, then mapped coordinates are multiplied by c, Jacobian determinants, lengths and areas by c to the power of the dimension of the element, gradients of shape functions are divided by c and unit normal vectors do not change. What each integration routine adds to the vector or matrix (all vec_ and mat_ routines, including the boundary ones and the axisymmetric option) is multiplied by c to the power n minus the number of gradients in the integrand, where n is the dimension of the element plus one in axisymmetric analyses. The exception are surfaces in space with the routines that use calc_jacobian: their integrals do not change at all.", "quantifier": "all kinds of elements, node coordinates, factors c > 0, integration points and weights, callbacks, positions in the vector or matrix, with and without the clear and axisymmetric options", "why_tests_cant": "a statement about two runs for every element and factor; a wrong power of a length is invisible on elements of unit size, which is what tests use", "anchors": ["/repo/src/integ/*.rs", "/repo/src/shapes/scratchpad_calc_jacobian.rs", "/repo/src/shapes/scratchpad_calc_gradient.rs", "/repo/src/shapes/scratchpad_calc_normal_vector.rs"]}
{"id": "C99", "title": "Independence of the starting corner", "statement": "If the nodes of an element are listed from another starting corner (a rotation of the reference cell; a line may be turned around), every integration routine adds the same numbers, with rows and columns exchanged like the nodes (and the components of a node kept): the results do not depend on which corner the mesh generator put first. The integration points are permuted by the rotation and keep their weights, for all tables of lines, quadrilaterals and hexahedra, for the triangle tables with 1, 3, 4, 6 points and the tetrahedron tables with 1, 4, 5 points; integrals of scalar fields are equal. The renumbered element can be integrated if the first one can.", "quantifier": "all kinds of elements, node coordinates, generating rotations, tables of integration points with exact symmetry, callbacks giving the same values at the same places, positions in the vector or matrix, with and without the clear and axisymmetric options", "why_tests_cant": "a relation between two runs, for every element and callback; an element routine with swapped local nodes or an unsymmetric table passes tests that use one numbering", "anchors": ["/repo/src/integ/*.rs", "/repo/src/shapes/*.rs", "/repo/src/integ/gauss.rs"]}
{"id": "C100", "title": "Default integration points are sufficient", "statement": "On an affine element (every straight-sided triangle or tetrahedron, parallelogram or parallelepiped), a table of integration points whose exactness is at least twice the degree of the shape functions gives the integrals themselves: with constant coefficients, the numbers added by vec_01_ns to vec_04_bt and mat_01_nsn to mat_10_bdb (the coupling matrices with a second kind of the same or lower degree on the same cell) differ from the exact integrals over the element, and those added by vec_01_ns_bry, vec_02_nv_bry and mat_01_nsn_bry on straight edges and flat faces from the boundary integrals, only by the decimals of the tables (1e-9 per term, relative to the Jacobian determinant and to the sizes of the coefficients and gradients). The same rules are sufficient for the vector routines in axisymmetric analyses, where the radius is an additional factor. The default table of every kind of element is sufficient, except that of Qua17: on the reference square the mass entry of node 4 is below 0.3, where the integral is above 0.41.", "quantifier": "all affine elements of all kinds with geo_ndim = space_ndim, or geo_ndim + 1 = space_ndim for the boundary routines, all tables with sufficient exactness, all constant coefficients and positions in the vector or matrix", "why_tests_cant": "a statement about the exact value of an integral for every element shape; a test compares a few elements with hand-computed numbers", "anchors": ["/repo/src/integ/*.rs", "/repo/src/integ/gauss.rs", "/repo/src/shapes/*.rs"]}
