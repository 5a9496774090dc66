{
 "claims": [
  {
   "property": "C01",
   "status": "proved",
   "theorems": [
    "Gemlab.Props.GraphUnd.C01_connectivity_check_exact",
    "Gemlab.Props.GraphUnd.C01_without_check",
    "Gemlab.Props.GraphUnd.C01_bad_ids_panic",
    "Gemlab.Props.GraphUnd.C01_empty_graph_check_panics"
   ],
   "note": "all edge lists with contiguous ids and all meshes; the other inputs are shown to panic"
  },
  {
   "property": "C02",
   "status": "proved",
   "theorems": [
    "Gemlab.Props.GraphUnd.C02_calc_distance"
   ],
   "note": ""
  },
  {
   "property": "C03",
   "status": "proved",
   "theorems": [
    "Gemlab.Props.GraphUnd.C03_shortest_path",
    "Gemlab.Props.GraphUnd.C03_unreachable"
   ],
   "note": ""
  },
  {
   "property": "C04",
   "status": "proved",
   "theorems": [
    "Gemlab.Props.GraphUnd.C04_cuthill_mckee_permutation",
    "Gemlab.Props.GraphUnd.C04_disconnected_not_permutation"
   ],
   "note": "second theorem: witness that connectedness is needed"
  },
  {
   "property": "C05",
   "status": "proved",
   "theorems": [
    "Gemlab.Props.GraphUnd.C05_old_to_new_inverse"
   ],
   "note": ""
  },
  {
   "property": "C06",
   "status": "proved",
   "theorems": [
    "Gemlab.Props.Mesh.C06_ok_iff_permutation",
    "Gemlab.Props.Mesh.C06_points",
    "Gemlab.Props.Mesh.C06_cells",
    "Gemlab.Props.Mesh.C06_marked_entities_not_renumbered",
    "Gemlab.Props.Mesh.C06_marked_edge_moves",
    "Gemlab.Props.Mesh.C06_error_leaves_mesh_modified",
    "Gemlab.Props.Mesh.C06_renumber_mesh",
    "Gemlab.Props.Mesh.C06_renumber_succeeds"
   ],
   "note": "includes two witnesses of defects: stale marked edges, mesh modified on error"
  },
  {
   "property": "C07",
   "status": "proved",
   "theorems": [
    "Gemlab.Props.GraphUnd.C07_bandwidth"
   ],
   "note": ""
  },
  {
   "property": "C08",
   "status": "proved",
   "theorems": [
    "Gemlab.Props.GraphUnd.C08_has_edge_and_degree",
    "Gemlab.Props.GraphUnd.C08_edge_list",
    "Gemlab.Props.GraphUnd.C08_mesh_no_self",
    "Gemlab.Props.GraphUnd.C08_min_degree",
    "Gemlab.Props.GraphUnd.C08_self_loop"
   ],
   "note": ""
  },
  {
   "property": "C09",
   "status": "proved",
   "theorems": [
    "Gemlab.Props.GraphDir.C09_calls_succeed",
    "Gemlab.Props.GraphDir.C09_bad_ids_panic",
    "Gemlab.Props.GraphDir.C09_floyd_warshall",
    "Gemlab.Props.GraphDir.C09_last_parallel_edge_wins",
    "Gemlab.Props.GraphDir.C09_parallel_edges_not_minimal",
    "Gemlab.Props.GraphDir.C09_self_loop_nonzero_diagonal"
   ],
   "note": "exact for graphs without parallel edges and self loops; the other theorems are counterexamples/characterisation for those"
  },
  {
   "property": "C10",
   "status": "proved",
   "theorems": [
    "Gemlab.Props.GraphDir.C10_path",
    "Gemlab.Props.GraphDir.C10_path_not_ready",
    "Gemlab.Props.GraphDir.C10_calc_dist_and_next_breaks_path"
   ],
   "note": ""
  },
  {
   "property": "C100",
   "status": "proved",
   "theorems": [
    "Gemlab.Props.Integ.C100_vec_01_ns",
    "Gemlab.Props.Integ.C100_vec_02_nv",
    "Gemlab.Props.Integ.C100_vec_03_bv",
    "Gemlab.Props.Integ.C100_vec_04_bt",
    "Gemlab.Props.Integ.C100_mat_01_nsn",
    "Gemlab.Props.Integ.C100_mat_02_bvn",
    "Gemlab.Props.Integ.C100_mat_03_btb",
    "Gemlab.Props.Integ.C100_mat_04_nsb",
    "Gemlab.Props.Integ.C100_mat_05_btn",
    "Gemlab.Props.Integ.C100_mat_06_nvn",
    "Gemlab.Props.Integ.C100_mat_07_bsn",
    "Gemlab.Props.Integ.C100_mat_08_ntn",
    "Gemlab.Props.Integ.C100_mat_09_nvb",
    "Gemlab.Props.Integ.C100_mat_10_bdb",
    "Gemlab.Props.Integ.C100_axisymmetric_vec_01_ns",
    "Gemlab.Props.Integ.C100_axisymmetric_vec_02_nv",
    "Gemlab.Props.Integ.C100_axisymmetric_vec_03_bv",
    "Gemlab.Props.Integ.C100_axisymmetric_vec_04_bt",
    "Gemlab.Props.Integ.C100_vec_01_ns_bry",
    "Gemlab.Props.Integ.C100_vec_02_nv_bry",
    "Gemlab.Props.Integ.C100_mat_01_nsn_bry",
    "Gemlab.Props.Integ.C100_default",
    "Gemlab.Props.Integ.C100_affine",
    "Gemlab.Props.Integ.C100_simplex",
    "Gemlab.Props.Integ.C100_qua17"
   ],
   "note": "real arithmetic; the matrix inversion of the library is assumed to return an inverse (InverseSpec); constant coefficients; axisymmetric analyses only for the vector routines; rules of total degree on quadrilaterals and hexahedra are outside the hypothesis Enough"
  },
  {
   "property": "C11",
   "status": "proved",
   "theorems": [
    "Gemlab.Props.GraphDir.C11_path_terminates"
   ],
   "note": "any rounded addition that is monotone and never below its arguments"
  },
  {
   "property": "C12",
   "status": "proved",
   "theorems": [
    "Gemlab.C12_search_finds"
   ],
   "note": "exact real arithmetic; any iteration order of the hash maps; last position of an id if it was inserted several times"
  },
  {
   "property": "C13",
   "status": "proved",
   "theorems": [
    "Gemlab.C13_search_sound",
    "Gemlab.C13_none_means_far",
    "Gemlab.C13_distinct_ids",
    "Gemlab.C13_reinsertion_keeps_old_position"
   ],
   "note": "last theorem: witness of stale entries after re-insertion"
  },
  {
   "property": "C14",
   "status": "proved",
   "theorems": [
    "Gemlab.C14_line",
    "Gemlab.C14_line_errors",
    "Gemlab.C14_circle",
    "Gemlab.C14_cylinder",
    "Gemlab.C14_plane",
    "Gemlab.C14_wrong_dimension"
   ],
   "note": ""
  },
  {
   "property": "C15",
   "status": "proved",
   "theorems": [
    "Gemlab.C15_ok_iff",
    "Gemlab.C15_divisions",
    "Gemlab.C15_new_ok_iff"
   ],
   "note": ""
  },
  {
   "property": "C16",
   "status": "proved",
   "theorems": [
    "Gemlab.C16_covers",
    "Gemlab.C16_insert_ok_iff",
    "Gemlab.C16_keys"
   ],
   "note": ""
  },
  {
   "property": "C17",
   "status": "proved",
   "theorems": [
    "Gemlab.Props.MeshText.C17_round_trip",
    "Gemlab.Props.MeshText.C17_write_read",
    "Gemlab.Props.MeshText.C17_write_no_cells",
    "Gemlab.Props.MeshText.C17_injective",
    "Gemlab.Props.MeshText.C17_marked_without_cells"
   ],
   "note": "texts are lists of characters; integers are formatted and parsed as in Rust (64-bit usize, i32); float formatting and parsing is a parameter assumed lossless on the coordinates of the mesh; the exception (marked edges without cells) is proved"
  },
  {
   "property": "C18",
   "status": "proved",
   "theorems": [
    "Gemlab.Props.MeshText.C18_from_text_iff",
    "Gemlab.Props.MeshText.C18_read_iff",
    "Gemlab.Props.MeshText.C18_consistent",
    "Gemlab.Props.MeshText.C18_comments_ignored",
    "Gemlab.Props.MeshText.C18_layout",
    "Gemlab.Props.MeshText.C18_crlf",
    "Gemlab.Props.MeshText.C18_panics_iff",
    "Gemlab.Props.MeshText.C18_usize",
    "Gemlab.Props.MeshText.C18_i32"
   ],
   "note": "acceptance characterised exactly; file contents are valid UTF-8; the exact condition for the panic (ndim < 2) is proved"
  },
  {
   "property": "C19",
   "status": "proved",
   "theorems": [
    "Gemlab.Props.Mesh.C19_check_ids_and_kind",
    "Gemlab.Props.Mesh.C19_check_never_panics",
    "Gemlab.Props.Mesh.C19_good_cells",
    "Gemlab.Props.Mesh.C19_new_zero_homogeneous"
   ],
   "note": ""
  },
  {
   "property": "C20",
   "status": "proved",
   "theorems": [
    "Gemlab.Mesh.C20_join",
    "Gemlab.Mesh.C20_coordinates",
    "Gemlab.Mesh.C20_valid",
    "Gemlab.Mesh.C20_wrong_ndim",
    "Gemlab.Mesh.C20_succeeds",
    "Gemlab.Mesh.C20_triangular_faces",
    "Gemlab.Mesh.C20_join_meshes"
   ],
   "note": "exact reals; any iteration order of the hash maps; C20_triangular_faces: witness that a marked triangular face of the second mesh panics"
  },
  {
   "property": "C21",
   "status": "proved",
   "theorems": [
    "Gemlab.Props.Features.C21_all_edges",
    "Gemlab.Props.Features.C21_features_2d",
    "Gemlab.Props.Features.C21_edge_key"
   ],
   "note": ""
  },
  {
   "property": "C22",
   "status": "proved",
   "theorems": [
    "Gemlab.Props.Features.C22_all_faces",
    "Gemlab.Props.Features.C22_features_3d",
    "Gemlab.Props.Features.C22_deterministic",
    "Gemlab.Props.Features.C22_same_key_iff",
    "Gemlab.Props.Features.C22_corner_kinds",
    "Gemlab.Props.Features.C22_tet10_internal_face_reported"
   ],
   "note": "last theorem: witness that the mid-edge node used as key for Tet10 makes a shared internal face look like two boundary faces"
  },
  {
   "property": "C23",
   "status": "proved",
   "theorems": [
    "Gemlab.Props.Features.C23_neighbors",
    "Gemlab.Props.Features.C23_symmetric"
   ],
   "note": ""
  },
  {
   "property": "C24",
   "status": "proved",
   "theorems": [
    "Gemlab.Props.Mesh.C24_search_marked_points",
    "Gemlab.Props.Mesh.C24_search_marked_points_unique",
    "Gemlab.Props.Mesh.C24_search_first_marked_point",
    "Gemlab.Props.Mesh.C24_get_limits",
    "Gemlab.Props.Mesh.C24_get_cell_bounding_box",
    "Gemlab.Props.Mesh.C24_get_sorted_points"
   ],
   "note": "argsort of russell_lab is assumed to sort (hypothesis ArgsortSpec)"
  },
  {
   "property": "C25",
   "status": "proved",
   "theorems": [
    "Gemlab.Props.Shapes.C25_sizes",
    "Gemlab.Props.Shapes.C25_partition_of_unity",
    "Gemlab.Props.Shapes.C25_derivatives_sum_to_zero"
   ],
   "note": ""
  },
  {
   "property": "C26",
   "status": "proved",
   "theorems": [
    "Gemlab.Props.Shapes.C26_kronecker",
    "Gemlab.Props.Shapes.C26_interpolation_at_nodes",
    "Gemlab.Props.Shapes.C26_nodes_distinct"
   ],
   "note": ""
  },
  {
   "property": "C27",
   "status": "proved",
   "theorems": [
    "Gemlab.Props.Shapes.C27_derivatives"
   ],
   "note": ""
  },
  {
   "property": "C28",
   "status": "proved",
   "theorems": [
    "Gemlab.Props.Shapes.C28_affine_reproduced",
    "Gemlab.Props.Shapes.C28_calc_coords_affine",
    "Gemlab.Props.Shapes.C28_calc_coords_nodes",
    "Gemlab.Props.Shapes.C28_jacobian_affine"
   ],
   "note": ""
  },
  {
   "property": "C29",
   "status": "proved",
   "theorems": [
    "Gemlab.Props.Shapes.C29_edge_trace",
    "Gemlab.Props.Shapes.C29_face_trace",
    "Gemlab.Props.Shapes.C29_edge_interpolation",
    "Gemlab.Props.Shapes.C29_face_interpolation",
    "Gemlab.Props.Shapes.C29_edge_conforming",
    "Gemlab.Props.Shapes.C29_edge_conforming_same",
    "Gemlab.Props.Shapes.C29_face_conforming",
    "Gemlab.Props.Shapes.C29_symmetries_map_nodes",
    "Gemlab.Mesh.C29_mesh_edges",
    "Gemlab.Mesh.C29_mesh_faces"
   ],
   "note": "the theorems for meshes take the compatibility of neighbours as a hypothesis (ConformingEdges, ConformingFaces), shown for subdivided blocks in C74_block_2d and C74_block_3d"
  },
  {
   "property": "C30",
   "status": "proved",
   "theorems": [
    "Gemlab.Props.Shapes.C30_tables_well_formed",
    "Gemlab.Props.Shapes.C30_edge_nodes_position",
    "Gemlab.Props.Shapes.C30_inward_is_reversed",
    "Gemlab.Props.Shapes.C30_inward_3d",
    "Gemlab.Props.Shapes.C30_edges_outward",
    "Gemlab.Props.Shapes.C30_faces_outward",
    "Gemlab.Props.Shapes.C30_face_edges",
    "Gemlab.Props.Shapes.C30_edge_in_two_faces",
    "Gemlab.Props.Shapes.C30_hex_edge_to_face",
    "Gemlab.Props.Shapes.C30_interior_nodes"
   ],
   "note": ""
  },
  {
   "property": "C31",
   "status": "proved",
   "theorems": [
    "Gemlab.Scratchpad.C31_jacobian",
    "Gemlab.Scratchpad.C31_det",
    "Gemlab.Scratchpad.C31_gradient",
    "Gemlab.Scratchpad.C31_affine_field",
    "Gemlab.Scratchpad.C31_spatial_derivative",
    "Gemlab.Scratchpad.C31_gradient_errors",
    "Gemlab.Scratchpad.C31_affine_element"
   ],
   "note": "exact reals; mat_inverse of russell_lab by its contract (right inverse and determinant)"
  },
  {
   "property": "C32",
   "status": "proved",
   "theorems": [
    "Gemlab.Scratchpad.C32_tangent",
    "Gemlab.Scratchpad.C32_errors",
    "Gemlab.Scratchpad.C32_line_2d",
    "Gemlab.Scratchpad.C32_surface_3d"
   ],
   "note": "exact reals"
  },
  {
   "property": "C33",
   "status": "proved",
   "theorems": [
    "Gemlab.Scratchpad.C33_sound",
    "Gemlab.Scratchpad.C33_errors",
    "Gemlab.Scratchpad.C33_affine"
   ],
   "note": "exact reals; convergence is proved for affinely mapped elements (for others there is no guarantee: Newton iterations may fail, which is then an error)"
  },
  {
   "property": "C34",
   "status": "proved",
   "theorems": [
    "Gemlab.C34_triangle_coords",
    "Gemlab.C34_in_triangle",
    "Gemlab.C34_tetrahedron_coords",
    "Gemlab.C34_in_tetrahedron"
   ],
   "note": ""
  },
  {
   "property": "C35",
   "status": "proved",
   "theorems": [
    "Gemlab.GridCells.C35_new",
    "Gemlab.GridCells.C35_bad_parameters",
    "Gemlab.GridCells.C35_found",
    "Gemlab.GridCells.C35_only_containing",
    "Gemlab.GridCells.C35_not_found",
    "Gemlab.GridCells.C35_wrong_lengths",
    "Gemlab.GridCells.C35_other_kinds",
    "Gemlab.GridCells.C35_no_cells",
    "Gemlab.GridCells.C35_all_large",
    "Gemlab.GridCells.C35_flat"
   ],
   "note": "exact reals; meshes of non-degenerate tri3 (2D) or tet4 (3D); every iteration order of the hash sets; the exceptional parameter cases (all cells large with large_pct = 1, flat mesh without border, no cells, other kinds) are characterised by separate theorems"
  },
  {
   "property": "C36",
   "status": "proved",
   "theorems": [
    "Gemlab.C36_point_point",
    "Gemlab.C36_point_point_err",
    "Gemlab.C36_point_line",
    "Gemlab.C36_point_circle",
    "Gemlab.C36_point_cylinder"
   ],
   "note": ""
  },
  {
   "property": "C37",
   "status": "proved",
   "theorems": [
    "Gemlab.Props.Integ.C37_vec_01_ns",
    "Gemlab.Props.Integ.C37_vec_01_ns_bry",
    "Gemlab.Props.Integ.C37_vec_02_nv",
    "Gemlab.Props.Integ.C37_vec_02_nv_bry",
    "Gemlab.Props.Integ.C37_vec_03_bv",
    "Gemlab.Props.Integ.C37_vec_04_bt",
    "Gemlab.Props.Integ.C37_mat_01_nsn",
    "Gemlab.Props.Integ.C37_mat_01_nsn_bry",
    "Gemlab.Props.Integ.C37_mat_02_bvn",
    "Gemlab.Props.Integ.C37_mat_03_btb",
    "Gemlab.Props.Integ.C37_mat_04_nsb",
    "Gemlab.Props.Integ.C37_mat_05_btn",
    "Gemlab.Props.Integ.C37_mat_06_nvn",
    "Gemlab.Props.Integ.C37_mat_07_bsn",
    "Gemlab.Props.Integ.C37_mat_08_ntn",
    "Gemlab.Props.Integ.C37_mat_09_nvb",
    "Gemlab.Props.Integ.C37_mat_10_bdb",
    "Gemlab.Props.Integ.C37_vec_01_ns_any",
    "Gemlab.Props.Integ.C37_vec_01_ns_bry_any",
    "Gemlab.Props.Integ.C37_vec_02_nv_any",
    "Gemlab.Props.Integ.C37_vec_02_nv_bry_any",
    "Gemlab.Props.Integ.C37_vec_03_bv_any",
    "Gemlab.Props.Integ.C37_vec_04_bt_any",
    "Gemlab.Props.Integ.C37_mat_01_nsn_any",
    "Gemlab.Props.Integ.C37_mat_01_nsn_bry_any",
    "Gemlab.Props.Integ.C37_mat_02_bvn_any",
    "Gemlab.Props.Integ.C37_mat_03_btb_any",
    "Gemlab.Props.Integ.C37_mat_04_nsb_any",
    "Gemlab.Props.Integ.C37_mat_05_btn_any",
    "Gemlab.Props.Integ.C37_mat_06_nvn_any",
    "Gemlab.Props.Integ.C37_mat_07_bsn_any",
    "Gemlab.Props.Integ.C37_mat_08_ntn_any",
    "Gemlab.Props.Integ.C37_mat_09_nvb_any",
    "Gemlab.Props.Integ.C37_mat_10_bdb_any",
    "Gemlab.Props.Integ.C37_mat_10_bdb_alt",
    "Gemlab.Props.Integ.C37_mat_10_bdb_alt_size",
    "Gemlab.Props.Integ.C37_scalar_field",
    "Gemlab.Props.Integ.C37_alpha"
   ],
   "note": "Every routine adds exactly the quadrature of its integrand to its block (IsBlockSum1/2 in Spec/Integ.lean), with the gradients characterised by the chain rule, Mandel components spelt out, and the hoop strain in axisymmetric analyses; _any: whatever fails, outputs that do not fit are returned unchanged and nothing outside of the block is written. Exact real arithmetic; the inverse of small matrices (russell_lab) is an oracle with InverseSpec."
  },
  {
   "property": "C38",
   "status": "proved",
   "theorems": [
    "Gemlab.Props.Integ.C38_mat_01_nsn",
    "Gemlab.Props.Integ.C38_mat_03_btb",
    "Gemlab.Props.Integ.C38_mat_08_ntn",
    "Gemlab.Props.Integ.C38_mat_10_bdb"
   ],
   "note": "The added matrix is symmetric; for mat_10_bdb if the Mandel matrix of the moduli is symmetric."
  },
  {
   "property": "C39",
   "status": "proved",
   "theorems": [
    "Gemlab.Props.Integ.C39_vec_01_total",
    "Gemlab.Props.Integ.C39_mat_01_rows",
    "Gemlab.Props.Integ.C39_vec_03_bv",
    "Gemlab.Props.Integ.C39_vec_04_bt",
    "Gemlab.Props.Integ.C39_mat_03_btb",
    "Gemlab.Props.Integ.C39_mat_10_patch",
    "Gemlab.Props.Integ.C39_mat_10_rigid"
   ],
   "note": "Includes the patch test for linear displacement fields; in axisymmetric analyses only axial equilibrium holds."
  },
  {
   "property": "C40",
   "status": "proved",
   "theorems": [
    "Gemlab.C40_available",
    "Gemlab.C40_exact",
    "Gemlab.C40_inside",
    "Gemlab.C40_weights",
    "Gemlab.C40_positive_weights",
    "Gemlab.C40_default"
   ],
   "note": "For every rule and every polynomial it covers, |quadrature - integral| <= accuracy * sum |coefficients| (accuracy between 0 and 7e-15, given per rule); the integral is Mathlib's (iterated interval integrals over the reference domain). The tables are the source literals read as rationals; the moments are computed in the kernel over Q."
  },
  {
   "property": "C41",
   "status": "proved",
   "theorems": [
    "Gemlab.Block.C41_partition",
    "Gemlab.Block.C41_set_ndiv",
    "Gemlab.Block.C41_set_ndiv_failure_is_partial",
    "Gemlab.Block.C41_weights_2d",
    "Gemlab.Block.C41_weights_3d",
    "Gemlab.Block.C41_positive",
    "Gemlab.Block.C41_weights_not_checked"
   ],
   "note": "exact reals; weights of any sign are accepted by the code (a theorem shows a negative length)"
  },
  {
   "property": "C42",
   "status": "proved",
   "theorems": [
    "Gemlab.Block.C42_mapped",
    "Gemlab.Block.C42_projection",
    "Gemlab.Block.C42_single_constraint",
    "Gemlab.Block.C42_set_edge_constraint",
    "Gemlab.Block.C42_set_face_constraint"
   ],
   "note": "exact reals; hash-map iteration orders arbitrary; mat_inverse by its contract; divisions larger than 0.0007 (of 2), smaller ones may be merged by the tolerance of the search grid; with several constrained sides the nodes within edges at their common corners may be straightened off the circle (C56_edges)"
  },
  {
   "property": "C43",
   "status": "proved",
   "theorems": [
    "Gemlab.Props.AnyPath.C43_empty",
    "Gemlab.Props.AnyPath.C43_walk",
    "Gemlab.Props.AnyPath.C43_start",
    "Gemlab.Props.AnyPath.C43_chain",
    "Gemlab.Props.AnyPath.C43_ring",
    "Gemlab.Props.AnyPath.C43_tail_revisits"
   ],
   "note": "last theorem: witness that outside chains and rings an edge may be used twice"
  },
  {
   "property": "C44",
   "status": "proved",
   "theorems": [
    "Gemlab.Props.Shapes.C44_names",
    "Gemlab.Props.Shapes.C44_round_trip",
    "Gemlab.Props.Shapes.C44_unknown_rejected",
    "Gemlab.Props.Shapes.C44_names_injective",
    "Gemlab.Props.Shapes.C44_values",
    "Gemlab.Props.Shapes.C44_coherent",
    "Gemlab.Props.Shapes.C44_reference_box"
   ],
   "note": ""
  },
  {
   "property": "C45",
   "status": "proved",
   "theorems": [
    "Gemlab.Props.Shapes.C45_tables_well_formed",
    "Gemlab.Props.Shapes.C45_all_nodes_used",
    "Gemlab.Props.Shapes.C45_positive_areas",
    "Gemlab.Props.Shapes.C45_total_area",
    "Gemlab.Props.Shapes.C45_triangles_cover",
    "Gemlab.Props.Shapes.C45_corners_inside",
    "Gemlab.Props.Shapes.C45_no_overlap"
   ],
   "note": ""
  },
  {
   "property": "C46",
   "status": "proved",
   "theorems": [
    "Gemlab.Mesh.C46_rejects",
    "Gemlab.Mesh.C46_mixed_never_converted",
    "Gemlab.Mesh.C46_converts",
    "Gemlab.Mesh.C46_upgrade_keeps_geometry",
    "Gemlab.Mesh.C46_flat_panics",
    "Gemlab.Mesh.C46_example"
   ],
   "note": "real arithmetic; all hash-map orders; conforming input is required for the sharing of middle nodes; numbers of nodes below usize::MAX; the points must not be flat (Features::new panics)"
  },
  {
   "property": "C47",
   "status": "proved",
   "theorems": [
    "Gemlab.Props.Features.C47_new",
    "Gemlab.Props.Features.C47_points",
    "Gemlab.Props.Features.C47_single_point",
    "Gemlab.Props.Features.C47_single_point_ignores_filter",
    "Gemlab.Props.Features.C47_wrong_dimension",
    "Gemlab.Props.Features.C47_edges",
    "Gemlab.Props.Features.C47_faces",
    "Gemlab.Props.Features.C47_faces_2d",
    "Gemlab.Props.Features.C47_flat_mesh_panics"
   ],
   "note": "exact reals; pure filter (Rust allows FnMut); any iteration order; radii non-negative; faces: fewer than usize::MAX points"
  },
  {
   "property": "C48",
   "status": "proved",
   "theorems": [
    "Gemlab.C48_recovers",
    "Gemlab.C48_affine_exact",
    "Gemlab.C48_affine_fewer",
    "Gemlab.C48_affine_interp",
    "Gemlab.C48_reinterpolates",
    "Gemlab.C48_one_point",
    "Gemlab.C48_one_point_constant",
    "Gemlab.C48_no_panic",
    "Gemlab.C48_succeeds",
    "Gemlab.C48_wrong_rule",
    "Gemlab.C48_example"
   ],
   "note": "real arithmetic; mat_inverse and mat_pseudo_inverse of russell_lab are parameters with contracts (inverse; Moore-Penrose conditions), met by exact functions"
  },
  {
   "property": "C49",
   "status": "proved",
   "theorems": [
    "Gemlab.Props.GraphUnd.C49_pseudo_peripheral",
    "Gemlab.Props.GraphUnd.C49_converges"
   ],
   "note": ""
  },
  {
   "property": "C50",
   "status": "proved",
   "theorems": [
    "Gemlab.C50_internal_angles",
    "Gemlab.C50_degenerate",
    "Gemlab.C50_signed_area",
    "Gemlab.C50_area_sine"
   ],
   "note": ""
  },
  {
   "property": "C51",
   "status": "proved",
   "theorems": [
    "Gemlab.Props.Features.C51_search_edges",
    "Gemlab.Props.Features.C51_search_faces",
    "Gemlab.Props.Features.C51_search_many_edges",
    "Gemlab.Props.Features.C51_search_many_faces",
    "Gemlab.Props.Features.C51_search_marked_edges",
    "Gemlab.Props.Features.C51_search_marked_faces",
    "Gemlab.Props.Features.C51_cells_via_2d_edge",
    "Gemlab.Props.Features.C51_cells_via_face",
    "Gemlab.Props.Features.C51_cells_via_2d_edges",
    "Gemlab.Props.Features.C51_cells_via_faces",
    "Gemlab.Props.Features.C51_all_points",
    "Gemlab.Props.Features.C51_boundary_edges_2d",
    "Gemlab.Props.Features.C51_boundary_edges_3d",
    "Gemlab.Props.Features.C51_search_features_2d"
   ],
   "note": ""
  },
  {
   "property": "C52",
   "status": "proved",
   "theorems": [
    "Gemlab.Mesh.C52_total",
    "Gemlab.Mesh.C52_separated_accepted",
    "Gemlab.Mesh.C52_error_means_close",
    "Gemlab.Mesh.C52_ok_same_container",
    "Gemlab.Mesh.C52_duplicates_found",
    "Gemlab.Mesh.C52_near_points_may_be_missed"
   ],
   "note": "exact reals; last theorem: witness that near (not equal) points across a container border can be missed"
  },
  {
   "property": "C53",
   "status": "proved",
   "theorems": [
    "Gemlab.Mesh.C53_set_pad",
    "Gemlab.Mesh.C53_get_pad",
    "Gemlab.Mesh.C53_check_jacobian"
   ],
   "note": "exact reals; mat_inverse by its contract"
  },
  {
   "property": "C54",
   "status": "proved",
   "theorems": [
    "Gemlab.Block.C54_new",
    "Gemlab.Block.C54_initial",
    "Gemlab.Block.C54_square",
    "Gemlab.Block.C54_cube"
   ],
   "note": "exact reals; mat_inverse by its contract (total on non-singular matrices)"
  },
  {
   "property": "C55",
   "status": "proved",
   "theorems": [
    "Gemlab.Block.C55_subdivide",
    "Gemlab.Block.C55_wrong_kind",
    "Gemlab.Block.C55_shared",
    "Gemlab.Block.C55_used",
    "Gemlab.Block.C55_valid",
    "Gemlab.Block.C55_unique",
    "Gemlab.Block.C55_deterministic",
    "Gemlab.Block.C55_npoint"
   ],
   "note": "exact reals; hash-map iteration orders arbitrary; mat_inverse by its contract; divisions larger than 0.0007 (of 2), smaller ones may be merged by the tolerance of the search grid"
  },
  {
   "property": "C56",
   "status": "proved",
   "theorems": [
    "Gemlab.Block.C56_corners",
    "Gemlab.Block.C56_unconstrained",
    "Gemlab.Block.C56_ring",
    "Gemlab.Block.C56_edges",
    "Gemlab.Block.C56_set_ring"
   ],
   "note": "exact reals; hash-map iteration orders arbitrary; mat_inverse by its contract; divisions larger than 0.0007 (of 2), smaller ones may be merged by the tolerance of the search grid"
  },
  {
   "property": "C57",
   "status": "proved",
   "theorems": [
    "Gemlab.Block.C57_marked",
    "Gemlab.Block.C57_set_edge_marker",
    "Gemlab.Block.C57_set_face_marker"
   ],
   "note": "exact reals; hash-map iteration orders arbitrary; mat_inverse by its contract; divisions larger than 0.0007 (of 2), smaller ones may be merged by the tolerance of the search grid"
  },
  {
   "property": "C58",
   "status": "proved",
   "theorems": [
    "Gemlab.C58_interp_matrix",
    "Gemlab.C58_points_coords"
   ],
   "note": "real arithmetic"
  },
  {
   "property": "C59",
   "status": "proved",
   "theorems": [
    "Gemlab.Mesh.C59_from_surface",
    "Gemlab.Mesh.C59_sizes",
    "Gemlab.Mesh.C59_triangles_of_cell",
    "Gemlab.Mesh.C59_sharing",
    "Gemlab.Mesh.C59_all_points_used",
    "Gemlab.Mesh.C59_node_coordinates",
    "Gemlab.Mesh.C59_coordinates",
    "Gemlab.Mesh.C59_flat_cells_covered",
    "Gemlab.Mesh.C59_side_unique",
    "Gemlab.Mesh.C59_sides",
    "Gemlab.Mesh.C59_edges_are_sides",
    "Gemlab.Mesh.C59_conforming",
    "Gemlab.Mesh.C59_triangulate_errors",
    "Gemlab.Mesh.C59_triangulate",
    "Gemlab.Mesh.C59_example"
   ],
   "note": "real arithmetic; fewer than usize::MAX corners in total"
  },
  {
   "property": "C60",
   "status": "proved",
   "theorems": [
    "Gemlab.Mesh.C60_boundary",
    "Gemlab.Mesh.C60_planar_panics",
    "Gemlab.Mesh.C60_example"
   ],
   "note": "real arithmetic; all hash-map orders; mesh with fewer than usize::MAX/324 cells"
  },
  {
   "property": "C61",
   "status": "proved",
   "theorems": [
    "Gemlab.Props.Paraview.C61_vtk_type",
    "Gemlab.Props.Paraview.C61_vtk_node_order",
    "Gemlab.Props.Paraview.C61_no_cells",
    "Gemlab.Props.Paraview.C61_outcome",
    "Gemlab.Props.Paraview.C61_panic",
    "Gemlab.Props.Paraview.C61_read_back"
   ],
   "note": "the content of the file; formatting and parsing of f64 are a parameter (lossless); the numbers must fit the Int32 declared in the file; creation and writing of the file not modelled"
  },
  {
   "property": "C62",
   "status": "proved",
   "theorems": [
    "Gemlab.Props.Features.C62_pairs_via_2d_edge",
    "Gemlab.Props.Features.C62_pairs_via_face",
    "Gemlab.Props.Features.C62_pairs_via_2d_edges",
    "Gemlab.Props.Features.C62_pairs_via_faces",
    "Gemlab.Props.Features.C62_unknown_edge",
    "Gemlab.Props.Features.C62_example"
   ],
   "note": "all hash-map orders; real coordinates"
  },
  {
   "property": "C63",
   "status": "proved",
   "theorems": [
    "Gemlab.Scratchpad.C63_edge_outward",
    "Gemlab.Scratchpad.C63_face_outward",
    "Gemlab.Props.Features.C63_mesh_edges",
    "Gemlab.Props.Features.C63_mesh_faces",
    "Gemlab.Props.Features.C63_example_2d",
    "Gemlab.Props.Features.C63_example_3d",
    "Gemlab.Props.Features.C63_example_mesh"
   ],
   "note": "real arithmetic; determinant by the contract of mat_inverse; where the determinant is positive"
  },
  {
   "property": "C64",
   "status": "proved",
   "theorems": [
    "Gemlab.Structured.C64_ring_2d",
    "Gemlab.Structured.C64_ring_3d",
    "Gemlab.Structured.C64_points_2d",
    "Gemlab.Structured.C64_points_3d",
    "Gemlab.Structured.C64_zero_radius"
   ],
   "note": "real arithmetic; weights larger than 0.00035 of the sum, fewer than 2857 equal divisions (tolerance of the search grid)"
  },
  {
   "property": "C65",
   "status": "proved",
   "theorems": [
    "Gemlab.Mesh.C65_join",
    "Gemlab.Mesh.C65_join_meshes"
   ],
   "note": "real arithmetic; separation and enclosure (what the tolerance and the search grid of the code need) are hypotheses"
  },
  {
   "property": "C66",
   "status": "proved",
   "theorems": [
    "Gemlab.Structured.C66_region_2d",
    "Gemlab.Structured.C66_region_3d",
    "Gemlab.Structured.C66_blocks_2d",
    "Gemlab.Structured.C66_blocks_3d",
    "Gemlab.Structured.C66_missing",
    "Gemlab.Structured.C66_proper",
    "Gemlab.Structured.C66_grid"
   ],
   "note": "real arithmetic; weights larger than 0.00035 of the sum (search grid); separation and enclosure of the meshes of the regions (CanAssemble) are a hypothesis of the part about the union"
  },
  {
   "property": "C67",
   "status": "proved",
   "theorems": [
    "Gemlab.Structured.C67_rectangle",
    "Gemlab.Structured.C67_renumber_ignored"
   ],
   "note": "real arithmetic; cells larger than 0.0006 (tolerance of joining), fewer than 2857 divisions (search grid)"
  },
  {
   "property": "C68",
   "status": "proved",
   "theorems": [
    "Gemlab.Structured.C68_quarter_disk_2d_a",
    "Gemlab.Structured.C68_quarter_disk_2d_b",
    "Gemlab.Structured.C68_quarter_disk_3d_a",
    "Gemlab.Structured.C68_quarter_disk_3d_b",
    "Gemlab.Structured.C68_quarter_plate_hole_2d",
    "Gemlab.Structured.C68_quarter_plate_hole_3d",
    "Gemlab.Structured.C68_no_height",
    "Gemlab.Structured.C68_zero_radius",
    "Gemlab.Structured.C68_patch",
    "Gemlab.Structured.C68_on_arc",
    "Gemlab.Structured.C68_straight",
    "Gemlab.Structured.C68_conforming",
    "Gemlab.Structured.C68_above"
   ],
   "note": "real arithmetic; radius at least 2e-8, fewer than 2857 divisions (search grid); separation and enclosure of the meshes of the blocks (CanAssemble) are a hypothesis of the part about the union, shown for an example"
  },
  {
   "property": "C69",
   "status": "proved",
   "theorems": [
    "Gemlab.Analytical.C69_triangle_integral",
    "Gemlab.Analytical.C69_triangle_area",
    "Gemlab.Analytical.C69_tetrahedron_integral",
    "Gemlab.Analytical.C69_tetrahedron_volume",
    "Gemlab.Analytical.C69_tri3_new",
    "Gemlab.Analytical.C69_tri3_area",
    "Gemlab.Analytical.C69_tri3_gradient",
    "Gemlab.Analytical.C69_tri3_gradient_exists",
    "Gemlab.Analytical.C69_tri3_vec_01_ns",
    "Gemlab.Analytical.C69_tri3_vec_02_nv",
    "Gemlab.Analytical.C69_tri3_vec_03_bv",
    "Gemlab.Analytical.C69_tri3_vec_03_bv_bilinear",
    "Gemlab.Analytical.C69_tri3_vec_04_bt",
    "Gemlab.Analytical.C69_tri3_mat_01_nsn",
    "Gemlab.Analytical.C69_tri3_mat_02_bvn",
    "Gemlab.Analytical.C69_tri3_mat_02_bvn_bilinear",
    "Gemlab.Analytical.C69_tri3_mat_03_btb",
    "Gemlab.Analytical.C69_tri3_mat_08_ntn",
    "Gemlab.Analytical.C69_tri3_mat_09_nvb",
    "Gemlab.Analytical.C69_tri3_bbe",
    "Gemlab.Analytical.C69_tri3_mat_10_bdb",
    "Gemlab.Analytical.C69_tri3_lengths",
    "Gemlab.Analytical.C69_tri3_vec_01_ns_bry",
    "Gemlab.Analytical.C69_tri3_mat_01_nsn_bry",
    "Gemlab.Analytical.C69_tri3_invalid_side",
    "Gemlab.Analytical.C69_tet4_new",
    "Gemlab.Analytical.C69_tet4_volume",
    "Gemlab.Analytical.C69_tet4_gradient",
    "Gemlab.Analytical.C69_tet4_gradient_exists",
    "Gemlab.Analytical.C69_tet4_vec_01_ns",
    "Gemlab.Analytical.C69_tet4_vec_01_ns_linear_along_z",
    "Gemlab.Analytical.C69_tet4_vec_02_nv",
    "Gemlab.Analytical.C69_tet4_mat_01_nsn",
    "Gemlab.Analytical.C69_tet4_mat_06_nvn",
    "Gemlab.Analytical.C69_tet4_mat_08_ntn",
    "Gemlab.Analytical.C69_tet4_vec_03_bv",
    "Gemlab.Analytical.C69_tet4_vec_04_bt",
    "Gemlab.Analytical.C69_tet4_mat_02_bvn",
    "Gemlab.Analytical.C69_tet4_mat_03_btb",
    "Gemlab.Analytical.C69_tet4_mat_04_nsb",
    "Gemlab.Analytical.C69_tet4_mat_05_btn",
    "Gemlab.Analytical.C69_tet4_mat_07_bsn",
    "Gemlab.Analytical.C69_tet4_mat_09_nvb",
    "Gemlab.Analytical.C69_tet4_bbe",
    "Gemlab.Analytical.C69_tet4_mat_10_bdb",
    "Gemlab.Analytical.C69_qua4_mat_01_nsn",
    "Gemlab.Analytical.C69_qua4_mat_03_btb",
    "Gemlab.Analytical.C69_qua8_mat_01_nsn",
    "Gemlab.Analytical.C69_qua8_mat_06_nvn",
    "Gemlab.Analytical.C69_qua8_mat_03_btb",
    "Gemlab.Analytical.C69_qua8_mat_04_nsb",
    "Gemlab.Analytical.C69_qua8_mat_07_bsn",
    "Gemlab.Analytical.C69_qua8_mat_05_btn"
   ],
   "note": "real arithmetic; the modulus of mat_10_bdb is any modulus (LinElasticity of russell_tensor is not modelled)"
  },
  {
   "property": "C70",
   "status": "proved",
   "theorems": [
    "Gemlab.Unstructured.C70_wrong_dimension",
    "Gemlab.Unstructured.C70_call_trigen",
    "Gemlab.Unstructured.C70_edges_with_two_points",
    "Gemlab.Unstructured.C70_deterministic_2d",
    "Gemlab.Unstructured.C70_call_tetgen",
    "Gemlab.Unstructured.C70_deterministic_3d"
   ],
   "note": "real arithmetic; the external generators (tritet) are parameters: the setters write down their arguments (contract), the output arrays have the right shape (GoodOutput), nothing is assumed about the triangulation; the mesh is not flat (as for Features::new)"
  },
  {
   "property": "C71",
   "status": "proved",
   "theorems": [
    "Gemlab.Unstructured.C71_rejects_2d",
    "Gemlab.Unstructured.C71_rejects_3d",
    "Gemlab.Unstructured.C71_quarter_ring_2d",
    "Gemlab.Unstructured.C71_quarter_ring_3d",
    "Gemlab.Unstructured.C71_distinct",
    "Gemlab.Unstructured.C71_seed",
    "Gemlab.Unstructured.C71_on_circles",
    "Gemlab.Unstructured.C71_watertight"
   ],
   "note": "real arithmetic; the external generators (tritet) are parameters with the contract of C70; no constrained point of the output is on the axis; marked faces of the output have nonzero markers; for Tri10/Tri15 the Tri6 mesh meets the hypotheses of C46"
  },
  {
   "property": "C72",
   "status": "proved",
   "theorems": [
    "Gemlab.Draw.C72_outline",
    "Gemlab.Draw.C72_line",
    "Gemlab.Draw.C72_line_space",
    "Gemlab.Draw.C72_outline_space",
    "Gemlab.Draw.C72_solid",
    "Gemlab.Draw.C72_no_cell"
   ],
   "note": "real arithmetic; plotpy is not modelled: the meaning of its path codes (those of matplotlib) is part of the specification; edges with five nodes are drawn by a cubic curve, which agrees at four points only (as the code intends)"
  },
  {
   "property": "C73",
   "status": "proved",
   "theorems": [
    "Gemlab.Mesh.C73_loops_oriented",
    "Gemlab.Mesh.C73_loops",
    "Gemlab.Mesh.C73_closed_oriented",
    "Gemlab.Mesh.C73_closed",
    "Gemlab.Mesh.C73_block_fits_2d",
    "Gemlab.Mesh.C73_block_fits_3d",
    "Gemlab.Mesh.C73_block_2d",
    "Gemlab.Mesh.C73_block_3d"
   ],
   "note": "fewer than usize::MAX/324 cells (3D); blocks: real arithmetic, divisions larger than 0.0007 of 2 (search grid); that the cells fit together is a hypothesis for meshes given by the user, shown for subdivided blocks"
  },
  {
   "property": "C74",
   "status": "proved",
   "theorems": [
    "Gemlab.Scratchpad.C74_cell_2d",
    "Gemlab.Scratchpad.C74_cell_3d",
    "Gemlab.Mesh.C74_mesh_2d",
    "Gemlab.Mesh.C74_mesh_3d",
    "Gemlab.Mesh.C74_area",
    "Gemlab.Mesh.C74_volume",
    "Gemlab.Mesh.C74_normals_2d",
    "Gemlab.Mesh.C74_normals_3d",
    "Gemlab.Mesh.C74_block_2d",
    "Gemlab.Mesh.C74_block_3d",
    "Gemlab.Mesh.C74_example"
   ],
   "note": "real arithmetic; integrals are the exact ones over the reference cell of the densities computed by the functions of the scratchpad (the Gauss rules are the subject of C45); mat_inverse of russell_lab is a parameter with a contract; that neighbours agree on the common edge or face is a hypothesis for meshes given by the user, shown for subdivided blocks"
  },
  {
   "property": "C75",
   "status": "proved",
   "theorems": [
    "Gemlab.Mesh.C75_patch_2d",
    "Gemlab.Mesh.C75_patch_3d",
    "Gemlab.Mesh.C75_interior_2d",
    "Gemlab.Mesh.C75_interior_3d",
    "Gemlab.Scratchpad.C75_stiffness",
    "Gemlab.Scratchpad.C75_conductivity",
    "Gemlab.Mesh.C75_linear",
    "Gemlab.Mesh.C75_linear_flow",
    "Gemlab.Mesh.C75_displacement_2d",
    "Gemlab.Mesh.C75_displacement_3d",
    "Gemlab.Mesh.C75_tables",
    "Gemlab.Mesh.C75_default_cell",
    "Gemlab.Mesh.C75_default_side",
    "Gemlab.Mesh.C75_default_2d",
    "Gemlab.Mesh.C75_default_3d",
    "Gemlab.Mesh.C75_example",
    "Gemlab.Mesh.C75_example_3d"
   ],
   "note": "real arithmetic; mat_inverse of russell_lab is a parameter with a contract; the assembly over the points (done by the user of gemlab) is part of the specification; default rules of Hex32 cells and of cubic faces (Tri10, Qua12) do not have the degree needed for curved cells and are not claimed; that neighbours agree on the common edge or face is a hypothesis for meshes given by the user, shown for subdivided blocks (C74)"
  },
  {
   "property": "C76",
   "status": "proved",
   "theorems": [
    "Gemlab.Props.Features.C76_check_all",
    "Gemlab.Props.Features.C76_edge_normals",
    "Gemlab.Props.Features.C76_face_normals",
    "Gemlab.Props.Features.C76_straight_edge",
    "Gemlab.Props.Features.C76_flat_face",
    "Gemlab.Props.Features.C76_outward",
    "Gemlab.Props.Features.C76_example"
   ],
   "note": "real arithmetic; mat_inverse of russell_lab is a parameter with a contract (for the converse of check_all); the printed messages are not modelled"
  },
  {
   "property": "C77",
   "status": "proved",
   "theorems": [
    "Gemlab.Draw.C77_points",
    "Gemlab.Draw.C77_cell_labels",
    "Gemlab.Draw.C77_label_inside",
    "Gemlab.Draw.C77_normals_2d",
    "Gemlab.Draw.C77_normals_3d",
    "Gemlab.Draw.C77_outward_2d",
    "Gemlab.Draw.C77_outward_3d",
    "Gemlab.Draw.C77_edge_markers_2d",
    "Gemlab.Draw.C77_edge_markers_3d",
    "Gemlab.Draw.C77_face_markers_2d",
    "Gemlab.Draw.C77_face_markers_3d",
    "Gemlab.Draw.C77_boundary_edges",
    "Gemlab.Draw.C77_boundary_edges_2d",
    "Gemlab.Draw.C77_boundary_faces_2d",
    "Gemlab.Draw.C77_boundary_faces_3d",
    "Gemlab.Draw.C77_cells",
    "Gemlab.Draw.C77_range",
    "Gemlab.Draw.C77_all",
    "Gemlab.Draw.C77_all_flat",
    "Gemlab.Draw.C77_example",
    "Gemlab.Draw.C77_all_example"
   ],
   "note": "real arithmetic; plotpy is another package: its calls are modelled by lists of marks; colors, fonts, callbacks, zoom, camera, glyph and files are not modelled; fewer than 2^64/324 cells"
  },
  {
   "property": "C78",
   "status": "proved",
   "theorems": [
    "Gemlab.Mesh.C78_convex",
    "Gemlab.Mesh.C78_enclosed",
    "Gemlab.Mesh.C78_no_overlap",
    "Gemlab.Mesh.C78_subdivide",
    "Gemlab.Mesh.C78_search",
    "Gemlab.Mesh.C78_block"
   ],
   "note": "real arithmetic; cells with curved edges are represented by the polygon of their corners; points on a side of a cell are excluded"
  },
  {
   "property": "C79",
   "status": "proved",
   "theorems": [
    "Gemlab.Scratchpad.C79_one_to_one",
    "Gemlab.Scratchpad.C79_qua4_valid",
    "Gemlab.Scratchpad.C79_qua4_image",
    "Gemlab.Scratchpad.C79_tri3_image",
    "Gemlab.Scratchpad.C79_simplex",
    "Gemlab.Scratchpad.C79_error",
    "Gemlab.Mesh.C79_check_all",
    "Gemlab.Mesh.C79_check_not_enough",
    "Gemlab.Mesh.C79_cell",
    "Gemlab.Mesh.C79_mesh"
   ],
   "note": "real arithmetic; mat_inverse of russell_lab is a parameter with a contract (determinant and inverse; it succeeds if the determinant is not zero)"
  },
  {
   "property": "C80",
   "status": "proved",
   "theorems": [
    "Gemlab.MeshJson.C80_read",
    "Gemlab.MeshJson.C80_read_total",
    "Gemlab.MeshJson.C80_layout",
    "Gemlab.MeshJson.C80_members",
    "Gemlab.MeshJson.C80_once",
    "Gemlab.MeshJson.C80_types",
    "Gemlab.MeshJson.C80_write",
    "Gemlab.MeshJson.C80_reread",
    "Gemlab.MeshJson.C80_round_trip",
    "Gemlab.MeshJson.C80_injective",
    "Gemlab.MeshJson.C80_not_finite",
    "Gemlab.MeshJson.C80_read_blocks2d",
    "Gemlab.MeshJson.C80_read_blocks3d",
    "Gemlab.MeshJson.C80_blocks2d",
    "Gemlab.MeshJson.C80_blocks3d"
   ],
   "note": "serde_json (a library) is represented by a JSON reader and writer written out in the model, with the conversions the derive attributes generate; formatting and parsing of f64 are a parameter; the escape sequences \\\\u of strings and the file system are not modelled"
  },
  {
   "property": "C81",
   "status": "proved",
   "theorems": [
    "Gemlab.Programs.C81_targets",
    "Gemlab.Programs.C81_rejects",
    "Gemlab.Programs.C81_qua",
    "Gemlab.Programs.C81_hex",
    "Gemlab.Programs.C81_tri",
    "Gemlab.Programs.C81_tet",
    "Gemlab.Programs.C81_draw",
    "Gemlab.Programs.C81_multipliers"
   ],
   "note": "the parsing of the command line, the file system, file names and messages are not modelled, nor the size, view, camera and glyph of drawings; the conditions under which meshes can be put together are those of C66, and the formatting of the coordinates is assumed lossless on the mesh written"
  },
  {
   "property": "C82",
   "status": "proved",
   "theorems": [
    "Gemlab.Reports.C82_counts",
    "Gemlab.Reports.C82_density",
    "Gemlab.Reports.C82_density_self_loops",
    "Gemlab.Reports.C82_pattern",
    "Gemlab.Reports.C82_directed_counts",
    "Gemlab.Reports.C82_distances",
    "Gemlab.Reports.C82_next_hops",
    "Gemlab.Reports.C82_empty_graph",
    "Gemlab.Reports.C82_edge_text",
    "Gemlab.Reports.C82_edges_shown",
    "Gemlab.Reports.C82_face_text",
    "Gemlab.Reports.C82_faces_shown",
    "Gemlab.Reports.C82_tri6_face"
   ],
   "note": "distances in an ordered group with exact arithmetic; the formatting of a number is a parameter (assumed to give a non-empty text without blanks where entries are separated); the drawing of graphs is not modelled; a face with more than four points is shown by its first four points only, so a six-node triangle shows one middle point"
  },
  {
   "property": "C83",
   "status": "proved",
   "theorems": [
    "Gemlab.Reports.C83_grid_search",
    "Gemlab.Reports.C83_grid_cells",
    "Gemlab.Reports.C83_limits"
   ],
   "note": "exact real arithmetic; the formatting of reals and the rendering of the histogram (russell) are parameters; the drawing of the grids is not modelled"
  },
  {
   "property": "C84",
   "status": "proved",
   "theorems": [
    "Gemlab.DrawShape.C84_outcome",
    "Gemlab.DrawShape.C84_edges",
    "Gemlab.DrawShape.C84_line",
    "Gemlab.DrawShape.C84_ends",
    "Gemlab.DrawShape.C84_labels",
    "Gemlab.DrawShape.C84_range",
    "Gemlab.DrawShape.C84_flat_shape"
   ],
   "note": "real arithmetic; plotpy is another package: its calls are modelled by lists of commands; colors, fonts and the file of draw_shape_simple are not modelled"
  },
  {
   "property": "C85",
   "status": "proved",
   "theorems": [
    "Gemlab.DrawGrids.C85_grid_search",
    "Gemlab.DrawGrids.C85_grid_cells",
    "Gemlab.DrawGrids.C85_box",
    "Gemlab.DrawGrids.C85_block"
   ],
   "note": "real arithmetic; plotpy is another package: its calls are modelled by lists of commands and its draw_grid is assumed to accept its arguments; colors and fonts are not modelled"
  },
  {
   "property": "C86",
   "status": "proved",
   "theorems": [
    "Gemlab.DrawGraph.C86_draw",
    "Gemlab.DrawGraph.C86_opposite"
   ],
   "note": "real arithmetic; plotpy is another package: its calls are modelled by lists; colors, fonts and the file are not modelled"
  },
  {
   "property": "C87",
   "status": "proved",
   "theorems": [
    "Gemlab.Mesh.C87_enclosed",
    "Gemlab.Mesh.C87_direction",
    "Gemlab.Mesh.C87_no_overlap",
    "Gemlab.Mesh.C87_search",
    "Gemlab.Mesh.C87_example"
   ],
   "note": "real arithmetic; Tet4 cells (the faces of other solid cells are not plane); points on a face of a cell and rays through an edge are excluded"
  },
  {
   "property": "C88",
   "status": "proved",
   "theorems": [
    "Gemlab.Rounded.C88_ok",
    "Gemlab.Rounded.C88_same",
    "Gemlab.Rounded.C88_finds",
    "Gemlab.Rounded.C88_sound",
    "Gemlab.Rounded.C88_keys",
    "Gemlab.Rounded.C88_binary64",
    "Gemlab.Rounded.C88_exact",
    "Gemlab.Rounded.C88_example"
   ],
   "note": "each operation is exact and then rounded; overflow and underflow are not modelled; queries for lines, circles, cylinders and planes are not included"
  },
  {
   "property": "C89",
   "status": "proved",
   "theorems": [
    "Gemlab.Props.GraphUnd.C89_order",
    "Gemlab.Props.GraphUnd.C89_unique",
    "Gemlab.Props.GraphUnd.C89_deterministic",
    "Gemlab.Props.GraphUnd.C89_levels",
    "Gemlab.Props.GraphUnd.C89_spread",
    "Gemlab.Props.GraphUnd.C89_bandwidth",
    "Gemlab.Props.GraphUnd.C89_may_increase",
    "Gemlab.Props.GraphUnd.C89_example",
    "Gemlab.Props.GraphUnd.C89_example_order"
   ],
   "note": "the order is specified by first neighbours, degrees and ids, without queues; the bandwidth theorem is about the mesh returned by renumber_mesh"
  },
  {
   "property": "C90",
   "status": "proved",
   "theorems": [
    "Gemlab.Props.Features.C90_features_2d",
    "Gemlab.Props.Features.C90_features_3d",
    "Gemlab.Props.Features.C90_neighbours",
    "Gemlab.Props.Features.C90_example"
   ],
   "note": "markers of edges and faces are not part of the claim: renumber_points leaves the lists of marked entities as they are (C06_marked_entities_not_renumbered); in 3D the mesh has at most usize::MAX points"
  },
  {
   "property": "C91",
   "status": "proved",
   "theorems": [
    "Gemlab.Rounded.C91_exact",
    "Gemlab.Rounded.C91_inside",
    "Gemlab.Rounded.C91_outside",
    "Gemlab.Rounded.C91_corner",
    "Gemlab.Rounded.C91_shared_edge",
    "Gemlab.Rounded.C91_two_cells",
    "Gemlab.Rounded.C91_fan",
    "Gemlab.Rounded.C91_gap",
    "Gemlab.Rounded.C91_example",
    "Gemlab.Rounded.C91_example2"
   ],
   "note": "overflow and underflow are not modelled; C91_gap is a finding: a point of the mesh near an inner corner can be found in no cell"
  },
  {
   "property": "C92",
   "status": "proved",
   "theorems": [
    "Gemlab.Rounded.C92_exact",
    "Gemlab.Rounded.C92_inside",
    "Gemlab.Rounded.C92_outside",
    "Gemlab.Rounded.C92_corner_lost",
    "Gemlab.Rounded.C92_face_lost",
    "Gemlab.Rounded.C92_example"
   ],
   "note": "overflow and underflow are not modelled; C92_corner_lost and C92_face_lost are findings: points of the mesh, even its own corners, can be found in no cell"
  },
  {
   "property": "C93",
   "status": "proved",
   "theorems": [
    "Gemlab.Props.GraphDir.C93_distance",
    "Gemlab.Props.GraphDir.C93_relative",
    "Gemlab.Props.GraphDir.C93_path",
    "Gemlab.Props.GraphDir.C93_example"
   ],
   "note": "sums above the largest number stay exact sums here (in the code they are infinite; both lose every comparison with f64::MAX)"
  },
  {
   "property": "C94",
   "status": "proved",
   "theorems": [
    "Gemlab.Props.Integ.C94_coords",
    "Gemlab.Props.Integ.C94_jacobian",
    "Gemlab.Props.Integ.C94_gradient",
    "Gemlab.Props.Integ.C94_normal",
    "Gemlab.Props.Integ.C94_scalar_field",
    "Gemlab.Props.Integ.C94_vec_01_ns",
    "Gemlab.Props.Integ.C94_vec_01_ns_bry",
    "Gemlab.Props.Integ.C94_vec_02_nv",
    "Gemlab.Props.Integ.C94_vec_02_nv_bry",
    "Gemlab.Props.Integ.C94_vec_03_bv",
    "Gemlab.Props.Integ.C94_vec_04_bt",
    "Gemlab.Props.Integ.C94_mat_01_nsn",
    "Gemlab.Props.Integ.C94_mat_01_nsn_bry",
    "Gemlab.Props.Integ.C94_mat_02_bvn",
    "Gemlab.Props.Integ.C94_mat_03_btb",
    "Gemlab.Props.Integ.C94_mat_04_nsb",
    "Gemlab.Props.Integ.C94_mat_05_btn",
    "Gemlab.Props.Integ.C94_mat_06_nvn",
    "Gemlab.Props.Integ.C94_mat_07_bsn",
    "Gemlab.Props.Integ.C94_mat_08_ntn",
    "Gemlab.Props.Integ.C94_mat_09_nvb",
    "Gemlab.Props.Integ.C94_mat_10_bdb",
    "Gemlab.Props.Integ.C94_regular",
    "Gemlab.Props.Integ.C94_example"
   ],
   "note": "exact arithmetic; both elements must be accepted by mat_inverse (C94_regular: with an exact inverse the second is if the first is)"
  },
  {
   "property": "C95",
   "status": "proved",
   "theorems": [
    "Gemlab.Rounded.Cells.C95_exact",
    "Gemlab.Rounded.Cells.C95_new",
    "Gemlab.Rounded.Cells.C95_only_containing",
    "Gemlab.Rounded.Cells.C95_found",
    "Gemlab.Rounded.Cells.C95_node",
    "Gemlab.Rounded.Cells.C95_ok",
    "Gemlab.Rounded.Cells.C95_example",
    "Gemlab.Rounded.Cells.C95_gap",
    "Gemlab.Rounded.Cells.C95_border_zero"
   ],
   "note": "no overflow or underflow (values of the rounding are real numbers)"
  },
  {
   "property": "C96",
   "status": "proved",
   "theorems": [
    "Gemlab.Props.Integ.C96_weights",
    "Gemlab.Props.Integ.C96_mat_01_energy",
    "Gemlab.Props.Integ.C96_mat_01_definite",
    "Gemlab.Props.Integ.C96_mat_01_qua17",
    "Gemlab.Props.Integ.C96_mat_03_energy",
    "Gemlab.Props.Integ.C96_mat_03_definite",
    "Gemlab.Props.Integ.C96_mat_08_energy",
    "Gemlab.Props.Integ.C96_mat_08_definite",
    "Gemlab.Props.Integ.C96_mat_10_energy",
    "Gemlab.Props.Integ.C96_mat_10_definite",
    "Gemlab.Props.Integ.C96_example"
   ],
   "note": "real arithmetic"
  },
  {
   "property": "C97",
   "status": "proved",
   "theorems": [
    "Gemlab.InverseMap.C97_unique",
    "Gemlab.InverseMap.C97_converges",
    "Gemlab.InverseMap.C97_qua4",
    "Gemlab.InverseMap.C97_trapezoid",
    "Gemlab.InverseMap.C97_wrong",
    "Gemlab.InverseMap.C97_example",
    "Gemlab.InverseMap.C97_example_trapezoid"
   ],
   "note": "real arithmetic; mat_inverse succeeds for every nonzero determinant"
  },
  {
   "property": "C98",
   "status": "proved",
   "theorems": [
    "Gemlab.Props.Integ.C98_coords",
    "Gemlab.Props.Integ.C98_jacobian",
    "Gemlab.Props.Integ.C98_gradient",
    "Gemlab.Props.Integ.C98_normal",
    "Gemlab.Props.Integ.C98_scalar_field",
    "Gemlab.Props.Integ.C98_vec_01_ns",
    "Gemlab.Props.Integ.C98_vec_02_nv",
    "Gemlab.Props.Integ.C98_vec_03_bv",
    "Gemlab.Props.Integ.C98_vec_04_bt",
    "Gemlab.Props.Integ.C98_mat_01_nsn",
    "Gemlab.Props.Integ.C98_mat_02_bvn",
    "Gemlab.Props.Integ.C98_mat_03_btb",
    "Gemlab.Props.Integ.C98_mat_04_nsb",
    "Gemlab.Props.Integ.C98_mat_05_btn",
    "Gemlab.Props.Integ.C98_mat_06_nvn",
    "Gemlab.Props.Integ.C98_mat_07_bsn",
    "Gemlab.Props.Integ.C98_mat_08_ntn",
    "Gemlab.Props.Integ.C98_mat_09_nvb",
    "Gemlab.Props.Integ.C98_mat_10_bdb",
    "Gemlab.Props.Integ.C98_vec_01_ns_bry",
    "Gemlab.Props.Integ.C98_vec_02_nv_bry",
    "Gemlab.Props.Integ.C98_mat_01_nsn_bry",
    "Gemlab.Props.Integ.C98_regular",
    "Gemlab.Props.Integ.C98_shell",
    "Gemlab.Props.Integ.C98_example"
   ],
   "note": "real arithmetic; the matrix inversion of the library is assumed to return an inverse (InverseSpec)"
  },
  {
   "property": "C99",
   "status": "proved",
   "theorems": [
    "Gemlab.Props.Integ.C99_nodes",
    "Gemlab.Props.Integ.C99_points",
    "Gemlab.Props.Integ.C99_default",
    "Gemlab.Props.Integ.C99_scalar_field",
    "Gemlab.Props.Integ.C99_regular",
    "Gemlab.Props.Integ.C99_vec_01_ns",
    "Gemlab.Props.Integ.C99_vec_02_nv",
    "Gemlab.Props.Integ.C99_vec_03_bv",
    "Gemlab.Props.Integ.C99_vec_04_bt",
    "Gemlab.Props.Integ.C99_mat_01_nsn",
    "Gemlab.Props.Integ.C99_mat_02_bvn",
    "Gemlab.Props.Integ.C99_mat_03_btb",
    "Gemlab.Props.Integ.C99_mat_04_nsb",
    "Gemlab.Props.Integ.C99_mat_05_btn",
    "Gemlab.Props.Integ.C99_mat_06_nvn",
    "Gemlab.Props.Integ.C99_mat_07_bsn",
    "Gemlab.Props.Integ.C99_mat_08_ntn",
    "Gemlab.Props.Integ.C99_mat_09_nvb",
    "Gemlab.Props.Integ.C99_mat_10_bdb",
    "Gemlab.Props.Integ.C99_vec_01_ns_bry",
    "Gemlab.Props.Integ.C99_vec_02_nv_bry",
    "Gemlab.Props.Integ.C99_mat_01_nsn_bry",
    "Gemlab.Props.Integ.C99_example"
   ],
   "note": "real arithmetic; the matrix inversion of the library is assumed to return an inverse (InverseSpec); tables of points with the exact symmetry of the cell (ExactTable)"
  }
 ]
}