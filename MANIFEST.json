{
 "claims": [
  {
   "property": "C01",
   "status": "proved",
   "theorems": [
    "Verif.C01_coo_history",
    "Verif.C01_makeSparse",
    "Verif.C01_wraparound_witness"
   ],
   "note": "Indices below 2^31 - 1 (Eigen stores them as int); C01_wraparound_witness shows that the claim fails when i+1 wraps around in unsigned int."
  },
  {
   "property": "C02",
   "status": "proved",
   "theorems": [
    "Verif.C02_matVecMultAdd",
    "Verif.C02_matVecMult"
   ],
   "note": ""
  },
  {
   "property": "C03",
   "status": "proved",
   "theorems": [
    "Verif.C03_fixFlaggedSolutionComponents"
   ],
   "note": ""
  },
  {
   "property": "C04",
   "status": "proved",
   "theorems": [
    "Verif.C04_fixFlaggedSolutionCompAlt",
    "Verif.C04_variants_agree"
   ],
   "note": ""
  },
  {
   "property": "C05",
   "status": "proved",
   "theorems": [
    "Verif.C05_symmetric",
    "Verif.C05_posDef"
   ],
   "note": ""
  },
  {
   "property": "C06",
   "status": "proved",
   "theorems": [
    "Verif.C06_fixSolutionComponentsLse",
    "Verif.C06_rejects_out_of_range",
    "Verif.C06_listedSum_of_distinct"
   ],
   "note": ""
  },
  {
   "property": "C07",
   "status": "proved",
   "theorems": [
    "Verif.C07_assembleMatrixLocally",
    "Verif.C07_assembleMatrixLocallyNew",
    "Verif.C07_order_independent"
   ],
   "note": "Exact arithmetic; providers are pure functions of the entity."
  },
  {
   "property": "C08",
   "status": "proved",
   "theorems": [
    "Verif.C08_assembleVectorLocally",
    "Verif.C08_assembleVectorLocallyNew",
    "Verif.C08_order_independent"
   ],
   "note": "Exact arithmetic; providers are pure functions of the entity."
  },
  {
   "property": "C09",
   "status": "proved",
   "theorems": [
    "Verif.C09_uniform",
    "Verif.C09_numDofs",
    "Verif.C09_dynamic"
   ],
   "note": ""
  },
  {
   "property": "C10",
   "status": "proved",
   "theorems": [
    "Verif.C10_uniform",
    "Verif.C10_dynamic"
   ],
   "note": ""
  },
  {
   "property": "C11",
   "status": "proved",
   "theorems": [
    "Verif.C11_uniform",
    "Verif.C11_uniform_unoriented",
    "Verif.C11_dynamic"
   ],
   "note": ""
  },
  {
   "property": "C12",
   "status": "proved",
   "theorems": [
    "Verif.C12_uniform",
    "Verif.C12_dynamic",
    "Verif.C12_unoriented_disagrees"
   ],
   "note": ""
  },
  {
   "property": "C13",
   "status": "proved",
   "theorems": [
    "Verif.C13_uniform",
    "Verif.C13_dynamic"
   ],
   "note": ""
  },
  {
   "property": "C14",
   "status": "proved",
   "theorems": [
    "Verif.C14_dynamic_eq_uniform"
   ],
   "note": ""
  },
  {
   "property": "C15",
   "status": "proved",
   "theorems": [
    "Verif.C15_construct",
    "Verif.C15_component",
    "Verif.C15_indices",
    "Verif.C15_partition_entity"
   ],
   "note": ""
  },
  {
   "property": "C16",
   "status": "proved",
   "theorems": [
    "Verif.C16_build_succeeds_iff",
    "Verif.C16_edges_exactly_once",
    "Verif.C16_wellFormed"
   ],
   "note": ""
  },
  {
   "property": "C17",
   "status": "proved",
   "theorems": [
    "Verif.C17_returned_indices",
    "Verif.C17_numbers"
   ],
   "note": ""
  },
  {
   "property": "C18",
   "status": "proved",
   "theorems": [
    "Verif.C18_orientation",
    "Verif.C18_lengths"
   ],
   "note": ""
  },
  {
   "property": "C19",
   "status": "proved",
   "theorems": [
    "Verif.C19_entityByIndex",
    "Verif.C19_index",
    "Verif.C19_counts",
    "Verif.C19_cell_type"
   ],
   "note": ""
  },
  {
   "property": "C20",
   "status": "proved",
   "theorems": [
    "Verif.C20_count",
    "Verif.C20_sum",
    "Verif.C20_rejects"
   ],
   "note": ""
  },
  {
   "property": "C21",
   "status": "proved",
   "theorems": [
    "Verif.C21_edges",
    "Verif.C21_nodes",
    "Verif.C21_rejects",
    "Verif.C21_all"
   ],
   "note": ""
  },
  {
   "property": "C22",
   "status": "proved",
   "theorems": [
    "Verif.C22_codim",
    "Verif.C22_codim_rejects",
    "Verif.C22_all",
    "Verif.C22_all_rejects"
   ],
   "note": ""
  },
  {
   "property": "C23",
   "status": "proved",
   "theorems": [
    "Verif.C23_tpTriag",
    "Verif.C23_tpTriag_null"
   ],
   "note": ""
  },
  {
   "property": "C24",
   "status": "proved",
   "theorems": [
    "Verif.C24_tpQuad",
    "Verif.C24_tpQuad_null"
   ],
   "note": ""
  },
  {
   "property": "C25",
   "status": "partial",
   "theorems": [
    "Verif.C25_torus_partial",
    "Verif.C25_fails_one",
    "Verif.C25_fails_two",
    "Verif.C25_torus_null"
   ],
   "note": "Proved for nx, ny >= 3. The full statement is false of the code: nx or ny = 1 makes Build fail (C25_fails_one), nx = 2 identifies edges (C25_fails_two)."
  },
  {
   "property": "C26",
   "status": "partial",
   "theorems": [
    "Verif.C26_contract",
    "Verif.C26_codim",
    "Verif.C26_anchor",
    "Verif.C26_rejects_partial",
    "Verif.C26_fails_point",
    "Verif.C26_fails_segment"
   ],
   "note": "Contract proved for all reference elements, patterns, anchors and codimensions; rejection proved for triangles and quadrilaterals. The rejection clause is false of the code for points and for segments with codim 1 (C26_fails_point, C26_fails_segment): inadmissible patterns are answered there."
  },
  {
   "property": "C27",
   "status": "proved",
   "theorems": [
    "Verif.C27_tiling"
   ],
   "note": "For every linearly ordered field of coordinates. Children need not be counter-clockwise (the code does not promise it)."
  },
  {
   "property": "C28",
   "status": "proved",
   "theorems": [
    "Verif.C28_terminates",
    "Verif.C28_closure",
    "Verif.C28_order_independent",
    "Verif.C28_refineMarked",
    "Verif.C28_marker"
   ],
   "note": ""
  },
  {
   "property": "C29",
   "status": "proved",
   "theorems": [
    "Verif.C29_marked",
    "Verif.C29_regular",
    "Verif.C29_stored"
   ],
   "note": ""
  },
  {
   "property": "C30",
   "status": "proved",
   "theorems": [
    "Verif.C30_conforming"
   ],
   "note": ""
  },
  {
   "property": "C31",
   "status": "proved",
   "theorems": [
    "Verif.C31_registered"
   ],
   "note": ""
  },
  {
   "property": "C32",
   "status": "proved",
   "theorems": [
    "Verif.C32_regular",
    "Verif.C32_barycentric",
    "Verif.C32_euler"
   ],
   "note": ""
  },
  {
   "property": "C33",
   "status": "proved",
   "theorems": [
    "Verif.C33_parents"
   ],
   "note": ""
  },
  {
   "property": "C34",
   "status": "proved",
   "theorems": [
    "Verif.C34_boundary"
   ],
   "note": ""
  },
  {
   "property": "C35",
   "status": "proved",
   "theorems": [
    "Verif.C35_position",
    "Verif.C35_stable",
    "Verif.C35_uniform",
    "Verif.C35_general_quad"
   ],
   "note": "All parents named in the statement, for hierarchies after arbitrary calls (C35_position, C35_stable); in addition all geometries under uniform refinement (C35_uniform). C35_general_quad shows that the restriction to parallelograms is needed for other patterns."
  },
  {
   "property": "C36",
   "status": "partial",
   "theorems": [
    "Verif.C36_eval",
    "Verif.C36_stable",
    "Verif.C36_uniform",
    "Verif.C36_make",
    "Verif.C36_compose",
    "Verif.C36_getMesh_partial",
    "Verif.C36_getMesh_fails"
   ],
   "note": "Evaluation and composition proved for all levels, for meshes of triangles and parallelograms under any refinement and for all meshes under uniform refinement. The clause on getMesh() is false of the code unless the levels are neighbours: proved in C36_getMesh_partial, negation C36_getMesh_fails."
  },
  {
   "property": "C37",
   "status": "proved",
   "theorems": [
    "Verif.C37_interpolation"
   ],
   "note": "All eight geometry classes; for Parallelogram under the condition its constructor asserts (taken exactly, without tolerance)."
  },
  {
   "property": "C38",
   "status": "proved",
   "theorems": [
    "Verif.C38_inverse_gramian",
    "Verif.C38_integration_element",
    "Verif.C38_derivative"
   ],
   "note": "Derivative within the unit box (second order geometries reject points outside it); exact linear algebra in place of the Householder QR solve."
  },
  {
   "property": "C39",
   "status": "proved",
   "theorems": [
    "Verif.C39_sides",
    "Verif.C39_corners"
   ],
   "note": ""
  },
  {
   "property": "C40",
   "status": "proved",
   "theorems": [
    "Verif.C40_planar",
    "Verif.C40_quad",
    "Verif.C40_segment",
    "Verif.C40_children"
   ],
   "note": "Planar cells: Lebesgue measure; segments in any dimension: Hausdorff measure. For cells in space the area formula is covered by C38_integration_element and C40_children only."
  },
  {
   "property": "C41",
   "status": "proved",
   "theorems": [
    "Verif.C41_segment",
    "Verif.C41_quad",
    "Verif.C41_tria",
    "Verif.C41_degree",
    "Verif.C41_point"
   ],
   "note": ""
  },
  {
   "property": "C42",
   "status": "proved",
   "theorems": [
    "Verif.C42_triaMidpoint",
    "Verif.C42_triaEdgeMidpoint",
    "Verif.C42_triaEdgeMidpoint_literal",
    "Verif.C42_quadEdgeMidpoint",
    "Verif.C42_triaP6O4",
    "Verif.C42_nodal",
    "Verif.C42_quadGauss"
   ],
   "note": ""
  },
  {
   "property": "C43",
   "status": "proved",
   "theorems": [
    "Verif.C43_transparent",
    "Verif.C43_fails",
    "Verif.C43_cached"
   ],
   "note": ""
  },
  {
   "property": "C44",
   "status": "proved",
   "theorems": [
    "Verif.C44_o1Segment",
    "Verif.C44_o2Segment",
    "Verif.C44_o3Segment",
    "Verif.C44_o1Tria",
    "Verif.C44_o2Tria",
    "Verif.C44_o3Tria",
    "Verif.C44_o1Quad",
    "Verif.C44_o2Quad",
    "Verif.C44_o3Quad",
    "Verif.C44_point"
   ],
   "note": ""
  },
  {
   "property": "C45",
   "status": "proved",
   "theorems": [
    "Verif.C45_constructible",
    "Verif.C45_continuous"
   ],
   "note": ""
  },
  {
   "property": "C46",
   "status": "proved",
   "theorems": [
    "Verif.C46_polynomials",
    "Verif.C46_derivatives",
    "Verif.C46_boundary",
    "Verif.C46_symmetry",
    "Verif.C46_orthogonal"
   ],
   "note": ""
  },
  {
   "property": "C47",
   "status": "proved",
   "theorems": [
    "Verif.C47_segment"
   ],
   "note": "Exactness of the quadrature rule for degree 2(p-1) is a hypothesis, as in the English statement."
  },
  {
   "property": "C48",
   "status": "proved",
   "theorems": [
    "Verif.C48_constructible",
    "Verif.C48_continuous",
    "Verif.C48_uniform",
    "Verif.C48_degree"
   ],
   "note": "Stated for the whole space and arbitrary coefficient vectors: traces from two cells, from the edge and from the nodes agree, for arbitrary degrees per edge and cell."
  },
  {
   "property": "C49",
   "status": "proved",
   "theorems": [
    "Verif.C49_values",
    "Verif.C49_fails",
    "Verif.C49_reproduces",
    "Verif.C49_lagrange",
    "Verif.C49_hierarchic"
   ],
   "note": "Values for arbitrary mesh functions and spaces; reproduction of finite element functions for all spaces with dual elements, instantiated for the Lagrangian (order 1-3) and hierarchic spaces. Hierarchic: quadrature rules assumed exact and without points at y = 1."
  },
  {
   "property": "C50",
   "status": "partial",
   "theorems": [
    "Verif.C50_value",
    "Verif.C50_partial",
    "Verif.C50_empty_not",
    "Verif.C50_points_not",
    "Verif.C50_not",
    "Verif.C50_degree_partial"
   ],
   "note": "False of the code: the first entity is integrated over whatever the predicate says, and dereferenced even if there is none (C50_not, C50_empty_not); the version with a degree has no rule for points (C50_points_not). C50_value says what is computed; C50_partial, C50_degree_partial: the property if the first entity exists and is selected."
  },
  {
   "property": "C51",
   "status": "proved",
   "theorems": [
    "Verif.C51_flags",
    "Verif.C51_fails",
    "Verif.C51_reproduces",
    "Verif.C51_lagrange",
    "Verif.C51_hierarchic"
   ],
   "note": "For arbitrary functions the value is that of the last selected edge; for finite element functions it is the coefficient. Instantiated for the Lagrangian and hierarchic spaces."
  },
  {
   "property": "C52",
   "status": "proved",
   "theorems": [
    "Verif.C52_tria",
    "Verif.C52_tria_form",
    "Verif.C52_tria_renumber",
    "Verif.C52_tria_similar",
    "Verif.C52_tria_degenerate",
    "Verif.C52_quad",
    "Verif.C52_quad_form",
    "Verif.C52_parallelogram"
   ],
   "note": "Triangles: exact Dirichlet form, symmetry, semi-definiteness, kernel, renumbering, similarity. Quadrilaterals: the 2x2 Gauss value of the Dirichlet form, symmetry, semi-definiteness, kernel, exactness on parallelograms."
  },
  {
   "property": "C53",
   "status": "proved",
   "theorems": [
    "Verif.C53_mass",
    "Verif.C53_mass_edge",
    "Verif.C53_diffusion",
    "Verif.C53_load",
    "Verif.C53_load_edge",
    "Verif.C53_mass_form",
    "Verif.C53_mass_edge_form",
    "Verif.C53_diffusion_form",
    "Verif.C53_diffusion_constants",
    "Verif.C53_total",
    "Verif.C53_user_rule",
    "Verif.C53_user_rule_refused",
    "Verif.C53_reaction_diffusion",
    "Verif.C53_uload",
    "Verif.C53_umass_edge",
    "Verif.C53_uload_edge"
   ],
   "note": "Quadrature value of the forms for arbitrary cells, elements, rules and coefficients (numbers or matrices), for the providers of lf::fe (cells and edges) and of lf::uscalfe; symmetry, semi-definiteness, kernel, sums of entries. Real scalars only."
  },
  {
   "property": "C54",
   "status": "partial",
   "theorems": [
    "Verif.C54_name_found",
    "Verif.C54_nr_found",
    "Verif.C54_name_unspecified",
    "Verif.C54_nr_unspecified",
    "Verif.C54_name_missing_partial",
    "Verif.C54_nr_missing_partial",
    "Verif.C54_name_missing_undefined",
    "Verif.C54_name_missing_shared",
    "Verif.C54_not",
    "Verif.C54_entities",
    "Verif.C54_round_trip"
   ],
   "note": "Lookup with a codimension returns the right entity whenever there is one, and the lookup without codimension behaves as stated. When no entity has the given name and codimension the function throws only if at most one entity has the name (C54_name_missing_partial): otherwise the loop reads the iterator past the range and the function returns the number of an entity with another name or its behaviour is undefined (C54_not, C54_name_missing_shared, C54_name_missing_undefined). PhysicalEntities and the round trip are proved."
  },
  {
   "property": "C55",
   "status": "proved",
   "theorems": [
    "Verif.C55_subSub_valid",
    "Verif.C55_subSub_rejects",
    "Verif.C55_sides",
    "Verif.C55_node_on_two_sides",
    "Verif.C55_counts"
   ],
   "note": ""
  },
  {
   "property": "C56",
   "status": "partial",
   "theorems": [
    "Verif.C56_geometry_partial",
    "Verif.C56_edge_without_geometry_rejected"
   ],
   "note": "All clauses proved except edges passed with a null geometry: contrary to the documentation of AddEntity the mesh constructor rejects them (assertion in mesh.cc:262); C56_edge_without_geometry_rejected proves the negation."
  },
  {
   "property": "C57",
   "status": "partial",
   "theorems": [
    "Verif.C57_affine_partial",
    "Verif.C57_fails"
   ],
   "note": "Proved for first order geometries; false of the code for SegmentO2, TriaO2, QuadO2, which inherit isAffine() = true (C57_fails)."
  },
  {
   "property": "C58",
   "status": "partial",
   "theorems": [
    "Verif.C58_fails",
    "Verif.C58_partial"
   ],
   "note": "violated by the code: NumRefShapeFunctions tests rfs_quad_p_ twice (uniform_scalar_fe_space.h:396) and aborts for spaces without a quadrilateral element (C58_fails); proved when one is given"
  },
  {
   "property": "C59",
   "status": "proved",
   "theorems": [
    "Verif.C59_local_dofs"
   ],
   "note": ""
  },
  {
   "property": "C60",
   "status": "proved",
   "theorems": [
    "Verif.C60_polynomials",
    "Verif.C60_derivatives",
    "Verif.C60_orthogonal"
   ],
   "note": ""
  },
  {
   "property": "C61",
   "status": "proved",
   "theorems": [
    "Verif.C61_segment",
    "Verif.C61_tria",
    "Verif.C61_quad"
   ],
   "note": ""
  },
  {
   "property": "C62",
   "status": "partial",
   "theorems": [
    "Verif.C62_tria",
    "Verif.C62_quad",
    "Verif.C62_segment_not",
    "Verif.C62_segment_partial"
   ],
   "note": "Triangles and quadrilaterals: proved. Segments violate the property: NumRefShapeFunctions(1) and (1, i) return 2, the number for both end points together (C62_segment_not); total and interior counts are right (C62_segment_partial)."
  },
  {
   "property": "C63",
   "status": "proved",
   "theorems": [
    "Verif.C63_tria",
    "Verif.C63_quad"
   ],
   "note": ""
  },
  {
   "property": "C65",
   "status": "partial",
   "theorems": [
    "Verif.C65_partial",
    "Verif.C65_exact_tria",
    "Verif.C65_exact_quad",
    "Verif.C65_not"
   ],
   "note": "Value and exactness proved. The code also evaluates the function at (-1,-1) on triangles, outside of the cell, so that there is no result for second order triangles with functions of world coordinates (C65_not)."
  },
  {
   "property": "C66",
   "status": "proved",
   "theorems": [],
   "note": "For the constructor with built-in quadrature rules; both sides succeed."
  },
  {
   "property": "C67",
   "status": "proved",
   "theorems": [
    "Verif.C67_mass",
    "Verif.C67_load",
    "Verif.C67_diffusion"
   ],
   "note": "Exactness of the quadrature rule is a hypothesis, as in the English statement; see C41 for make_QuadRule."
  },
  {
   "property": "C68",
   "status": "proved",
   "theorems": [
    "Verif.C68_tria",
    "Verif.C68_quad"
   ],
   "note": "Triangles: any rule exact of degree 2. Quadrilaterals: the 2x2 Gauss rule which make_QuadRule builds from the exact two-point Gauss rule."
  },
  {
   "property": "C69",
   "status": "partial",
   "theorems": [
    "Verif.C69_v2_nodes",
    "Verif.C69_v2_cells",
    "Verif.C69_v2_edges",
    "Verif.C69_v2_cell_numbers",
    "Verif.C69_v2_edge_numbers",
    "Verif.C69_v2_node_numbers_partial",
    "Verif.C69_v2_dim",
    "Verif.C69_v4_nodes",
    "Verif.C69_v4_cells",
    "Verif.C69_v4_edges",
    "Verif.C69_v4_cell_numbers",
    "Verif.C69_v4_edge_numbers",
    "Verif.C69_v4_node_numbers_partial",
    "Verif.C69_v4_dim",
    "Verif.C69_types",
    "Verif.C69_geometry",
    "Verif.C69_isPhysical",
    "Verif.C69_v2_node_numbers_not",
    "Verif.C69_v2_point_undefined",
    "Verif.C69_v2_point_range",
    "Verif.C69_sorted_not",
    "Verif.C69_cells_not",
    "Verif.C69_nodes_not"
   ],
   "note": "Nodes, cells, edges and the numbers of cells and edges are proved for both versions; for cells under the condition that no other cell has the same corners (repeated elements which are not neighbours in the file become several cells, C69_cells_not). Numbers of nodes: a point listed several times in a row gets the right numbers only if no point with a greater index was listed before (C69_v2_node_numbers_partial, C69_v4_node_numbers_partial); otherwise the number is given to another node (C69_v2_node_numbers_not). Undefined behaviour: C69_v2_point_undefined, C69_v2_point_range. Not as documented: C69_sorted_not, C69_nodes_not."
  },
  {
   "property": "C70",
   "status": "proved",
   "theorems": [
    "Verif.C70_gradient",
    "Verif.C70_chain",
    "Verif.C70_lagrange",
    "Verif.C70_hierarchic",
    "Verif.C70_point"
   ],
   "note": "Main theorem for all spaces whose elements return correct gradients, instances C70_lagrange and C70_hierarchic; C70_chain in terms of functions of world coordinates."
  },
  {
   "property": "C72",
   "status": "partial",
   "theorems": [
    "Verif.C72_unary",
    "Verif.C72_binary",
    "Verif.C72_entries_partial",
    "Verif.C72_add_partial",
    "Verif.C72_sub_partial",
    "Verif.C72_mul",
    "Verif.C72_smul_partial",
    "Verif.C72_scalar",
    "Verif.C72_generic",
    "Verif.C72_mul_generic_not",
    "Verif.C72_rowMajor_not",
    "Verif.C72_smul_rowMajor_not",
    "Verif.C72_no_points_not",
    "Verif.C72_minus",
    "Verif.C72_transpose",
    "Verif.C72_adjoint",
    "Verif.C72_conjugate",
    "Verif.C72_squaredNorm_partial",
    "Verif.C72_squaredNorm_matrix",
    "Verif.C72_const",
    "Verif.C72_global"
   ],
   "note": "Proved for scalars, for dynamic sizes, and for fixed sizes with default storage order and at least one point. Fixed-size matrices with explicit row-major order give transposed results (C72_rowMajor_not, C72_smul_rowMajor_not), without points the address of the first element of an empty vector is taken (C72_no_points_not), the product of values of other types is always the empty list (C72_mul_generic_not), and the squared norm of fixed-size matrices with several rows and columns is zero (C72_squaredNorm_matrix; the documentation allows vectors only)."
  },
  {
   "property": "C71",
   "status": "proved",
   "theorems": [
    "Verif.C71_prolongates",
    "Verif.C71_triangles",
    "Verif.C71_rejects"
   ],
   "note": "C71_prolongates for all hierarchies and any pair of Lagrangian spaces of order 1-3; C71_triangles for meshes of triangles; C71_rejects. Not modelled: the assertion that the coarse space belongs to the mesh of the coarse level (the spaces are given on these meshes)."
  },
  {
   "property": "C73",
   "status": "proved",
   "theorems": [
    "Verif.C73_same_point",
    "Verif.C73_single_valued"
   ],
   "note": "One step in C73_same_point, any number of levels in C73_single_valued."
  },
  {
   "property": "C74",
   "status": "proved",
   "theorems": [
    "Verif.C74_interpolates"
   ],
   "note": "C49 gives the value of a shared coefficient (that of the last cell); here it is shown that all cells agree."
  },
  {
   "property": "C75",
   "status": "proved",
   "theorems": [
    "Verif.C75_tables",
    "Verif.C75_make",
    "Verif.C75_rounded"
   ],
   "note": "The tables are translated by tools/quad_tables.py (literals as multiples of 1e-25) and all moments are computed exactly, by evaluation in the kernel. Degree 3 uses the rule of degree 4."
  },
  {
   "property": "C76",
   "status": "proved",
   "theorems": [
    "Verif.C76_legendre_polynomial",
    "Verif.C76_jacobi_polynomial",
    "Verif.C76_legendre",
    "Verif.C76_jacobi",
    "Verif.C76_converged_exists",
    "Verif.C76_rejects",
    "Verif.C76_make"
   ],
   "note": "exact arithmetic, at the fixed points of Newton's iteration; the starting values and the convergence of the iteration are not modelled. GaussJacobi for the parameters (1,0), the ones the library uses. C76_make discharges the hypothesis of C41 on the one-dimensional rules."
  },
  {
   "property": "C77",
   "status": "proved",
   "theorems": [
    "Verif.C77_mass",
    "Verif.C77_diffusion",
    "Verif.C77_load",
    "Verif.C77_mass_edge",
    "Verif.C77_load_edge",
    "Verif.C77_values",
    "Verif.C77_reaction_diffusion",
    "Verif.C77_constants",
    "Verif.C77_mass_definite",
    "Verif.C77_diffusion_kernel",
    "Verif.C77_exact",
    "Verif.C77_lagrange",
    "Verif.C77_hierarchic"
   ],
   "note": "exact arithmetic; shape functions and gradients are what MeshFunctionFE and MeshFunctionGradFE return. C77_lagrange and C77_hierarchic discharge the hypotheses for the spaces of the library. Definiteness for Lagrangian elements; exactness for mass matrix and load vector (element-wise exactness of the diffusion matrix is C67)."
  },
  {
   "property": "C78",
   "status": "proved",
   "theorems": [
    "Verif.C78_weak",
    "Verif.C78_unique",
    "Verif.C78_reproduces"
   ],
   "note": "exact arithmetic; the forms are those with the quadrature rules of degree 2p which the providers use; the rules are those of make_QuadRule (C75, C76). The solver (SparseLU) is not modelled: the theorem is about the solutions of the system."
  },
  {
   "property": "C79",
   "status": "partial",
   "theorems": [
    "Verif.C79_grid_partial",
    "Verif.C79_triangle_order7",
    "Verif.C79_shared"
   ],
   "note": "All clauses proved except the positions of the points of triangles for orders 7 to 10, where the claim is false of the code: AuxNodesTria scales the inner triangle by (n-6)/n instead of (n-3)/n (C79_triangle_order7). straight_fits: every mesh with straight edges meets the hypothesis."
  },
  {
   "property": "C80",
   "status": "proved",
   "theorems": [
    "Verif.C80_pointData",
    "Verif.C80_pointDataSet"
   ],
   "note": "exact arithmetic; conversions between scalar types are the identity. The points X are VTK's nodes except for triangles of orders 7 to 10 (C79). The data structure handed to the printer is modelled, the printer is not."
  },
  {
   "property": "C81",
   "status": "partial",
   "theorems": [
    "Verif.C81_cellData_partial",
    "Verif.C81_quad",
    "Verif.C81_cellDataSet"
   ],
   "note": "Mesh functions on edges and triangles and all data sets. False for mesh functions on quadrilaterals: they are evaluated at (1/4,1/4) (C81_quad)."
  },
  {
   "property": "C82",
   "status": "proved",
   "theorems": [
    "Verif.C82_histories",
    "Verif.C82_names"
   ],
   "note": "a call that throws leaves the writer as it was: in the code the data set is added after all checks."
  },
  {
   "property": "C64",
   "status": "proved",
   "theorems": [
    "Verif.C64_segment",
    "Verif.C64_tria",
    "Verif.C64_quad"
   ],
   "note": "exact arithmetic, for quadrature rules that are exact for the degree asked for (C75, C76); for triangles without a point at the vertex (0,1), where the code divides by zero."
  },
  {
   "property": "C83",
   "status": "proved",
   "theorems": [
    "Verif.C83_fit",
    "Verif.C83_fits",
    "Verif.C83_straight",
    "Verif.C83_built",
    "Verif.C83_built_straight"
   ],
   "note": "exact arithmetic. C83_fit holds with and without the completeness check of the factory; agreement of edges with their end nodes needs the check, since otherwise there may be edges which belong to no cell."
  },
  {
   "property": "C84",
   "status": "partial",
   "theorems": [
    "Verif.C84_step",
    "Verif.C84_classes_partial",
    "Verif.C84_degenerate",
    "Verif.C84_thin"
   ],
   "note": "exact arithmetic. The corner of every child relative to its refinement edge is proved for all patterns and histories (C84_step); the four shapes for all lines of descent except through the middle child of a trisection (C84_classes_partial). For these the code violates the property: C84_degenerate and C84_thin prove, for every mesh and every triangle, that legal calls create triangles of arbitrarily large ratio of sides."
  },
  {
   "property": "C85",
   "status": "proved",
   "theorems": [
    "Verif.C85_sign",
    "Verif.C85_opposite",
    "Verif.C85_boundary",
    "Verif.C85_too_large"
   ],
   "note": "for conforming meshes with at most 2^31 cells; beyond that lf::base::narrow stops the program (C85_too_large)"
  },
  {
   "property": "C86",
   "status": "proved",
   "theorems": [
    "Verif.C86_normals",
    "Verif.C86_quad",
    "Verif.C86_unique",
    "Verif.C86_inflow",
    "Verif.C86_partition",
    "Verif.C86_boundary_rule"
   ],
   "note": "exact arithmetic; cells with straight sides. C86_quad covers quadrilaterals which are not convex"
  },
  {
   "property": "C87",
   "status": "partial",
   "theorems": [
    "Verif.C87_indices",
    "Verif.C87_build",
    "Verif.C87_unsupported",
    "Verif.C87_reuse_not",
    "Verif.C87_component_handler",
    "Verif.C87_component_partial",
    "Verif.C87_flux_not",
    "Verif.C87_trace",
    "Verif.C87_conforming"
   ],
   "note": "The full property is proved for new factories (C87_indices, C87_build), and ComponentFESpace for all components except fluxes. The code violates the rest: indices are shifted after a Build (C87_reuse_not), ComponentFESpace throws for flux components (C87_flux_not), and AddTraceComponent(0) returns although the space cannot be built (C87_unsupported)."
  },
  {
   "property": "C88",
   "status": "partial",
   "theorems": [
    "Verif.C88_partial",
    "Verif.C88_same",
    "Verif.C88_flux_not"
   ],
   "note": "Proved for all components for which ComponentFESpace returns. The code violates the property for its purpose: with a flux component made by the factory the call always throws (C88_flux_not)."
  },
  {
   "property": "C89",
   "status": "proved",
   "theorems": [
    "Verif.C89_local",
    "Verif.C89_matrix",
    "Verif.C89_localVec",
    "Verif.C89_vector"
   ],
   "note": "For one cell and for assembled matrices and vectors."
  },
  {
   "property": "C90",
   "status": "proved",
   "theorems": [
    "Verif.C90_local",
    "Verif.C90_estimator",
    "Verif.C90_minimise",
    "Verif.C90_constrained"
   ],
   "note": "Exact arithmetic; LDLT is a parameter that solves systems with symmetric positive definite matrices, and one is shown to exist. C90_estimator also describes the kernel of the matrix."
  },
  {
   "property": "C91",
   "status": "proved",
   "theorems": [
    "Verif.C91_elements",
    "Verif.C91_construct",
    "Verif.C91_reaction_exact",
    "Verif.C91_diffusion_exact",
    "Verif.C91_convection_exact",
    "Verif.C91_load_exact",
    "Verif.C91_trace_exact",
    "Verif.C91_flux_exact",
    "Verif.C91_reaction",
    "Verif.C91_diffusion",
    "Verif.C91_convection",
    "Verif.C91_load",
    "Verif.C91_trace",
    "Verif.C91_flux"
   ],
   "note": "C91_reaction etc. hold for all cells and rules, the theorems *_exact for rules which are exact for the degree asked for; by C76 the rules on segments and quadrilaterals are, those on triangles up to the digits of the tables."
  },
  {
   "property": "C92",
   "status": "partial",
   "theorems": [
    "Verif.C92_single_valued_partial",
    "Verif.C92_not",
    "Verif.C92_conservation_partial",
    "Verif.C92_conservation_not"
   ],
   "note": "Proved for degrees 0 and 1 on all meshes; false for degrees 2 and 3 for all edges traversed in different directions by their cells (C92_not, C92_conservation_not)."
  },
  {
   "property": "C93",
   "status": "proved",
   "theorems": [
    "Verif.C93_parts"
   ],
   "note": "Hypothesis: the quadrature rules have the degree asked for (C76)."
  },
  {
   "property": "C94",
   "status": "proved",
   "theorems": [
    "Verif.C94_stable",
    "Verif.C94_conservative",
    "Verif.C94_order",
    "Verif.C94_assembled"
   ],
   "note": "Real arithmetic; SparseLU succeeds exactly for regular matrices. C94_assembled is for matrices without the extra term L (L = 0)."
  },
  {
   "property": "C95",
   "status": "partial",
   "theorems": [
    "Verif.C95_reaction",
    "Verif.C95_bounds",
    "Verif.C95_time_partial",
    "Verif.C95_time_not",
    "Verif.C95_steady",
    "Verif.C95_heat_partial"
   ],
   "note": "The last sentence does not hold: Evolution advances to T - 3/2 T/m only, for every m >= 2 (C95_time_not, C95_time_partial, C95_heat_partial). The rest is proved."
  },
  {
   "property": "C96",
   "status": "proved",
   "theorems": [
    "Verif.C96_normals",
    "Verif.C96_tangents",
    "Verif.C96_unique",
    "Verif.C96_degenerate",
    "Verif.C96_rejects",
    "Verif.C96_opposite"
   ],
   "note": "Real arithmetic. Degenerate triangles lead to a division by zero (C96_degenerate)."
  },
  {
   "property": "C97",
   "status": "proved",
   "theorems": [
    "Verif.C97_curl",
    "Verif.C97_velocity",
    "Verif.C97_coefficients",
    "Verif.C97_flux",
    "Verif.C97_continuous",
    "Verif.C97_agrees"
   ],
   "note": "Real arithmetic; dof handler with one dof per node and one per edge, as everywhere in the project."
  },
  {
   "property": "C98",
   "status": "proved",
   "theorems": [
    "Verif.C98_system",
    "Verif.C98_unique",
    "Verif.C98_solvable",
    "Verif.C98_minimiser"
   ],
   "note": "Real arithmetic; the solution of the linear system itself (Eigen) is not modelled, the theorems say that it exists and is unique."
  },
  {
   "property": "C99",
   "status": "partial",
   "theorems": [
    "Verif.C99_topology",
    "Verif.C99_corners_partial",
    "Verif.C99_cell_area",
    "Verif.C99_area",
    "Verif.C99_two",
    "Verif.C99_one",
    "Verif.C99_center_ignored",
    "Verif.C99_fails_center"
   ],
   "note": "Proved about the origin. The centre set with setCenterPoint is never used (C99_center_ignored, C99_fails_center); with one angular cell Build fails (C99_one), with two all cells are degenerate (C99_two). Real arithmetic."
  },
  {
   "property": "C100",
   "status": "proved",
   "theorems": [
    "Verif.C100_narrow"
   ],
   "note": "Integer types with any number of bits; floating point types are not modelled. The check is an assertion: it is active only if assertions are."
  },
  {
   "property": "C101",
   "status": "partial",
   "theorems": [
    "Verif.C101_matlab",
    "Verif.C101_name_partial",
    "Verif.C101_fails_name"
   ],
   "note": "Contents proved for all consistent meshes. The rule for the suffix fails for names which end in m or whose last character but one is a dot (C101_fails_name): no suffix, and the function has another name. How numbers are printed is not modelled."
  },
  {
   "property": "C102",
   "status": "partial",
   "theorems": [
    "Verif.C102_matplotlib",
    "Verif.C102_label",
    "Verif.C102_name_partial",
    "Verif.C102_fails_name"
   ],
   "note": "Contents proved for all consistent meshes. Names of fewer than four characters raise std::out_of_range (C102_fails_name). How numbers are printed is not modelled."
  },
  {
   "property": "C103",
   "status": "partial",
   "theorems": [
    "Verif.C103_nodes_edges",
    "Verif.C103_cells",
    "Verif.C103_flags",
    "Verif.C103_fails_default"
   ],
   "note": "Proved except for the default of output_ctrl: it is RenderCells only, without the documented numbers (C103_fails_default). Colours, scales and the printing of numbers are not modelled."
  },
  {
   "property": "C104",
   "status": "proved",
   "theorems": [
    "Verif.C104_names",
    "Verif.C104_rows"
   ],
   "note": "Indices up to 2^31 - 1, beyond which an assertion fails."
  },
  {
   "property": "C105",
   "status": "partial",
   "theorems": [
    "Verif.C105_text",
    "Verif.C105_binary_partial",
    "Verif.C105_fails_comment",
    "Verif.C105_fails_rest",
    "Verif.C105_elements",
    "Verif.C105_truncated"
   ],
   "note": "Proved for all text files and all binary files without comments. In binary files comments are not recognised: after the header the file is refused (C105_fails_comment), at the end everything behind the comment is silently ignored (C105_fails_rest). Comments whose text contains a dollar sign and parametric nodes are not part of the specification (the reader documents that it does not support the latter). Rounding of decimal numbers to double is not modelled."
  },
  {
   "property": "C106",
   "status": "partial",
   "theorems": [
    "Verif.C106_text_partial",
    "Verif.C106_binary_partial",
    "Verif.C106_fails_periodic",
    "Verif.C106_fails_tags",
    "Verif.C106_elements",
    "Verif.C106_truncated",
    "Verif.C106_rest",
    "Verif.C106_dispatch"
   ],
   "note": "Proved for all text and binary files with at least two tags per element, except that the section Periodic is read but not stored: GMshFileV2::Periodic is always empty (C106_fails_periodic, for every input). Elements with fewer than two tags, which the format allows, are misread (C106_fails_tags); in text files the number of nodes is not checked. The specification has single blanks between the numbers of a line, as gmsh writes them; the parser accepts nothing else."
  },
  {
   "property": "C107",
   "status": "partial",
   "theorems": [
    "Verif.C107_validate",
    "Verif.C107_text_partial",
    "Verif.C107_binary_partial",
    "Verif.C107_fails_precision",
    "Verif.C107_fails_uchar",
    "Verif.C107_fails_empty",
    "Verif.C107_fails_name"
   ],
   "note": "Proved for files without data of type unsigned char, with names without white space and, for text files, with nonempty fields and cells. Text files have three digits after the point only: meshes with a width below about 1/1000 are destroyed (C107_fails_precision). unsigned char is labelled char (C107_fails_uchar). Empty fields are counted but not written in text files (C107_fails_empty). Names with tabulators and empty names pass the check of the writer but give unreadable files (C107_fails_name). The semantics of the generators of Boost.Spirit Karma is trusted."
  },
  {
   "property": "C108",
   "status": "partial",
   "theorems": [
    "Verif.C108_v2_partial",
    "Verif.C108_v4_partial",
    "Verif.C108_same",
    "Verif.C108_name",
    "Verif.C108_history",
    "Verif.C108_wellFormed",
    "Verif.C108_truncated",
    "Verif.C108_edge_twice_not"
   ],
   "note": "Composition of C105, C106 and C69, with a proof that no assertion fails for files which describe a mesh (Spec/GmshValid.lean). Excluded by this specification are files which the code cannot read although they are legal: an edge listed twice but not consecutively (C108_edge_twice_not), points repeated in an unlucky order or with a large number outside of the mesh (C69_v2_point_range, C69_v2_point_undefined), elements without tags (C106_fails_tags), comments in binary files (C105_fails_comment). C108_history, C108_wellFormed, C108_truncated hold for arbitrary bytes."
  },
  {
   "property": "C109",
   "status": "partial",
   "theorems": [
    "Verif.C109_tria",
    "Verif.C109_quad",
    "Verif.C109_parallelogram",
    "Verif.C109_spanned",
    "Verif.C109_similar",
    "Verif.C109_numbering",
    "Verif.C109_tria_regular",
    "Verif.C109_parallelogram_regular",
    "Verif.C109_quad_partial",
    "Verif.C109_quad_not",
    "Verif.C109_refine",
    "Verif.C109_refine_child",
    "Verif.C109_bisect_not",
    "Verif.C109_relative"
   ],
   "note": "The code violates the property for quadrilaterals: the check accepts quadrilaterals with crossing sides, whose parametrization is singular inside and whose regular refinement stops the program (C109_quad_not); regular are exactly the strictly convex ones (C109_quad_partial, plane only). Bisection of an accepted triangle can fail, even at its longest side (C109_bisect_not); regular refinement cannot (C109_refine, for triangles and parallelograms given by three corners)."
  },
  {
   "property": "C110",
   "status": "partial",
   "theorems": [
    "Verif.C110_normal",
    "Verif.C110_divergence",
    "Verif.C110_net",
    "Verif.C110_offset",
    "Verif.C110_system",
    "Verif.C110_solvable",
    "Verif.C110_flow",
    "Verif.C110_edges",
    "Verif.C110_holes_not",
    "Verif.C110_edges_not"
   ],
   "note": "Proved for domains whose boundary is one closed curve. The code violates the property for other domains: with holes, the matrix for the offset function is singular whatever the data are (C110_holes_not). The sum of the solution and the offset function, which the programs of the project form, is correct at the nodes only; at the edges it is not the weighted jump (C110_edges, C110_edges_not)."
  },
  {
   "property": "C111",
   "status": "partial",
   "theorems": [
    "Verif.C111_indexing_iff",
    "Verif.C111_indexing",
    "Verif.C111_topology",
    "Verif.C111_complete_iff",
    "Verif.C111_complete",
    "Verif.C111_orientation",
    "Verif.C111_watertight_partial",
    "Verif.C111_watertight_matching",
    "Verif.C111_test",
    "Verif.C111_scale_partial",
    "Verif.C111_scale_not",
    "Verif.C111_test4",
    "Verif.C111_test_illegal",
    "Verif.C111_watertight_not",
    "Verif.C111_topology_not"
   ],
   "note": "The checks of numbering, completeness, topology and orientation are proved to decide what is claimed. The code violates the rest of the property: isWatertightMesh never looks at cells, so that it returns an empty list for a mesh with a cell in the wrong place (C111_watertight_not; what the list contains is C111_watertight_partial), and the test meshes 2, 5, 6 and 8 are wrong for all scaling factors except 1, because the shapes of some cells are not scaled (C111_scale_not, C111_scale_partial). checkMeshCompleteness is undefined for meshes without edges (C111_complete_iff). Test mesh 4 does not exist for scaling factors which are not positive (C111_test4)."
  },
  {
   "property": "C112",
   "status": "partial",
   "theorems": [
    "Verif.C112_jump",
    "Verif.C112_jump_boundary",
    "Verif.C112_l2",
    "Verif.C112_value",
    "Verif.C112_dg_partial",
    "Verif.C112_gradient_not",
    "Verif.C112_boundary_not",
    "Verif.C112_points_not",
    "Verif.C112_shift"
   ],
   "note": "L2norm is proved as stated (C112_l2). For DGnorm the formula is proved for midpoint rules on the edges, gradients whose type is not a matrix of fixed size, and with the sum over the edges inside the domain only (C112_dg_partial; for any rule with one point C112_value). The code violates the rest: edges on the boundary are left out (C112_boundary_not), gradients of type Eigen::Matrix2d do not count at all because squaredNorm returns zero for them (C112_gradient_not), rules on the edges with several points make assertions in Eigen fail (C112_points_not), and with a single point which is not the midpoint the values on both sides are taken at different points (C112_shift)."
  },
  {
   "property": "C113",
   "status": "partial",
   "theorems": [
    "Verif.C113_elapsed",
    "Verif.C113_isStopped",
    "Verif.C113_monotone",
    "Verif.C113_format_partial",
    "Verif.C113_format_running",
    "Verif.C113_format_not",
    "Verif.C113_autoTimer",
    "Verif.C113_report_not",
    "Verif.C113_move_not",
    "Verif.C113_ticks",
    "Verif.C113_unknown_not"
   ],
   "note": "Elapsed (C113_elapsed, C113_monotone), IsStopped (C113_isStopped), the conversion of ticks (C113_ticks) and the report of the destructor (C113_autoTimer) are proved as stated, Format for stopped timers (C113_format_partial). The code violates the rest: Format prints the stored reading of the clock for running timers (C113_format_running, C113_format_not), so does AutoTimer::Report when the user calls it (C113_report_not); the destructor of an AutoTimer moved from dereferences a null pointer if it had a logger, and reports a second time otherwise (C113_move_not); unknown processor times are reported as zero (C113_unknown_not)."
  },
  {
   "property": "C114",
   "status": "proved",
   "theorems": [
    "Verif.C114_separates",
    "Verif.C114_builder",
    "Verif.C114_gramian",
    "Verif.C114_primal"
   ],
   "note": "Builders: C114_builder, for all histories. C114_separates: the rules of degree 2p see every polynomial of degree p, although the tables for triangles are rounded. C114_gramian: the Gramian is definite for test spaces of degrees 1 to 3, the degrees for which the library has elements, and all non-negative coefficients of the gradient term, which covers both norms. C114_primal: the set-up succeeds, the element matrices are those of the forms, and the assumptions of C90 (DpgSetting) hold. Exact reals; converged Gauss rules as in C76."
  },
  {
   "property": "C115",
   "status": "proved",
   "theorems": [
    "Verif.C115_forms",
    "Verif.C115_ultraweak",
    "Verif.C115_usable"
   ],
   "note": "C115_forms: all product spaces, all lists of admissible forms. C115_ultraweak: degrees p of at most 2 and p + enrichment between 1 and 3, the degrees for which the library has elements; the assumptions of C90 (DpgSetting) hold. C115_usable: every mesh of triangles and strictly convex quadrilaterals meets the hypothesis on the cells. Exact reals: where alpha is zero the code divides by zero, while the model has 1/0 = 0. Converged Gauss rules as in C76."
  }
 ]
}