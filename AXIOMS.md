# Axioms per theorem

Generated by tools/axioms.py from `#print axioms`.

## none (8 theorems)

* Verif.C01_makeSparse
* Verif.C19_counts
* Verif.C54_not
* Verif.C55_counts
* Verif.C72_unary
* Verif.C72_binary
* Verif.C102_fails_name
* Verif.C113_unknown_not

## propext (21 theorems)

* Verif.C01_wraparound_witness
* Verif.C12_unoriented_disagrees
* Verif.C22_codim
* Verif.C22_codim_rejects
* Verif.C22_all_rejects
* Verif.C26_codim
* Verif.C26_fails_point
* Verif.C26_fails_segment
* Verif.C36_getMesh_partial
* Verif.C55_sides
* Verif.C55_node_on_two_sides
* Verif.C69_types
* Verif.C69_geometry
* Verif.C69_v2_point_undefined
* Verif.C69_v2_point_range
* Verif.C69_sorted_not
* Verif.C69_cells_not
* Verif.C69_nodes_not
* Verif.C72_mul_generic_not
* Verif.C72_const
* Verif.C108_edge_twice_not

## propext, Classical.choice, Quot.sound (454 theorems)

* Verif.C01_coo_history
* Verif.C02_matVecMultAdd
* Verif.C02_matVecMult
* Verif.C03_fixFlaggedSolutionComponents
* Verif.C04_fixFlaggedSolutionCompAlt
* Verif.C04_variants_agree
* Verif.C05_symmetric
* Verif.C05_posDef
* Verif.C06_fixSolutionComponentsLse
* Verif.C06_listedSum_of_distinct
* Verif.C07_assembleMatrixLocally
* Verif.C07_assembleMatrixLocallyNew
* Verif.C07_order_independent
* Verif.C08_assembleVectorLocally
* Verif.C08_assembleVectorLocallyNew
* Verif.C08_order_independent
* Verif.C09_uniform
* Verif.C09_dynamic
* Verif.C11_uniform
* Verif.C11_uniform_unoriented
* Verif.C11_dynamic
* Verif.C12_uniform
* Verif.C12_dynamic
* Verif.C13_uniform
* Verif.C13_dynamic
* Verif.C15_component
* Verif.C15_partition_entity
* Verif.C16_build_succeeds_iff
* Verif.C16_edges_exactly_once
* Verif.C16_wellFormed
* Verif.C17_returned_indices
* Verif.C17_numbers
* Verif.C18_orientation
* Verif.C18_lengths
* Verif.C19_entityByIndex
* Verif.C19_index
* Verif.C19_cell_type
* Verif.C20_count
* Verif.C20_sum
* Verif.C21_edges
* Verif.C21_nodes
* Verif.C21_all
* Verif.C23_tpTriag
* Verif.C24_tpQuad
* Verif.C25_torus_partial
* Verif.C25_fails_one
* Verif.C25_fails_two
* Verif.C26_contract
* Verif.C26_rejects_partial
* Verif.C27_tiling
* Verif.C28_terminates
* Verif.C28_closure
* Verif.C28_order_independent
* Verif.C28_refineMarked
* Verif.C28_marker
* Verif.C29_marked
* Verif.C29_stored
* Verif.C30_conforming
* Verif.C31_registered
* Verif.C32_regular
* Verif.C32_barycentric
* Verif.C32_euler
* Verif.C33_parents
* Verif.C34_boundary
* Verif.C35_position
* Verif.C35_stable
* Verif.C35_uniform
* Verif.C35_general_quad
* Verif.C36_eval
* Verif.C36_stable
* Verif.C36_uniform
* Verif.C36_make
* Verif.C36_getMesh_fails
* Verif.C37_interpolation
* Verif.C38_inverse_gramian
* Verif.C38_integration_element
* Verif.C38_derivative
* Verif.C39_sides
* Verif.C39_corners
* Verif.C40_planar
* Verif.C40_quad
* Verif.C40_segment
* Verif.C40_children
* Verif.C41_segment
* Verif.C41_quad
* Verif.C41_tria
* Verif.C42_triaMidpoint
* Verif.C42_triaEdgeMidpoint
* Verif.C42_triaEdgeMidpoint_literal
* Verif.C42_quadEdgeMidpoint
* Verif.C42_triaP6O4
* Verif.C42_nodal
* Verif.C42_quadGauss
* Verif.C43_transparent
* Verif.C43_fails
* Verif.C43_cached
* Verif.C44_o1Segment
* Verif.C44_o2Segment
* Verif.C44_o3Segment
* Verif.C44_o1Tria
* Verif.C44_o2Tria
* Verif.C44_o3Tria
* Verif.C44_o1Quad
* Verif.C44_o2Quad
* Verif.C44_o3Quad
* Verif.C44_point
* Verif.C45_constructible
* Verif.C45_continuous
* Verif.C46_polynomials
* Verif.C46_derivatives
* Verif.C46_boundary
* Verif.C46_symmetry
* Verif.C46_orthogonal
* Verif.C47_segment
* Verif.C48_constructible
* Verif.C48_continuous
* Verif.C48_uniform
* Verif.C48_degree
* Verif.C49_values
* Verif.C49_reproduces
* Verif.C49_lagrange
* Verif.C49_hierarchic
* Verif.C50_value
* Verif.C50_partial
* Verif.C50_not
* Verif.C50_degree_partial
* Verif.C51_flags
* Verif.C51_reproduces
* Verif.C51_lagrange
* Verif.C51_hierarchic
* Verif.C52_tria
* Verif.C52_tria_form
* Verif.C52_tria_renumber
* Verif.C52_tria_similar
* Verif.C52_tria_degenerate
* Verif.C52_quad
* Verif.C52_quad_form
* Verif.C52_parallelogram
* Verif.C53_mass
* Verif.C53_mass_edge
* Verif.C53_diffusion
* Verif.C53_load
* Verif.C53_load_edge
* Verif.C53_mass_form
* Verif.C53_mass_edge_form
* Verif.C53_diffusion_form
* Verif.C53_diffusion_constants
* Verif.C53_total
* Verif.C53_user_rule
* Verif.C53_user_rule_refused
* Verif.C53_reaction_diffusion
* Verif.C53_uload
* Verif.C53_umass_edge
* Verif.C53_uload_edge
* Verif.C54_name_found
* Verif.C54_nr_found
* Verif.C54_name_unspecified
* Verif.C54_nr_unspecified
* Verif.C54_name_missing_partial
* Verif.C54_nr_missing_partial
* Verif.C54_name_missing_undefined
* Verif.C54_name_missing_shared
* Verif.C54_entities
* Verif.C54_round_trip
* Verif.C55_subSub_valid
* Verif.C56_geometry_partial
* Verif.C56_edge_without_geometry_rejected
* Verif.C57_fails
* Verif.C58_fails
* Verif.C58_partial
* Verif.C59_local_dofs
* Verif.C60_polynomials
* Verif.C60_derivatives
* Verif.C60_orthogonal
* Verif.C61_segment
* Verif.C61_tria
* Verif.C61_quad
* Verif.C62_tria
* Verif.C62_quad
* Verif.C62_segment_not
* Verif.C63_tria
* Verif.C63_quad
* Verif.C65_partial
* Verif.C65_exact_tria
* Verif.C65_exact_quad
* Verif.C65_not
* Verif.C67_mass
* Verif.C67_load
* Verif.C67_diffusion
* Verif.C68_tria
* Verif.C68_quad
* Verif.C69_v2_nodes
* Verif.C69_v2_cells
* Verif.C69_v2_edges
* Verif.C69_v2_cell_numbers
* Verif.C69_v2_edge_numbers
* Verif.C69_v2_node_numbers_partial
* Verif.C69_v2_dim
* Verif.C69_v4_nodes
* Verif.C69_v4_cells
* Verif.C69_v4_edges
* Verif.C69_v4_cell_numbers
* Verif.C69_v4_edge_numbers
* Verif.C69_v4_node_numbers_partial
* Verif.C69_v4_dim
* Verif.C70_gradient
* Verif.C70_chain
* Verif.C70_lagrange
* Verif.C70_hierarchic
* Verif.C70_point
* Verif.C72_entries_partial
* Verif.C72_add_partial
* Verif.C72_sub_partial
* Verif.C72_mul
* Verif.C72_smul_partial
* Verif.C72_generic
* Verif.C72_rowMajor_not
* Verif.C72_smul_rowMajor_not
* Verif.C72_transpose
* Verif.C72_adjoint
* Verif.C72_conjugate
* Verif.C72_squaredNorm_partial
* Verif.C72_global
* Verif.C71_prolongates
* Verif.C71_triangles
* Verif.C73_same_point
* Verif.C73_single_valued
* Verif.C74_interpolates
* Verif.C75_tables
* Verif.C75_make
* Verif.C75_rounded
* Verif.C76_legendre_polynomial
* Verif.C76_jacobi_polynomial
* Verif.C76_legendre
* Verif.C76_jacobi
* Verif.C76_converged_exists
* Verif.C76_rejects
* Verif.C76_make
* Verif.C77_mass
* Verif.C77_diffusion
* Verif.C77_load
* Verif.C77_mass_edge
* Verif.C77_load_edge
* Verif.C77_values
* Verif.C77_reaction_diffusion
* Verif.C77_constants
* Verif.C77_mass_definite
* Verif.C77_diffusion_kernel
* Verif.C77_exact
* Verif.C77_lagrange
* Verif.C77_hierarchic
* Verif.C78_weak
* Verif.C78_unique
* Verif.C78_reproduces
* Verif.C79_grid_partial
* Verif.C79_triangle_order7
* Verif.C79_shared
* Verif.C80_pointData
* Verif.C80_pointDataSet
* Verif.C81_cellData_partial
* Verif.C81_quad
* Verif.C81_cellDataSet
* Verif.C82_histories
* Verif.C82_names
* Verif.C64_segment
* Verif.C64_tria
* Verif.C64_quad
* Verif.C83_fit
* Verif.C83_fits
* Verif.C83_straight
* Verif.C83_built
* Verif.C83_built_straight
* Verif.C84_step
* Verif.C84_classes_partial
* Verif.C84_degenerate
* Verif.C84_thin
* Verif.C85_sign
* Verif.C85_opposite
* Verif.C85_boundary
* Verif.C86_normals
* Verif.C86_quad
* Verif.C86_unique
* Verif.C86_inflow
* Verif.C86_partition
* Verif.C86_boundary_rule
* Verif.C87_indices
* Verif.C87_unsupported
* Verif.C87_component_handler
* Verif.C87_component_partial
* Verif.C87_trace
* Verif.C87_conforming
* Verif.C88_partial
* Verif.C89_local
* Verif.C89_matrix
* Verif.C89_localVec
* Verif.C89_vector
* Verif.C90_local
* Verif.C90_estimator
* Verif.C90_minimise
* Verif.C90_constrained
* Verif.C91_elements
* Verif.C91_construct
* Verif.C91_reaction_exact
* Verif.C91_diffusion_exact
* Verif.C91_convection_exact
* Verif.C91_load_exact
* Verif.C91_trace_exact
* Verif.C91_flux_exact
* Verif.C91_reaction
* Verif.C91_diffusion
* Verif.C91_convection
* Verif.C91_load
* Verif.C91_trace
* Verif.C91_flux
* Verif.C92_single_valued_partial
* Verif.C92_not
* Verif.C92_conservation_partial
* Verif.C92_conservation_not
* Verif.C93_parts
* Verif.C94_stable
* Verif.C94_conservative
* Verif.C94_order
* Verif.C94_assembled
* Verif.C95_reaction
* Verif.C95_bounds
* Verif.C95_time_partial
* Verif.C95_time_not
* Verif.C95_steady
* Verif.C95_heat_partial
* Verif.C96_normals
* Verif.C96_tangents
* Verif.C96_unique
* Verif.C96_degenerate
* Verif.C96_rejects
* Verif.C96_opposite
* Verif.C97_curl
* Verif.C97_velocity
* Verif.C97_coefficients
* Verif.C97_flux
* Verif.C97_continuous
* Verif.C97_agrees
* Verif.C98_system
* Verif.C98_unique
* Verif.C98_solvable
* Verif.C98_minimiser
* Verif.C99_topology
* Verif.C99_corners_partial
* Verif.C99_cell_area
* Verif.C99_area
* Verif.C99_two
* Verif.C99_one
* Verif.C99_center_ignored
* Verif.C99_fails_center
* Verif.C100_narrow
* Verif.C101_name_partial
* Verif.C101_fails_name
* Verif.C102_label
* Verif.C102_name_partial
* Verif.C103_nodes_edges
* Verif.C103_cells
* Verif.C103_flags
* Verif.C103_fails_default
* Verif.C104_names
* Verif.C104_rows
* Verif.C105_text
* Verif.C105_binary_partial
* Verif.C105_fails_comment
* Verif.C105_fails_rest
* Verif.C105_elements
* Verif.C105_truncated
* Verif.C106_text_partial
* Verif.C106_binary_partial
* Verif.C106_fails_periodic
* Verif.C106_fails_tags
* Verif.C106_elements
* Verif.C106_truncated
* Verif.C106_rest
* Verif.C106_dispatch
* Verif.C107_validate
* Verif.C107_text_partial
* Verif.C107_binary_partial
* Verif.C107_fails_precision
* Verif.C107_fails_uchar
* Verif.C107_fails_empty
* Verif.C107_fails_name
* Verif.C108_v2_partial
* Verif.C108_v4_partial
* Verif.C108_same
* Verif.C108_name
* Verif.C108_history
* Verif.C108_wellFormed
* Verif.C108_truncated
* Verif.C109_tria
* Verif.C109_quad
* Verif.C109_parallelogram
* Verif.C109_spanned
* Verif.C109_similar
* Verif.C109_numbering
* Verif.C109_tria_regular
* Verif.C109_parallelogram_regular
* Verif.C109_quad_partial
* Verif.C109_quad_not
* Verif.C109_refine
* Verif.C109_refine_child
* Verif.C109_bisect_not
* Verif.C109_relative
* Verif.C110_normal
* Verif.C110_divergence
* Verif.C110_net
* Verif.C110_offset
* Verif.C110_system
* Verif.C110_solvable
* Verif.C110_flow
* Verif.C110_edges
* Verif.C110_holes_not
* Verif.C110_edges_not
* Verif.C111_indexing_iff
* Verif.C111_indexing
* Verif.C111_topology
* Verif.C111_complete_iff
* Verif.C111_complete
* Verif.C111_orientation
* Verif.C111_watertight_partial
* Verif.C111_watertight_matching
* Verif.C111_test
* Verif.C111_scale_partial
* Verif.C111_scale_not
* Verif.C111_test4
* Verif.C111_test_illegal
* Verif.C111_watertight_not
* Verif.C111_topology_not
* Verif.C112_jump
* Verif.C112_jump_boundary
* Verif.C112_l2
* Verif.C112_value
* Verif.C112_dg_partial
* Verif.C112_gradient_not
* Verif.C112_boundary_not
* Verif.C112_points_not
* Verif.C112_shift
* Verif.C113_format_partial
* Verif.C113_format_running
* Verif.C113_format_not
* Verif.C113_autoTimer
* Verif.C113_report_not
* Verif.C113_move_not
* Verif.C113_ticks
* Verif.C114_separates
* Verif.C114_builder
* Verif.C114_gramian
* Verif.C114_primal
* Verif.C115_forms
* Verif.C115_ultraweak
* Verif.C115_usable

## propext, Quot.sound (43 theorems)

* Verif.C06_rejects_out_of_range
* Verif.C09_numDofs
* Verif.C10_uniform
* Verif.C10_dynamic
* Verif.C14_dynamic_eq_uniform
* Verif.C15_construct
* Verif.C15_indices
* Verif.C20_rejects
* Verif.C21_rejects
* Verif.C22_all
* Verif.C23_tpTriag_null
* Verif.C24_tpQuad_null
* Verif.C25_torus_null
* Verif.C26_anchor
* Verif.C29_regular
* Verif.C36_compose
* Verif.C41_degree
* Verif.C41_point
* Verif.C49_fails
* Verif.C50_empty_not
* Verif.C50_points_not
* Verif.C51_fails
* Verif.C55_subSub_rejects
* Verif.C57_affine_partial
* Verif.C62_segment_partial
* Verif.C69_isPhysical
* Verif.C69_v2_node_numbers_not
* Verif.C72_scalar
* Verif.C72_no_points_not
* Verif.C72_minus
* Verif.C72_squaredNorm_matrix
* Verif.C71_rejects
* Verif.C85_too_large
* Verif.C87_build
* Verif.C87_reuse_not
* Verif.C87_flux_not
* Verif.C88_same
* Verif.C88_flux_not
* Verif.C101_matlab
* Verif.C102_matplotlib
* Verif.C113_elapsed
* Verif.C113_isStopped
* Verif.C113_monotone
