{
 "C01": {
  "note": "Indices below 2^31 - 1 (Eigen stores them as int); C01_wraparound_witness shows that the claim fails when i+1 wraps around in unsigned int."
 },
 "C07": {
  "note": "Exact arithmetic; providers are pure functions of the entity."
 },
 "C08": {
  "note": "Exact arithmetic; providers are pure functions of the entity."
 },
 "C56": {
  "status": "partial",
  "note": "All clauses proved except edges passed with a null geometry: contrary to the documentation of AddEntity the mesh constructor rejects them (assertion in mesh.cc:262); C56_edge_without_geometry_rejected proves the negation."
 },
 "C25": {
  "status": "partial",
  "note": "Proved for nx, ny >= 3. The full statement is false of the code: nx or ny = 1 makes Build fail (C25_fails_one), nx = 2 identifies edges (C25_fails_two)."
 },
 "C26": {
  "status": "partial",
  "note": "Contract proved for all reference elements, patterns, anchors and codimensions; rejection proved for triangles and quadrilaterals. The rejection clause is false of the code for points and for segments with codim 1 (C26_fails_point, C26_fails_segment): inadmissible patterns are answered there."
 },
 "C27": {
  "note": "For every linearly ordered field of coordinates. Children need not be counter-clockwise (the code does not promise it)."
 },
 "C37": {
  "note": "All eight geometry classes; for Parallelogram under the condition its constructor asserts (taken exactly, without tolerance)."
 },
 "C38": {
  "note": "Derivative within the unit box (second order geometries reject points outside it); exact linear algebra in place of the Householder QR solve."
 },
 "C40": {
  "note": "Planar cells: Lebesgue measure; segments in any dimension: Hausdorff measure. For cells in space the area formula is covered by C38_integration_element and C40_children only."
 },
 "C57": {
  "status": "partial",
  "note": "Proved for first order geometries; false of the code for SegmentO2, TriaO2, QuadO2, which inherit isAffine() = true (C57_fails)."
 },
 "C35": {
  "note": "All parents named in the statement, for hierarchies after arbitrary calls (C35_position, C35_stable); in addition all geometries under uniform refinement (C35_uniform). C35_general_quad shows that the restriction to parallelograms is needed for other patterns."
 },
 "C36": {
  "status": "partial",
  "note": "Evaluation and composition proved for all levels, for meshes of triangles and parallelograms under any refinement and for all meshes under uniform refinement. The clause on getMesh() is false of the code unless the levels are neighbours: proved in C36_getMesh_partial, negation C36_getMesh_fails."
 },
 "C58": {
  "status": "partial",
  "note": "violated by the code: NumRefShapeFunctions tests rfs_quad_p_ twice (uniform_scalar_fe_space.h:396) and aborts for spaces without a quadrilateral element (C58_fails); proved when one is given"
 },
 "C62": {
  "status": "partial",
  "note": "Triangles and quadrilaterals: proved. Segments violate the property: NumRefShapeFunctions(1) and (1, i) return 2, the number for both end points together (C62_segment_not); total and interior counts are right (C62_segment_partial)."
 },
 "C48": {
  "status": "proved",
  "note": "Stated for the whole space and arbitrary coefficient vectors: traces from two cells, from the edge and from the nodes agree, for arbitrary degrees per edge and cell."
 },
 "C47": {
  "status": "proved",
  "note": "Exactness of the quadrature rule for degree 2(p-1) is a hypothesis, as in the English statement."
 },
 "C49": {
  "status": "proved",
  "note": "Values for arbitrary mesh functions and spaces; reproduction of finite element functions for all spaces with dual elements, instantiated for the Lagrangian (order 1-3) and hierarchic spaces. Hierarchic: quadrature rules assumed exact and without points at y = 1."
 },
 "C50": {
  "status": "partial",
  "note": "False of the code: the first entity is integrated over whatever the predicate says, and dereferenced even if there is none (C50_not, C50_empty_not); the version with a degree has no rule for points (C50_points_not). C50_value says what is computed; C50_partial, C50_degree_partial: the property if the first entity exists and is selected."
 },
 "C51": {
  "status": "proved",
  "note": "For arbitrary functions the value is that of the last selected edge; for finite element functions it is the coefficient. Instantiated for the Lagrangian and hierarchic spaces."
 },
 "C52": {
  "status": "proved",
  "note": "Triangles: exact Dirichlet form, symmetry, semi-definiteness, kernel, renumbering, similarity. Quadrilaterals: the 2x2 Gauss value of the Dirichlet form, symmetry, semi-definiteness, kernel, exactness on parallelograms."
 },
 "C65": {
  "status": "partial",
  "note": "Value and exactness proved. The code also evaluates the function at (-1,-1) on triangles, outside of the cell, so that there is no result for second order triangles with functions of world coordinates (C65_not)."
 },
 "C53": {
  "status": "proved",
  "note": "Quadrature value of the forms for arbitrary cells, elements, rules and coefficients (numbers or matrices), for the providers of lf::fe (cells and edges) and of lf::uscalfe; symmetry, semi-definiteness, kernel, sums of entries. Real scalars only."
 },
 "C66": {
  "status": "proved",
  "note": "For the constructor with built-in quadrature rules; both sides succeed."
 },
 "C67": {
  "status": "proved",
  "note": "Exactness of the quadrature rule is a hypothesis, as in the English statement; see C41 for make_QuadRule."
 },
 "C68": {
  "status": "proved",
  "note": "Triangles: any rule exact of degree 2. Quadrilaterals: the 2x2 Gauss rule which make_QuadRule builds from the exact two-point Gauss rule."
 },
 "C54": {
  "status": "partial",
  "note": "Lookup with a codimension returns the right entity whenever there is one, and the lookup without codimension behaves as stated. When no entity has the given name and codimension the function throws only if at most one entity has the name (C54_name_missing_partial): otherwise the loop reads the iterator past the range and the function returns the number of an entity with another name or its behaviour is undefined (C54_not, C54_name_missing_shared, C54_name_missing_undefined). PhysicalEntities and the round trip are proved."
 },
 "C69": {
  "status": "partial",
  "note": "Nodes, cells, edges and the numbers of cells and edges are proved for both versions; for cells under the condition that no other cell has the same corners (repeated elements which are not neighbours in the file become several cells, C69_cells_not). Numbers of nodes: a point listed several times in a row gets the right numbers only if no point with a greater index was listed before (C69_v2_node_numbers_partial, C69_v4_node_numbers_partial); otherwise the number is given to another node (C69_v2_node_numbers_not). Undefined behaviour: C69_v2_point_undefined, C69_v2_point_range. Not as documented: C69_sorted_not, C69_nodes_not."
 },
 "C70": {
  "status": "proved",
  "note": "Main theorem for all spaces whose elements return correct gradients, instances C70_lagrange and C70_hierarchic; C70_chain in terms of functions of world coordinates."
 },
 "C72": {
  "status": "partial",
  "note": "Proved for scalars, for dynamic sizes, and for fixed sizes with default storage order and at least one point. Fixed-size matrices with explicit row-major order give transposed results (C72_rowMajor_not, C72_smul_rowMajor_not), without points the address of the first element of an empty vector is taken (C72_no_points_not), the product of values of other types is always the empty list (C72_mul_generic_not), and the squared norm of fixed-size matrices with several rows and columns is zero (C72_squaredNorm_matrix; the documentation allows vectors only)."
 },
 "C71": {
  "status": "proved",
  "note": "C71_prolongates for all hierarchies and any pair of Lagrangian spaces of order 1-3; C71_triangles for meshes of triangles; C71_rejects. Not modelled: the assertion that the coarse space belongs to the mesh of the coarse level (the spaces are given on these meshes)."
 },
 "C73": {
  "status": "proved",
  "note": "One step in C73_same_point, any number of levels in C73_single_valued."
 },
 "C74": {
  "status": "proved",
  "note": "C49 gives the value of a shared coefficient (that of the last cell); here it is shown that all cells agree."
 },
 "C75": {
  "status": "proved",
  "note": "The tables are translated by tools/quad_tables.py (literals as multiples of 1e-25) and all moments are computed exactly, by evaluation in the kernel. Degree 3 uses the rule of degree 4."
 },
 "C76": {
  "status": "proved",
  "note": "exact arithmetic, at the fixed points of Newton's iteration; the starting values and the convergence of the iteration are not modelled. GaussJacobi for the parameters (1,0), the ones the library uses. C76_make discharges the hypothesis of C41 on the one-dimensional rules."
 },
 "C77": {
  "status": "proved",
  "note": "exact arithmetic; shape functions and gradients are what MeshFunctionFE and MeshFunctionGradFE return. C77_lagrange and C77_hierarchic discharge the hypotheses for the spaces of the library. Definiteness for Lagrangian elements; exactness for mass matrix and load vector (element-wise exactness of the diffusion matrix is C67)."
 },
 "C78": {
  "status": "proved",
  "note": "exact arithmetic; the forms are those with the quadrature rules of degree 2p which the providers use; the rules are those of make_QuadRule (C75, C76). The solver (SparseLU) is not modelled: the theorem is about the solutions of the system."
 },
 "C79": {
  "status": "partial",
  "note": "All clauses proved except the positions of the points of triangles for orders 7 to 10, where the claim is false of the code: AuxNodesTria scales the inner triangle by (n-6)/n instead of (n-3)/n (C79_triangle_order7). straight_fits: every mesh with straight edges meets the hypothesis."
 },
 "C80": {
  "status": "proved",
  "note": "exact arithmetic; conversions between scalar types are the identity. The points X are VTK's nodes except for triangles of orders 7 to 10 (C79). The data structure handed to the printer is modelled, the printer is not."
 },
 "C81": {
  "status": "partial",
  "note": "Mesh functions on edges and triangles and all data sets. False for mesh functions on quadrilaterals: they are evaluated at (1/4,1/4) (C81_quad)."
 },
 "C82": {
  "status": "proved",
  "note": "a call that throws leaves the writer as it was: in the code the data set is added after all checks."
 },
 "C64": {
  "status": "proved",
  "note": "exact arithmetic, for quadrature rules that are exact for the degree asked for (C75, C76); for triangles without a point at the vertex (0,1), where the code divides by zero."
 },
 "C83": {
  "status": "proved",
  "note": "exact arithmetic. C83_fit holds with and without the completeness check of the factory; agreement of edges with their end nodes needs the check, since otherwise there may be edges which belong to no cell."
 },
 "C84": {
  "status": "partial",
  "note": "exact arithmetic. The corner of every child relative to its refinement edge is proved for all patterns and histories (C84_step); the four shapes for all lines of descent except through the middle child of a trisection (C84_classes_partial). For these the code violates the property: C84_degenerate and C84_thin prove, for every mesh and every triangle, that legal calls create triangles of arbitrarily large ratio of sides."
 },
 "C85": {
  "status": "proved",
  "note": "for conforming meshes with at most 2^31 cells; beyond that lf::base::narrow stops the program (C85_too_large)"
 },
 "C86": {
  "status": "proved",
  "note": "exact arithmetic; cells with straight sides. C86_quad covers quadrilaterals which are not convex"
 },
 "C87": {
  "status": "partial",
  "note": "The full property is proved for new factories (C87_indices, C87_build), and ComponentFESpace for all components except fluxes. The code violates the rest: indices are shifted after a Build (C87_reuse_not), ComponentFESpace throws for flux components (C87_flux_not), and AddTraceComponent(0) returns although the space cannot be built (C87_unsupported)."
 },
 "C88": {
  "status": "partial",
  "note": "Proved for all components for which ComponentFESpace returns. The code violates the property for its purpose: with a flux component made by the factory the call always throws (C88_flux_not)."
 },
 "C89": {
  "status": "proved",
  "note": "For one cell and for assembled matrices and vectors."
 },
 "C90": {
  "status": "proved",
  "note": "Exact arithmetic; LDLT is a parameter that solves systems with symmetric positive definite matrices, and one is shown to exist. C90_estimator also describes the kernel of the matrix."
 },
 "C91": {
  "status": "proved",
  "note": "C91_reaction etc. hold for all cells and rules, the theorems *_exact for rules which are exact for the degree asked for; by C76 the rules on segments and quadrilaterals are, those on triangles up to the digits of the tables."
 },
 "C92": {
  "status": "partial",
  "note": "Proved for degrees 0 and 1 on all meshes; false for degrees 2 and 3 for all edges traversed in different directions by their cells (C92_not, C92_conservation_not)."
 },
 "C93": {
  "status": "proved",
  "note": "Hypothesis: the quadrature rules have the degree asked for (C76)."
 },
 "C94": {
  "status": "proved",
  "note": "Real arithmetic; SparseLU succeeds exactly for regular matrices. C94_assembled is for matrices without the extra term L (L = 0)."
 },
 "C95": {
  "status": "partial",
  "note": "The last sentence does not hold: Evolution advances to T - 3/2 T/m only, for every m >= 2 (C95_time_not, C95_time_partial, C95_heat_partial). The rest is proved."
 },
 "C96": {
  "status": "proved",
  "note": "Real arithmetic. Degenerate triangles lead to a division by zero (C96_degenerate)."
 },
 "C97": {
  "status": "proved",
  "note": "Real arithmetic; dof handler with one dof per node and one per edge, as everywhere in the project."
 },
 "C98": {
  "status": "proved",
  "note": "Real arithmetic; the solution of the linear system itself (Eigen) is not modelled, the theorems say that it exists and is unique."
 },
 "C99": {
  "status": "partial",
  "note": "Proved about the origin. The centre set with setCenterPoint is never used (C99_center_ignored, C99_fails_center); with one angular cell Build fails (C99_one), with two all cells are degenerate (C99_two). Real arithmetic."
 },
 "C100": {
  "status": "proved",
  "note": "Integer types with any number of bits; floating point types are not modelled. The check is an assertion: it is active only if assertions are."
 },
 "C101": {
  "status": "partial",
  "note": "Contents proved for all consistent meshes. The rule for the suffix fails for names which end in m or whose last character but one is a dot (C101_fails_name): no suffix, and the function has another name. How numbers are printed is not modelled."
 },
 "C102": {
  "status": "partial",
  "note": "Contents proved for all consistent meshes. Names of fewer than four characters raise std::out_of_range (C102_fails_name). How numbers are printed is not modelled."
 },
 "C103": {
  "status": "partial",
  "note": "Proved except for the default of output_ctrl: it is RenderCells only, without the documented numbers (C103_fails_default). Colours, scales and the printing of numbers are not modelled."
 },
 "C104": {
  "status": "proved",
  "note": "Indices up to 2^31 - 1, beyond which an assertion fails."
 },
 "C105": {
  "status": "partial",
  "note": "Proved for all text files and all binary files without comments. In binary files comments are not recognised: after the header the file is refused (C105_fails_comment), at the end everything behind the comment is silently ignored (C105_fails_rest). Comments whose text contains a dollar sign and parametric nodes are not part of the specification (the reader documents that it does not support the latter). Rounding of decimal numbers to double is not modelled."
 },
 "C106": {
  "status": "partial",
  "note": "Proved for all text and binary files with at least two tags per element, except that the section Periodic is read but not stored: GMshFileV2::Periodic is always empty (C106_fails_periodic, for every input). Elements with fewer than two tags, which the format allows, are misread (C106_fails_tags); in text files the number of nodes is not checked. The specification has single blanks between the numbers of a line, as gmsh writes them; the parser accepts nothing else."
 },
 "C107": {
  "status": "partial",
  "note": "Proved for files without data of type unsigned char, with names without white space and, for text files, with nonempty fields and cells. Text files have three digits after the point only: meshes with a width below about 1/1000 are destroyed (C107_fails_precision). unsigned char is labelled char (C107_fails_uchar). Empty fields are counted but not written in text files (C107_fails_empty). Names with tabulators and empty names pass the check of the writer but give unreadable files (C107_fails_name). The semantics of the generators of Boost.Spirit Karma is trusted."
 },
 "C108": {
  "status": "partial",
  "note": "Composition of C105, C106 and C69, with a proof that no assertion fails for files which describe a mesh (Spec/GmshValid.lean). Excluded by this specification are files which the code cannot read although they are legal: an edge listed twice but not consecutively (C108_edge_twice_not), points repeated in an unlucky order or with a large number outside of the mesh (C69_v2_point_range, C69_v2_point_undefined), elements without tags (C106_fails_tags), comments in binary files (C105_fails_comment). C108_history, C108_wellFormed, C108_truncated hold for arbitrary bytes."
 },
 "C109": {
  "status": "partial",
  "note": "The code violates the property for quadrilaterals: the check accepts quadrilaterals with crossing sides, whose parametrization is singular inside and whose regular refinement stops the program (C109_quad_not); regular are exactly the strictly convex ones (C109_quad_partial, plane only). Bisection of an accepted triangle can fail, even at its longest side (C109_bisect_not); regular refinement cannot (C109_refine, for triangles and parallelograms given by three corners)."
 },
 "C110": {
  "status": "partial",
  "note": "Proved for domains whose boundary is one closed curve. The code violates the property for other domains: with holes, the matrix for the offset function is singular whatever the data are (C110_holes_not). The sum of the solution and the offset function, which the programs of the project form, is correct at the nodes only; at the edges it is not the weighted jump (C110_edges, C110_edges_not)."
 },
 "C111": {
  "status": "partial",
  "note": "The checks of numbering, completeness, topology and orientation are proved to decide what is claimed. The code violates the rest of the property: isWatertightMesh never looks at cells, so that it returns an empty list for a mesh with a cell in the wrong place (C111_watertight_not; what the list contains is C111_watertight_partial), and the test meshes 2, 5, 6 and 8 are wrong for all scaling factors except 1, because the shapes of some cells are not scaled (C111_scale_not, C111_scale_partial). checkMeshCompleteness is undefined for meshes without edges (C111_complete_iff). Test mesh 4 does not exist for scaling factors which are not positive (C111_test4)."
 },
 "C112": {
  "status": "partial",
  "note": "L2norm is proved as stated (C112_l2). For DGnorm the formula is proved for midpoint rules on the edges, gradients whose type is not a matrix of fixed size, and with the sum over the edges inside the domain only (C112_dg_partial; for any rule with one point C112_value). The code violates the rest: edges on the boundary are left out (C112_boundary_not), gradients of type Eigen::Matrix2d do not count at all because squaredNorm returns zero for them (C112_gradient_not), rules on the edges with several points make assertions in Eigen fail (C112_points_not), and with a single point which is not the midpoint the values on both sides are taken at different points (C112_shift)."
 },
 "C113": {
  "status": "partial",
  "note": "Elapsed (C113_elapsed, C113_monotone), IsStopped (C113_isStopped), the conversion of ticks (C113_ticks) and the report of the destructor (C113_autoTimer) are proved as stated, Format for stopped timers (C113_format_partial). The code violates the rest: Format prints the stored reading of the clock for running timers (C113_format_running, C113_format_not), so does AutoTimer::Report when the user calls it (C113_report_not); the destructor of an AutoTimer moved from dereferences a null pointer if it had a logger, and reports a second time otherwise (C113_move_not); unknown processor times are reported as zero (C113_unknown_not)."
 },
 "C114": {
  "status": "proved",
  "note": "Builders: C114_builder, for all histories. C114_separates: the rules of degree 2p see every polynomial of degree p, although the tables for triangles are rounded. C114_gramian: the Gramian is definite for test spaces of degrees 1 to 3, the degrees for which the library has elements, and all non-negative coefficients of the gradient term, which covers both norms. C114_primal: the set-up succeeds, the element matrices are those of the forms, and the assumptions of C90 (DpgSetting) hold. Exact reals; converged Gauss rules as in C76."
 },
 "C115": {
  "status": "proved",
  "note": "C115_forms: all product spaces, all lists of admissible forms. C115_ultraweak: degrees p of at most 2 and p + enrichment between 1 and 3, the degrees for which the library has elements; the assumptions of C90 (DpgSetting) hold. C115_usable: every mesh of triangles and strictly convex quadrilaterals meets the hypothesis on the cells. Exact reals: where alpha is zero the code divides by zero, while the model has 1/0 = 0. Converged Gauss rules as in C76."
 }
}