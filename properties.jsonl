{"id": "C01", "title": "COOMatrix denotes the sum of its surviving contributions", "statement": "After any sequence of AddToEntry(i,j,v), setZero() and setZero(pred) calls on a COOMatrix created with given dimensions, the (i,j) entry of makeDense() is the sum of all values added at (i,j) that were not removed by a later setZero, every stored triplet lies inside rows() x cols(), and rows()/cols() equal the maximum of the initial dimension and one plus the largest row/column index ever added.", "quantifier": "all finite histories of AddToEntry (indices below 2^31-1, the range of the index type Eigen stores), setZero() and setZero(pred), all initial sizes, all scalars", "why_tests_cant": "the history of operations is unbounded; a test covers finitely many sequences", "anchors": ["lib/lf/assemble/coomatrix.h: COOMatrix::AddToEntry, setZero, makeDense, makeSparse, rows, cols"]}
{"id": "C02", "title": "COOMatrix::MatVecMult is the matrix-vector product", "statement": "MatVecMult(alpha, x) returns alpha * (A x) and MatVecMult(alpha, x, y) adds alpha * (A x) to y, where A is the matrix returned by makeDense(), for every accumulated triplet list, including duplicated positions, whenever x has at least cols() and y at least rows() entries.", "quantifier": "all triplet lists, all vectors, all scalars of a commutative ring", "why_tests_cant": "quantifies over every matrix and vector", "anchors": ["lib/lf/assemble/coomatrix.h: COOMatrix::MatVecMult"]}
{"id": "C03", "title": "FixFlaggedSolutionComponents keeps exactly the constrained solutions", "statement": "After FixFlaggedSolutionComponents(selector, A, b), a vector x solves the modified system iff every flagged component of x equals its prescribed value and every unflagged row of the original system holds for x.", "quantifier": "all square systems of any size, all selectors, all prescribed values, all right-hand sides and all candidate vectors", "why_tests_cant": "equivalence of solution sets of all linear systems", "anchors": ["lib/lf/assemble/fix_dof.h: FixFlaggedSolutionComponents"]}
{"id": "C04", "title": "FixFlaggedSolutionCompAlt has the same solutions", "statement": "After FixFlaggedSolutionCompAlt(selector, A, b) the modified system has exactly the solutions described in C03; hence both variants produce systems with identical solution sets.", "quantifier": "as C03", "why_tests_cant": "as C03", "anchors": ["lib/lf/assemble/fix_dof.h: FixFlaggedSolutionCompAlt, FixFlaggedSolutionComponents"]}
{"id": "C05", "title": "FixFlaggedSolutionComponents preserves symmetry", "statement": "If A is symmetric (as a dense matrix) before FixFlaggedSolutionComponents then it is symmetric afterwards, and if it was positive definite on the unflagged unknowns the modified matrix is positive definite.", "quantifier": "all symmetric matrices of any size, all selectors", "why_tests_cant": "universal over matrices", "anchors": ["lib/lf/assemble/fix_dof.h: FixFlaggedSolutionComponents"]}
{"id": "C06", "title": "FixSolutionComponentsLse pins the listed unknowns", "statement": "For a list of (dof index, value) pairs with pairwise distinct indices FixSolutionComponentsLse makes each listed component of any solution equal to its value and leaves all other equations unchanged; when indices are repeated the component is pinned to the sum of the values listed for it.", "quantifier": "all lists of pairs, all systems", "why_tests_cant": "universal over lists, systems and solutions", "anchors": ["lib/lf/assemble/fix_dof.h: FixSolutionComponentsLse"]}
{"id": "C07", "title": "Galerkin matrix assembly is the sum of scattered element matrices", "statement": "AssembleMatrixLocally(codim, trial dofh, test dofh, provider, A) changes the (r,c) entry of A by exactly the sum, over active entities K of the codimension and local pairs (i,j) with test dof i of K = r and trial dof j of K = c, of the element matrix entry (i,j) of K. The result does not depend on the order in which the entities are visited and inactive entities contribute nothing.", "quantifier": "all meshes, dof maps, providers, initial matrices, entity orders", "why_tests_cant": "sum over an arbitrary mesh; any ordering", "anchors": ["lib/lf/assemble/assembler.h: AssembleMatrixLocally"]}
{"id": "C08", "title": "Vector assembly is the sum of scattered element vectors", "statement": "AssembleVectorLocally(codim, dofh, provider, b) adds to b[r] exactly the sum of element vector entries whose global dof index is r over active entities, independent of visiting order.", "quantifier": "all meshes, dof maps, providers, initial vectors, entity orders", "why_tests_cant": "sum over an arbitrary mesh", "anchors": ["lib/lf/assemble/assembler.h: AssembleVectorLocally"]}
{"id": "C09", "title": "Interior dofs partition the global index range (uniform handler)", "statement": "For UniformFEDofHandler every global index 0..NumDofs()-1 is an interior dof of exactly one entity at exactly one position, and every interior dof index is below NumDofs().", "quantifier": "all meshes (any numbers of nodes, edges, triangles, quads, in any mix) and all dof counts per entity type", "why_tests_cant": "infinite family of meshes and layouts", "anchors": ["lib/lf/assemble/dofhandler.cc: UniformFEDofHandler::initIndexArrays, InteriorGlobalDofIndices, NumDofs"]}
{"id": "C10", "title": "Global numbering is by codimension, contiguous and index-compatible", "statement": "Dofs of nodes are numbered before dofs of edges, which come before dofs of cells; dofs of one entity are consecutive; and for two entities of the same codimension the one with the smaller mesh index has the smaller dof numbers. Holds for the uniform and for the dynamic handler.", "quantifier": "all meshes and dof layouts", "why_tests_cant": "infinite family of meshes", "anchors": ["lib/lf/assemble/dofhandler.h: DofHandler", "lib/lf/assemble/dofhandler.cc: UniformFEDofHandler::initIndexArrays", "lib/lf/assemble/dofhandler.h: DynamicFEDofHandler"]}
{"id": "C11", "title": "GlobalDofIndices lists vertex, edge and interior dofs in the documented order", "statement": "GlobalDofIndices(cell) is the concatenation of the dofs of its vertices in local order, the interior dofs of its edges in local order (reversed where the edge has negative relative orientation), and its own interior dofs, its length is NumLocalDofs(cell), all entries are distinct and below NumDofs().", "quantifier": "all meshes and dof layouts, all cells and edges", "why_tests_cant": "infinite family of meshes", "anchors": ["lib/lf/assemble/dofhandler.cc: UniformFEDofHandler::GlobalDofIndices", "lib/lf/assemble/dofhandler.h: DynamicFEDofHandler::GlobalDofIndices"]}
{"id": "C12", "title": "Cells sharing an edge agree on its dofs", "statement": "If two cells share an edge, walking the edge's interior dofs in the direction of the edge gives the same global indices in the same order from both cells, whatever the relative orientations.", "quantifier": "all meshes, all pairs of cells sharing an edge, all dof layouts", "why_tests_cant": "universal over meshes and orientations", "anchors": ["lib/lf/assemble/dofhandler.cc: UniformFEDofHandler::initIndexArrays", "lib/lf/mesh/hybrid2d/triangle.cc", "lib/lf/mesh/hybrid2d/quad.cc"]}
{"id": "C13", "title": "DofHandler::Entity inverts InteriorGlobalDofIndices", "statement": "Entity(d) is the unique mesh entity among whose interior dofs d occurs, for every valid global index d.", "quantifier": "all meshes, layouts and global indices", "why_tests_cant": "universal over meshes", "anchors": ["lib/lf/assemble/dofhandler.h: UniformFEDofHandler::Entity, DynamicFEDofHandler::Entity"]}
{"id": "C14", "title": "Dynamic and uniform handlers agree", "statement": "If the per-entity dof count function given to DynamicFEDofHandler is constant on each topological type, it assigns the same NumDofs and the same global indices to every entity as UniformFEDofHandler with those counts.", "quantifier": "all meshes and layouts", "why_tests_cant": "universal over meshes", "anchors": ["lib/lf/assemble/dofhandler.h: DynamicFEDofHandler", "lib/lf/assemble/dofhandler.cc: UniformFEDofHandler"]}
{"id": "C15", "title": "Product dof handler concatenates component spaces", "statement": "ProductUniformFEDofHandler numbers dofs component by component: every global index belongs to exactly one component, Component(d) returns it, d minus the component offset is a valid dof of that component handler, and GlobalDofIndices is the concatenation of the shifted component index lists.", "quantifier": "all meshes, any number of components and layouts", "why_tests_cant": "universal over meshes and component lists", "anchors": ["projects/dpg/product_dofhandler.cc: ProductUniformFEDofHandler"]}
{"id": "C16", "title": "Mesh construction creates each edge exactly once", "statement": "MeshFactory::Build yields a mesh in which, for every cell and each of its sides, exactly one edge has the side's two end nodes as endpoints; that edge is the cell's sub-entity at that side; no two edges have the same pair of endpoints; every edge is either one passed to AddEntity or a side of a cell.", "quantifier": "all lists of nodes, edges and cells accepted by the factory", "why_tests_cant": "all possible meshes", "anchors": ["lib/lf/mesh/hybrid2d/mesh.cc: Mesh::Mesh", "lib/lf/mesh/hybrid2d/mesh_factory.cc: MeshFactory::AddEntity, Build"]}
{"id": "C17", "title": "Indices returned by the factory identify the entities of the built mesh", "statement": "The index returned by AddPoint / AddEntity is the index of the corresponding node, edge or cell in the mesh produced by Build; edges created implicitly get the remaining indices without gaps.", "quantifier": "all sequences of factory calls", "why_tests_cant": "all histories of factory calls", "anchors": ["lib/lf/mesh/hybrid2d/mesh_factory.cc", "lib/lf/mesh/hybrid2d/mesh.cc: Mesh::Mesh"]}
{"id": "C18", "title": "Relative orientations are correct", "statement": "For every cell and local side i, the reported relative orientation is positive iff traversing the side from local node i to the next local node runs from the edge's node 0 to its node 1, and negative iff it runs the other way; one of the two always holds.", "quantifier": "all built meshes, cells, sides", "why_tests_cant": "all meshes", "anchors": ["lib/lf/mesh/hybrid2d/triangle.cc", "lib/lf/mesh/hybrid2d/quad.cc", "lib/lf/mesh/hybrid2d/mesh.cc"]}
{"id": "C19", "title": "Index and EntityByIndex are inverse", "statement": "EntityByIndex(codim, Index(e)) is e for every entity, indices of a codimension are exactly 0..NumEntities(codim)-1, and NumEntities by reference element sums to NumEntities by codimension.", "quantifier": "all built meshes and entities", "why_tests_cant": "all meshes", "anchors": ["lib/lf/mesh/hybrid2d/mesh.cc: Mesh::Index, EntityByIndex, NumEntities"]}
{"id": "C20", "title": "CountNumSuperEntities counts adjacency", "statement": "CountNumSuperEntities(mesh, codim_sub, codim_super) assigns to each entity the number of (super-entity, local position) incidences; the values sum to the total number of such sub-entity slots.", "quantifier": "all meshes and admissible codimensions", "why_tests_cant": "all meshes", "anchors": ["lib/lf/mesh/utils/special_entity_sets.cc: CountNumSuperEntities"]}
{"id": "C21", "title": "flagEntitiesOnBoundary marks exactly the boundary", "statement": "flagEntitiesOnBoundary flags an edge iff it is a side of exactly one cell, and flags a node iff it is an endpoint of a flagged edge.", "quantifier": "all meshes", "why_tests_cant": "all meshes", "anchors": ["lib/lf/mesh/utils/special_entity_sets.cc: flagEntitiesOnBoundary"]}
{"id": "C22", "title": "MeshDataSet behaves as a total map on its codimension", "statement": "CodimMeshDataSet / AllCodimMeshDataSet: reading after writing returns the written value, writing at one entity leaves all others unchanged, DefinedOn is true exactly for entities of the mesh of the right codimension.", "quantifier": "all meshes, all write histories", "why_tests_cant": "all histories of writes", "anchors": ["lib/lf/mesh/utils/codim_mesh_data_set.h", "lib/lf/mesh/utils/all_codim_mesh_data_set.h"]}
{"id": "C23", "title": "TPTriagMeshBuilder produces a conforming triangulation", "statement": "For all cell numbers nx, ny >= 1 the triangular tensor-product builder yields (nx+1)(ny+1) nodes, 2 nx ny triangles and nx ny + (nx+1) ny + nx (ny+1) edges, every triangle has three distinct valid nodes, each edge is a side of one or two triangles and exactly 2(nx+ny) of them of one; V - E + F = 1.", "quantifier": "all nx, ny (as long as the counts fit the index type)", "why_tests_cant": "infinite family", "anchors": ["lib/lf/mesh/utils/tp_triag_mesh_builder.cc: Build"]}
{"id": "C24", "title": "TPQuadMeshBuilder produces a conforming quad mesh", "statement": "For all nx, ny >= 1 the builder yields (nx+1)(ny+1) nodes, nx ny quads with four distinct nodes and (nx+1) ny + nx (ny+1) edges, each a side of one or two quads and exactly 2(nx+ny) of one; V - E + F = 1.", "quantifier": "all nx, ny", "why_tests_cant": "infinite family", "anchors": ["lib/lf/mesh/utils/tp_quad_mesh_builder.cc: Build"]}
{"id": "C25", "title": "TorusMeshBuilder produces a closed mesh", "statement": "TorusMeshBuilder yields nx ny nodes, 2 nx ny edges, nx ny quads, every edge is a side of exactly two quads (no boundary) and V - E + F = 0.", "quantifier": "all nx, ny", "why_tests_cant": "infinite family", "anchors": ["lib/lf/mesh/utils/torus_mesh_builder.cc: Build"]}
{"id": "C26", "title": "ChildPolygons respects its interface contract", "statement": "For every admissible (reference element, refinement pattern, anchor, codim) ChildPolygons(codim) has length NumChildren(codim), all lattice coordinates lie in the reference element, and inadmissible combinations are rejected rather than answered.", "quantifier": "all reference elements, patterns, anchors and codimensions", "why_tests_cant": "a contract over the whole input space of the function including unset/invalid anchors", "anchors": ["lib/lf/refinement/hybrid2d_refinement_pattern.cc: NumChildren, ChildPolygons", "lib/lf/geometry/refinement_pattern.h"]}
{"id": "C27", "title": "Child polygons tile the reference element", "statement": "For every refinement pattern and anchor of a triangle or quadrilateral each child cell is a non-degenerate strictly convex polygon, a point lies in the reference element exactly if it lies in some (closed) child cell, no point lies in the interior of two child cells, and the areas of the child cells add up to the area of the reference element.", "quantifier": "all patterns, anchors, and all points of the reference element", "why_tests_cant": "uncountably many points", "anchors": ["lib/lf/refinement/hybrid2d_refinement_pattern.cc: ChildPolygons"]}
{"id": "C28", "title": "RefineMarked terminates and computes the closure of the marked edges", "statement": "RefineMarked splits every marked edge, its loop over the cells terminates on every mesh, and the set of split edges is the least set containing the marked edges and, for each triangle with some split edge, its refinement edge. The result does not depend on the order of the cells.", "quantifier": "all meshes, all sets of marked edges, all refinement-edge assignments", "why_tests_cant": "termination and leastness over all meshes", "anchors": ["lib/lf/refinement/mesh_hierarchy.cc: MeshHierarchy::RefineMarked, MarkEdges"]}
{"id": "C29", "title": "Cell patterns match the split status of their edges", "statement": "After RefineMarked or RefineRegular, the refinement pattern and anchor chosen for each cell split exactly those of its sides that are split as edges (no hanging nodes).", "quantifier": "all meshes and marked sets", "why_tests_cant": "all meshes", "anchors": ["lib/lf/refinement/mesh_hierarchy.cc: RefineMarked, RefineRegular, PerformRefinement"]}
{"id": "C30", "title": "Refinement keeps the mesh conforming", "statement": "If a mesh is conforming (two different cells share nothing, one node, or one common side; every edge is a side of at most two cells) then the mesh produced by RefineRegular, RefineMarked or RefineRegular(barycentric) is conforming; hence every level of a MeshHierarchy is.", "quantifier": "all conforming meshes, all sequences of refinement calls of any length", "why_tests_cant": "unbounded refinement histories", "anchors": ["lib/lf/refinement/mesh_hierarchy.cc: PerformRefinement, RefineRegular, RefineMarked"]}
{"id": "C31", "title": "Refinement registers every edge of every child cell", "statement": "PerformRefinement passes to the mesh factory every edge of the fine mesh explicitly: each side of each child cell is one of the registered edges, no edge is registered twice and no two registered edges have the same endpoints, so the factory creates no further edges and parent information exists for every fine edge.", "quantifier": "all conforming meshes, all compatible patterns", "why_tests_cant": "all meshes", "anchors": ["lib/lf/refinement/mesh_hierarchy.cc: PerformRefinement"]}
{"id": "C32", "title": "Entity counts under regular refinement", "statement": "After RefineRegular with V nodes, E edges, T triangles, Q quads the fine mesh has V+E+Q nodes, 2E+3T+4Q edges, 4T triangles and 4Q quads; with barycentric refinement V+E+T+Q nodes, 2E+6T+4Q edges, 6T triangles, 4Q quads. V-E+F is unchanged by every refinement.", "quantifier": "all meshes and refinement calls", "why_tests_cant": "all meshes", "anchors": ["lib/lf/refinement/mesh_hierarchy.cc: PerformRefinement, RefineRegular"]}
{"id": "C33", "title": "Parent information is consistent", "statement": "Each entity of level l+1 has exactly one parent recorded, it occurs in the parent's list of children exactly once at the recorded child number, and each child list entry refers back to the parent.", "quantifier": "all meshes and refinement calls", "why_tests_cant": "all meshes", "anchors": ["lib/lf/refinement/mesh_hierarchy.cc: PerformRefinement, ParentInfos, PointChildInfos, EdgeChildInfos, CellChildInfos, ParentEntity"]}
{"id": "C34", "title": "Refinement preserves the boundary", "statement": "An edge of the refined mesh is on the boundary iff its parent is an edge on the boundary of the coarse mesh; edges created in the interior of cells have exactly two adjacent cells.", "quantifier": "all conforming meshes, all refinement calls", "why_tests_cant": "all meshes", "anchors": ["lib/lf/refinement/mesh_hierarchy.cc: PerformRefinement", "lib/lf/mesh/utils/special_entity_sets.cc: flagEntitiesOnBoundary"]}
{"id": "C35", "title": "GeometryInParent places children inside the parent", "statement": "For each fine entity, mapping a reference point first by GeometryInParent and then by the parent's geometry gives the same world point as the fine entity's own geometry, for straight-edged and quadratic triangles, segments and for parallelograms.", "quantifier": "all parent shapes, patterns, child numbers and reference points", "why_tests_cant": "uncountably many geometries and points", "anchors": ["lib/lf/refinement/mesh_hierarchy.cc: initGeometryInParent, GeometryInParent", "lib/lf/geometry/tria_o1.cc, tria_o2.cc, segment_o1.cc, segment_o2.cc, quad_o1.cc: ChildGeometry"]}
{"id": "C36", "title": "MeshFunctionTransfer evaluates the coarse function at the same point", "statement": "MeshFunctionTransfer between any two levels evaluates the coarse mesh function at the ancestor cell and at the reference point corresponding to the same world point, composition of transfers over intermediate levels equals the direct transfer, and getMesh() returns the mesh on which the transferred function is defined.", "quantifier": "all hierarchies, all level pairs, all cells and points", "why_tests_cant": "unbounded number of levels", "anchors": ["lib/lf/refinement/mesh_function_transfer.h: MeshFunctionTransfer"]}
{"id": "C37", "title": "Parametric maps interpolate their nodes", "statement": "Global() of SegmentO1/O2, TriaO1/O2, QuadO1/O2 and Parallelogram maps the reference corners and (O2) edge midpoints to the coordinates passed to the constructor, in the documented order.", "quantifier": "all coordinates in any world dimension", "why_tests_cant": "uncountably many geometries", "anchors": ["lib/lf/geometry/segment_o2.cc, tria_o2.cc, quad_o2.cc, tria_o1.cc, quad_o1.cc: Global"]}
{"id": "C38", "title": "Jacobian is the derivative of Global; JacobianInverseGramian inverts it", "statement": "Jacobian(x) is the derivative of Global at x for every geometry; JacobianInverseGramian(x) = J (J^T J)^{-1} whenever J has full rank and IntegrationElement(x)^2 = det(J^T J).", "quantifier": "all geometries and reference points", "why_tests_cant": "uncountably many", "anchors": ["lib/lf/geometry/tria_o2.cc, quad_o1.cc, quad_o2.cc, segment_o1.cc, segment_o2.cc: Jacobian, JacobianInverseGramian, IntegrationElement"]}
{"id": "C39", "title": "SubGeometry agrees with the cell's geometry on its boundary", "statement": "For each cell geometry and side i, SubGeometry(1,i).Global(t) equals Global of the cell at the point of the reference side between local node i and i+1 with parameter t; SubGeometry(2,i) is the image of corner i.", "quantifier": "all geometries, sides and parameters", "why_tests_cant": "uncountably many", "anchors": ["lib/lf/geometry/tria_o1.cc, tria_o2.cc, quad_o1.cc, quad_o2.cc: SubGeometry"]}
{"id": "C40", "title": "Volume is the area", "statement": "Volume() of an affine geometry is its exact measure, and for a planar QuadO1 with positive Jacobian determinant the midpoint formula gives the shoelace area; the volumes of the ChildGeometry of every pattern add up to the volume of the parent for affine cells.", "quantifier": "all geometries and patterns", "why_tests_cant": "uncountably many", "anchors": ["lib/lf/geometry/geometry_interface.cc: Volume", "lib/lf/geometry/quad_o1.cc: IntegrationElement"]}
{"id": "C41", "title": "Tensor-product and Duffy rules inherit the 1D degree", "statement": "make_QuadRule for quads integrates x^a y^b exactly for max(a,b) <= Degree() whenever the 1D Gauss rule it is built from is exact of that degree; the triangle rule used for degree 0 and > 50 is exact for all x^a y^b with a+b <= Degree() given exact Gauss-Legendre and Gauss-Jacobi rules; Degree() is never smaller than the requested degree.", "quantifier": "all degrees, all exact 1D rules, all monomials up to the degree", "why_tests_cant": "infinite families of degrees and polynomials", "anchors": ["lib/lf/quad/make_quad_rule.cc: make_QuadRule"]}
{"id": "C42", "title": "Named quadrature rules have their advertised degree", "statement": "make_TriaQR_MidpointRule, make_TriaQR_EdgeMidpointRule, make_QuadQR_EdgeMidpointRule, make_TriaQR_P6O4, make_TriaQR_P1O2..., make_QuadRuleNodal integrate every polynomial of their stated degree exactly (in exact arithmetic).", "quantifier": "all polynomials up to the degree", "why_tests_cant": "infinitely many polynomials", "anchors": ["lib/lf/quad/make_quad_rule.cc", "lib/lf/quad/make_quad_rule_nodal.cc"]}
{"id": "C43", "title": "QuadRuleCache is transparent", "statement": "For every sequence of Get(ref_el, degree) calls, each call returns the rule make_QuadRule(ref_el, degree) would return and no later call changes a rule handed out earlier.", "quantifier": "all call histories", "why_tests_cant": "unbounded histories", "anchors": ["lib/lf/quad/quad_rule_cache.cc: QuadRuleCache::Get"]}
{"id": "C44", "title": "Lagrangian elements are cardinal bases", "statement": "For FeLagrangeO1/O2/O3 on segments, triangles and quads the i-th reference shape function is 1 at the i-th evaluation node and 0 at the others, the shape functions sum to 1 everywhere, they reproduce all polynomials of the stated degree, and the returned gradients are the derivatives.", "quantifier": "all evaluation points and polynomials of the degree", "why_tests_cant": "uncountably many points", "anchors": ["lib/lf/uscalfe/lagr_fe.h: EvalReferenceShapeFunctions, GradientsReferenceShapeFunctions, EvaluationNodes"]}
{"id": "C45", "title": "Lagrangian finite element functions are continuous across edges", "statement": "For two cells (triangle or quad) sharing an edge, the traces on the edge of a finite element function given by one global coefficient vector agree at every point of the edge, for O1, O2 and O3 spaces, whatever the orientations of the edge in the cells; and both equal the function defined by the edge's own shape functions.", "quantifier": "all coefficient vectors, all points of the edge, all orientations and local edge positions", "why_tests_cant": "uncountably many functions and points", "anchors": ["lib/lf/uscalfe/lagr_fe.h", "lib/lf/assemble/dofhandler.cc: UniformFEDofHandler::initIndexArrays", "lib/lf/fe/mesh_function_fe.h"]}
{"id": "C46", "title": "Hierarchic polynomials: derivative and boundary identities", "statement": "For every degree n the routines evaluate polynomials with ILegendreDx = d/dx ILegendre, ILegendreDt = d/dt ILegendre, LegendreDx = d/dx Legendre, ILegendre(n,0,t) = ILegendre(n,t,t) = 0 for n >= 2, Legendre(n,t-x,t) = (-1)^n Legendre(n,x,t), and Legendre polynomials of different degrees are orthogonal on [0,1].", "quantifier": "all degrees n and all real arguments", "why_tests_cant": "unbounded degree", "anchors": ["lib/lf/fe/hierarchic_fe.cc: Legendre, ILegendre, ILegendreDx, ILegendreDt, LegendreDx"]}
{"id": "C47", "title": "Hierarchic segment element: degrees of freedom are dual to the basis", "statement": "For every polynomial degree p >= 1, FeHierarchicSegment::NodalValuesToDofs applied to the values of a linear combination of its shape functions at EvaluationNodes returns the coefficients, provided the quadrature rule is exact for degree 2(p-1).", "quantifier": "all degrees p, all coefficient vectors", "why_tests_cant": "unbounded degree", "anchors": ["lib/lf/fe/hierarchic_fe.h: FeHierarchicSegment::NodalValuesToDofs, EvalReferenceShapeFunctions"]}
{"id": "C48", "title": "Hierarchic elements are conforming", "statement": "Edge shape functions of FeHierarchicTria/FeHierarchicQuad vanish on all other sides, interior ones on the whole boundary, and the trace of the cell's shape functions on an edge, enumerated by the dof handler, equals the edge element's shape function in the edge's own direction for positive and negative relative orientation and all degrees.", "quantifier": "all degrees, orientations and points", "why_tests_cant": "unbounded degree", "anchors": ["lib/lf/fe/hierarchic_fe.h: FeHierarchicTria, FeHierarchicQuad, FeHierarchicSegment"]}
{"id": "C49", "title": "NodalProjection reproduces finite element functions", "statement": "NodalProjection of the mesh function represented by a coefficient vector returns that vector on all dofs belonging to selected cells, if the element's NodalValuesToDofs is dual to its shape functions; entries of dofs belonging to no selected cell are zero.", "quantifier": "all meshes, spaces, coefficient vectors, selections", "why_tests_cant": "all meshes", "anchors": ["lib/lf/fe/fe_tools.h: NodalProjection"]}
{"id": "C50", "title": "IntegrateMeshFunction integrates over exactly the selected entities", "statement": "IntegrateMeshFunction(mesh, mf, qr, ep, codim) equals the sum of the local quadrature values over the entities of the given codimension for which the predicate ep holds (zero if there are none).", "quantifier": "all meshes, mesh functions and predicates", "why_tests_cant": "all meshes and predicates", "anchors": ["lib/lf/fe/fe_tools.h: IntegrateMeshFunction"]}
{"id": "C51", "title": "InitEssentialConditionFromFunction flags exactly the dofs of selected edges", "statement": "The returned vector has entry (true, value) exactly for dofs attached to an edge selected by the predicate or to its endpoints, and (false, .) elsewhere; the value is the edge interpolant's dof value.", "quantifier": "all meshes, edge selections and functions", "why_tests_cant": "all meshes", "anchors": ["lib/lf/fe/fe_tools.h: InitEssentialConditionFromFunction"]}
{"id": "C52", "title": "Linear FE Laplace element matrix", "statement": "The element matrix of LinearFELaplaceElementMatrix on a non-degenerate triangle is symmetric, positive semi-definite with kernel spanned by constants, equals the exact Dirichlet form of the barycentric coordinate functions, and does not change under renumbering, translation, rotation or scaling of the triangle; the quad version is symmetric, positive semi-definite and annihilates constants.", "quantifier": "all non-degenerate triangles/quads", "why_tests_cant": "uncountably many cells", "anchors": ["lib/lf/uscalfe/lin_fe.cc: LinearFELaplaceElementMatrix::Eval"]}
{"id": "C53", "title": "Element matrices of mass and diffusion providers", "statement": "Mass and diffusion element matrices are symmetric for symmetric coefficients, positive semi-definite for non-negative coefficients and quadrature weights, the diffusion matrix annihilates the coefficient vector of constants, and they equal the quadrature approximation of the bilinear form applied to the shape functions.", "quantifier": "all cells, coefficients, quadrature rules and shape function layouts", "why_tests_cant": "universal", "anchors": ["lib/lf/fe/loc_comp_ellbvp.h: DiffusionElementMatrixProvider::Eval, MassElementMatrixProvider::Eval"]}
{"id": "C54", "title": "Physical entity lookup in GmshReader", "statement": "PhysicalEntityName2Nr(name, codim) returns the number of the physical entity with that name and codimension when exactly one exists, and throws when there is none or when the codimension is omitted and the name is ambiguous.", "quantifier": "all tables of physical entities and all queries", "why_tests_cant": "all tables", "anchors": ["lib/lf/io/gmsh_reader.cc: GmshReader::PhysicalEntityName2Nr, PhysicalEntityNr2Name"]}
{"id": "C55", "title": "Reference element tables are mutually consistent", "statement": "For every reference element, SubSubEntity2SubEntity returns valid sub-entity indices, the two end nodes of each side are distinct, each node of a cell is an end node of exactly two sides, and consecutive sides share a node.", "quantifier": "all reference elements, codimensions and sub-entity indices", "why_tests_cant": "needed for every index of every caller; contract over the whole input space including rejected ones", "anchors": ["lib/lf/base/ref_el.h: RefEl::NumSubEntities, SubType, SubSubEntity2SubEntity"]}
{"id": "C56", "title": "Geometry of entities of a built mesh", "statement": "Entities passed to the factory with a geometry keep exactly that geometry. An edge without its own geometry inherits the geometry of a side of an adjacent cell and its end nodes are ordered as in that geometry; if no adjacent cell has one, it is the straight line between its end nodes. Cells without geometry are spanned by their nodes in local order. This includes edges passed to AddEntity with a null geometry, as documented.", "quantifier": "all histories of factory calls followed by Build", "why_tests_cant": "the order in which cells visit an edge and the mix of supplied and missing geometries are unbounded", "anchors": ["lib/lf/mesh/hybrid2d/mesh.cc: Mesh::Mesh", "lib/lf/mesh/mesh_factory.h: AddEntity"]}
{"id": "C57", "title": "isAffine is truthful", "statement": "If isAffine() of a geometry returns true, then Global is an affine map: the Jacobian is the same at all reference points, and Global maps points of a line to points with the same ratio.", "quantifier": "all geometry objects and all pairs of reference points", "why_tests_cant": "uncountably many geometries; the default of the interface is inherited silently by new geometry types", "anchors": ["lib/lf/geometry/geometry_interface.h: isAffine", "lib/lf/geometry/quad_o1.h: isAffine", "lib/lf/geometry/segment_o2.h, tria_o2.h, quad_o2.h"]}
{"id": "C58", "title": "A uniform finite element space answers NumRefShapeFunctions", "statement": "For every successfully constructed UniformScalarFESpace, NumRefShapeFunctions(ref_el) returns, for every type of entity occurring in the mesh, the number of interior shape functions, and this is NumInteriorDofs of the dof handler for all entities of that type.", "quantifier": "all meshes, all combinations of reference finite elements accepted by the constructor", "why_tests_cant": "arbitrary meshes and combinations of elements", "anchors": ["lib/lf/uscalfe/uniform_scalar_fe_space.h: UniformScalarFESpace::NumRefShapeFunctions, InitDofHandler, check_ptr"]}
{"id": "C59", "title": "Local dofs and local shape functions of a uniform finite element space match", "statement": "For every successfully constructed UniformScalarFESpace, whatever reference elements it was built from (consistent with themselves), every cell has a ShapeFunctionLayout and on every cell or edge with a ShapeFunctionLayout the dof handler's NumLocalDofs equals the element's NumRefShapeFunctions.", "quantifier": "all meshes, all combinations of reference finite elements accepted by the constructor", "why_tests_cant": "arbitrary user-supplied elements and meshes", "anchors": ["lib/lf/uscalfe/uniform_scalar_fe_space.h: UniformScalarFESpace constructor, InitDofHandler, ShapeFunctionLayout"]}
{"id": "C60", "title": "Hierarchic polynomials: Jacobi identities", "statement": "For every degree n and weight exponent alpha >= 0, Jacobi, JacobiDx and IJacobi evaluate polynomials of degree n, n-1 and n; JacobiDx and IJacobiDx are the derivatives of Jacobi and IJacobi; IJacobi(n,alpha,x) is the integral of Jacobi(n-1,alpha,.) over [0,x]; Jacobi polynomials of different degrees are orthogonal on [0,1] for the weight (1-x)^alpha and have squared norm 1/(2n+alpha+1).", "quantifier": "all degrees n, all alpha (natural alpha >= 1 for orthogonality), all real arguments", "why_tests_cant": "unbounded degree", "anchors": ["lib/lf/fe/hierarchic_fe.cc: Jacobi, IJacobi, IJacobiDx, JacobiDx"]}
{"id": "C61", "title": "Gradients of hierarchic shape functions", "statement": "For the hierarchic segment, triangle and quadrilateral elements with any interior and edge degrees >= 1 and any relative orientations, EvalReferenceShapeFunctions returns NumRefShapeFunctions() values for every point of the reference element and GradientsReferenceShapeFunctions returns exactly the partial derivatives of these functions, in the same order.", "quantifier": "all degrees of interior and edges, all orientations, all points", "why_tests_cant": "unbounded degrees and points; tests compare with difference quotients for a few degrees", "anchors": ["lib/lf/fe/hierarchic_fe.h: GradientsReferenceShapeFunctions, EvalReferenceShapeFunctions of FeHierarchicSegment, FeHierarchicTria, FeHierarchicQuad"]}
{"id": "C62", "title": "Counts of hierarchic shape functions", "statement": "For the hierarchic elements NumRefShapeFunctions() is the sum over all sub-entities of NumRefShapeFunctions(codim, subidx), and NumRefShapeFunctions(codim) answers exactly if all sub-entities of the codimension have the same number.", "quantifier": "all degrees of interior and edges", "why_tests_cant": "unbounded degrees", "anchors": ["lib/lf/fe/hierarchic_fe.h: NumRefShapeFunctions of FeHierarchicSegment, FeHierarchicTria, FeHierarchicQuad"]}
{"id": "C63", "title": "Hierarchic cell elements: degrees of freedom are dual to the basis", "statement": "For FeHierarchicTria and FeHierarchicQuad with any interior and edge degrees >= 1 and any orientations, NodalValuesToDofs applied to the values of a linear combination of the shape functions at EvaluationNodes returns the coefficients, provided the quadrature rules are exact for the degrees they were requested for.", "quantifier": "all degrees, orientations and coefficient vectors", "why_tests_cant": "unbounded degrees", "anchors": ["lib/lf/fe/hierarchic_fe.h: FeHierarchicTria::NodalValuesToDofs, FeHierarchicQuad::NodalValuesToDofs"]}
{"id": "C65", "title": "Linear FE element load vector", "statement": "LinearFELocalLoadVector::Eval returns, for every cell and source function, a vector whose k-th entry is the edge midpoint quadrature value (weights summing to the volume of the cell) of the source function times the k-th linear shape function, and zero where there is no shape function; it evaluates the source function only at points of the cell; the entries are the exact integrals for affine functions on straight triangles and for constants on parallelograms.", "quantifier": "all triangular and quadrilateral cells, all source functions", "why_tests_cant": "uncountably many cells and functions", "anchors": ["lib/lf/uscalfe/lin_fe.h: LinearFELocalLoadVector::Eval"]}
{"id": "C66", "title": "Element matrix providers of lf::uscalfe and lf::fe agree", "statement": "On a uniform finite element space ReactionDiffusionElementMatrixProvider of lf::uscalfe returns the sum of the matrices of DiffusionElementMatrixProvider and MassElementMatrixProvider of lf::fe for the same coefficients, and ScalarLoadElementVectorProvider of lf::uscalfe and of lf::fe return the same vector.", "quantifier": "all cells, geometries, coefficients, finite elements and quadrature rules", "why_tests_cant": "uncountably many cells and coefficients", "anchors": ["lib/lf/uscalfe/loc_comp_ellbvp.h: ReactionDiffusionElementMatrixProvider, ScalarLoadElementVectorProvider", "lib/lf/fe/loc_comp_ellbvp.h: DiffusionElementMatrixProvider, MassElementMatrixProvider, ScalarLoadElementVectorProvider"]}
{"id": "C67", "title": "Element matrices are exact on affine cells", "statement": "On cells with constant Jacobian, for finite elements with polynomial shape functions of the announced degree and quadrature rules which have the degree of exactness asked for, mass and diffusion element matrices with constant coefficients and load vectors of polynomial sources are the exact integrals.", "quantifier": "all affine cells in all world dimensions, degrees, finite elements and constant coefficients", "why_tests_cant": "uncountably many cells", "anchors": ["lib/lf/fe/loc_comp_ellbvp.h: DiffusionElementMatrixProvider::Eval, MassElementMatrixProvider::Eval, ScalarLoadElementVectorProvider::Eval"]}
{"id": "C68", "title": "The two implementations of the Laplace element matrix agree", "statement": "LinearFELaplaceElementMatrix and DiffusionElementMatrixProvider with coefficient 1 on first order Lagrangian elements return the same entries on every non-degenerate triangle and quadrilateral.", "quantifier": "all non-degenerate triangles and quadrilaterals", "why_tests_cant": "uncountably many cells", "anchors": ["lib/lf/uscalfe/lin_fe.h: LinearFELaplaceElementMatrix::Eval", "lib/lf/fe/loc_comp_ellbvp.h: DiffusionElementMatrixProvider::Eval"]}
{"id": "C69", "title": "A Gmsh file is turned into the mesh it describes, with the right physical numbers", "statement": "If GmshReader accepts a parsed Gmsh file (version 2 or 4), the mesh has exactly the nodes of the file which are corners of elements, in the order of the file; its cells are exactly the two-dimensional elements of the file with the same corners and geometry; every one-dimensional element is an edge with the same end points, direction and geometry; and PhysicalEntityNr(e) lists the physical numbers of all elements of the file which describe the entity e. IsPhysicalEntity(e, nr) says whether nr is in this list. Files without cells, or with three-dimensional elements, are rejected.", "quantifier": "all files with distinct node numbers (and distinct entity tags per dimension), any numbering of nodes with gaps, any order of elements", "why_tests_cant": "unboundedly many files, numberings and orders of elements", "anchors": ["lib/lf/io/gmsh_reader.cc: GmshReader::InitGmshFile (GMshFileV2, GMshFileV4), PhysicalEntityNr, IsPhysicalEntity"]}
{"id": "C70", "title": "MeshFunctionGradFE returns the gradient of the finite element function", "statement": "At every point of a cell or edge where the Jacobian of its geometry has full rank, the vector returned by MeshFunctionGradFE is tangential to the entity and its scalar product with the image of a coordinate direction is the derivative of MeshFunctionFE in that direction; if the finite element function is a differentiable function f of world coordinates there, the returned vector represents the derivative of f on tangential directions. On points evaluation fails.", "quantifier": "all meshes, geometries, Lagrangian spaces of order 1-3 and hierarchic spaces of all (varying) degrees, coefficient vectors, points", "why_tests_cant": "uncountably many geometries, functions and points", "anchors": ["lib/lf/fe/mesh_function_grad_fe.h: MeshFunctionGradFE::operator()"]}
{"id": "C72", "title": "Arithmetic with mesh functions is pointwise", "statement": "Sum, difference, product, scalar multiple, negation, transpose, adjoint, conjugate and squared norm of mesh functions with values in scalars, matrices and arrays have at every point the value obtained from the values of the operands at this point; constants and functions of world coordinates have the expected values.", "quantifier": "all mesh functions, entities, lists of points, fixed and dynamic sizes of matrices", "why_tests_cant": "all combinations of sizes, storage orders and numbers of points; several overloads see the values as one block of memory", "anchors": ["lib/lf/mesh/utils/mesh_function_binary.h: OperatorAddition, OperatorSubtraction, OperatorMultiplication", "lib/lf/mesh/utils/mesh_function_unary.h", "lib/lf/mesh/utils/mesh_function_constant.h", "lib/lf/mesh/utils/mesh_function_global.h"]}
{"id": "C71", "title": "Prolongation interpolates, and is exact between nested spaces", "statement": "prolongate(mh, fespace_coarse, fespace_fine, dofs_coarse, level) returns a coefficient vector of the fine space whose finite element function has, at all evaluation nodes of all cells of level + 1, the value of the coarse finite element function at the same point (as given by ParentEntity and GeometryInParent). On every fine cell on which the coarse function is a polynomial of the degree of the fine space (triangles in triangles; rectangles of the reference element of a quadrilateral; triangles in a quadrilateral with the double degree) the two functions agree everywhere. The finest level and too short coefficient vectors are rejected.", "quantifier": "all coarse meshes, all sequences of regular, barycentric and local refinements, all levels, Lagrangian spaces of order 1-3 on both levels, all coefficient vectors, all points", "why_tests_cant": "unboundedly many meshes, refinement histories and functions", "anchors": ["lib/lf/fe/prolongation.h: prolongate", "lib/lf/refinement/mesh_function_transfer.h: MeshFunctionTransfer", "lib/lf/fe/fe_tools.h: NodalProjection"]}
{"id": "C73", "title": "Relative geometries of neighbouring entities fit together", "statement": "If a point of the mesh of a refined level is described in a cell and also in one of the edges or nodes of the cell, then ParentEntity and GeometryInParent take both descriptions to descriptions of one and the same point of the mesh of the level before. Hence MeshFunctionTransfer, over any number of levels, takes mesh functions with one value per point to mesh functions with one value per point, defined on all cells.", "quantifier": "all coarse meshes, all sequences of refinements, all pairs of levels, all cells, sub-entities and local coordinates", "why_tests_cant": "unboundedly many meshes, patterns in neighbouring cells, orientations of edges and numbers of levels", "anchors": ["lib/lf/refinement/mesh_hierarchy.cc: GeometryInParent, ParentEntity, initGeometryInParent, PerformRefinement", "lib/lf/refinement/mesh_function_transfer.h: MeshFunctionTransfer::operator()"]}
{"id": "C74", "title": "Nodal projection onto Lagrangian spaces interpolates", "statement": "For a mesh function with one value at every point of the mesh, NodalProjection returns the coefficients of the finite element function which has the values of the mesh function at all evaluation nodes of all selected cells; on each selected cell where the mesh function is a polynomial of the degree of the space, they agree on the whole cell.", "quantifier": "all meshes, Lagrangian spaces of order 1-3, mesh functions, selections of cells", "why_tests_cant": "coefficients of shared nodes and edges are overwritten cell by cell, with either orientation of edges; unboundedly many meshes and functions", "anchors": ["lib/lf/fe/fe_tools.h: NodalProjection", "lib/lf/uscalfe/lagr_fe.h: NodalValuesToDofs, EvaluationNodes"]}
{"id": "C75", "title": "The hard-coded triangle rules integrate polynomials of their degree", "statement": "make_QuadRule(kTria(), d) for 1 <= d <= 50 returns a rule of degree at least d with positive weights and points in the reference triangle, which integrates every polynomial of total degree at most Degree() up to 1e-15 times the sum of the absolute values of its coefficients; up to 1e-14 if the literals of the tables are rounded to double precision.", "quantifier": "all 49 tables with together more than 9000 points, all polynomials of the degree of the rule, all roundings of the literals", "why_tests_cant": "tests compare a few moments in floating point arithmetic with a tolerance; here all polynomials and all roundings", "anchors": ["lib/lf/quad/quad_rules_tria.cc: HardcodedQuadRule<kTria, 1..50>", "lib/lf/quad/make_quad_rule.cc: make_QuadRule"]}
{"id": "C76", "title": "GaussLegendre and GaussJacobi(n,1,0) are the Gauss rules", "statement": "The recurrences in GaussLegendre(n) and GaussJacobi(n,1,0) evaluate the orthogonal polynomials of degree n and their derivatives. If Newton's iteration has converged to different values, the returned rules have n points in the interval and positive weights and integrate all polynomials of degree at most 2n-1 exactly, on [0,1] and on [-1,1] with weight 1-x. Such values exist for every n. Hence make_QuadRule returns, for all reference elements other than points and all degrees, a rule that is exact of at least the requested degree.", "quantifier": "all numbers of points n > 0, all values at which Newton's iterations stand still, all polynomials of degree at most 2n-1", "why_tests_cant": "tests check some monomials for some n in floating point arithmetic with a tolerance", "anchors": ["lib/lf/quad/gauss_quadrature.cc: GaussLegendre, GaussJacobi", "lib/lf/quad/make_quad_rule.cc: make_QuadRule"]}
{"id": "C77", "title": "Assembled matrices and vectors represent the bilinear and linear forms", "statement": "Assembling with a mass, diffusion, reaction-diffusion, edge mass or load provider adds to the matrix (vector) the representation of the form: for finite element functions v and u with coefficients nu and mu, nu^T A mu grows by the quadrature value of the integral of gamma v u, grad v . alpha grad u, ... over exactly the selected entities. Hence the matrices are symmetric and positive semi-definite if the coefficients are, row sums of the diffusion matrix vanish, for Lagrangian elements and sufficiently exact positive rules the mass matrix is definite and the diffusion matrix vanishes exactly on functions constant on each cell, and on affine meshes with constant coefficients the values are the exact integrals.", "quantifier": "all meshes of triangles and quadrilaterals, all finite element spaces and quadrature rules of sufficient degree, all coefficients, all selections of entities, all matrices assembled so far, all pairs of finite element functions", "why_tests_cant": "tests evaluate a few forms for a few functions on a few meshes with a tolerance", "anchors": ["lib/lf/assemble/assembler.h: AssembleMatrixLocally, AssembleVectorLocally", "lib/lf/fe/loc_comp_ellbvp.h", "lib/lf/uscalfe/loc_comp_ellbvp.h: ReactionDiffusionElementMatrixProvider", "lib/lf/fe/mesh_function_fe.h", "lib/lf/fe/mesh_function_grad_fe.h"]}
{"id": "C78", "title": "The linear system of the elliptic boundary value problem represents the discrete variational problem", "statement": "The program of ellbvp_linfe_demo (Galerkin matrix with diffusion, reaction and impedance terms, load vector with source and boundary data, elimination of Dirichlet dofs with InitEssentialConditionFromFunction and FixFlaggedSolutionComponents), for Lagrangian elements of degree 1, 2 and 3: the system is set up without failure, it is square, and its solutions are exactly the coefficient vectors of finite element functions that take the boundary values on Dirichlet edges and satisfy a(v,u) = l(v) for all finite element functions v that vanish on Dirichlet edges. If the coefficients are elliptic and every dof is linked by cells to a Dirichlet edge or a place where gamma or eta is positive, the matrix is positive definite and the solution exists and is unique; a finite element function that solves the variational problem is reproduced.", "quantifier": "all meshes of triangles and quadrilaterals with regular geometries, degrees 1 to 3, all coefficients and boundary data, all partitions of the boundary, all test functions", "why_tests_cant": "tests solve a few problems on a few meshes and look at convergence rates", "anchors": ["examples/ellbvp_linfe/ellbvp_linfe_demo.cc", "lib/lf/assemble/fix_dof.h: FixFlaggedSolutionComponents", "lib/lf/fe/fe_tools.h: InitEssentialConditionFromFunction", "lib/lf/uscalfe/loc_comp_ellbvp.h", "lib/lf/assemble/assembler.h"]}
{"id": "C79", "title": "VtkWriter builds a conforming grid of Lagrange cells", "statement": "For every mesh whose geometries fit together and every order from 1 to 10 the constructor of VtkWriter succeeds. All points of the grid are set, the nodes of the mesh come first, the number of points is that of nodes, points inside edges and points inside cells. Cell i of the grid is of the type of entity i; its points are the images of the nodes of VTK's Lagrange cell of that order in VTK's order. Cells sharing an edge share the points on it.", "quantifier": "all meshes of triangles and quadrilaterals in any orientation, all geometries that fit together, codimension 0 and 1, orders 1 to 10", "why_tests_cant": "offsets depend on all cells before, orientation of edges and order; tests write a few files which nobody reads back", "anchors": ["lib/lf/io/vtk_writer.cc: VtkWriter::VtkWriter, AuxNodesSegment, AuxNodesTria, AuxNodesQuad"]}
{"id": "C80", "title": "Point data written by VtkWriter are the values of the function at the points of the grid", "statement": "After every history of calls, WritePointData with an admissible name and a mesh function that has one value at each point of the mesh succeeds; in each cell of the grid the values stored for its points are the values of the function at the points of the reference element whose images the points are. Vectors with two components get a zero appended. For data sets and order 1 the value of node v, or the given default, is stored for point v; for other orders the call is rejected.", "quantifier": "all meshes, orders, histories, names, mesh functions and data sets", "why_tests_cant": "values are written entity by entity to computed offsets; unboundedly many meshes, orders and histories", "anchors": ["lib/lf/io/vtk_writer.h: VtkWriter::WritePointData", "lib/lf/io/vtk_writer.cc: VtkWriter::WritePointPointData"]}
{"id": "C81", "title": "Cell data written by VtkWriter are the values of the function at the centroids", "statement": "After every history of calls, WriteCellData with an admissible name stores for cell i of the grid the value of the mesh function on entity i at the centroid of its reference element, or the value of the data set, or the given default where it is undefined.", "quantifier": "all meshes, orders, histories, names, mesh functions and data sets", "why_tests_cant": "ranges over all meshes, functions and histories", "anchors": ["lib/lf/io/vtk_writer.h: VtkWriter::WriteCellData"]}
{"id": "C82", "title": "Every sequence of calls of a VtkWriter leaves a valid file", "statement": "After construction and every sequence of calls, whether or not some of them throw, the checks made before the file is written succeed, the grid is unchanged, names of data are pairwise different and without spaces in each group, and data written earlier are still there in their place. Names in use and names with spaces are rejected.", "quantifier": "all meshes, orders and sequences of calls", "why_tests_cant": "unboundedly many histories", "anchors": ["lib/lf/io/vtk_writer.h: VtkWriter", "lib/lf/io/vtk_writer.cc: ValidateVtkFile, CheckAttributeSetName"]}
{"id": "C64", "title": "Hierarchic elements contain all polynomials of their degree", "statement": "The shape functions of FeHierarchicSegment, FeHierarchicTria and FeHierarchicQuad are polynomials of the degree reported by Degree(). Every polynomial whose degree (total degree on segments and triangles, degree in each variable on quadrilaterals) is at most the degrees of the interior and of all edges is a linear combination of them, and NodalValuesToDofs computes its coefficients from the values at the evaluation nodes. If all degrees are p, there are (p+1)(p+2)/2 or (p+1)^2 shape functions and they span exactly the polynomials of degree p.", "quantifier": "all polynomial degrees of interior and edges, all orientations of edges, all polynomials", "why_tests_cant": "tests check a few degrees and functions with a tolerance; here all degrees", "anchors": ["lib/lf/fe/hierarchic_fe.h: FeHierarchicSegment, FeHierarchicTria, FeHierarchicQuad"]}
{"id": "C83", "title": "Geometries of neighbouring entities fit together on all levels of refinement", "statement": "If the geometries of the coarsest mesh fit together (a cell and the edge at one of its sides map a point of the side to the same place, edges and cells map their corners to the positions of the nodes), then this holds on every level of a MeshHierarchy: there are no gaps or overlaps along edges, neither for straight nor for curved cells. If all geometries are of first order, then every entity of every level is the straight edge, affine triangle or bilinear quadrilateral through the positions of its nodes. A mesh built by the factory from points and cells without geometries is such a mesh.", "quantifier": "all meshes of triangles and quadrilaterals with first or second order geometries in any space dimension, all sequences of regular, barycentric and local refinements, all points of all sides", "why_tests_cant": "uncountably many points and unbounded histories", "anchors": ["lib/lf/refinement/mesh_hierarchy.cc: MeshHierarchy::PerformRefinement", "lib/lf/geometry/geometry_interface.h: Geometry::ChildGeometry", "lib/lf/mesh/hybrid2d/mesh.cc: Mesh::Mesh"]}
{"id": "C84", "title": "Local refinement keeps the shapes of triangles", "statement": "Under RefineRegular with the regular pattern and RefineMarked every descendant of a triangle has, up to scaling, one of the four shapes which newest vertex bisection creates from the triangle and its refinement edge; in particular angles do not degenerate, however often and wherever the user refines.", "quantifier": "all coarse meshes with affine triangles in any space dimension, all sequences of refinements and markings, all triangles and descendants", "why_tests_cant": "unbounded histories; degeneration only shows after many refinements", "anchors": ["lib/lf/refinement/mesh_hierarchy.cc: MeshHierarchy::PerformRefinement (refinement edges of children), MeshHierarchy::RefineMarked", "lib/lf/refinement/hybrid2d_refinement_pattern.cc: ChildPolygons"]}
{"id": "C85", "title": "Prescribed signs of edges are consistent", "statement": "PrescribedSignProvider assigns to a cell and one of its edges a sign such that the two cells adjacent to an interior edge have opposite signs and the cell adjacent to a boundary edge has sign 1, so that 'sign times outer normal' is one well-defined normal per edge which points outwards on the boundary.", "quantifier": "all meshes with at most 2^31 cells, all cells and their edges (and: the constructor stops for larger meshes)", "why_tests_cant": "must hold on every mesh and numbering of cells", "anchors": ["projects/dpg/dpg_tools.cc: PrescribedSignProvider::init, PrescribedSignProvider::PrescribedSign", "projects/dpg/dpg_tools.h: PrescribedSignProvider"]}
{"id": "C86", "title": "Outer normals, inflow boundary and boundary quadrature", "statement": "OuterNormals returns for each side of a planar straight-sided cell the outer unit normal, whatever the numbering direction of the corners. flagEntitiesOnInflowBoundary flags exactly the boundary edges where the convection field at the midpoint points into the domain, and inflow and outflow flags are a partition of the boundary edges. BoundaryQuadRule returns for each side of a reference cell a rule on this side which computes line integrals as exactly as the given rule.", "quantifier": "all strictly convex triangles and quadrilaterals (all simple quadrilaterals for the direction), all meshes of such cells, all convection fields, all quadrature rules on the segment", "why_tests_cant": "continuum of geometries, both orientations, all meshes", "anchors": ["projects/dpg/dpg_tools.cc: OuterNormals, BoundaryQuadRule", "projects/dpg/dpg_tools.h: flagEntitiesOnInflowBoundary, flagEntitiesOnOutflowBoundary"]}
{"id": "C87", "title": "Product spaces made by ProductUniformFESpaceFactory", "statement": "The methods AddH1Component, AddL2Component, AddFluxComponent and AddTraceComponent return the index of the added component in the space that Build returns next. Every sequence of components of supported degree can be built, component i has the dofs of the respective space of polynomials, and ComponentFESpace(i) is a scalar space numbered like component i. Functions of H1 components are continuous; on the boundaries of cells the same holds for trace components, whose shape functions are those of the H1 element without the ones that vanish on the boundary.", "quantifier": "all meshes, all sequences of components and degrees, all histories of calls of a factory", "why_tests_cant": "all meshes, histories and combinations of components", "anchors": ["projects/dpg/product_fe_space_factory.h: ProductUniformFESpaceFactory", "projects/dpg/product_fe_space.h: ProductUniformFESpace", "projects/dpg/trace_scalar_reference_finite_element.h: TraceScalarReferenceFiniteElement", "projects/dpg/discontinuous_scalar_reference_finite_element.h: DiscontinuousScalarReferenceFiniteElement", "projects/dpg/discontinuous_fe_constant.h: FeDiscontinuousO0Tria, FeDiscontinuousO0Quad, FeDiscontinuousO0Segment"]}
{"id": "C88", "title": "Essential conditions on a trace and a flux component", "statement": "InitEssentialConditionsFromFunctions returns one entry for each dof of the product space: dofs of the trace component have the flags and values which InitEssentialConditionFromFunction computes from the Dirichlet data on the component space, dofs of the flux component those computed from the Neumann data, and no other dof is flagged.", "quantifier": "all meshes, product spaces, pairs of components, selections of edges and functions", "why_tests_cant": "all meshes, spaces and functions", "anchors": ["projects/dpg/dpg_tools.h: InitEssentialConditionsFromFunctions"]}
{"id": "C89", "title": "Forms on product spaces are sums of the forms on components", "statement": "The matrix assembled from a ProductElementMatrixProvider represents the bilinear form which is the sum over its sub-providers of the form of that sub-provider, applied to the component of the test function and the component of the trial function named by the sub-provider; inactive sub-providers contribute nothing on a cell. The same holds for linear forms and ProductElementVectorProvider.", "quantifier": "all meshes, pairs of product spaces with any number of components, lists of sub-providers", "why_tests_cant": "all meshes, spaces and providers", "anchors": ["projects/dpg/product_element_matrix_provider.h: ProductElementMatrixProvider::Eval", "projects/dpg/product_element_vector_provider.h: ProductElementVectorProvider::Eval", "projects/dpg/sub_element_matrix_provider.h: SubElementMatrixProvider", "projects/dpg/sub_element_vector_provider.h: SubElementVectorProvider", "lib/lf/assemble/assembler.h: AssembleMatrixLocally, AssembleVectorLocally"]}
{"id": "C90", "title": "The DPG method minimises its error estimator", "statement": "The element matrix of DpgElementMatrixProvider is the Gramian of the optimal test functions and the element vector of DpgElementVectorProvider is the load of the optimal test functions. The assembled matrix is symmetric and positive semidefinite. The solutions of the assembled linear system are exactly the functions for which the error returned by ElementErrorEstimators and EvalPosteriorError is minimal; after FixFlaggedSolutionComponents they are exactly the functions with minimal error among those with the prescribed values.", "quantifier": "all meshes, dof handlers, extended stiffness, load and symmetric positive definite Gramian providers, all vectors of coefficients, all essential conditions", "why_tests_cant": "all meshes, providers and all competing functions", "anchors": ["projects/dpg/dpg_element_matrix_provider.h: DpgElementMatrixProvider::Eval", "projects/dpg/dpg_element_vector_provider.h: DpgElementVectorProvider::Eval", "projects/dpg/dpg_tools.h: ElementErrorEstimators, EvalPosteriorError", "lib/lf/assemble/fix_dof.h: FixFlaggedSolutionComponents"]}
{"id": "C91", "title": "The DPG element matrices and vectors are those of the documented forms", "statement": "Diffusion-, Reaction-, Convection-, Flux- and TraceElementMatrixProvider and LoadElementVectorProvider return the matrix or vector of the documented local form, evaluated with a quadrature rule of the sum of the degrees: rows belong to test functions and columns to trial functions. On affine cells (flux and trace: strictly convex cells with straight sides) and with constant coefficients the result is exact, with outer unit normals and lengths of sides. All providers can be constructed for all components made by the factory, the flux provider exactly for fluxes.", "quantifier": "all meshes, cells, components, degrees, coefficients and coefficient vectors of trial and test functions", "why_tests_cant": "all cells, elements, coefficients and functions", "anchors": ["projects/dpg/loc_comp_dpg.h: DiffusionElementMatrixProvider, ReactionElementMatrixProvider, ConvectionElementMatrixProvider, FluxElementMatrixProvider, TraceElementMatrixProvider, LoadElementVectorProvider"]}
{"id": "C92", "title": "Fluxes on the edges of a mesh are single-valued and conservative", "statement": "Let a flux component be added with AddFluxComponent. For every vector of coefficients, two cells sharing an edge see the same flux in all points of this edge when FluxElementMatrixProvider evaluates it, and with the prescribed signs the fluxes out of the two cells through the edge cancel.", "quantifier": "all meshes, edges, coefficient vectors, points and supported degrees", "why_tests_cant": "all meshes and functions; the existing tests use degree 0 only", "anchors": ["projects/dpg/product_fe_space_factory.h: AddFluxComponent", "projects/dpg/loc_comp_dpg.h: FluxElementMatrixProvider::Eval", "projects/dpg/product_dofhandler.h: ProductUniformFEDofHandler", "projects/dpg/discontinuous_scalar_reference_finite_element.h: DiscontinuousScalarReferenceFiniteElement", "lib/lf/assemble/dofhandler.cc: UniformFEDofHandler::InitIndexArrays"]}
{"id": "C93", "title": "Integration by parts holds exactly for the DPG element matrices", "statement": "On every affine triangle or parallelogram, for every pair of components with cell shape functions and every constant velocity b, the element matrix of ConvectionElementMatrixProvider with both coefficients equal to b and the element matrix of TraceElementMatrixProvider with coefficient b define the same bilinear form: the integral of (b grad v) u + v (b grad u) over the cell equals the integral of (b n) u v over its boundary.", "quantifier": "all affine cells, polynomial finite elements, degrees, coefficient vectors and constant velocities", "why_tests_cant": "all cells, elements and velocities", "anchors": ["projects/dpg/loc_comp_dpg.h: ConvectionElementMatrixProvider::Eval, TraceElementMatrixProvider::Eval", "projects/dpg/dpg_tools.cc: OuterNormals, BoundaryQuadRule"]}
{"id": "C94", "title": "The diffusion step of the Fisher/KPP solver is stable, conservative and of order two", "statement": "For every mesh, non-negative diffusion and boundary coefficients, every positive number of time steps and every final time, the constructor of StrangSplit and every call of diffusionEvolutionOperator succeed; no call increases the L2 norm of the finite element function; without flux through the boundary every call keeps its integral; and on eigenfunctions of the diffusion the result agrees with the exact evolution up to the third power of the step size.", "quantifier": "all meshes, coefficients, step sizes and finite element functions", "why_tests_cant": "unconditional stability ranges over all step sizes, meshes and functions", "anchors": ["projects/fisher_kpp/strangsplitting.cc: StrangSplit::diffusionEvolutionOperator", "projects/fisher_kpp/strangsplitting.h: assembleGalerkinMatrices, StrangSplit::StrangSplit"]}
{"id": "C95", "title": "Evolution of the Fisher/KPP solver advances the population to the final time", "statement": "In every component the reaction step returns the exact solution of the logistic equation, which stays between zero and the capacity; the populations zero and capacity do not change; and StrangSplit::Evolution with m time steps advances the population to the final time T.", "quantifier": "all numbers of time steps, final times, growth rates, capacities and populations", "why_tests_cant": "all times and all numbers of steps; the error is hidden by the error of the time discretization, which tends to zero as well", "anchors": ["projects/fisher_kpp/strangsplitting.cc: StrangSplit::Evolution"]}
{"id": "C96", "title": "Outward normals and tangents of triangles", "statement": "For every non-degenerate triangle, whatever the orientation of its corners, computeOutwardNormals returns the outward unit normals of the three sides and computeTangentials the unit tangents leading around the triangle counterclockwise; two triangles on different sides of a common edge get opposite normals and tangents.", "quantifier": "all triangles and all pairs of triangles with a common edge", "why_tests_cant": "a continuum of shapes and both orientations", "anchors": ["projects/ipdg_stokes/mesh/utils.cc: computeOutwardNormals, computeTangentials"]}
{"id": "C97", "title": "The extracted velocity of the Stokes solver is the curl of the potential", "statement": "For every mesh of non-degenerate triangles and every coefficient vector, extractVelocity stores for every cell the curl of the affine potential with the coefficients of the corners as values, MeshFunctionVelocity has the same values, extractBasisFunctionCoefficients returns the coefficients of the nodes; the velocity creates no mass: outward fluxes of a cell add up to zero and the normal component is continuous across edges.", "quantifier": "all meshes of triangles, all coefficient vectors, all cells and edges", "why_tests_cant": "arbitrary meshes, orientations and coefficient vectors", "anchors": ["projects/ipdg_stokes/post_processing/solution_to_mesh_data_set.cc: extractVelocity, extractBasisFunctionCoefficients", "projects/ipdg_stokes/post_processing/mesh_function_velocity.h: MeshFunctionVelocity"]}
{"id": "C98", "title": "The linear system of the Stokes solver is equivalent to the discrete problem and uniquely solvable", "statement": "For every mesh of non-degenerate triangles, every force, all Dirichlet data, every quadrature rule and every non-zero penalty parameter, buildSystemMatrixNoFlow returns a symmetric system whose solutions are exactly the pairs of a potential vanishing on the boundary and the weighted jumps of its tangential velocity which balance the force. If the penalty parameter is positive, every node belongs to a cell and every cell is connected to the boundary, it has exactly one solution, and the potential is the minimiser of dissipation minus work.", "quantifier": "all meshes, forces, Dirichlet data, quadrature rules, penalty parameters, with and without the modified penalty", "why_tests_cant": "arbitrary meshes and data; solvability is a statement about all vectors", "anchors": ["projects/ipdg_stokes/assemble/build_system_matrix.cc: buildSystemMatrixNoFlow", "projects/ipdg_stokes/assemble/piecewise_const_element_matrix_provider.cc", "projects/ipdg_stokes/assemble/piecewise_const_element_vector_provider.cc"]}
{"id": "C99", "title": "The annulus builder meshes the annulus with the given radii, centre and numbers of cells", "statement": "For every number m of radial and n of angular cells (n at least 3), AnnulusTriagMeshBuilder::Build returns a mesh with n(m+1) nodes on m+1 equidistant circles about the given centre, 2nm counterclockwise triangles of positive area and n(3m+1) edges, each belonging to one or two cells, 2n of them to one; the cells have together the area between two regular polygons.", "quantifier": "all numbers of cells, radii and centres", "why_tests_cant": "unbounded numbers of cells, a continuum of radii and centres", "anchors": ["projects/ipdg_stokes/mesh/annulus_triag_mesh_builder.cc: Build", "projects/ipdg_stokes/mesh/annulus_triag_mesh_builder.h: setCenterPoint"]}
{"id": "C100", "title": "narrow preserves values or rejects them", "statement": "For all integer types, with or without sign and with any number of bits, and every value of the source type, lf::base::narrow returns the same value if the target type can represent it; otherwise its assertion fails.", "quantifier": "all pairs of integer types and all values", "why_tests_cant": "all values of all pairs of integer types", "anchors": ["lib/lf/base/narrow.h: narrow"]}
{"id": "C101", "title": "Matlab files describe the mesh", "statement": "For every planar mesh of triangles and quadrilaterals, running the function written by writeMatlab gives in x, y the coordinates of the nodes by index, in EDS the end points of the edges by index, in TRI and QUAD the corners and the index of every triangle and quadrilateral; nodes are numbered from 1. The file name gets the suffix .m unless it has it, and the function is named like the file.", "quantifier": "all meshes and all file names", "why_tests_cant": "unboundedly many meshes and names", "anchors": ["lib/lf/io/write_matlab.cc: writeMatlab"]}
{"id": "C102", "title": "Files for matplotlib describe the mesh", "statement": "For every planar mesh of triangles and quadrilaterals, plot_mesh.py reads from the file written by writeMatplotlib all nodes with positions, all edges with end points and all cells with their edges; it puts the number of a cell at the mean of its corners. The file name gets the suffix .csv unless it has it.", "quantifier": "all meshes and all file names", "why_tests_cant": "unboundedly many meshes and names", "anchors": ["lib/lf/io/write_matplotlib.cc: writeMatplotlib", "lib/lf/io/plot_mesh.py"]}
{"id": "C103", "title": "TikZ pictures show exactly the selected entities, with the numbers asked for", "statement": "For every mesh, selector and combination of flags, the picture written by writeTikZ contains exactly the selected nodes and edges and, with RenderCells, exactly the selected cells; numbers are shown if and only if their flag is set. Without the argument output_ctrl cells, their numbers and the local numbers of their corners are shown.", "quantifier": "all meshes, selectors and flags", "why_tests_cant": "unboundedly many meshes and selectors", "anchors": ["lib/lf/io/write_tikz.cc: writeTikZ", "lib/lf/io/write_tikz.h: TikzOutputCtrl"]}
{"id": "C104", "title": "Matlab files of a hierarchy do not overwrite each other and contain the parent information", "statement": "WriteMatlab writes two files for every level of a mesh hierarchy, all with different names and functions named like the files; the row of every entity contains its parent, number as child and refinement edge, with -1 for nothing.", "quantifier": "all base names, numbers of levels and parent information", "why_tests_cant": "unboundedly many levels and entities", "anchors": ["lib/lf/refinement/refutils.cc: WriteMatlab, WriteMatlabLevel"]}
{"id": "C105", "title": "Gmsh files of version 4.1 are read completely and correctly", "statement": "For every file in the MSH format 4.1 (text or binary, either byte order, with any white space, digits, optional sections and comments), the reader accepts the file and returns exactly the names, entities, partitions, nodes, elements, periodic links and ghost elements it contains. For every input whatsoever that is accepted, elements have the number of nodes that belongs to their type; a file that was cut off before the end of its section Elements is refused.", "quantifier": "all files of the format and all strings", "why_tests_cant": "unboundedly many files and truncation points", "anchors": ["lib/lf/io/gmsh_reader.cc: ReadGmshFile", "lib/lf/io/gmsh_file_v4.cc: ReadGmshFileV4", "lib/lf/io/gmsh_file_v4_text.cc", "lib/lf/io/gmsh_file_v4_binary.cc", "lib/lf/io/gmsh_file_v4_detail.h"]}
{"id": "C106", "title": "Gmsh files of version 2.2 are read completely and correctly; the version selects the parser", "statement": "For every file in the MSH format 2.2 (text or binary, either byte order, with physical names, nodes, elements with tags and partitions in blocks of any sizes, periodic entities and comments) the reader accepts the file and returns exactly its content. Accepted elements have the number of nodes that belongs to their type. A file that was cut off, or that is followed by something else, is refused. Files with version 4.1 go to the parser for that version, and no others.", "quantifier": "all files of the format and all strings", "why_tests_cant": "unboundedly many files and truncation points", "anchors": ["lib/lf/io/gmsh_reader.cc: ReadGmshFile", "lib/lf/io/gmsh_file_v2.cc: readGmshFileV2, MshGrammarText"]}
{"id": "C107", "title": "VTK files contain what was written", "statement": "For every admissible VtkFile object, WriteToFile produces a file in the legacy VTK format from which a reader gets back the header, points, cells, cell types, global fields, point data and cell data: exactly for binary files, and up to rounding for text files. WriteToFile throws exactly if the header has a line end or more than 256 characters or the sizes of the data do not fit together.", "quantifier": "all VtkFile objects with any number of points, cells, fields and attributes of all types, in both formats", "why_tests_cant": "unboundedly many contents; the tests only write files and look at some of them in ParaView", "anchors": ["lib/lf/io/vtk_writer.h: VtkFile", "lib/lf/io/vtk_writer.cc: WriteToFile, VtkGrammar, ValidateVtkFile"]}
{"id": "C108", "title": "From the bytes of a Gmsh file to the mesh", "statement": "GmshReader(factory, filename) succeeds for every Gmsh file (versions 2.2 and 4.1, text or binary, any byte order) which describes a two-dimensional mesh, and mesh(), PhysicalEntityNr and the names of the physical groups are those of the file; the result does not depend on the way the file is written. For any file whatsoever, if the constructor returns, the mesh is one that could be made with MeshFactory and is consistent; files which were cut off are refused.", "quantifier": "all files (byte strings), all geometry classes", "why_tests_cant": "unboundedly many files; the tests read a few fixed files", "anchors": ["lib/lf/io/gmsh_reader.cc: GmshReader::GmshReader, readGmshFile, InitGmshFile", "lib/lf/io/gmsh_file_v2.h, gmsh_file_v4.h: ElementType"]}
{"id": "C109", "title": "Constructors reject degenerate cells, accepted cells are regular", "statement": "The constructors of TriaO1, QuadO1 and Parallelogram succeed exactly for cells whose sides and area are not negligible (relative tolerance 1e-8); the decision does not depend on position, size, dimension of space or numbering of the corners of a triangle. The parametrization of every cell which has been constructed is regular: at all points the integration element is positive and JacobianInverseGramian exists. Refining a cell which has been constructed does not fail because a child is rejected, however often one refines; GeometryInParent never fails.", "quantifier": "all corners in plane and space, all points of the reference elements, all refinement patterns, all numbers of refinements", "why_tests_cant": "uncountably many cells; degenerate cases lie on lower dimensional sets", "anchors": ["lib/lf/geometry/tria_o1.cc: assertNonDegenerateTriangle, TriaO1::TriaO1", "lib/lf/geometry/quad_o1.cc: assertNonDegenerateQuad, QuadO1::QuadO1, Parallelogram::Parallelogram, ChildGeometry", "lib/lf/refinement/mesh_hierarchy.cc: GeometryInParent"]}
{"id": "C110", "title": "Stokes flow with in- and outflow: the offset function carries the prescribed flow", "statement": "For Dirichlet data with in- and outflow, buildSystemMatrixInOutFlow returns an offset function whose velocity leaves the domain as prescribed at every edge on the boundary (up to a constant which makes the net flow zero), and a linear system which has exactly one solution; adding the offset function to it gives a solution of the discrete Stokes problem with the prescribed flow through the boundary.", "quantifier": "all triangular meshes, forces, Dirichlet data, quadrature rules and penalty parameters", "why_tests_cant": "the tests compare with one or two known flows on rectangles; the shape of the domain and the data are arbitrary", "anchors": ["projects/ipdg_stokes/assemble/offset_function.cc: PiecewiseBoundaryNormalJumpAssembler::Eval, createOffsetFunction", "projects/ipdg_stokes/assemble/build_system_matrix.cc: buildSystemMatrixInOutFlow"]}
{"id": "C111", "title": "The sanity checks of meshes decide what they claim to check, and the test meshes pass them", "statement": "checkEntityIndexing accepts a mesh exactly if its entities are numbered without gaps and duplicates; checkMeshCompleteness exactly if every edge belongs to a cell and every node to an edge; checkLocalTopology and checkRelCodim accept the entities of consistent meshes; checkGeometryOrientation exactly if the corners of an entity are at the positions of its nodes; isWatertightMesh returns an empty list exactly if this holds (within the tolerance) for all edges and cells. Meshes built by the mesh factory pass the checks which concern the topology. GenerateHybrid2DTestMesh returns for every selector 0 to 8 and every scaling factor a mesh which passes all checks and which is the mesh for scaling factor 1 with scaled positions.", "quantifier": "all meshes built by any history of calls of the mesh factory; all selectors and scaling factors", "why_tests_cant": "the checks are themselves what the tests rely on; they are run on a few meshes only, and the test meshes are used with few scaling factors", "anchors": ["lib/lf/mesh/test_utils/check_entity_indexing.cc: checkEntityIndexing", "lib/lf/mesh/test_utils/check_local_topology.cc: checkLocalTopology, checkRelCodim", "lib/lf/mesh/test_utils/check_mesh_completeness.cc: checkMeshCompleteness, isWatertightMesh", "lib/lf/mesh/test_utils/check_geometry_orientation.cc: checkGeometryOrientation", "lib/lf/mesh/test_utils/test_meshes.cc: GenerateHybrid2DTestMesh"]}
{"id": "C112", "title": "The L2 norm and the DG norm of discontinuous velocities are what their documentation says", "statement": "For every mesh of triangles, every cellwise given function f with gradient, and every selection of quadrature rules, L2norm returns the square root of the sum over all cells of the integrals of |f|^2, and DGnorm the square root of the sum over all cells of the integrals of |grad f|^2 plus the sum over all edges of 1/|e| times the integrals of the squared norm of the jump of f (x) n, both computed with the selected rules. The jump on an edge between two cells is the difference of the values on both sides, evaluated at the same point.", "quantifier": "all meshes of non-degenerate triangles with any orientation of cells and edges, all functions, all gradients, all selections of quadrature rules", "why_tests_cant": "the project has no test for the norms; they are only printed by the example programs, which use one quadrature rule", "anchors": ["projects/ipdg_stokes/post_processing/norms.h: L2norm, DGnorm", "lib/lf/fe/fe_tools.h: IntegrateMeshFunction", "lib/lf/mesh/utils/mesh_function_unary.h: squaredNorm"]}
{"id": "C113", "title": "Timers measure the time during which they run, and print what they measure", "statement": "For every sequence of calls of Start, Stop and Resume on a Timer, with any readings of the clock, Elapsed returns the wall clock, user and system time which passed since the last Start without the time during which the timer was stopped; IsStopped tells whether the last call was Stop; Format prints the elapsed times in seconds and the percentage of processor time, whether the timer runs or not. An AutoTimer reports the time between its construction and its destruction once when it is destroyed, and the time since construction on every call of Report; AutoTimers can be moved.", "quantifier": "all histories of calls, all sequences of clock readings, all destinations of the output", "why_tests_cant": "there are infinitely many histories, and tests cannot set the clock: the tests of the library only check that elapsed times are small, and Format is only called for stopped timers", "anchors": ["lib/lf/base/timer.h: Timer, AutoTimer", "lib/lf/base/timer.cc: tick_factor, get_cpu_times, Timer::Elapsed, Timer::Format, Timer::Start, Timer::Stop, Timer::Resume, AutoTimer::~AutoTimer, AutoTimer::Report"]}
{"id": "C114", "title": "Builders of DPG providers return what was added, and the primal DPG method is well posed on every mesh", "statement": "For every sequence of calls of the methods of the builders of product element matrix and vector providers, each call of Build returns a provider for the forms which were added since the previous call of Build, in the order of the calls. For every mesh whose cells have Jacobians of full rank, every polynomial degree and enrichment within the supported degrees, and all coefficients, the set-up of the primal DPG method succeeds; its element matrices and vectors are those of the forms of the method for the quadrature rules of the library; the Gramian of the test space, for the standard and the adapted norm, is symmetric and positive definite on every cell, so that the DPG system is defined and its solution minimises the residual.", "quantifier": "all histories of builders; all meshes of triangles and quadrilaterals with regular cells, all supported degrees and enrichments, all coefficients, all converged Gauss rules", "why_tests_cant": "tests try some meshes, degrees and coefficients; definiteness is about all non-zero functions, and the quadrature rules on triangles are only exact up to rounding", "anchors": ["projects/dpg/product_element_matrix_provider_builder.h: ProductElementMatrixProviderBuilder", "projects/dpg/product_element_vector_provider_builder.h: ProductElementVectorProviderBuilder", "projects/dpg/convergence_studies/primal_dpg.h: TestConververgencePrimalDPGConvectionDiffusionDirichletBVP", "projects/dpg/convergence_studies/primal_dpg_adapted_norm.h: TestConververgencePrimalDPGAdaptedNormConvectionDiffusionDirichletBVP", "lib/lf/quad/make_quad_rule.cc: make_QuadRule"]}
{"id": "C115", "title": "DPG builders sum the forms that were added, and the ultraweak DPG method is well posed on every mesh", "statement": "For all product spaces of supported components and every list of forms (diffusion, reaction, convection, flux and trace terms) between their components, the element matrix of the provider returned by the builder is, on every cell, the matrix of the sum of these forms for the quadrature rules of the library. For every mesh of triangles and strictly convex quadrilaterals with straight sides, every supported degree and enrichment and all coefficients, the set-up of the ultraweak DPG method succeeds; its element matrices and vectors are those of the forms of the method, including the traces on the sides of the cells; the Gramian of its test space is symmetric and positive definite on every cell, so that the DPG system is defined and its solution minimises the residual.", "quantifier": "all product spaces and lists of forms; all meshes of triangles and strictly convex quadrilaterals, all supported degrees and enrichments, all coefficients, all converged Gauss rules", "why_tests_cant": "tests try some lists of forms, meshes and degrees; definiteness is about all non-zero test functions of the three components, which are coupled by the divergence", "anchors": ["projects/dpg/convergence_studies/ultraweak_dpg.h: TestConververgenceUltraWeakDPGConvectionDiffusionDirichletBVP", "projects/dpg/product_element_matrix_provider_builder.h: ProductElementMatrixProviderBuilder", "projects/dpg/product_element_matrix_provider.h: ProductElementMatrixProvider", "projects/dpg/loc_comp_dpg.h: TraceElementMatrixProvider", "projects/dpg/loc_comp_dpg.h: FluxElementMatrixProvider"]}
