# Formal model of LehrFEM++ (craffael/lehrfempp) in Lean 4

## Layout

* `lean/Verif/Model/*.lean`: the model. Definitions only. Every definition cites the
  file and lines in `/repo` it models and says where it simplifies.
* `lean/Verif/Spec/*.lean`: small specifications used by property statements
  (independent of the algorithms of the model).
* `lean/Verif/Lemmas/*.lean`: helper lemmas.
* `lean/Verif/Props/*.lean`: one theorem (or a few) per property `Cxx`, each followed by
  a non-vacuity `example`.
* `properties.jsonl`: the properties. `MANIFEST.json`: which theorem proves which property.
* `seeded/LOG.jsonl`: log of deliberately wrong edits of the model and which theorems noticed.

## Trusted base

* Lean's kernel (4.33.0) and Mathlib's definitions that occur in statements.
* Axioms: `propext`, `Classical.choice`, `Quot.sound` only (see "Axioms" below).
* The correspondence model <-> C++ source, established by reading (citations per definition).

## Global modelling decisions

* **Scalars.** `double` arithmetic is idealised: exact arithmetic in a field (ℚ, ℝ or an
  arbitrary field/ring), no rounding, NaN or overflow. Decimal constants that stand for
  rationals (`1/3.0`, `0.16666666666666665741`) are modelled by the rational they abbreviate.
* **Indices.** `unsigned int` is modelled by `ℕ`. Wrap-around is modelled only where the
  code can reach it on admissible input and is then a distinct outcome. The value
  `idx_nil = (unsigned)-1` is modelled by `none`.
* **Failure.** `LF_VERIFY_MSG` (active in all builds) is modelled as an explicit failure outcome
  (`none`/`Except`). `LF_ASSERT_MSG` (removed with `NDEBUG`) is modelled either as a failure
  outcome as well (debug build) or as an explicit hypothesis; each definition says which.
* **Entities** of a mesh are identified by (codimension, index). Pointers, smart-pointer ownership,
  logging, printing and timing are not modelled.
* Containers (`std::vector`, `std::map`, `std::deque`) are modelled by lists/functions with the
  iteration order of the container.

## Plan per property

C01 COOMatrix: state = (rows, cols, triplet list); operations as an inductive type; refinement to an
    abstract (function-valued) matrix by induction over the operation sequence.
C02 MatVecMult: fold over triplets; equality with `Matrix.mulVec` of the dense matrix, induction on list.
C03-C06 fix_dof: functions on (triplets, rhs); solution-set equivalence proved for every commutative ring/field.
C07-C08 Assembly: nested loops as folds; equality with a finite sum; permutation invariance.
C09-C15 DofHandlers: index arrays built by the loops of the code; characterisation by closed forms and induction.
C16-C19 Mesh constructor: `std::map` of edges as sorted association list; loops as folds; invariants by induction.
C20-C22 special entity sets, data sets: folds over entities; counting lemmas; map laws.
C23-C25 structured builders: explicit lists of nodes/edges/cells from the loops, counting bijections for all nx, ny.
C26-C27 refinement patterns: tables of ChildPolygons transcribed; contract by complete finite case analysis
    (the domain of the function is finite); tiling proved for every point of the reference element over an ordered field by
    linear arithmetic.
C28-C34 MeshHierarchy: RefineMarked closure loop with explicit termination measure; PerformRefinement's
    node/edge/cell registration as list-building functions; conformity, counts, parent relation by
    lifting local (finite-table) facts through the injective numbering of fine nodes.
C35-C36 GeometryInParent and transfer: composition identities by ring arithmetic, induction over levels.
C37-C40 Geometry: coordinate-wise polynomials over a field/ℝ; `ring`, derivative via `HasDerivAt`.
C41-C43 Quadrature: rules as lists of (point, weight); exactness functional; Duffy change of variables in terms
    of Beta integrals; cache as a state machine with a history invariant.
C44-C45 Lagrange FE: shape functions as polynomials; cardinality by evaluation, continuity by `ring` for every
    local edge pair/orientation.
C46-C48 Hierarchic FE: Legendre recurrences as structural recursion on the degree; identities by induction.
C49-C51 fe_tools: folds over cells/edges with overwrite semantics.
C52-C53 Element matrices: algebraic identities, positive semi-definiteness as sums of squares.
C54 GmshReader lookup: multimap as list; iterator walk with end-dereference as a distinct outcome `ub`.
C55 RefEl tables: finite domain, complete case analysis.
C56 geometry of the entities of a mesh: invariant of the constructor's loops, geometry operations abstract (`GeoOps`).
C57 isAffine: Global is an affine map, per class; negation by witness for the second order classes.
C58-C59 UniformScalarFESpace: constructor checks and dof layout, composed with C09-C12.
C60 Jacobi polynomials: recurrences, derivative identities by induction on the degree.
C61 gradients of hierarchic functions: `HasDerivAt` of the evaluation, built from C46 and C60.
C62 counts; C63 duality of degrees of freedom: integration by parts and orthogonality in terms of an exactness
    hypothesis on the quadrature rule.
C65-C68 element matrices and vectors: equality with quadrature sums, exactness on affine cells by linearity.
C69 GmshReader: loops over elements as folds with state, characterised by an invariant (`ReadDone`), composed with C16-C19.
C70 gradients: linear algebra on top of C38 (inverse Gramian) and the gradients of shape functions (C44, C61); chain rule.
C71 prolongation: C73 and C74; polynomials composed with the affine (or axis-parallel) maps of the relative geometries.
C73 relative geometries: finite tables of positions (lattice points on sides) for the patterns, then case analysis on the
origin of every fine entity (node, half edge, interior edge); induction over the levels.
C74 interpolation: coefficients of shared entities agree by the positions of the nodes on sides and both orientations.
C75 tables: generated from the source by tools/quad_tables.py; all moments in integer arithmetic, evaluated by the kernel
(`decide +kernel` for each table and power of x: the domain is the finite table itself), then the general statement for
polynomials and rounded literals by real analysis.
C76 Gauss rules: three-term recurrences as polynomials; orthogonality, norms and derivatives by induction; exactness of a
rule at the roots of an orthogonal polynomial for an arbitrary linear functional; existence of the roots by sign changes.
C77 Galerkin matrices: assembly as a sum of element contributions (C01, C02) composed with the element forms (C53, C66);
definiteness because a polynomial whose square has integral zero vanishes on the reference element.
C78 boundary value problem: composition of C77 (forms), C04/C05 (elimination) and the nodal basis on edges; definiteness
by propagating zeros from anchored dofs through neighbouring cells.
C64 completeness: the shape functions are polynomials, independent because of duality (C47, C63) and as many as monomials.
C79 - C82 VtkWriter: the loops over entities as folds; closed form of offsets and points by induction over the entities; nodes
of Lagrange cells as an independent recursive specification; histories by an invariant.
C83 geometric conformity: geometries of order two are determined by finitely many values on a side; child geometries take
these values at images of their nodes (C31, C35), which are the same point for both neighbours; induction over the levels.
C84 shapes: a complete table of the corners of all children (pattern, anchor, refinement edge), geometry of children from
C31/C83; classes by induction over the line of descent; the negation by an explicit strategy of refinements whose closure is
computed with the specification of C28 (a side of the middle child of a regularly refined triangle is nobody's refinement edge).
C72 mesh functions: Eigen objects as lists in memory order, maps of memory as concatenation; refinement to Mathlib matrices.

C85 signs: invariant of the double loop (value of an edge = largest index of the processed adjacent cells), then the
bound of two cells per edge.

C86 normals: closed form of the normals for each type of cell, sign of the determinants; supporting half-plane as the
definition of outer normal; flags by an invariant over processed (cell, side) pairs; quadrature by transformation.

C87 product spaces: the history of a factory as a fold, the product handler from C15; conformity of trace elements from the
conformity of the Lagrange elements they are cut out of, because the dropped shape functions vanish on the sides.

C88 conditions on two components: loop invariant of the copying, disjoint ranges of dofs from C15.

C89 forms on product spaces: loop invariant over sub-providers (the form of the matrix so far), local start indices from C15,
then the assembly theorem C02 and exchange of the sums over cells and sub-providers.

C90 DPG: on one cell the matrix is `Bᵀ G⁻¹ B`, hence the squared residual in the dual norm is a quadratic function of the
coefficients; summed over cells the squared estimator is `uᵀDu - 2bᵀu + c`; minimisers of a convex quadratic function under
fixed components are the solutions of the free rows; combined with C03 for `FixFlaggedSolutionComponents`.

C91 DPG element matrices: the loop over quadrature points is a sum (`foldlM_plusEq`), the form of the matrix is the rule
applied to the integrand; sides are treated with C86 (`BoundaryQuadRule`, normals) and C85 (signs).  Exactness: integrands are
polynomials, also after restriction to a side; elements of the factory are polynomial (`C91_elements`); constructors with C76.

C92 fluxes: the coefficients of a side are the interior dofs of the edge, reversed if the cell traverses it backwards (C12);
single-valued means that reversing coefficients and parameter changes nothing, which is checked for the elements of degree 0
and 1 and refuted by the mean value for degrees 2 and 3; conservation with the signs of C85.

C93 integration by parts: C91 gives both element matrices as exact integrals; the divergence theorem for polynomials on the
two reference elements (fundamental theorem of calculus along one coordinate, exchange of coordinates), and length times outer
normal of a side of an affine cell is the side rotated by a right angle.

C94 diffusion step (SDIRK-2): with `B = M⁻¹A`, `μ = (1 + κhB)² w` the result is `w - (1 - 2κ) hB w`; the difference of the
squared norms is a sum of non-negative terms because `κ² = 2κ - 1/2` and `κ > 1/4`. Conservation by summing the stage
equations, order by comparison with the Taylor polynomial of the exponential function. Matrices by C77 and C78.

C95 `Evolution`: the formula of the reaction step solves the logistic equation (derivative), uniqueness by Gronwall; semigroup
property and induction over the time steps give the time actually reached.

C96 normals: explicit formula with the sign of the area; uniqueness of the normal and of the tangent make the specification
complete.

C97 velocities: the rotated transformed gradients of the barycentric coordinates are `(p_{k+2} - p_{k+1}) / area`; the dofs of a
cell are its nodes followed by its edges (from C11); induction over the loop which fills the data set. Fluxes: scalar products
with the normals of C96.

C98 Stokes system: the entries of the element matrices are scalar products of curls and tangents, so that the assembled form (C12)
is a sum of jumps over the edges; the constraints are those of C25 applied to the boundary nodes (C21). Uniqueness: the jumps of
the difference of two solutions vanish, and a cell whose potential vanishes on one side and has no tangential velocity there has
a vanishing potential; induction over a path from the boundary. Existence: the matrix does not depend on the data and is injective.

C99 annulus: the loops are turned into lists (as for C23-C25); directed sides of the cells are pairwise different, so every edge has
at most two cells; edges are counted with an explicit list. Areas by addition theorems, their sum telescopes over the circles.

C100 narrow: conversions are reduction modulo 2^bits; case distinction by signs and by which type has more bits.

C101-C104 writers: files are modelled as lists of statements, lines or commands; the specification interprets them (Matlab's semantics of
assignments, the reader in plot_mesh.py). Loops by induction on the number of entities; names as lists of characters.

C105 parsers for gmsh files of version 4.1: parsing expression grammars as functions on lists of characters, with failure and thrown
expectation failures as `none`; the grammar is shared between text and binary files, which differ in their primitive parsers, as in the
code. The specification is a relation between contents and strings built from concatenation (Spec/MshFormat.lean), taken from the manual
of gmsh. By induction over the lists of the file; the post-conditions for arbitrary input by a Hoare logic for parsers.

C106 parser for gmsh files of version 2.2 and the choice of the version: as for C105. Here the rules for nodes and elements have no
skipper, so the conditions on the rest of the input change from token to token (`ReadsTo D E`). The blocks of binary elements are read
by a loop with a counter; induction over the blocks.

C107 printer of VTK files: the grammar as a function from contents to characters, with the rules which differ between text and binary
files as a parameter, as in the code. The specification is a reader for the legacy VTK format (Spec/VtkFormat.lean), written from the
description of the format: words separated by white space, a line end before binary data. The theorem says that the reader inverts the
writer, by induction over the lists in the file; numbers are handled by the lemma that reading a printed number gives the rounded number.

C108 constructor of `GmshReader` from the bytes: conversions between integer types (tags are `int`, stored as `unsigned`), numbers of the
element types, choice between the sections Entities and PartitionedEntities, then parser and reader. Success is proved from a specification
of files which describe a mesh (Spec/GmshValid.lean), which only speaks about numbers of nodes in the file: invariants of the loops of
the reader show that all look-ups succeed, and that the input of `Build()` is valid (C16_build_succeeds_iff).

C109 degeneracy checks: the constructors are modelled with their checks over the reals (Model/GeoCheck.lean); the specification speaks of
squared lengths and Gram determinants. Accepted triangles: Heron's formula gives invariance under similarities, hence regular refinement.
Parallelograms given by four corners are parallelograms up to a tolerance only; that their Jacobian is regular nevertheless follows from a
quadratic estimate which holds with little room. Quadrilaterals: the Jacobian determinant is the bilinear interpolant of the turns at the
corners.

C110 in- and outflow: the function which builds the offset function is modelled with its two dynamic dof handlers, the sparse system with the
Lagrange multiplier and the loops which copy the result (Model/IpdgFlow.lean). The rows of the system are shown to be the outflow of a potential
at the edges of the boundary; a discrete divergence theorem determines the multiplier; connectedness of the boundary gives injectivity, and
closedness (as many edges as nodes) a square matrix. The rest follows C98, with the right hand side shifted.

C111 sanity checks: the checks are modelled loop by loop, with the counters they keep (Model/MeshChecks.lean), and run on the meshes of C16. For each
of them the result is shown to be equivalent to a property of the mesh, and this property to hold for meshes from the factory. For the orientation
the property is reduced to the geometries passed to the factory by the history. The test meshes are modelled by the calls of the factory in
test_meshes.cc; a decidable condition on the table of the cells gives the topology, scaling invariance of the degeneracy checks the rest. Test mesh 4
follows from C23.

C112 norms of velocities: both functions are modelled statement by statement (Model/IpdgNorms.lean), with the data set of jumps which the loop over the
cells fills and the loop over the edges reads. An invariant of the first loop says what is stored for an edge: the sum of f (x) n over the sides
visited so far. The integrals over cells come from C50 and C72, normals from C96, boundary flags from C21. The specification (Spec/IpdgNorms.lean)
is the formula of the documentation, with the set of edges as a parameter.

C113 timers: the two data members and every member function are modelled (Model/Timer.lean); each function which reads the clock gets the reading as an
argument, so that histories with arbitrary clocks are lists of calls with readings. The specification (Spec/Timer.lean) does not use the state of the timer: it
adds up the intervals between consecutive calls after the last Start, without those which begin with Stop. The proof is by induction over the history from its
end. The format string is not modelled, a report is the tuple of its named arguments.

C114 builders and the primal DPG method: a builder is its list of sub-providers, and histories are lists of calls (Model/DpgBuilder.lean); the specification
says what every Build returns by splitting the history at that call. The Gramian: on a cell its form is a quadrature sum with positive weights, so it is
definite if the rule of degree 2p separates polynomials of degree p. For quadrilaterals this follows from exactness. For triangles the tables are exact up to
10⁻¹⁵ only, so exactness for the square of a polynomial fails; instead the coefficients of the polynomial are recovered from its values at the points of the
rule (Lemmas/TriaSeparates.lean). The set-up of the method is modelled as calls of the factory and the builders, as in the studies of convergence.

C115 sums of forms and the ultraweak DPG method: the specification gives each form as a quadrature sum over the cell or its sides in terms of the components
of the product spaces (Spec/DpgUltraweak.lean); the theorem about builders says that the element matrix is the sum of these forms, by induction on the list.
The Gramian of the ultraweak method has the form of v in H1 and of tau in H(div); it is a sum of squares at the points of the rules, and definite because the
rule for the reaction terms separates polynomials (C114).

## Axioms

`AXIOMS.md` lists the axioms of every theorem in the manifest (generated by `tools/axioms.py` from `#print axioms`).
Only `propext`, `Classical.choice` and `Quot.sound` occur. There are no axioms, `sorry`, `admit`, `native_decide` or
`bv_decide` in the project.

## What is modelled

| Code | Model file | Remarks |
|---|---|---|
| lib/lf/base/ref_el.h | RefEl | tables of sub-entities and reference coordinates |
| lib/lf/assemble/coomatrix.h, fix_dof.h, assembler.h | Coo | exact arithmetic over a ring |
| lib/lf/assemble/dofhandler.{h,cc}, projects/dpg/product_dofhandler.{h,cc} | DofHandler | all public functions except printing |
| projects/dpg/dpg_tools.{h,cc} | DpgTools | signs, normals, boundary quadrature, inflow and outflow flags |
| projects/dpg/product_fe_space*.h, {trace,discontinuous}_*.h, dpg_tools.h (InitEssentialConditionsFromFunctions) | DpgSpace | overloads for spaces with given elements through `ProductSpace.make` |
| projects/dpg/{product,dpg,sub}_element_{matrix,vector}_provider.h, dpg_tools.h (ElementErrorEstimators, EvalPosteriorError) | DpgProvider | LDLT is a parameter |
| projects/dpg/loc_comp_dpg.h | DpgLocComp | entries of precomputed tables which are not initialized are `none` |
| projects/fisher_kpp/strangsplitting.{h,cc} | Strang | LU factorization is exact linear algebra; number of time steps zero is a failure |
| projects/ipdg_stokes/mesh/utils.cc, assemble/{piecewise_const_element_matrix_provider,piecewise_const_element_vector_provider,build_system_matrix}.cc (no-flow boundary conditions), post_processing/{solution_to_mesh_data_set.cc,mesh_function_velocity.h} | Ipdg | real arithmetic; Dirichlet data by the index of the edge |
| projects/ipdg_stokes/mesh/annulus_triag_mesh_builder.{h,cc} | Annulus | real arithmetic; at least one cell in each direction |
| lib/lf/base/narrow.h | Narrow | integer types only |
| lib/lf/io/write_{matlab,matplotlib}.cc, plot_mesh.py | Writers | printing of numbers not modelled |
| lib/lf/io/write_tikz.{h,cc} | Tikz | colours, scales and printing not modelled |
| lib/lf/refinement/refutils.cc | RefUtils | |
| lib/lf/io/gmsh_file_v4{,_text,_binary}.cc, gmsh_file_v4_detail.h, ReadGmshFile in gmsh_reader.cc | MshParser | semantics of Boost.Spirit (skippers, expectation, attributes) is trusted; decimal numbers are exact, doubles are bits |
| lib/lf/io/gmsh_file_v2.cc, ReadGmshFile in gmsh_reader.cc | MshParser2 | as for version 4.1; a failing `reserve` is not modelled |
| WriteToFile, VtkGrammar and ValidateVtkFile in lib/lf/io/vtk_writer.cc, VtkFile in vtk_writer.h | VtkFile | semantics of Boost.Spirit Karma (kleene star, lists, number generators and their default precision) is trusted; text: exact numbers before rounding, binary: bits of the numbers; opening the file succeeds |
| constructor in lib/lf/io/gmsh_reader.cc, numbers of the types in gmsh_file_v2.h, gmsh_file_v4.h | GmshFile | reading from disk; doubles are vectors of an arbitrary type |
| projects/ipdg_stokes/assemble/offset_function.cc, buildSystemMatrixInOutFlow in build_system_matrix.cc | IpdgFlow | the solver (Eigen::SparseLU) by its specification: none if the matrix is singular |
| lib/lf/mesh/test_utils/{check_entity_indexing,check_local_topology,check_mesh_completeness,check_geometry_orientation,test_meshes}.cc | MeshChecks | the degeneracy checks of the constructors of cells are performed when the mesh has been built; a failed EXPECT is the result false |
| projects/ipdg_stokes/post_processing/norms.h | IpdgNorms | real arithmetic; in DGnorm the velocity has the type Eigen::Vector2d; the loops over the sides of a cell are joined; failing assertions in Eigen are failures |
| lib/lf/base/timer.{h,cc} | Timer | integers and exact division instead of 64 bit counts and doubles; clock readings are arguments; no format strings; not the branch for Windows |
| projects/dpg/product_element_{matrix,vector}_provider_builder.h, set-up in projects/dpg/convergence_studies/primal_dpg{,_adapted_norm}.h | DpgBuilder | mesh functions are functions; not the loop over levels, boundary conditions and output |
| set-up in projects/dpg/convergence_studies/ultraweak_dpg.h | DpgUltraweak | as for the primal method; 1/alpha in exact reals |
| lib/lf/mesh/hybrid2d/{mesh,mesh_factory,point,segment,triangle,quad} | Mesh | whole constructor; logging left out |
| lib/lf/mesh/utils/{codim,all_codim}_mesh_data_set.h, special_entity_sets.cc | DataSet | |
| lib/lf/mesh/utils/{tp_quad,tp_triag,torus}_mesh_builder.cc, structured_mesh_builder.h | Builders | |
| lib/lf/refinement/hybrid2d_refinement_pattern.cc | RefPattern | NumChildren, ChildPolygons |
| lib/lf/refinement/mesh_hierarchy.{h,cc} | Refinement, Transfer | MarkEdges, RefineMarked, RefineRegular, PerformRefinement, parent and child infos, refinement edges, GeometryInParent |
| lib/lf/refinement/mesh_function_transfer.h | Transfer | |
| lib/lf/geometry/*.cc | Geometry | all eight classes, without the degeneracy checks of the constructors |
| assertNonDegenerateTriangle, assertNonDegenerateQuad and constructors in lib/lf/geometry/{tria_o1,quad_o1}.cc | GeoCheck | real arithmetic |
| lib/lf/quad/make_quad_rule.cc, make_quad_rule_nodal.cc, quad_rule.h, quad_rule_cache.cc | Quad | the one-dimensional Gauss rules are parameters, instantiated in C76_make |
| lib/lf/quad/gauss_quadrature.cc | Gauss | starting values, termination and convergence of Newton's iterations are not modelled |
| lib/lf/quad/quad_rules_tria.cc | TriaTab, TriaTab1 ... TriaTab10 (generated) | literals as exact decimal numbers; rounding to double in C75_rounded |
| lib/lf/uscalfe/lagr_fe.h, uniform_scalar_fe_space.h, fe_space_lagrange_o{1,2,3}.h, lib/lf/fe/mesh_function_fe.h | ScalarFE | |
| lib/lf/fe/hierarchic_fe.{h,cc}, hierarchic_scalar_fe_space.h | HierPoly, Hierarchic | |
| lib/lf/fe/fe_tools.h | FeTools | |
| assembler.h applied to finite element spaces and providers | Galerkin | entities in the order of their indices |
| examples/ellbvp_linfe/ellbvp_linfe_demo.cc (setting up the linear system) | EllBvp | degrees 1 to 3 instead of 1; the LSE solver and the output are not modelled |
| lib/lf/fe/prolongation.h | Prolongation | without the check that the coarse space belongs to the mesh of the level |
| lib/lf/mesh/utils/mesh_function_{binary,unary,constant,global}.h, lib/lf/fe/mesh_function_grad_fe.h | MeshFunction | one scalar type for all operands |
| lib/lf/uscalfe/lin_fe.{h,cc} | LinFE | |
| lib/lf/fe/loc_comp_ellbvp.h, lib/lf/uscalfe/loc_comp_ellbvp.h | LocComp | real scalars |
| lib/lf/io/gmsh_reader.cc | GmshPhys, GmshReader | from the parsed file on; dim_mesh = 2 |
| lib/lf/io/vtk_writer.{h,cc} | Vtk | the grid, the attached data and the validation; dim_mesh = 2 (for the printer see VtkFile) |

## What is not modelled

* rounding, NaN, overflow of `double`; overflow of `unsigned` except where stated (C01);
* logging and printing;
* the starting values and the convergence of the Newton iterations in gauss_quadrature.cc;
* Eigen's solvers (replaced by exact linear algebra);
* ownership and lifetime of objects, concurrency; the library is single threaded and has no persistent state;
* projects/ other than projects/dpg, projects/fisher_kpp and projects/ipdg_stokes (see the table above for their modelled parts).

## Findings: where the code differs from the property

Each of these has a theorem proving the negation for a concrete input; the property is kept as `_partial`.

* C01: indices at the end of the range of `unsigned` wrap around (`C01_wraparound_witness`).
* C11: needs the nodes of an entity to be distinct. C12: needs oriented edges; without orientation the dofs of an edge
  disagree between cells (`C12_unoriented_disagrees`).
* C25: TorusMeshBuilder fails for nx or ny = 1 and identifies edges for 2 (`C25_fails_one`, `C25_fails_two`).
* C26: patterns which are inadmissible for points and segments are answered (`C26_fails_point`, `C26_fails_segment`).
* C35: on general quadrilaterals relative geometries do not commute with non-uniform refinement (`C35_general_quad`).
* C36: `getMesh()` of a transferred function is the mesh of the next level, not of the target level
  (`C36_getMesh_fails`).
* C50: IntegrateMeshFunction integrates over the first entity whatever the predicate says and dereferences it even if
  there is none (`C50_not`, `C50_empty_not`); no rule for points (`C50_points_not`).
* C54: looking up a name with a codimension that does not occur reads the end iterator (`C54_not`, ...).
* C56: edges without a geometry are rejected although documented as admissible (`C56_edge_without_geometry_rejected`).
* C57: second order geometries answer `isAffine() = true` (`C57_fails`).
* C58: NumRefShapeFunctions tests the element for quadrilaterals twice and aborts for spaces without one (`C58_fails`).
* C62: FeHierarchicSegment reports two shape functions per end point (`C62_segment_not`).
* C65: LinearFELocalLoadVector evaluates the function at a dummy point outside of the triangle (`C65_not`).
* C69: gmsh points listed several times, points at auxiliary nodes, repeated elements, order of numbers
  (`C69_v2_node_numbers_not`, `C69_v2_point_undefined`, `C69_v2_point_range`, `C69_cells_not`, `C69_nodes_not`,
  `C69_sorted_not`).
* C72: operators on fixed-size row-major matrices transpose, the generic product is empty, no points with fixed sizes is
  undefined (`C72_rowMajor_not`, `C72_smul_rowMajor_not`, `C72_mul_generic_not`, `C72_no_points_not`, `C72_squaredNorm_matrix`).
* C79: the inner nodes of Lagrange triangles of orders 7 to 10 are misplaced (`C79_triangle_order7`).
* C81: cell data of mesh functions on quadrilaterals are taken at (1/4, 1/4), not at the centroid (`C81_quad`).
* C84: the middle child of a trisected triangle gets a refinement edge which contradicts newest vertex bisection
  (mesh_hierarchy.cc:1448-1449 for rp_trisect and :1467-1469 for rp_trisect_left; it should be the side in the refinement
  edge of the parent), so that repeated refinement creates arbitrarily thin triangles (`C84_degenerate`, `C84_thin`).
* C87: `Build()` of `ProductUniformFESpaceFactory` clears the lists of elements, but not the counter of components
  (product_fe_space_factory.h:281-295), so that indices returned for a second space are shifted (`C87_reuse_not`);
  `AddFluxComponent` registers no elements on cells, so that `ComponentFESpace` of a flux always throws
  (`C87_flux_not`); `AddTraceComponent(0)` returns an index, but `Build()` fails afterwards (`C87_unsupported`).
* C88: as a consequence `InitEssentialConditionsFromFunctions` always throws if its flux component was made by the
  factory (`C88_flux_not`).
* C92: fluxes of degree 2 and 3 are not single-valued: all shape functions of the segment become interior ones and keep their
  order (end points first), while the dof handler reverses the dofs of an edge for cells which traverse it backwards, so that
  coefficients of end points and inner nodes are mixed up (`C92_not`, `C92_conservation_not`).  The convergence studies use
  such fluxes (ultraweak_dpg.h:120, primal_dpg.h:118).
* C95: `StrangSplit::Evolution` is documented to compute `m_` time steps, but its loop runs for `i = 1, ..., m_ - 2` only, and
  the first and the last step are half steps. So both diffusion and reaction advance by `T - 3/2 T/m` instead of `T`:
  the result is a consistent approximation at the wrong time, of first order in `1/m` instead of second order.
* `AnnulusTriagMeshBuilder::setCenterPoint` has no effect: the member it sets is never read, the mesh is always centred at the origin
  (C99_center_ignored, C99_fails_center). With two angular cells the builder returns a mesh of triangles with area zero (C99_two).
* `writeMatlab` and `WriteMatlabLevel` append `.m` only if the last character is not `m` and the last but one is not a dot, instead of
  unless both hold: `team` and `a.c` get no suffix, and the function in `team` is called `te` (C101_fails_name).
* `writeMatplotlib` raises an exception for names of fewer than four characters (C102_fails_name).
* The default of `output_ctrl` of `writeTikZ` is `RenderCells`, not 7 as documented: no numbers are drawn (C103_fails_default).
* The binary grammar for gmsh files never recognises a comment: `qi::eol` is used with a skipper which skips line ends. A comment after
  the header makes the reader fail (C105_fails_comment).
* `ReadGmshFileV4` does not check that the whole file was read (the check is commented out). Sections behind one which is not recognised
  are silently ignored (C105_fails_rest).
* `GMshFileV2::Periodic` is empty for every file: the rules for periodic entities are defined with `=` instead of `%=` although they
  contain semantic actions, so their attributes are not set (C106_fails_periodic).
* In files of version 2.2 every element must have at least two tags; otherwise node numbers are silently taken for tags
  (C106_fails_tags). In text files the number of nodes of an element is not checked.
* VTK files in text format are written with the default precision of Karma, three digits after the point. Points which differ by less
  than about 1/1000 become equal (C107_fails_precision).
* Data of type `unsigned char` are labelled `char` in VTK files, values from 128 on are read as negative numbers or refused
  (C107_fails_uchar).
* `WriteGlobalData` with an empty vector makes a text file unreadable: the array is counted but not written (C107_fails_empty).
* `WriteToFile` truncates the file before it validates the contents: an exception leaves an empty file.
* A file of version 2.2 in which an edge belongs to two physical groups is read only if the two entries of the edge follow each other
  (C108_edge_twice_not); otherwise an assertion in `Build()` fails.
* The check in the constructor of QuadO1 (and, through it, of every mesh with quadrilaterals) accepts quadrilaterals with crossing sides or
  a reflex corner; their parametrizations are singular, and regular refinement may stop the program (C109_quad_not).
* A triangle accepted by the constructor of TriaO1 may be refused after bisection at its longest side (C109_bisect_not).
* On domains with holes the system for the offset function is singular, because the values of the potential on different parts of the boundary
  are not related to each other (C110_holes_not).
* The components for the edges of `solver.solve(rhs) + offset_function`, as formed in projects/ipdg_stokes/examples, are not the weighted jumps
  of the velocity (C110_edges, C110_edges_not). The velocity, which is computed from the components for the nodes, is correct.
* `isWatertightMesh` checks points and edges only (the loop ends at codimension 1), although its documentation speaks of all entities; the argument
  `vertices_only` has no effect, and the square of a distance is compared with a length (C111_watertight_partial, C111_watertight_not).
* `checkMeshCompleteness` dereferences the maximum of an empty range for a mesh without edges (C111_complete_iff).
* `GenerateHybrid2DTestMesh` does not scale the shapes of the parallelograms in the meshes 2, 5, 6 and 8: for scaling factors other than 1 these
  cells, and the edges which inherit their shape, are not where their nodes are (C111_scale_not). The documentation of mesh 4 (triangles and
  quadrilaterals in the square with side 3) does not agree with the mesh, 18 triangles in the unit square; and a null pointer is returned for this
  mesh if the scaling factor is not positive (C111_test4).
* The mesh factory accepts quadrilaterals in which a node occurs twice (C111_topology_not).
* `DGnorm` leaves out the edges on the boundary, so that it is zero for constant functions, although the formula in its documentation has the sum over all edges
  (C112_boundary_not). It ignores gradients of type `Eigen::Matrix2d`, which all example programs use, because `squaredNorm` returns zero for matrices of fixed size
  (C112_gradient_not; see C72_squaredNorm_matrix). It only works for quadrature rules with one point on the edges (the points are a row, `VectorXd::Zero(n)` is a column, C112_points_not), and
  this point has to be the midpoint (C112_shift).
* `Timer::Format` uses the stored time directly instead of `Elapsed()`. For a running timer this is the reading of the clock at the start, so it prints the time since
  the epoch of the clock (C113_format_running, C113_format_not); the same holds for `AutoTimer::Report` when it is called by the user (C113_report_not).
* The destructor of an `AutoTimer` which was moved from calls a null logger, or reports a second time to its stream (C113_move_not).
* Found while reading, without an own property: QuadO2::SubGeometry rejects i = 8; the weight of the edge midpoint rule
  is a literal; the documented factor of the hierarchic dual basis is off; the constructor of
  ReactionDiffusionElementMatrixProvider with user supplied rules leaves entries uninitialised for other reference elements.

Not expressible in the model (out of scope): floating point accuracy, performance, thread safety,
the numerical Newton iterations computing Gauss nodes.
