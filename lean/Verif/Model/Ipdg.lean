import Verif.Model.DataSet
import Verif.Model.Galerkin
import Verif.Model.Geometry
import Verif.Model.Quad

/-!
# Model: the interior penalty method for the Stokes system

`/repo/projects/ipdg_stokes`: discretisation of the Stokes system with velocities which are curls of continuous piecewise linear
functions, one unknown per node (the potential) and one per edge (the jump of the tangential velocity).  `double` is `ℝ`;
failing assertions, accesses outside of a range and divisions by zero are `none`.  `2 x 3` matrices are given by their columns.
-/

namespace Verif.Ipdg
open Verif Geo

/-! ## Normals and basis functions -/

/-- One column of `normals.colwise().normalized()`: division by the norm, without a check for zero. -/
noncomputable def unitVec (v : Vec ℝ 2) : Option (Vec ℝ 2) :=
  if dot v v = 0 then none else some ((Real.sqrt (dot v v))⁻¹ • v)

/-- `geom->Global(entity.RefEl().NodeCoords())`; the matrices of the callers have three columns, an assertion fails for other
numbers of corners; /repo/projects/ipdg_stokes/mesh/utils.cc:12-14. -/
noncomputable def corners (g : Geo ℝ 2) : Option (Vec ℝ 2 × Vec ℝ 2 × Vec ℝ 2) :=
  match (refNodeCoords g.kind).mapM g.global with
  | some [a, b, c] => some (a, b, c)
  | _ => none

/-- One of the normals, for the edge from `p` to `q` with test vector `test`;
/repo/projects/ipdg_stokes/mesh/utils.cc:15-32. -/
noncomputable def orientedNormal (p q test : Vec ℝ 2) : Option (Vec ℝ 2) :=
  let n : Vec ℝ 2 := ![q 1 - p 1, p 0 - q 0]
  let flip := dot n test
  (unitVec (flip • n)).map fun n => -n

/-- `computeOutwardNormals(entity)`; /repo/projects/ipdg_stokes/mesh/utils.cc:7-34. -/
noncomputable def computeOutwardNormals (g : Geo ℝ 2) : Option (Fin 3 → Vec ℝ 2) :=
  (corners g).bind fun ⟨v0, v1, v2⟩ =>
  (orientedNormal v0 v1 (v2 - v0)).bind fun n0 =>
  (orientedNormal v1 v2 (v0 - v1)).bind fun n1 =>
  (orientedNormal v2 v0 (v1 - v2)).bind fun n2 =>
  some ![n0, n1, n2]

/-- The vector `(-n_y, n_x)`; /repo/projects/ipdg_stokes/mesh/utils.cc:40,
/repo/projects/ipdg_stokes/assemble/piecewise_const_element_matrix_provider.cc:47. -/
def turn (n : Vec ℝ 2) : Vec ℝ 2 := ![-n 1, n 0]

/-- `computeTangentials(entity)`; /repo/projects/ipdg_stokes/mesh/utils.cc:36-42. -/
noncomputable def computeTangentials (g : Geo ℝ 2) : Option (Fin 3 → Vec ℝ 2) :=
  (computeOutwardNormals g).map fun n k => turn (n k)

/-- The columns of `basis_funct`, the curls of the hat functions;
/repo/projects/ipdg_stokes/assemble/piecewise_const_element_matrix_provider.cc:28-37, and likewise in
piecewise_const_element_vector_provider.cc:28-37, offset_function.cc:29-38, solution_to_mesh_data_set.cc:24-32. -/
noncomputable def basisFunct (g : Geo ℝ 2) : Option (Fin 3 → Vec ℝ 2) :=
  ((lagrO1Tria : RefFE ℝ).grad [0, 0]).bind fun refGrads =>
  (g.jacobianInverseGramian [0, 0]).bind fun J =>
  match J with
  | [A, B] => some fun k : Fin 3 =>
    let r := refGrads.getD k []
    let grad : Vec ℝ 2 := r.getD 0 0 • A + r.getD 1 0 • B
    ![grad 1, -grad 0]
  | _ => none

/-! ## Element matrix and element vector -/

section Providers
variable (m : MeshObj) (geo : Ent → Option (Geo ℝ 2))

/-- The three entries of the lower right block, for one edge; piecewise_const_element_matrix_provider.cc:54-68. -/
noncomputable def penaltyEntry (sigma : ℝ) (boundary : AllDS Bool) (modified : Bool) (edge : Ent) : Option ℝ :=
  if sigma = 0 then none else
  let v := -1 / sigma
  (if modified then (geo edge).bind fun g => g.volume.bind fun vol => if vol = 0 then none else some (v / vol)
   else some v).bind fun v =>
  (boundary.read ⟨m.id, edge⟩).map fun onBd => if onBd then v else v / 2

/-- `PiecewiseConstElementMatrixProvider::Eval(entity)`;
/repo/projects/ipdg_stokes/assemble/piecewise_const_element_matrix_provider.cc:17-70. -/
noncomputable def elementMatrix (sigma : ℝ) (boundary : AllDS Bool) (modified : Bool) (cell : Ent) : Option ElemMat :=
  (geo cell).bind fun g =>
  (computeOutwardNormals g).bind fun normals =>
  (basisFunct g).bind fun basis =>
  (m.topo.subEntities cell 1).bind fun edges =>
  (edges[0]?).bind fun e0 => (edges[1]?).bind fun e1 => (edges[2]?).bind fun e2 =>
  (penaltyEntry m geo sigma boundary modified e0).bind fun p0 =>
  (penaltyEntry m geo sigma boundary modified e1).bind fun p1 =>
  (penaltyEntry m geo sigma boundary modified e2).bind fun p2 =>
  let C : Matrix (Fin 3) (Fin 3) ℝ := fun edge func => dot (basis func) (turn (normals edge))
  some ⟨6, fun i j =>
    if hi : i.val < 3 then
      if hj : j.val < 3 then 0 else C ⟨j.val - 3, by omega⟩ ⟨i.val, hi⟩
    else
      if hj : j.val < 3 then C ⟨i.val - 3, by omega⟩ ⟨j.val, hj⟩
      else if i = j then ![p0, p1, p2] ⟨i.val - 3, by omega⟩ else 0⟩

/-- The loop over the quadrature points; piecewise_const_element_vector_provider.cc:40-49. -/
noncomputable def loadHead (g : Geo ℝ 2) (basis : Fin 3 → Vec ℝ 2) (f : Vec ℝ 2 → Vec ℝ 2) (qr : QuadRule ℝ) :
    Option (Fin 3 → ℝ) :=
  (qr.points.mapM g.global).bind fun points =>
  (qr.points.mapM g.integrationElement).bind fun ie =>
  if ie.length = qr.weights.length then
    let weights := List.zipWith (· * ·) ie qr.weights
    some fun k => ((List.zip points weights).map fun p => dot (basis k) (f p.1) * p.2).sum
  else none

/-- The entry for one edge; piecewise_const_element_vector_provider.cc:58-65. -/
noncomputable def loadEdge (boundary : AllDS Bool) (dirichlet : ℕ → Vec ℝ 2) (n : Vec ℝ 2) (edge : Ent) : Option ℝ :=
  (boundary.read ⟨m.id, edge⟩).map fun onBd => if onBd then dot (dirichlet edge.2) (turn n) else 0

/-- `PiecewiseConstElementVectorProvider::Eval(entity)`;
/repo/projects/ipdg_stokes/assemble/piecewise_const_element_vector_provider.cc:24-68.  The Dirichlet data are given by the index
of the edge. -/
noncomputable def elementVector (f : Vec ℝ 2 → Vec ℝ 2) (qr : QuadRule ℝ) (boundary : AllDS Bool) (dirichlet : ℕ → Vec ℝ 2)
    (cell : Ent) : Option ElemVec :=
  (geo cell).bind fun g =>
  (basisFunct g).bind fun basis =>
  (loadHead g basis f qr).bind fun head =>
  (computeOutwardNormals g).bind fun normals =>
  (m.topo.subEntities cell 1).bind fun edges =>
  (edges[0]?).bind fun e0 => (edges[1]?).bind fun e1 => (edges[2]?).bind fun e2 =>
  (loadEdge m boundary dirichlet (normals 0) e0).bind fun d0 =>
  (loadEdge m boundary dirichlet (normals 1) e1).bind fun d1 =>
  (loadEdge m boundary dirichlet (normals 2) e2).bind fun d2 =>
  some ⟨6, ![head 0, head 1, head 2, d0, d1, d2]⟩

/-! ## The linear system -/

/-- What the assembly functions see: a mesh and a dof handler. -/
def dofSpace (T : Topo) (h : DofHandler) : FeSpace ℝ := ⟨T, h, fun _ => none⟩

/-- Matrix and right-hand side before boundary conditions are imposed; build_system_matrix.cc:27-49, 74-97. -/
noncomputable def assembleSystem (h : DofHandler) (boundary : AllDS Bool) (f : Vec ℝ 2 → Vec ℝ 2)
    (dirichlet : ℕ → Vec ℝ 2) (sigma : ℝ) (qr : QuadRule ℝ) (modified : Bool) : Option (Coo ℝ × List ℝ) :=
  (assembleMatrixFE (dofSpace m.topo h) 0 (fun _ => true) (elementMatrix m geo sigma boundary modified)
    (Coo.mk' h.numDofs h.numDofs)).bind fun A =>
  (assembleVectorFE (dofSpace m.topo h) 0 (fun _ => true) (elementVector m geo f qr boundary dirichlet)
    (List.replicate h.numDofs 0)).bind fun rhs =>
  some (A, rhs)

/-- The lambda `selector`: dofs of points on the boundary are set to zero; build_system_matrix.cc:52-55. -/
def noFlowSelector (h : DofHandler) (boundary : AllDS Bool) (idx : ℕ) : Option (Bool × ℝ) :=
  (h.entity idx).bind fun e =>
  (m.topo.refEl e).bind fun r =>
  if r = .point then (boundary.read ⟨m.id, e⟩).map fun b => (b, 0) else some (false, 0)

/-- `buildSystemMatrixNoFlow`; /repo/projects/ipdg_stokes/assemble/build_system_matrix.cc:19-60. -/
noncomputable def buildSystemMatrixNoFlow (h : DofHandler) (f : Vec ℝ 2 → Vec ℝ 2) (dirichlet : ℕ → Vec ℝ 2) (sigma : ℝ)
    (qr : QuadRule ℝ) (modified : Bool) : Option (Coo ℝ × List ℝ) :=
  (flagAllEntitiesOnBoundary m).bind fun boundary =>
  (assembleSystem m geo h boundary f dirichlet sigma qr modified).bind fun ⟨A, rhs⟩ =>
  ((List.range h.numDofs).mapM (noFlowSelector m h boundary)).bind fun sel =>
  fixFlaggedSolutionComponents (fun i => sel.getD i (false, 0)) A rhs

end Providers

/-! ## Post processing -/

/-- `extractBasisFunctionCoefficients(mesh, dofh, solution)`;
/repo/projects/ipdg_stokes/post_processing/solution_to_mesh_data_set.cc:7-15. -/
def extractBasisFunctionCoefficients (m : MeshObj) (h : DofHandler) (solution : List ℝ) : Option (CodimDS ℝ) :=
  (CodimDS.make m 2 0).bind fun d0 =>
  (m.topo.entities 2).foldlM (fun d node =>
    (h.globalDofIndices node).bind fun idx => (idx[0]?).bind fun i => (solution[i]?).bind fun v =>
    d.write ⟨m.id, node⟩ v) d0

/-- The velocity on one cell; solution_to_mesh_data_set.cc:21-38. -/
noncomputable def cellVelocity (geo : Ent → Option (Geo ℝ 2)) (h : DofHandler) (solution : List ℝ) (cell : Ent) :
    Option (Vec ℝ 2) :=
  (geo cell).bind fun g =>
  (basisFunct g).bind fun basis =>
  (h.globalDofIndices cell).bind fun idx =>
  (idx[0]?).bind fun i0 => (idx[1]?).bind fun i1 => (idx[2]?).bind fun i2 =>
  (solution[i0]?).bind fun s0 => (solution[i1]?).bind fun s1 => (solution[i2]?).bind fun s2 =>
  some (s0 • basis 0 + s1 • basis 1 + s2 • basis 2)

/-- `extractVelocity(mesh, dofh, solution)`;
/repo/projects/ipdg_stokes/post_processing/solution_to_mesh_data_set.cc:17-40. -/
noncomputable def extractVelocity (m : MeshObj) (geo : Ent → Option (Geo ℝ 2)) (h : DofHandler) (solution : List ℝ) :
    Option (CodimDS (Vec ℝ 2)) :=
  (CodimDS.make m 0 0).bind fun d0 =>
  (m.topo.entities 0).foldlM (fun d cell =>
    (cellVelocity geo h solution cell).bind fun v => d.write ⟨m.id, cell⟩ v) d0

/-- `MeshFunctionVelocity(fe_space, dof_vector)` at one point;
/repo/projects/ipdg_stokes/post_processing/mesh_function_velocity.h:42-53. -/
noncomputable def meshFunctionVelocity (S : FeSpace ℝ) (geo : Ent → Option (Geo ℝ 2)) (dofs : List ℝ) (e : Ent)
    (x : List ℝ) : Option (Vec ℝ 2) :=
  (S.gradFE geo dofs e x).map fun g => ![g 1, -g 0]

end Verif.Ipdg
