import Verif.Model.Ipdg
import Verif.Model.DpgProvider
import Verif.Model.Strang

/-!
# Model: in- and outflow boundary conditions of the interior penalty method for the Stokes system

`/repo/projects/ipdg_stokes/assemble`: the offset function, a potential with given normal velocity on the boundary, and the linear system for the
difference of the solution and the offset function.
-/

namespace Verif.Ipdg
open Verif Geo

section
variable (m : MeshObj) (geo : Ent → Option (Geo ℝ 2)) (boundary : AllDS Bool)

/-- `PiecewiseBoundaryNormalJumpAssembler::Eval(entity)`; /repo/projects/ipdg_stokes/assemble/offset_function.cc:22-74.  The counters `row_idx` and
`col_idx` of the loops number the edges and nodes of the triangle on the boundary, so that row `i` belongs to the `i`-th of these edges and column `j` to the
`j`-th of these nodes. -/
noncomputable def normalJumpMatrix (cell : Ent) : Option (Dense ℝ) :=
  (geo cell).bind fun g =>
  (computeOutwardNormals g).bind fun normals =>
  (basisFunct g).bind fun basis =>
  (m.topo.subEntities cell 2).bind fun nodes =>
  (m.topo.subEntities cell 1).bind fun edges =>
  (nodes[0]?).bind fun n0 => (nodes[1]?).bind fun n1 => (nodes[2]?).bind fun n2 =>
  (edges[0]?).bind fun e0 => (edges[1]?).bind fun e1 => (edges[2]?).bind fun e2 =>
  (boundary.read ⟨m.id, n0⟩).bind fun f0 => (boundary.read ⟨m.id, n1⟩).bind fun f1 => (boundary.read ⟨m.id, n2⟩).bind fun f2 =>
  (boundary.read ⟨m.id, e0⟩).bind fun b0 => (boundary.read ⟨m.id, e1⟩).bind fun b1 => (boundary.read ⟨m.id, e2⟩).bind fun b2 =>
  let cols : List (Fin 3) := [0, 1, 2].filter (![f0, f1, f2] : Fin 3 → Bool)
  let rows : List (Fin 3) := [0, 1, 2].filter (![b0, b1, b2] : Fin 3 → Bool)
  some ⟨max 1 rows.length, max 1 cols.length, fun i j =>
    ((rows[i]?).bind fun edge => (cols[j]?).map fun node => dot (normals edge) (basis node)).getD 0⟩

/-- The functions which tell the dof handlers the number of dofs of an entity: one for the entities of codimension `codim` on the boundary, none for the
others; offset_function.cc:85-101.  The flags exist for all entities of the mesh. -/
def flaggedCount (codim : ℕ) (e : Ent) : ℕ :=
  if e.1 = codim ∧ boundary.read ⟨m.id, e⟩ = some true then 1 else 0

/-- The matrix `J`; offset_function.cc:102-116. -/
noncomputable def normalJumpSystem (nodeDofs edgeDofs : DofHandler) : Option (Coo ℝ) :=
  if (m.topo.entities 0).all (fun e => (normalJumpMatrix m geo boundary e).isSome && (nodeDofs.globalDofIndices e).isSome &&
      (edgeDofs.globalDofIndices e).isSome) then
    (assembleMatrixLocally (m.topo.entities 0) nodeDofs.toMap edgeDofs.toMap
      ⟨fun _ => true, fun e => (normalJumpMatrix m geo boundary e).getD ⟨0, 0, fun _ _ => 0⟩⟩
      (Coo.mk' (edgeDofs.numDofs + 1) (nodeDofs.numDofs + 1))).map fun J =>
    let J := (List.range nodeDofs.numDofs).foldl (fun J i => J.addToEntry edgeDofs.numDofs i 1) J
    (List.range edgeDofs.numDofs).foldl (fun J i => J.addToEntry i nodeDofs.numDofs 1) J
  else none

/-- The body of the loop over the edges of a cell; offset_function.cc:124-130. -/
noncomputable def normalFlowEdge (edgeDofs : DofHandler) (dirichlet : ℕ → Vec ℝ 2) (rhs : List ℝ) (n : Vec ℝ 2) (edge : Ent) : Option (List ℝ) :=
  (boundary.read ⟨m.id, edge⟩).bind fun onBd =>
  if onBd then
    (edgeDofs.globalDofIndices edge).bind fun idx => (idx[0]?).bind fun i =>
    if i < rhs.length then some (rhs.set i (dot n (dirichlet edge.2))) else none
  else some rhs

/-- The right-hand side; offset_function.cc:119-132. -/
noncomputable def normalFlowRhs (edgeDofs : DofHandler) (dirichlet : ℕ → Vec ℝ 2) : Option (List ℝ) :=
  (m.topo.entities 0).foldlM (fun rhs cell =>
    (geo cell).bind fun g =>
    (computeOutwardNormals g).bind fun normals =>
    (m.topo.subEntities cell 1).bind fun edges =>
    (edges[0]?).bind fun e0 => (edges[1]?).bind fun e1 => (edges[2]?).bind fun e2 =>
    (normalFlowEdge m boundary edgeDofs dirichlet rhs (normals 0) e0).bind fun rhs =>
    (normalFlowEdge m boundary edgeDofs dirichlet rhs (normals 1) e1).bind fun rhs =>
    normalFlowEdge m boundary edgeDofs dirichlet rhs (normals 2) e2) (List.replicate (edgeDofs.numDofs + 1) 0)

/-- `SparseLU`, with exact linear algebra (see `Fisher.luSolve`); it accepts square matrices only. -/
noncomputable def solveDense (D : Dense ℝ) (b : List ℝ) : Option (List ℝ) :=
  if D.rows = D.cols ∧ b.length = D.rows then
    (Fisher.luSolve (n := D.rows) (fun i j => D.entry i j) fun i => b.getD i 0).map List.ofFn
  else none

/-- `A.block(r0, 0, nr, nc) * x`. -/
noncomputable def blockMul (A : Dense ℝ) (r0 nr nc : ℕ) (x : List ℝ) : Option (List ℝ) :=
  if r0 + nr ≤ A.rows ∧ nc ≤ A.cols ∧ x.length = nc then
    some ((List.range nr).map fun i => ((List.range nc).map fun j => A.entry (r0 + i) j * x.getD j 0).sum)
  else none

/-- `createOffsetFunction(mesh, boundary, dofh, dirichlet_data, A)`; /repo/projects/ipdg_stokes/assemble/offset_function.cc:77-155. -/
noncomputable def createOffsetFunction (h : DofHandler) (dirichlet : ℕ → Vec ℝ 2) (A : Dense ℝ) : Option (List ℝ) :=
  (dynamicDofHandler m.topo (flaggedCount m boundary 2)).bind fun nodeDofs =>
  (dynamicDofHandler m.topo (flaggedCount m boundary 1)).bind fun edgeDofs =>
  (normalJumpSystem m geo boundary nodeDofs edgeDofs).bind fun J =>
  J.makeSparse.bind fun Js =>
  (normalFlowRhs m geo boundary edgeDofs dirichlet).bind fun rhs =>
  (solveDense Js rhs).bind fun x =>
  ((List.range nodeDofs.numDofs).foldlM (fun o i =>
    (nodeDofs.entity i).bind fun node => (h.globalDofIndices node).bind fun idx => (idx[0]?).bind fun d => (x[i]?).bind fun v =>
    if d < o.length then some (o.set d v) else none) (List.replicate h.numDofs (0 : ℝ))).bind fun o =>
  (blockMul A m.topo.numNodes m.topo.numEdges A.cols o).bind fun tail =>
  if m.topo.numEdges ≤ o.length then some (o.take (o.length - m.topo.numEdges) ++ tail) else none

/-- `buildSystemMatrixInOutFlow`; /repo/projects/ipdg_stokes/assemble/build_system_matrix.cc:58-108. -/
noncomputable def buildSystemMatrixInOutFlow (h : DofHandler) (f : Vec ℝ 2 → Vec ℝ 2) (dirichlet : ℕ → Vec ℝ 2) (sigma : ℝ)
    (qr : QuadRule ℝ) (modified : Bool) : Option (Coo ℝ × List ℝ × List ℝ) :=
  (flagAllEntitiesOnBoundary m).bind fun boundary =>
  (assembleSystem m geo h boundary f dirichlet sigma qr modified).bind fun ⟨A, rhs⟩ =>
  A.makeSparse.bind fun As =>
  (createOffsetFunction m geo boundary h dirichlet As).bind fun offset =>
  (blockMul As 0 h.numDofs m.topo.numNodes (offset.take m.topo.numNodes)).bind fun shift =>
  ((List.range h.numDofs).mapM (noFlowSelector m h boundary)).bind fun sel =>
  (fixFlaggedSolutionComponents (fun i => sel.getD i (false, 0)) A (List.zipWith (· - ·) rhs shift)).map fun ⟨A', rhs'⟩ =>
  (A', rhs', offset)

end

end Verif.Ipdg
