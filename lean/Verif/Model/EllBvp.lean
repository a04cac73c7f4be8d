import Verif.Model.Galerkin
import Verif.Model.FeTools

/-!
# Model: the linear system of an elliptic boundary value problem

`/repo/examples/ellbvp_linfe/ellbvp_linfe_demo.cc`, lines 264-349 (the same steps are in
`/repo/examples/ellbvp_msh/ellbvp_msh_demo.cc`, lines 77-142, and in
`/repo/examples/lecturedemos/convergencestudies`): assemble the matrix and the right-hand side of a
second-order elliptic boundary value problem with Dirichlet, Neumann and impedance conditions, and fix the dofs on the
Dirichlet part of the boundary.
-/

namespace Verif

/-- The data of the boundary value problem
`- div (α grad u) + γ u = f`, `u = g` on Dirichlet edges, `α grad u · n = h` on Neumann edges,
`α grad u · n + η u = h` on impedance edges.  The coefficients are given at the local points of an entity.  `bd` stands
for `bd_flags`, and `dir`, `neu`, `imp` for the selectors `edge_sel_dir`, `edge_sel_neu`, `edge_sel_imp`;
/repo/examples/ellbvp_linfe/ellbvp_linfe_demo.cc:60-125. -/
structure EllBvp (w : ℕ) where
  α : Ent → List ℝ → DiffCoeff w
  γ : Ent → List ℝ → ℝ
  f : Ent → List ℝ → ℝ
  η : Ent → List ℝ → ℝ
  h : Ent → List ℝ → ℝ
  g : Ent → List ℝ → ℝ
  bd : ℕ → Bool
  dir : ℕ → Bool
  neu : ℕ → Bool
  imp : ℕ → Bool

/-- The edges passed to `InitEssentialConditionFromFunction`; ellbvp_linfe_demo.cc:339-341. -/
def EllBvp.onDir {w : ℕ} (P : EllBvp w) (e : ℕ) : Bool := P.bd e && P.dir e

/-- `imp_edge_sel`; ellbvp_linfe_demo.cc:286-289. -/
def EllBvp.onImp {w : ℕ} (P : EllBvp w) (e : ℕ) : Bool := P.bd e && P.imp e

/-- `edge_sel`, the edges with a contribution to the right-hand side; ellbvp_linfe_demo.cc:312-315. -/
def EllBvp.onLoad {w : ℕ} (P : EllBvp w) (e : ℕ) : Bool := P.bd e && (P.neu e || P.imp e)

/-- A mesh function which evaluates a function point by point, as `MeshFunctionGlobal` and `MeshFunctionConstant` do. -/
def pointwise {V : Type} (f : Ent → List ℝ → V) : MeshFn ℝ V := fun e pts => some (pts.map (f e))

/-- The constructors of the providers for cells: they fail if they fail for one of the types of cells;
/repo/lib/lf/uscalfe/loc_comp_ellbvp.h:209-234, 641-657. -/
noncomputable def cellPrecomp (B : QuadBase ℝ) (U : UniformFESpace ℝ) : Option (RefEl → Option PrecompFE) :=
  if (precompute U (builtinRule B) .tria).isSome ∧ (precompute U (builtinRule B) .quad).isSome then
    some fun ref => (precompute U (builtinRule B) ref).join
  else none

/-- The constructors of `MassEdgeMatrixProvider` and `ScalarLoadEdgeVectorProvider`;
/repo/lib/lf/uscalfe/loc_comp_ellbvp.h:396-407, 814-824. -/
noncomputable def edgePrecomp (B : QuadBase ℝ) (U : UniformFESpace ℝ) : Option PrecompFE :=
  (U.layout .segment).bind fun fe => (makeQuadRule B .segment (2 * fe.degree)).bind fun qr => PrecompFE.make fe qr

variable {w : ℕ} (B : QuadBase ℝ) (U : UniformFESpace ℝ) (T : Topo) (geo : Ent → Option (Geo ℝ w)) (P : EllBvp w)

/-- The Galerkin matrix; ellbvp_linfe_demo.cc:264-294. -/
noncomputable def EllBvp.galerkinMatrix : Option (Coo ℝ) :=
  (cellPrecomp B U).bind fun pre =>
  (assembleMatrixFE (U.space T) 0 (fun _ => true)
    (reactionDiffusionElementMatrix pre T geo (pointwise P.α) (pointwise P.γ))
    (Coo.mk' U.dofh.numDofs U.dofh.numDofs)).bind fun A =>
  (edgePrecomp B U).bind fun pfe =>
  assembleMatrixFE (U.space T) 1 (fun e => P.onImp e.2) (uMassEdgeMatrix T geo pfe (pointwise P.η)) A

/-- The right-hand side; ellbvp_linfe_demo.cc:298-323.  The condition is
`(no_Neumann_edges > 0) || (no_impedance_edges > 0)` with the counters of lines 234-252, which count all edges on the
boundary without Dirichlet condition. -/
noncomputable def EllBvp.rhs : Option (List ℝ) :=
  (cellPrecomp B U).bind fun pre =>
  (assembleVectorFE (U.space T) 0 (fun _ => true) (uLoadElementVector pre T geo (pointwise P.f))
    (List.replicate U.dofh.numDofs 0)).bind fun phi =>
  if (List.range T.numEdges).any fun e => P.bd e && !P.dir e then
    (edgePrecomp B U).bind fun pfe =>
    assembleVectorFE (U.space T) 1 (fun e => P.onLoad e.2) (uLoadEdgeVector T geo pfe (pointwise P.h)) phi
  else some phi

/-- The linear system after the elimination of the dofs on Dirichlet edges; ellbvp_linfe_demo.cc:328-349. -/
noncomputable def EllBvp.system : Option (Coo ℝ × List ℝ) :=
  (P.galerkinMatrix B U T geo).bind fun A =>
  (P.rhs B U T geo).bind fun phi =>
  if (List.range T.numEdges).any P.onDir then
    (initEssentialCondition (U.space T) P.onDir (pointwise P.g)).bind fun fv =>
    fixFlaggedSolutionComponents (fun d => fv.getD d (false, 0)) A phi
  else some (A, phi)

end Verif
