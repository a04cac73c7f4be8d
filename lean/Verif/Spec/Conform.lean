import Verif.Spec.DofHandler
import Verif.Spec.Geometry
import Verif.Model.ScalarFE

/-!
# Specification: global continuity of finite element functions

In terms of `MeshFunctionFE` (`FeSpace.evalFE`): evaluation of the finite element function with a given
coefficient vector on an entity of the mesh, at a point given by its local coordinates.
-/

namespace Verif
open Geo

/-- The local coordinates, with respect to cell `c`, of the point which has the coordinate `t` with
respect to the edge that is side `j` of the cell: the edge runs along the side or, if its relative
orientation is negative, against it. -/
def Topo.onSide {K : Type} [Field K] (T : Topo) (r : RefEl) (c j : ℕ) (t : K) : List K :=
  sidePoint r j (if (T.cell c).ori.getD j false then t else 1 - t)

namespace FeSpace
variable {K : Type} [Field K]

/-- On every side of every cell the function as defined by the cell coincides with the function as
defined by the edge. -/
def MatchesEdges (S : FeSpace K) : Prop :=
  ∀ u : List K, u.length = S.dofh.numDofs → ∀ c r, S.mesh.refEl (0, c) = some r → ∀ j < r.numNodes,
    ∀ t : K, ∃ y, S.evalFE u (0, c) (S.mesh.onSide r c j t) = some y ∧
      S.evalFE u (1, (S.mesh.cell c).edges.getD j 0) [t] = some y

/-- Two cells which have an edge in common define the same function on this edge. -/
def ContinuousAcrossEdges (S : FeSpace K) : Prop :=
  ∀ u : List K, u.length = S.dofh.numDofs →
    ∀ c r c' r', S.mesh.refEl (0, c) = some r → S.mesh.refEl (0, c') = some r' →
    ∀ j < r.numNodes, ∀ j' < r'.numNodes,
    (S.mesh.cell c).edges.getD j 0 = (S.mesh.cell c').edges.getD j' 0 → ∀ t : K,
    ∃ y, S.evalFE u (0, c) (S.mesh.onSide r c j t) = some y ∧
      S.evalFE u (0, c') (S.mesh.onSide r' c' j' t) = some y

/-- In the vertices edges and cells agree with the function as defined by the node. -/
def MatchesNodes (S : FeSpace K) : Prop :=
  ∀ u : List K, u.length = S.dofh.numDofs →
    (∀ c r, S.mesh.refEl (0, c) = some r → ∀ i < r.numNodes,
      ∃ y, S.evalFE u (0, c) ((r.corners : List (List K)).getD i []) = some y ∧
        S.evalFE u (2, (S.mesh.cell c).nodes.getD i 0) [] = some y) ∧
    ∀ e < S.mesh.numEdges,
      (∃ y, S.evalFE u (1, e) [0] = some y ∧ S.evalFE u (2, (S.mesh.edge e).1) [] = some y) ∧
      ∃ y, S.evalFE u (1, e) [1] = some y ∧ S.evalFE u (2, (S.mesh.edge e).2) [] = some y

end FeSpace
end Verif
