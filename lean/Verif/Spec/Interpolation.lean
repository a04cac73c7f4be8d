import Verif.Spec.Conform
import Verif.Spec.FeTools

/-!
# Specification: functions on a mesh with one value per point
-/

namespace Verif

/-- `f e x` is the value of a function at the point of entity `e` with the local coordinates `x`.  On the side
of a cell the values on the cell are those on the edge, at the corner of a cell they are that of the node: the
function has one value at every point of the mesh. -/
def Topo.SingleValued {K V : Type} [Field K] [LinearOrder K] (T : Topo) (f : Ent → List K → V) : Prop :=
  ∀ c r, T.refEl (0, c) = some r → ∀ j < r.numNodes,
    (∀ t, 0 ≤ t → t ≤ 1 → f (0, c) (T.onSide r c j t) = f (1, (T.cell c).edges.getD j 0) [t]) ∧
    f (0, c) ((r.corners : List (List K)).getD j []) = f (2, (T.cell c).nodes.getD j 0) []

/-- The mesh function `u` can be evaluated in the cells; its values are those of `f`. -/
def Topo.Evaluates {K V : Type} [Field K] [LinearOrder K] (T : Topo) (u : MeshFn K V) (f : Ent → List K → V) : Prop :=
  ∀ c r, T.refEl (0, c) = some r → ∀ pts : List (List K), (∀ x ∈ pts, r.Contains x) →
    u (0, c) pts = some (pts.map (f (0, c)))

end Verif
