import Verif.Spec.DofHandler
import Verif.Model.Builders

/-!
# Specification vocabulary for structured meshes
-/

namespace Verif

/-- The number of (cell, local side) pairs represented by an edge. -/
def Topo.incidence (T : Topo) (e : ℕ) : ℕ :=
  ((List.range T.numCells).map fun c => (T.cell c).edges.count e).sum

/-- The number of edges that are a side of exactly one cell. -/
def Topo.numBoundaryEdges (T : Topo) : ℕ :=
  (List.range T.numEdges).countP fun e => T.incidence e = 1

end Verif
