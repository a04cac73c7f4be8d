import Verif.Model.DataSet

/-!
# Specification of mesh data sets and boundary flags
-/

namespace Verif

/-- The edge is a side of exactly one cell (counted with the local position). -/
def Topo.OnBoundary (T : Topo) (e : ℕ) : Prop :=
  ∃! p : ℕ × ℕ, p.1 < T.numCells ∧ (T.cell p.1).edges[p.2]? = some e

/-- The value a history of writes leaves at an entity: the last one written there, or the initial value. -/
def lastWrite {α : Type} (init : α) : List (EntObj × α) → EntObj → α
  | [], _ => init
  | (e, v) :: ws, x => lastWrite (if e = x then v else init) ws x

end Verif
