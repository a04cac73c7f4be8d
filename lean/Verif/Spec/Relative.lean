import Verif.Spec.Interpolation
import Verif.Spec.Transfer

/-!
# Specification: the same point of a mesh, seen from different entities
-/

namespace Verif

/-- The point with the local coordinates `y` in the cell `c` (reference element `r`) is also the point with the
local coordinates `x` in the entity `e`, where `e` is the cell itself, one of its edges or one of its nodes. -/
def Topo.SamePoint {K : Type} [Field K] [LinearOrder K] (T : Topo) (r : RefEl) (c : ℕ) (y : List K) (e : Ent)
    (x : List K) : Prop :=
  (e = (0, c) ∧ x = y ∧ y.length = 2) ∨
  (∃ j < r.numNodes, ∃ t : K, 0 ≤ t ∧ t ≤ 1 ∧ e = (1, (T.cell c).edges.getD j 0) ∧ x = [t] ∧ y = T.onSide r c j t) ∨
  (∃ j < r.numNodes, e = (2, (T.cell c).nodes.getD j 0) ∧ x = [] ∧ y = (r.corners : List (List K)).getD j [])

end Verif
