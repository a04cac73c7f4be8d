import Verif.Spec.DpgLocComp
import Verif.Spec.DofHandler

/-!
# Specification vocabulary: fluxes on the edges of a mesh
-/

namespace Verif.Dpg
open Verif

/-- The flux in the point with parameter `t` on side `s` of cell `c`, as seen by `FluxElementMatrixProvider` (C91): the
coefficients of the cell are those with the indices `GlobalDofIndices(cell)` in the coefficient vector `u`. -/
noncomputable def fluxAt (h : DofHandler) (fe : RefFE ℝ) (u : ℕ → ℝ) (c s : ℕ) (t : ℝ) : ℝ :=
  comb fe (sidePart fe.num ((h.all (0, c)).map u) s) [t]

/-- The parameter on side `s` of cell `c` of the point with parameter `t` on the edge. -/
noncomputable def sideParam (T : Topo) (c s : ℕ) (t : ℝ) : ℝ := if (T.cell c).ori.getD s false then t else 1 - t

/-- Cells sharing an edge see the same flux in all points of this edge. -/
def FluxSingleValued (T : Topo) (h : DofHandler) (fe : RefFE ℝ) : Prop :=
  ∀ c < T.numCells, ∀ c' < T.numCells, ∀ s < (T.cell c).edges.length, ∀ s' < (T.cell c').edges.length,
    (T.cell c).edges.getD s 0 = (T.cell c').edges.getD s' 0 → ∀ u t,
      fluxAt h fe u c s (sideParam T c s t) = fluxAt h fe u c' s' (sideParam T c' s' t)

end Verif.Dpg
