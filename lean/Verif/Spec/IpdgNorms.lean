import Verif.Spec.IpdgFlow
import Mathlib.LinearAlgebra.Matrix.Notation

/-!
# Specification for the norms of discontinuous velocities
-/

namespace Verif.Ipdg
open Verif Geo

/-- Squared Frobenius norm of a matrix; for a single column or row the squared Euclidean norm. -/
def frobSq {r c : ℕ} (A : Matrix (Fin r) (Fin c) ℝ) : ℝ := ∑ i, ∑ j, A i j ^ 2

section
variable (T : Topo) (pos : ℕ → Vec ℝ 2)

/-- The point of an edge with parameter `t`, from its first to its second end point. -/
noncomputable def edgePoint (e : ℕ) (t : ℝ) : Vec ℝ 2 := pos (T.edge e).1 + t • (pos (T.edge e).2 - pos (T.edge e).1)

/-- The point with parameter `t` of side `k` of a triangle, from corner `k` to corner `k + 1`. -/
noncomputable def pointOnSide (p : Fin 3 → Vec ℝ 2) (k : Fin 3) (t : ℝ) : Vec ℝ 2 := p k + t • (p (k + 1) - p k)

/-- `⟦f ⊗ n⟧` on an edge: the sum of `f ⊗ n` over the cells at the edge, where `F c` is the function on cell `c` and `n` is the outward
normal of the cell.  `y` tells at which point the function is evaluated on which side. -/
noncomputable def jumpOf (F : ℕ → Vec ℝ 2 → Vec ℝ 2) (e : ℕ) (y : ℕ × Fin 3 → Vec ℝ 2) : Matrix (Fin 2) (Fin 2) ℝ :=
  ∑ s ∈ sidesAt T e, Matrix.vecMulVec (F s.1 (y s)) (outward (tri T pos s.1) s.2)

/-- `1/|e| ∫ ‖⟦f ⊗ n⟧‖²` over an edge, computed with a quadrature rule for the reference segment. -/
noncomputable def edgeJumpTerm (qr : QuadRule ℝ) (F : ℕ → Vec ℝ 2 → Vec ℝ 2) (e : ℕ) : ℝ :=
  1 / edgeLength T pos e * ((List.zip qr.weights qr.points).map fun q =>
    q.1 * edgeLength T pos e * frobSq (jumpOf T pos F e fun _ => edgePoint T pos e (q.2.getD 0 0))).sum

/-- `∫ g` over a cell, computed with a quadrature rule for the reference triangle. -/
noncomputable def cellQuad (qr : QuadRule ℝ) (g : Vec ℝ 2 → ℝ) (c : ℕ) : ℝ :=
  ((List.zip qr.weights qr.points).map fun q => q.1 * |area2 (tri T pos c)| * g (triPoint (tri T pos c) q.2)).sum

/-- `∑ ∫ ‖f‖²` over all cells. -/
noncomputable def l2Sq {r c : ℕ} (qc : ℕ → QuadRule ℝ) (F : ℕ → Vec ℝ 2 → Matrix (Fin r) (Fin c) ℝ) : ℝ :=
  ∑ c ∈ Finset.range T.numCells, cellQuad T pos (qc c) (fun x => frobSq (F c x)) c

/-- The square of the DG norm with the edges in `E`: `∑ ∫ ‖∇f‖²` over the cells plus `∑ 1/|e| ∫ ‖⟦f ⊗ n⟧‖²` over the edges. -/
noncomputable def dgSq {r c : ℕ} (qc qe : ℕ → QuadRule ℝ) (F : ℕ → Vec ℝ 2 → Vec ℝ 2) (G : ℕ → Vec ℝ 2 → Matrix (Fin r) (Fin c) ℝ)
    (E : Finset ℕ) : ℝ :=
  l2Sq T pos qc G + ∑ e ∈ E, edgeJumpTerm T pos (qe e) F e

/-- The edges which do not lie on the boundary. -/
noncomputable def innerEdges : Finset ℕ := Finset.range T.numEdges \ bdEdges T

end
end Verif.Ipdg
