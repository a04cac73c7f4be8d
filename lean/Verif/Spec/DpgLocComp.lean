import Verif.Model.DpgLocComp
import Verif.Spec.DpgProvider
import Verif.Spec.DpgTools
import Verif.Spec.LocComp

/-!
# Specification vocabulary: local bilinear forms of the DPG providers
-/

namespace Verif.Dpg
open Verif

/-- The function on the reference element with the given list of coefficients. -/
noncomputable def comb (fe : RefFE ℝ) (c : List ℝ) (x : List ℝ) : ℝ := fe.combine (fun i => c.getD i.val 0) x

/-- Its gradient on the reference element. -/
noncomputable def combGrad (fe : RefFE ℝ) (c : List ℝ) (x : List ℝ) : List ℝ :=
  fe.combineGrad (fun i => c.getD i.val 0) x

/-- The coefficients of side `s` in the coefficients of all sides of a cell, with `n` of them per side. -/
def sidePart (n : ℕ) (c : List ℝ) (s : ℕ) : List ℝ := (c.drop (s * n)).take n

/-- A point of the reference segment on side `s` of a reference cell. -/
noncomputable abbrev sideAt (r : RefEl) (s : ℕ) (t : List ℝ) : List ℝ := Geo.sidePoint r s (t.getD 0 0)

open Classical in
/-- The sign of cell `c` at edge `e`: 1 for the adjacent cell with the largest index, -1 for the other one. -/
noncomputable def edgeSign (T : Topo) (c e : ℕ) : ℤ :=
  if ∃ c' < T.numCells, e ∈ (T.cell c').edges ∧ c < c' then -1 else 1

/-- What the theorems on exact integration ask of a finite element of degree `p` on the reference element `r`: all shape
functions are polynomials of this degree, and they and their gradients can be evaluated. -/
structure Regular (fe : RefFE ℝ) (r : RefEl) (p : ℕ) : Prop where
  ref : fe.ref = r
  degree : fe.degree = p
  evaluates : fe.Evaluates
  polynomial : fe.Polynomial
  gradCorrect : fe.GradCorrect

end Verif.Dpg
