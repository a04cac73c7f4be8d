import Verif.Model.Coo
import Mathlib.Algebra.BigOperators.Intervals

/-!
# Specifications for the sparse matrix container and for fixing solution components
-/

namespace Verif
open Finset
variable {R : Type*}

/-- One API call on a `COOMatrix`. -/
inductive CooOp (R : Type*) where
  | add (i j : ℕ) (v : R)
  | zeroAll
  | zeroIf (pred : ℕ → ℕ → Bool)

/-- Effect of a call on the object. -/
def CooOp.run (A : Coo R) : CooOp R → Coo R
  | .add i j v => A.addToEntry i j v
  | .zeroAll => A.setZero
  | .zeroIf p => A.setZeroIf p

/-- Object after a sequence of calls on a freshly constructed `r × c` matrix. -/
def Coo.history (r c : ℕ) (ops : List (CooOp R)) : Coo R := ops.foldl CooOp.run (Coo.mk' r c)

/-- Does this call erase the entry `(i,j)`? -/
def CooOp.erases (i j : ℕ) : CooOp R → Bool
  | .add _ _ _ => false
  | .zeroAll => true
  | .zeroIf p => p i j

/-- The value this call adds at `(i,j)` (zero if none). -/
def CooOp.adds [Zero R] (i j : ℕ) : CooOp R → R
  | .add a b v => if i = a ∧ j = b then v else 0
  | _ => 0

/-- Row index mentioned by an `AddToEntry` call. -/
def CooOp.rowIdx : CooOp R → Option ℕ
  | .add i _ _ => some i
  | _ => none

/-- Column index mentioned by an `AddToEntry` call. -/
def CooOp.colIdx : CooOp R → Option ℕ
  | .add _ j _ => some j
  | _ => none

/-- The sum of all values added at `(i,j)` by a call after which no call erases `(i,j)`. -/
def survivingSum [AddCommMonoid R] (ops : List (CooOp R)) (i j : ℕ) : R :=
  ∑ k : Fin ops.length,
    if ∀ l : Fin ops.length, k < l → ops[l].erases i j = false then ops[k].adds i j else 0

/-- `x` solves the linear system with matrix `D` and right-hand side `b`. -/
def Solves [Ring R] (D : Dense R) (b : List R) (x : ℕ → R) : Prop :=
  ∀ i < D.rows, ∑ j ∈ range D.cols, D.entry i j * x j = b.getD i 0

/-- Row `i` of the linear system `D x = b` holds. -/
def RowHolds [Ring R] (D : Dense R) (b : List R) (x : ℕ → R) (i : ℕ) : Prop :=
  ∑ j ∈ range D.cols, D.entry i j * x j = b.getD i 0

end Verif
