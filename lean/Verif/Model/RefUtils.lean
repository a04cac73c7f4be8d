import Verif.Model.Writers
import Mathlib.Data.Int.Basic

/-!
# Model of `lf::refinement::WriteMatlab` and `WriteMatlabLevel`
-/

namespace Verif.RefUtils

/-- `idx_nil`, the index of nothing; `unsigned(-1)`; /repo/lib/lf/refinement/hybrid2d_refinement_pattern.h:18. -/
def idxNil : ℕ := 2 ^ 32 - 1

/-- `normalize_idx`; `none`: the assertion fails; /repo/lib/lf/refinement/refutils.cc:14-18. -/
def normalizeIdx (i : ℕ) : Option ℤ :=
  if i = idxNil ∨ i ≤ 2 ^ 31 - 1 then some (if i = idxNil then -1 else i) else none

/-- Rows of `PTPAR`, `EDPAR` and `CELLPAR` for the first `n` entities: the information is given as one list of numbers for every entity (index of the parent, number of the
child, for cells the refinement edge).  `none`: the vector is too short, or an assertion fails; /repo/lib/lf/refinement/refutils.cc:42-78. -/
def parentRows (n : ℕ) (info : List (List ℕ)) : Option (List (ℕ × List ℤ)) :=
  (List.range n).mapM fun k => (info[k]?).bind fun row => (row.mapM normalizeIdx).map fun r => (k + 1, r)

/-- Names of the files for a hierarchy with `n` levels, in the order in which they are written; /repo/lib/lf/refinement/refutils.cc:82-98. -/
def hierarchyNames (base : List Char) (n : ℕ) : List (List Char) :=
  (List.range n).flatMap fun level =>
    let filebase := base ++ ['_', 'L'] ++ Nat.toDigits 10 level
    [filebase ++ ['.', 'm'], filebase ++ ['_', 'p', 'i'] ++ ['.', 'm']]

end Verif.RefUtils
