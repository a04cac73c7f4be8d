import Mathlib.Algebra.BigOperators.Group.List.Basic
import Mathlib.Algebra.Ring.Basic

/-!
# Model of `lf::assemble::COOMatrix`, `fix_dof.h` and `assembler.h`

Scalars are elements of an arbitrary ring `R` (exact arithmetic).
Vectors are lists; reading or writing outside of a vector is undefined behaviour in C++ and is
modelled by the outcome `none`.  A failing `LF_ASSERT_MSG` / `LF_VERIFY_MSG` is also `none`.
-/

namespace Verif

/-- `Eigen::Triplet<SCALAR>`; /repo/lib/lf/assemble/coomatrix.h:55.
Simplification: Eigen stores row/col as (signed) `int`; we keep natural numbers, see `Coo.addToEntry`. -/
structure Triplet (R : Type*) where
  row : ℕ
  col : ℕ
  val : R

/-- State of a `COOMatrix`; /repo/lib/lf/assemble/coomatrix.h:223-224. -/
structure Coo (R : Type*) where
  rows : ℕ
  cols : ℕ
  triplets : List (Triplet R)

/-- A dense matrix as returned by `makeDense()`: dimensions and entries. -/
structure Dense (R : Type*) where
  rows : ℕ
  cols : ℕ
  entry : ℕ → ℕ → R

namespace Coo
variable {R : Type*}

/-- `unsigned int` arithmetic is modulo `2^32`. -/
def wrap32 (n : ℕ) : ℕ := n % 2 ^ 32

/-- Constructor; /repo/lib/lf/assemble/coomatrix.h:60-61. -/
def mk' (numRows numCols : ℕ) : Coo R := ⟨numRows, numCols, []⟩

/-- `AddToEntry`; /repo/lib/lf/assemble/coomatrix.h:87-91.
`i + 1` is computed in `unsigned int` and wraps around. -/
def addToEntry (A : Coo R) (i j : ℕ) (v : R) : Coo R :=
  { rows := if wrap32 (i + 1) > A.rows then wrap32 (i + 1) else A.rows
    cols := if wrap32 (j + 1) > A.cols then wrap32 (j + 1) else A.cols
    triplets := A.triplets ++ [⟨i, j, v⟩] }

/-- `setZero()`; /repo/lib/lf/assemble/coomatrix.h:98. -/
def setZero (A : Coo R) : Coo R := { A with triplets := [] }

/-- `setZero(pred)` (`std::remove_if` + `erase`); /repo/lib/lf/assemble/coomatrix.h:108-115. -/
def setZeroIf (A : Coo R) (pred : ℕ → ℕ → Bool) : Coo R :=
  { A with triplets := A.triplets.filter (fun t => !(pred t.row t.col)) }

/-- Loop body of `makeDense`: `mat(row, col) += value`, with the range assertion;
/repo/lib/lf/assemble/coomatrix.h:191-196. -/
def denseStep [Add R] (D : Dense R) (t : Triplet R) : Option (Dense R) :=
  if t.col < D.cols ∧ t.row < D.rows then
    some { D with entry := fun i j => if i = t.row ∧ j = t.col then D.entry i j + t.val
                                       else D.entry i j }
  else none

/-- `makeDense`; /repo/lib/lf/assemble/coomatrix.h:187-198. -/
def makeDense [Add R] [Zero R] (A : Coo R) : Option (Dense R) :=
  A.triplets.foldlM denseStep ⟨A.rows, A.cols, fun _ _ => 0⟩

/-- `makeSparse`; /repo/lib/lf/assemble/coomatrix.h:172-180.
Simplification: `Eigen::SparseMatrix::setFromTriplets` is modelled by its documented effect
(duplicates are summed up, indices must be in range), i.e. by the same accumulation as `makeDense`;
the sparsity pattern of the result is not modelled. -/
def makeSparse [Add R] [Zero R] (A : Coo R) : Option (Dense R) :=
  if A.rows > 0 ∧ A.cols > 0 then A.makeDense else none

/-- Loop body `resvec[row] += value * (alpha * vec[col])`;
/repo/lib/lf/assemble/coomatrix.h:257-259. -/
def mvStep [Add R] [Mul R] (alpha : R) (vec : List R) (res : List R) (t : Triplet R) :
    Option (List R) := do
  let v ← vec[t.col]?
  let r ← res[t.row]?
  some (res.set t.row (r + t.val * (alpha * v)))

/-- `MatVecMult(alpha, vec, resvec)`; /repo/lib/lf/assemble/coomatrix.h:250-260. -/
def matVecMultAdd [Add R] [Mul R] (A : Coo R) (alpha : R) (vec res : List R) : Option (List R) :=
  if vec.length < A.cols ∨ res.length < A.rows then none
  else A.triplets.foldlM (mvStep alpha vec) res

/-- `MatVecMult(alpha, vec)`; /repo/lib/lf/assemble/coomatrix.h:236-246. -/
def matVecMult [Add R] [Mul R] [Zero R] (A : Coo R) (alpha : R) (vec : List R) :
    Option (List R) :=
  if vec.length < A.cols then none
  else A.triplets.foldlM (mvStep alpha vec) (List.replicate A.rows 0)

end Coo

section FixDof
variable {R : Type*}

/-- The loop `if (selectvals(k).first) b[k] = selectvals(k).second` for `k < N`;
/repo/lib/lf/assemble/fix_dof.h:109-114 and 192-197 (`N = b.size()` was checked before). -/
def setFixedRhs (sel : ℕ → Bool × R) (N : ℕ) (b : List R) : List R :=
  (List.range N).foldl (fun b k => if (sel k).1 then b.set k (sel k).2 else b) b

/-- The loop adding unit diagonal entries; /repo/lib/lf/assemble/fix_dof.h:132-137, 214-218. -/
def addUnitDiag [One R] (sel : ℕ → Bool × R) (N : ℕ) (A : Coo R) : Coo R :=
  (List.range N).foldl (fun A k => if (sel k).1 then A.addToEntry k k 1 else A) A

/-- `FixFlaggedSolutionComponents`; /repo/lib/lf/assemble/fix_dof.h:87-138.
The selector is assumed to be a pure function. -/
def fixFlaggedSolutionComponents [Ring R] (sel : ℕ → Bool × R) (A : Coo R) (b : List R) :
    Option (Coo R × List R) :=
  let N := A.cols
  if A.rows = N ∧ N = b.length then do
    let tmp := (List.range N).map (fun k => if (sel k).1 then (sel k).2 else 0)
    let b1 ← A.matVecMultAdd (-1) tmp b
    let b2 := setFixedRhs sel N b1
    let A1 := A.setZeroIf (fun i j => (sel i).1 || (sel j).1)
    some (addUnitDiag sel N A1, b2)
  else none

/-- `FixFlaggedSolutionCompAlt`; /repo/lib/lf/assemble/fix_dof.h:184-219. -/
def fixFlaggedSolutionCompAlt [Ring R] (sel : ℕ → Bool × R) (A : Coo R) (b : List R) :
    Option (Coo R × List R) :=
  let N := A.cols
  if A.rows = N ∧ N = b.length then
    let b2 := setFixedRhs sel N b
    let A1 := A.setZeroIf (fun i _ => (sel i).1)
    some (addUnitDiag sel N A1, b2)
  else none

/-- Loop body of `FixSolutionComponentsLse`: accumulate value, set flag;
/repo/lib/lf/assemble/fix_dof.h:264-270.  The index assertion is `none`. -/
def lseStep [Add R] (N : ℕ) (s : List R × List Bool) (p : ℕ × R) : Option (List R × List Bool) :=
  if p.1 < N then do
    let v ← s.1[p.1]?
    some (s.1.set p.1 (v + p.2), s.2.set p.1 true)
  else none

/-- `FixSolutionComponentsLse`; /repo/lib/lf/assemble/fix_dof.h:251-280.
Simplification: the lambda's return type `std::pair<bool, double>` is modelled as
`Bool × R` (i.e. `SCALAR = double`). -/
def fixSolutionComponentsLse [Ring R] (fixed : List (ℕ × R)) (A : Coo R) (b : List R) :
    Option (Coo R × List R) :=
  let N := A.cols
  if A.rows = N ∧ N = b.length then do
    let s ← fixed.foldlM (lseStep N) (List.replicate b.length 0, List.replicate N false)
    fixFlaggedSolutionCompAlt (fun i => (s.2.getD i false, s.1.getD i 0)) A b
  else none

end FixDof

section Assembly
variable {R : Type*} {E : Type*}

/-- What the assembler sees of a `DofHandler`: the number of dofs `NumDofs()` and the global dof
indices of an entity (`GlobalDofIndices`; `NumLocalDofs` is the length of this list, see the dof
handler model). -/
structure DofMap (E : Type*) where
  numDofs : ℕ
  dofs : E → List ℕ

/-- The concept `EntityMatrixProvider`; /repo/lib/lf/assemble/assembly_types.h (`isActive`, `Eval`).
Simplification: providers are pure functions of the entity. -/
structure EntityMatrixProvider (E R : Type*) where
  isActive : E → Bool
  eval : E → Dense R

/-- The concept `EntityVectorProvider` (`isActive`, `Eval`), pure. -/
structure EntityVectorProvider (E R : Type*) where
  isActive : E → Bool
  eval : E → List R

/-- Local double loop of `AssembleMatrixLocally`; /repo/lib/lf/assemble/assembler.h:166-179. -/
def scatterMatrix (rowIdx colIdx : List ℕ) (elem : Dense R) (A : Coo R) : Coo R :=
  (List.range rowIdx.length).foldl (fun A i =>
    (List.range colIdx.length).foldl (fun A j =>
      A.addToEntry (rowIdx.getD i 0) (colIdx.getD j 0) (elem.entry i j)) A) A

/-- Body of the main loop of `AssembleMatrixLocally`: skip inactive entities, assert that the element
matrix is large enough, scatter; /repo/lib/lf/assemble/assembler.h:125-184. -/
def assembleMatrixStep (trial test : DofMap E) (prov : EntityMatrixProvider E R) (A : Coo R) (e : E) :
    Option (Coo R) :=
  if prov.isActive e then
    if (prov.eval e).rows ≥ (test.dofs e).length ∧ (prov.eval e).cols ≥ (trial.dofs e).length then
      some (scatterMatrix (test.dofs e) (trial.dofs e) (prov.eval e) A)
    else none
  else some A

/-- `AssembleMatrixLocally(codim, trial, test, provider, matrix)`;
/repo/lib/lf/assemble/assembler.h:115-186.  `entities` is the sequence `mesh->Entities(codim)`.
Logging is not modelled. -/
def assembleMatrixLocally (entities : List E) (trial test : DofMap E)
    (prov : EntityMatrixProvider E R) (A : Coo R) : Option (Coo R) :=
  entities.foldlM (assembleMatrixStep trial test prov) A

/-- `AssembleMatrixLocally(codim, trial, test, provider)` returning a new matrix;
/repo/lib/lf/assemble/assembler.h:209-220. -/
def assembleMatrixLocallyNew (entities : List E) (trial test : DofMap E)
    (prov : EntityMatrixProvider E R) : Option (Coo R) :=
  assembleMatrixLocally entities trial test prov (Coo.mk' test.numDofs trial.numDofs).setZero

/-- Local loop of `AssembleVectorLocally`: `resultvector[dof_idx[i]] += elem_vec[i]`;
/repo/lib/lf/assemble/assembler.h:321-323. -/
def scatterVector [Add R] (idx : List ℕ) (elem : List R) (b : List R) : Option (List R) :=
  (List.range idx.length).foldlM (fun b i => 
    idx[i]?.bind fun k => elem[i]?.bind fun w => b[k]?.bind fun v => some (b.set k (v + w))) b

/-- Body of the main loop of `AssembleVectorLocally`; /repo/lib/lf/assemble/assembler.h:306-325. -/
def assembleVectorStep [Add R] (dofh : DofMap E) (prov : EntityVectorProvider E R) (b : List R)
    (e : E) : Option (List R) :=
  if prov.isActive e then
    if (prov.eval e).length ≥ (dofh.dofs e).length then scatterVector (dofh.dofs e) (prov.eval e) b
    else none
  else some b

/-- `AssembleVectorLocally(codim, dofh, provider, resultvector)`;
/repo/lib/lf/assemble/assembler.h:297-327. -/
def assembleVectorLocally [Add R] (entities : List E) (dofh : DofMap E)
    (prov : EntityVectorProvider E R) (b : List R) : Option (List R) :=
  entities.foldlM (assembleVectorStep dofh prov) b

/-- `AssembleVectorLocally(codim, dofh, provider)` returning a new vector;
/repo/lib/lf/assemble/assembler.h:353-364. -/
def assembleVectorLocallyNew [Add R] [Zero R] (entities : List E) (dofh : DofMap E)
    (prov : EntityVectorProvider E R) : Option (List R) :=
  assembleVectorLocally entities dofh prov (List.replicate dofh.numDofs 0)

end Assembly
end Verif
