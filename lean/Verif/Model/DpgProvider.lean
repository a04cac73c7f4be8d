import Verif.Model.DataSet
import Verif.Model.DofHandler
import Verif.Model.Galerkin
import Mathlib.Analysis.SpecialFunctions.Sqrt

/-!
# Model: element matrices and vectors of product spaces, DPG element matrices and error estimators

Eigen matrices are `Dense ℝ`, Eigen vectors are lists.  Failed assertions and operations on objects of the wrong size are
`none`.
-/

namespace Verif.Dpg
open Verif Finset

/-! ## Providers -/

/-- A provider of element matrices whose method `Eval` may fail; the interface of `SubElementMatrixProvider` and
`ProductElementMatrixProvider`, /repo/projects/dpg/sub_element_matrix_provider.h:60-95. -/
structure MatProv where
  isActive : Ent → Bool
  eval : Ent → Option (Dense ℝ)

/-- A provider of element vectors; /repo/projects/dpg/sub_element_vector_provider.h:50-85. -/
structure VecProv where
  isActive : Ent → Bool
  eval : Ent → Option (List ℝ)

/-- `SubElementMatrixProvider`: with `TrialComponent()` and `TestComponent()`;
/repo/projects/dpg/sub_element_matrix_provider.h:42-105. -/
structure SubMat extends MatProv where
  trialComponent : ℕ
  testComponent : ℕ

/-- `SubElementVectorProvider`: with `TestComponent()`; /repo/projects/dpg/sub_element_vector_provider.h:35-90. -/
structure SubVec extends VecProv where
  testComponent : ℕ

/-- `mat.block(r0, c0, sub.rows(), sub.cols()) += sub`; Eigen asserts that the block is part of the matrix;
/repo/projects/dpg/product_element_matrix_provider.h:155-157. -/
noncomputable def addBlock (mat : Dense ℝ) (r0 c0 : ℕ) (sub : Dense ℝ) : Option (Dense ℝ) :=
  if r0 + sub.rows ≤ mat.rows ∧ c0 + sub.cols ≤ mat.cols then
    some ⟨mat.rows, mat.cols, fun i j =>
      if (r0 ≤ i ∧ i < r0 + sub.rows) ∧ c0 ≤ j ∧ j < c0 + sub.cols then mat.entry i j + sub.entry (i - r0) (j - c0)
      else mat.entry i j⟩
  else none

/-- `vec.segment(r0, sub.size()) += sub`; /repo/projects/dpg/product_element_vector_provider.h:145-146. -/
noncomputable def addSegment (vec : List ℝ) (r0 : ℕ) (sub : List ℝ) : Option (List ℝ) :=
  if r0 + sub.length ≤ vec.length then
    some (vec.mapIdx fun i x => if r0 ≤ i ∧ i < r0 + sub.length then x + sub.getD (i - r0) 0 else x)
  else none

/-- Body of the loop over sub-providers; /repo/projects/dpg/product_element_matrix_provider.h:145-159. -/
noncomputable def productMatStep (trial test : ProductFE.Data) (cell : Ent) (mat : Dense ℝ) (p : SubMat) :
    Option (Dense ℝ) :=
  if p.isActive cell then
    (p.eval cell).bind fun sub =>
    (test.localStartIndex cell p.testComponent).bind fun r0 =>
    (trial.localStartIndex cell p.trialComponent).bind fun c0 =>
    addBlock mat r0 c0 sub
  else some mat

/-- `ProductElementMatrixProvider::Eval`; /repo/projects/dpg/product_element_matrix_provider.h:131-161.  `trial` and `test`
are the dof handlers of the product spaces on the mesh `T`. -/
noncomputable def productMatEval (T : Topo) (trial test : ProductFE.Data) (subs : List SubMat) (cell : Ent) :
    Option (Dense ℝ) :=
  ((test.handler T).numLocalDofs cell).bind fun rows =>
  ((trial.handler T).numLocalDofs cell).bind fun cols =>
  subs.foldlM (productMatStep trial test cell) ⟨rows, cols, fun _ _ => 0⟩

/-- `ProductElementMatrixProvider`: all cells are active; /repo/projects/dpg/product_element_matrix_provider.h:84-101. -/
noncomputable def productMat (T : Topo) (trial test : ProductFE.Data) (subs : List SubMat) : MatProv :=
  ⟨fun _ => true, productMatEval T trial test subs⟩

/-- Body of the loop over sub-providers; /repo/projects/dpg/product_element_vector_provider.h:136-148. -/
noncomputable def productVecStep (test : ProductFE.Data) (cell : Ent) (vec : List ℝ) (p : SubVec) : Option (List ℝ) :=
  if p.isActive cell then
    (p.eval cell).bind fun sub =>
    (test.localStartIndex cell p.testComponent).bind fun r0 =>
    addSegment vec r0 sub
  else some vec

/-- `ProductElementVectorProvider::Eval`; /repo/projects/dpg/product_element_vector_provider.h:123-150. -/
noncomputable def productVecEval (T : Topo) (test : ProductFE.Data) (subs : List SubVec) (cell : Ent) :
    Option (List ℝ) :=
  ((test.handler T).numLocalDofs cell).bind fun rows =>
  subs.foldlM (productVecStep test cell) (List.replicate rows 0)

/-- `ProductElementVectorProvider`: all cells are active; /repo/projects/dpg/product_element_vector_provider.h:86-96. -/
noncomputable def productVec (T : Topo) (test : ProductFE.Data) (subs : List SubVec) : VecProv :=
  ⟨fun _ => true, productVecEval T test subs⟩

/-! ## Assembly -/

/-- `AssembleMatrixLocally(0, trial, test, provider)`; /repo/lib/lf/assemble/assembler.h:209-220.  If one of the calls of
`Eval` or `GlobalDofIndices` fails, so does the assembly. -/
noncomputable def assembleMat (T : Topo) (trial test : DofHandler) (P : MatProv) : Option (Coo ℝ) :=
  if (T.entities 0).all (fun e => !P.isActive e ||
      ((P.eval e).isSome && (trial.globalDofIndices e).isSome && (test.globalDofIndices e).isSome)) then
    assembleMatrixLocallyNew (T.entities 0) trial.toMap test.toMap ⟨P.isActive, fun e => (P.eval e).getD ⟨0, 0, fun _ _ => 0⟩⟩
  else none

/-- `AssembleVectorLocally(0, dofh, provider)`; /repo/lib/lf/assemble/assembler.h:353-364. -/
noncomputable def assembleVec (T : Topo) (dofh : DofHandler) (P : VecProv) : Option (List ℝ) :=
  if (T.entities 0).all (fun e => !P.isActive e || ((P.eval e).isSome && (dofh.globalDofIndices e).isSome)) then
    assembleVectorLocallyNew (T.entities 0) dofh.toMap ⟨P.isActive, fun e => (P.eval e).getD []⟩
  else none

/-! ## DPG element matrices and vectors -/

/-- `G.ldlt().solve(l)` for a column `l`: a parameter of the model.  The code relies on Eigen here. -/
abbrev Ldlt := Dense ℝ → List ℝ → List ℝ

/-- A column of a matrix. -/
def denseCol (B : Dense ℝ) (j : ℕ) : List ℝ := (List.range B.rows).map fun i => B.entry i j

/-- `B * x`; Eigen asserts that the sizes match. -/
noncomputable def mulVecD (B : Dense ℝ) (x : List ℝ) : Option (List ℝ) :=
  if x.length = B.cols then some ((List.range B.rows).map fun i => ∑ j ∈ range B.cols, B.entry i j * x.getD j 0)
  else none

/-- `B.transpose() * G.ldlt().solve(B)`, column by column; Eigen asserts that `G` has as many rows as `B`;
/repo/projects/dpg/dpg_element_matrix_provider.h:141-143. -/
noncomputable def normalMatrix (ldlt : Ldlt) (G B : Dense ℝ) : Option (Dense ℝ) :=
  if G.rows = B.rows then
    some ⟨B.cols, B.cols, fun i j => ∑ k ∈ range B.rows, B.entry k i * (ldlt G (denseCol B j)).getD k 0⟩
  else none

/-- `B.transpose() * G.ldlt().solve(l)`; Eigen asserts the sizes;
/repo/projects/dpg/dpg_element_vector_provider.h:154-156. -/
noncomputable def normalVector (ldlt : Ldlt) (G B : Dense ℝ) (l : List ℝ) : Option (List ℝ) :=
  if G.rows = l.length ∧ B.rows = G.cols then
    some ((List.range B.cols).map fun i => ∑ k ∈ range B.rows, B.entry k i * (ldlt G l).getD k 0)
  else none

/-- `DpgElementMatrixProvider::Eval`; /repo/projects/dpg/dpg_element_matrix_provider.h:113-144. -/
noncomputable def dpgMatEval (ldlt : Ldlt) (stiffness gramian : MatProv) (cell : Ent) : Option (Dense ℝ) :=
  if gramian.isActive cell ∧ stiffness.isActive cell then
    (stiffness.eval cell).bind fun B =>
    (gramian.eval cell).bind fun G =>
    if G.rows = G.cols ∧ B.rows = G.cols then normalMatrix ldlt G B else none
  else none

/-- `DpgElementMatrixProvider`: all cells are active; /repo/projects/dpg/dpg_element_matrix_provider.h:74-86. -/
noncomputable def dpgMat (ldlt : Ldlt) (stiffness gramian : MatProv) : MatProv :=
  ⟨fun _ => true, dpgMatEval ldlt stiffness gramian⟩

/-- `DpgElementVectorProvider::Eval`; /repo/projects/dpg/dpg_element_vector_provider.h:127-157. -/
noncomputable def dpgVecEval (ldlt : Ldlt) (load : VecProv) (stiffness gramian : MatProv) (cell : Ent) : Option (List ℝ) :=
  if load.isActive cell ∧ stiffness.isActive cell ∧ gramian.isActive cell then
    (load.eval cell).bind fun l =>
    (stiffness.eval cell).bind fun B =>
    (gramian.eval cell).bind fun G =>
    if G.rows = G.cols then normalVector ldlt G B l else none
  else none

/-- `DpgElementVectorProvider`: all cells are active; /repo/projects/dpg/dpg_element_vector_provider.h:86-98. -/
noncomputable def dpgVec (ldlt : Ldlt) (load : VecProv) (stiffness gramian : MatProv) : VecProv :=
  ⟨fun _ => true, dpgVecEval ldlt load stiffness gramian⟩

/-! ## Error estimators -/

/-- The error of one cell; /repo/projects/dpg/dpg_tools.h:341-358.  The square root of a negative number is not a number,
here `none`. -/
noncomputable def cellError (ldlt : Ldlt) (dofh : DofHandler) (stiffness gramian : MatProv) (load : VecProv)
    (sol : List ℝ) (cell : Ent) : Option ℝ :=
  (gramian.eval cell).bind fun G =>
  (stiffness.eval cell).bind fun B =>
  (load.eval cell).bind fun l =>
  (dofh.numLocalDofs cell).bind fun n =>
  (dofh.globalDofIndices cell).bind fun dofs =>
  ((List.range n).mapM fun i => (dofs[i]?).bind fun d => sol[d]?).bind fun loc =>
  (mulVecD B loc).bind fun Bx =>
  if l.length = Bx.length ∧ G.rows = G.cols ∧ G.rows = l.length then
    let r := List.zipWith (· - ·) l Bx
    let s := ∑ k ∈ range r.length, r.getD k 0 * (ldlt G r).getD k 0
    if 0 ≤ s then some (Real.sqrt s) else none
  else none

/-- `ElementErrorEstimators`; /repo/projects/dpg/dpg_tools.h:320-361. -/
noncomputable def elementErrorEstimators (ldlt : Ldlt) (m : MeshObj) (dofh : DofHandler) (stiffness gramian : MatProv)
    (load : VecProv) (sol : List ℝ) : Option (CodimDS ℝ) :=
  (CodimDS.make m 0 0).bind fun d0 =>
  (m.topo.entities 0).foldlM (fun d cell =>
    (cellError ldlt dofh stiffness gramian load sol cell).bind fun e => d.write ⟨m.id, cell⟩ e) d0

/-- `EvalPosteriorError`; /repo/projects/dpg/dpg_tools.h:374-383. -/
noncomputable def evalPosteriorError (m : MeshObj) (errors : CodimDS ℝ) : Option ℝ :=
  ((m.topo.entities 0).foldlM (fun s cell => (errors.read ⟨m.id, cell⟩).map fun e => s + e * e) 0).map Real.sqrt

end Verif.Dpg
