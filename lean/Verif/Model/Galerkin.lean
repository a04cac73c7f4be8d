import Verif.Model.Coo
import Verif.Model.LocComp
import Verif.Model.MeshFunction

/-!
# Model: assembling Galerkin matrices and vectors for a finite element space

`AssembleMatrixLocally` and `AssembleVectorLocally` (see `assembleMatrixLocally`, `assembleVectorLocally`) applied to
the dof handler of a finite element space and to one of the providers of `lf::fe`, whose method `Eval` may fail.
-/

namespace Verif

/-- `mesh->Entities(codim)`, in the order of the indices; /repo/lib/lf/assemble/assembler.h:125. -/
def FeSpace.entities {K : Type} (S : FeSpace K) (codim : ℕ) : List Ent :=
  (List.range (S.mesh.num codim)).map fun i => (codim, i)

/-- The dof handler as seen by the assembly functions; /repo/lib/lf/assemble/assembler.h:132-139. -/
def DofHandler.toMap (h : DofHandler) : DofMap Ent := ⟨h.numDofs, fun e => (h.globalDofIndices e).getD []⟩

/-- An element matrix as seen by the assembly functions; /repo/lib/lf/assemble/assembler.h:142-148. -/
noncomputable def ElemMat.toDense (m : ElemMat) : Dense ℝ :=
  ⟨m.1, m.1, fun i j => if h : i < m.1 ∧ j < m.1 then m.2 ⟨i, h.1⟩ ⟨j, h.2⟩ else 0⟩

/-- Whether `Eval` and `GlobalDofIndices` return, for all active entities. -/
def FeSpace.allReturn {K α : Type} (S : FeSpace K) (codim : ℕ) (active : Ent → Bool) (eval : Ent → Option α) : Bool :=
  (S.entities codim).all fun e => !active e || ((eval e).isSome && (S.dofh.globalDofIndices e).isSome)

/-- `AssembleMatrixLocally(codim, dofh, dofh, provider, matrix)` with the dof handler of the space `S` and a provider
with the methods `isActive = active` and `Eval = eval`; /repo/lib/lf/assemble/assembler.h:115-186.  If one of the calls
of `Eval` or `GlobalDofIndices` fails, so does the assembly. -/
noncomputable def assembleMatrixFE (S : FeSpace ℝ) (codim : ℕ) (active : Ent → Bool) (eval : Ent → Option ElemMat)
    (A : Coo ℝ) : Option (Coo ℝ) :=
  if S.allReturn codim active eval then
    assembleMatrixLocally (S.entities codim) S.dofh.toMap S.dofh.toMap
      ⟨active, fun e => ((eval e).map ElemMat.toDense).getD ⟨0, 0, fun _ _ => 0⟩⟩ A
  else none

/-- `AssembleVectorLocally(codim, dofh, provider, vector)`, likewise; /repo/lib/lf/assemble/assembler.h:297-327. -/
noncomputable def assembleVectorFE (S : FeSpace ℝ) (codim : ℕ) (active : Ent → Bool) (eval : Ent → Option ElemVec)
    (b : List ℝ) : Option (List ℝ) :=
  if S.allReturn codim active eval then
    assembleVectorLocally (S.entities codim) S.dofh.toMap
      ⟨active, fun e => ((eval e).map fun v => List.ofFn v.2).getD []⟩ b
  else none

end Verif
