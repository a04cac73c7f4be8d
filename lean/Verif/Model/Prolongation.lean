import Verif.Model.FeTools
import Verif.Model.Transfer

/-!
# Model of `lf/fe/prolongation.h`
-/

namespace Verif

/-- `MeshFunctionTransfer` applied to a `MeshFunctionFE`, for all columns of `local`;
/repo/lib/lf/refinement/mesh_function_transfer.h:71-83, /repo/lib/lf/fe/mesh_function_fe.h:72-91.  The code
transforms all columns first and then evaluates; here it is done point by point. -/
def transferredFE {G K : Type} [Field K] [LinearOrder K] (T : MFTransfer G) (S : FeSpace K) (dofs : List K) : MeshFn K K :=
  fun e pts => pts.mapM fun x => (T.eval (S.evalFE dofs) e x).join

/-- `prolongate(mh, fespace_coarse, fespace_fine, dofs_coarse, level_coarse)`;
/repo/lib/lf/fe/prolongation.h:32-72.  The assertion in the constructor of `MeshFunctionTransfer` that the coarse
space belongs to the mesh of the coarse level is not modelled. -/
def prolongate {G K : Type} [Field K] [LinearOrder K] (H : Hierarchy G) (coarse fine : FeSpace K) (dofs : List K)
    (level : ℕ) : Option (List K) :=
  if level < H.numLevels - 1 ∧ coarse.dofh.numDofs ≤ dofs.length then
    (MFTransfer.make H level (level + 1)).bind fun T =>
    nodalProjection fine (transferredFE T coarse dofs) fun _ => true
  else none

end Verif
