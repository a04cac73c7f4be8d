import Mathlib.Algebra.Module.Defs
import Verif.Model.ScalarFE
import Verif.Model.Quad

/-!
# Model of `lf/fe/fe_tools.h`: `NodalProjection`, `IntegrateMeshFunction`,
`InitEssentialConditionFromFunction`

Predicates on entities are functions of the index of the entity.  Failing checks, null pointers that are
dereferenced and out-of-range accesses are modelled by `none`; in particular taking the address of the
first element of an empty vector (`&values[0]`).
-/

namespace Verif

/-- A mesh function: its values at points of an entity given by their local coordinates;
/repo/lib/lf/mesh/utils/mesh_function_traits.h:20-51.  `none`: evaluation fails. -/
abbrev MeshFn (K V : Type) := Ent → List (List K) → Option (List V)

section
variable {K : Type} [Field K]

/-- `MeshFunctionFE`: the mesh function of a coefficient vector;
/repo/lib/lf/fe/mesh_function_fe.h:72-91 for all columns of `local`. -/
def FeSpace.meshFunction (S : FeSpace K) (dofs : List K) : MeshFn K K :=
  fun e pts => pts.mapM (S.evalFE dofs e)

/-- Writing into a vector with check of the range. -/
def setEntry {V : Type} (vec : List V) (d : ℕ) (v : V) : Option (List V) :=
  if d < vec.length then some (vec.set d v) else none

/-- `&vec[0]` with `vec.size()`: view of a `std::vector` as a row vector. -/
def mapVector {V : Type} (vec : List V) : Option (List V) := if vec.length = 0 then none else some vec

/-- Body of the loop over cells; /repo/lib/lf/fe/fe_tools.h:224-261. -/
def projectCell (S : FeSpace K) (u : MeshFn K K) (pred : ℕ → Bool) (glob : List K) (c : ℕ) :
    Option (List K) :=
  if !pred c then some glob else
  (S.layout (0, c)).bind fun fe =>
  (u (0, c) fe.nodes).bind fun uvalvec =>
  (mapVector uvalvec).bind fun row =>
  (fe.toDofs row).bind fun dofvec =>
  (S.dofh.numLocalDofs (0, c)).bind fun n =>
  if dofvec.length = n then
    (S.dofh.globalDofIndices (0, c)).bind fun gidx =>
    (List.range n).foldlM (fun glob j =>
      (gidx[j]?).bind fun d => (dofvec[j]?).bind fun v => setEntry glob d v) glob
  else none

/-- `NodalProjection`; /repo/lib/lf/fe/fe_tools.h:199-263. -/
def nodalProjection (S : FeSpace K) (u : MeshFn K K) (pred : ℕ → Bool) : Option (List K) :=
  (List.range S.mesh.numCells).foldlM (projectCell S u pred) (List.replicate S.dofh.numDofs 0)

/-- Body of the loop over edges; /repo/lib/lf/fe/fe_tools.h:328-365. -/
def essentialEdge (S : FeSpace K) (flag : ℕ → Bool) (g : MeshFn K K) (vec : List (Bool × K)) (e : ℕ) :
    Option (List (Bool × K)) :=
  if flag e then
    (S.layout (1, e)).bind fun fe =>
    (g (1, e) fe.nodes).bind fun gvals =>
    (mapVector gvals).bind fun row =>
    (fe.toDofs row).bind fun dofvals =>
    (S.dofh.numLocalDofs (1, e)).bind fun n =>
    if dofvals.length = fe.num ∧ n = dofvals.length then
      (S.dofh.globalDofIndices (1, e)).bind fun gidx =>
      (List.range gidx.length).foldlM (fun vec k =>
        (gidx[k]?).bind fun d => (dofvals[k]?).bind fun v => setEntry vec d (true, v)) vec
    else none
  else some vec

/-- `InitEssentialConditionFromFunction`; /repo/lib/lf/fe/fe_tools.h:311-367. -/
def initEssentialCondition (S : FeSpace K) (flag : ℕ → Bool) (g : MeshFn K K) :
    Option (List (Bool × K)) :=
  (List.range S.mesh.numEdges).foldlM (essentialEdge S flag g)
    (List.replicate S.dofh.numDofs (false, 0))

variable {V : Type} [AddCommMonoid V] [Module K V]

/-- `internal::LocalIntegral`; /repo/lib/lf/fe/fe_tools.h:36-71.  `ie` stands for
`Geometry()->IntegrationElement`, one column at a time.  This is the last of the three branches, a loop;
the two others, for numbers and matrices of fixed size, write the same sum as a matrix product and need a
first value, too. -/
def localIntegral (ie : Ent → List K → Option K) (qrSelector : Ent → Option (QuadRule K))
    (mf : MeshFn K V) (e : Ent) : Option V :=
  (qrSelector e).bind fun qr =>
  (mf e qr.points).bind fun values =>
  (qr.points.mapM (ie e)).bind fun ies =>
  if qr.weights.length = ies.length ∧ values.length = qr.numPoints then
    let weightsIe := List.zipWith (· * ·) qr.weights ies
    (weightsIe[0]?).bind fun w0 => (values[0]?).bind fun v0 =>
    (List.range' 1 (qr.numPoints - 1)).foldlM (fun temp i =>
      (weightsIe[i]?).bind fun w => (values[i]?).map fun v => temp + w • v) (w0 • v0)
  else none

/-- `IntegrateMeshFunction` with a selector for quadrature rules; /repo/lib/lf/fe/fe_tools.h:110-126.
The first entity is dereferenced without asking whether there is one, and without asking the predicate. -/
def integrateMeshFunction (T : Topo) (ie : Ent → List K → Option K) (mf : MeshFn K V)
    (qrSelector : Ent → Option (QuadRule K)) (ep : ℕ → Bool) (codim : ℕ) : Option V :=
  if T.num codim = 0 then none else
  (localIntegral ie qrSelector mf (codim, 0)).bind fun result =>
  (List.range' 1 (T.num codim - 1)).foldlM (fun result i =>
    if !ep i then some result
    else (localIntegral ie qrSelector mf (codim, i)).map fun v => result + v) result

/-- `IntegrateMeshFunction` with a degree; /repo/lib/lf/fe/fe_tools.h:154-168.  There is no rule for
points, so the default constructed one is used for them. -/
def integrateMeshFunctionDegree (B : QuadBase K) (T : Topo) (ie : Ent → List K → Option K)
    (mf : MeshFn K V) (quadDegree : ℕ) (ep : ℕ → Bool) (codim : ℕ) : Option V :=
  (makeQuadRule B .segment quadDegree).bind fun qs =>
  (makeQuadRule B .tria quadDegree).bind fun qt =>
  (makeQuadRule B .quad quadDegree).bind fun qq =>
  integrateMeshFunction T ie mf (fun e => (T.refEl e).map fun
    | .point => QuadRule.empty
    | .segment => qs
    | .tria => qt
    | .quad => qq) ep codim

end
end Verif
