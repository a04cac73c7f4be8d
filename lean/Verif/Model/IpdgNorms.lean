import Verif.Model.FeTools
import Verif.Model.Ipdg
import Verif.Model.MeshFunction
import Mathlib.LinearAlgebra.Matrix.Notation

/-!
# Model: norms of discontinuous velocities

`/repo/projects/ipdg_stokes/post_processing/norms.h`.  The square root of a negative number (`NaN`) is `none`, like failing assertions,
accesses outside of a range and divisions by zero.  `squaredNorm` acts on the Eigen objects which the mesh functions return, `t` is their
type.  In `DGnorm` the velocities are taken to be of type `Eigen::Vector2d`.
-/

namespace Verif.Ipdg
open Verif Geo

/-- `std::sqrt`. -/
noncomputable def sqrtOf (x : ℝ) : Option ℝ := if x < 0 then none else some (Real.sqrt x)

/-- `lf::fe::IntegrateMeshFunction(*mesh, mf, qr_selector)` with the default values of the last two arguments: all cells;
/repo/lib/lf/fe/fe_tools.h:110-126, called in /repo/projects/ipdg_stokes/post_processing/norms.h:42 and 72. -/
noncomputable def integrateCells (m : MeshObj) (geo : Ent → Option (Geo ℝ 2)) (mf : MeshFn ℝ ℝ) (sel : Ent → Option (QuadRule ℝ)) : Option ℝ :=
  integrateMeshFunction m.topo (fun e x => (geo e).bind fun g => g.integrationElement x) mf sel (fun _ => true) 0

/-- `L2norm(mesh, f, qr_selector)`; /repo/projects/ipdg_stokes/post_processing/norms.h:39-44. -/
noncomputable def l2Norm (m : MeshObj) (geo : Ent → Option (Geo ℝ 2)) (t : EigenTy) (f : MeshFn ℝ (EigenVal ℝ))
    (sel : Ent → Option (QuadRule ℝ)) : Option ℝ :=
  (integrateCells m geo (MeshFn.unary (squaredNormMatrix t) f) sel).bind sqrtOf

/-- `jump_t`; /repo/projects/ipdg_stokes/post_processing/norms.h:76-79. -/
abbrev JumpT := Matrix (Fin 2) (Fin 2) ℝ

/-- `segment_eval[j] * normals.col(i).transpose()`; /repo/projects/ipdg_stokes/post_processing/norms.h:106. -/
def outerProduct (v n : Vec ℝ 2) : JumpT := fun i j => v i * n j

/-- `quadpoints[i]`; /repo/projects/ipdg_stokes/post_processing/norms.h:88-98.  `Points()` is a row of `n` numbers, `Zero(n)` and `Ones(n)`
are columns of `n` numbers.  The initialisation of the matrix with two rows and `n` columns from a row and a column, and the
difference of a column and a row, are only possible for `n = 1`, otherwise assertions in Eigen fail. -/
def sidePoints (i : Fin 3) (qr : QuadRule ℝ) : Option (List (List ℝ)) :=
  match qr.points with
  | [[t]] => some [![[t, 0], [1 - t, t], [0, 1 - t]] i]
  | _ => none

/-- The values of a side in the order of the points of the edge, times the normal;
/repo/projects/ipdg_stokes/post_processing/norms.h:105-107 and 116-119. -/
def sideJumps (positive : Bool) (segmentEval : List (Vec ℝ 2)) (n : Vec ℝ 2) : List JumpT :=
  (if positive then segmentEval else segmentEval.reverse).map fun v => outerProduct v n

/-- The update of `eval(*edge)`: assignment if nothing is stored, otherwise addition;
/repo/projects/ipdg_stokes/post_processing/norms.h:103-112 and 114-125. -/
def addJumps (m : MeshObj) (ev : CodimDS (List JumpT)) (edge : Ent) (js : List JumpT) : Option (CodimDS (List JumpT)) :=
  (ev.read ⟨m.id, edge⟩).bind fun old =>
  if old.length = 0 then ev.write ⟨m.id, edge⟩ js
  else if js.length ≤ old.length then ev.write ⟨m.id, edge⟩ (List.zipWith (· + ·) old js ++ old.drop js.length)
  else none

/-- The body of the loop over the cells; /repo/projects/ipdg_stokes/post_processing/norms.h:81-128.  The loops over the sides in lines 88-98
and 99-127 are joined. -/
noncomputable def cellJumps (m : MeshObj) (geo : Ent → Option (Geo ℝ 2)) (f : MeshFn ℝ (Vec ℝ 2)) (sel : Ent → Option (QuadRule ℝ))
    (ev : CodimDS (List JumpT)) (c : ℕ) : Option (CodimDS (List JumpT)) :=
  (m.topo.subEntities (0, c) 1).bind fun edges =>
  (geo (0, c)).bind fun g =>
  (computeOutwardNormals g).bind fun normals =>
  ([0, 1, 2] : List (Fin 3)).foldlM (fun ev i =>
    (edges[i.val]?).bind fun edge =>
    ((m.topo.cell c).ori[i.val]?).bind fun positive =>
    (sel edge).bind fun qr =>
    (sidePoints i qr).bind fun pts =>
    (f (0, c) pts).bind fun segmentEval =>
    addJumps m ev edge (sideJumps positive segmentEval (normals i))) ev

/-- The body of the loop over the edges; /repo/projects/ipdg_stokes/post_processing/norms.h:129-142. -/
noncomputable def edgeTerm (m : MeshObj) (geo : Ent → Option (Geo ℝ 2)) (sel : Ent → Option (QuadRule ℝ)) (boundary : CodimDS Bool)
    (ev : CodimDS (List JumpT)) (norm2 : ℝ) (e : ℕ) : Option ℝ :=
  (boundary.read ⟨m.id, (1, e)⟩).bind fun bd =>
  if !bd then
    (sel (1, e)).bind fun qr =>
    (geo (1, e)).bind fun g =>
    (qr.points.mapM g.integrationElement).bind fun ie =>
    (g.volume).bind fun vol =>
    if qr.weights.length = ie.length ∧ vol ≠ 0 then
      let weights := (List.zipWith (· * ·) qr.weights ie).map fun w => w / vol
      (ev.read ⟨m.id, (1, e)⟩).bind fun p =>
      (List.range p.length).foldlM (fun norm2 i =>
        (weights[i]?).bind fun w => (p[i]?).map fun a => norm2 + w * ∑ r, ∑ c, a r c * a r c) norm2
    else none
  else some norm2

/-- `DGnorm(mesh, f, f_grad, qr_selector)`; /repo/projects/ipdg_stokes/post_processing/norms.h:67-144. -/
noncomputable def dgNorm (m : MeshObj) (geo : Ent → Option (Geo ℝ 2)) (f : MeshFn ℝ (Vec ℝ 2)) (t : EigenTy) (fGrad : MeshFn ℝ (EigenVal ℝ))
    (sel : Ent → Option (QuadRule ℝ)) : Option ℝ :=
  (integrateCells m geo (MeshFn.unary (squaredNormMatrix t) fGrad) sel).bind fun cells =>
  (flagEntitiesOnBoundary m 1).bind fun boundary =>
  (CodimDS.make m 1 []).bind fun ev0 =>
  ((List.range m.topo.numCells).foldlM (cellJumps m geo f sel) ev0).bind fun ev =>
  ((List.range m.topo.numEdges).foldlM (edgeTerm m geo sel boundary ev) (0 + cells)).bind sqrtOf

end Verif.Ipdg
