import Verif.Model.FeTools
import Verif.Model.Geometry
import Mathlib.Data.Matrix.Mul

/-!
# Model of the element matrix and element vector providers of `lf/fe/loc_comp_ellbvp.h` and
# `lf/uscalfe/loc_comp_ellbvp.h`

`SCALAR` is `double`, i.e. `ℝ`; complex scalars are not modelled (for real numbers `adjoint()` is
`transpose()` and `conjugate()` has no effect).  `geo e` is the geometry of entity `e`, in a world of
dimension `w`; `get` is `qr_cache_.Get`, see `QuadCache`.  An Eigen matrix `rsf` or `grsf`, which has one
block of columns per quadrature point, is the list of these blocks.  Access out of range, a mismatch of
sizes and failing assertions are `none`.
-/

namespace Verif
open Geo

/-- Element matrices and element vectors: their size is only known at run time. -/
abbrev ElemMat := (n : ℕ) × Matrix (Fin n) (Fin n) ℝ
abbrev ElemVec := (n : ℕ) × (Fin n → ℝ)

/-- Values of a diffusion coefficient: numbers or matrices. -/
inductive DiffCoeff (w : ℕ)
  | scalar (c : ℝ)
  | tensor (A : Matrix (Fin w) (Fin w) ℝ)

/-- `alphaval[k] * trf_grad`, for one column of `trf_grad`. -/
noncomputable def DiffCoeff.act {w : ℕ} : DiffCoeff w → Vec ℝ w → Vec ℝ w
  | scalar c, v => c • v
  | tensor A, v => A.mulVec v

variable {w : ℕ}

/-- Column `i` of `trf_grad`: `JinvT_k * (row i of grsf_k)ᵀ`. -/
noncomputable def trfGrad (J : List (Vec ℝ w)) (grads : List (List ℝ)) (i : ℕ) : Vec ℝ w :=
  (grads.getD i []).getD 0 0 • J.getD 0 0 + (grads.getD i []).getD 1 0 • J.getD 1 0

/-- Whether the blocks `JinvT.block(0, 2 * k, world_dim, 2)` and `grsf.block(0, 2 * k, mat.rows(), 2)`
have the sizes asked for. -/
def blocksFit (n : ℕ) (J : List (Vec ℝ w)) (grads : List (List ℝ)) : Bool :=
  J.length == 2 && grads.length == n && grads.all fun d => d.length == 2

section Fe
variable (get : RefEl → ℕ → Option (QuadRule ℝ)) (S : FeSpace ℝ) (geo : Ent → Option (Geo ℝ w))

/-- `DiffusionElementMatrixProvider::Eval`; /repo/lib/lf/fe/loc_comp_ellbvp.h:169-219. -/
noncomputable def diffusionElementMatrix (alpha : MeshFn ℝ (DiffCoeff w)) (cell : Ent) : Option ElemMat :=
  (geo cell).bind fun g =>
  if g.kind.dimension ≠ 2 then none else
  (S.layout cell).bind fun fe =>
  (S.mesh.refEl cell).bind fun ref =>
  (get ref (2 * fe.degree)).bind fun qr =>
  (qr.points.mapM g.integrationElement).bind fun determinants =>
  (qr.points.mapM g.jacobianInverseGramian).bind fun JinvT =>
  (alpha cell qr.points).bind fun alphaval =>
  (qr.points.mapM fe.grad).bind fun grsf =>
  ((List.range qr.numPoints).foldlM (fun (mat : Matrix (Fin fe.num) (Fin fe.num) ℝ) k =>
    (qr.weights[k]?).bind fun weight => (determinants[k]?).bind fun det =>
    (JinvT[k]?).bind fun J => (grsf[k]?).bind fun grads => (alphaval[k]?).bind fun a =>
    if blocksFit fe.num J grads then
      some (mat + (weight * det) • Matrix.of fun i j => dot (trfGrad J grads i.val) (a.act (trfGrad J grads j.val)))
    else none) 0).map fun mat => ⟨fe.num, mat⟩

/-- `MassElementMatrixProvider::Eval`; /repo/lib/lf/fe/loc_comp_ellbvp.h:349-384. -/
noncomputable def massElementMatrix (gamma : MeshFn ℝ ℝ) (cell : Ent) : Option ElemMat :=
  (geo cell).bind fun g =>
  if g.kind.dimension ≠ 2 then none else
  (S.layout cell).bind fun fe =>
  (S.mesh.refEl cell).bind fun ref =>
  (get ref (2 * fe.degree)).bind fun qr =>
  (qr.points.mapM g.integrationElement).bind fun determinants =>
  (gamma cell qr.points).bind fun gammaval =>
  (qr.points.mapM fe.eval).bind fun rsf =>
  ((List.range qr.numPoints).foldlM (fun (mat : Matrix (Fin fe.num) (Fin fe.num) ℝ) k =>
    (qr.weights[k]?).bind fun weight => (determinants[k]?).bind fun det =>
    (gammaval[k]?).bind fun c => (rsf[k]?).bind fun col =>
    if col.length = fe.num then
      some (mat + (weight * det) • Matrix.of fun i j => (c * col.getD i.val 0) * col.getD j.val 0)
    else none) 0).map fun mat => ⟨fe.num, mat⟩

/-- `MassEdgeMatrixProvider::Eval`; /repo/lib/lf/fe/loc_comp_ellbvp.h:501-532. -/
noncomputable def massEdgeMatrix (gamma : MeshFn ℝ ℝ) (edge : Ent) : Option ElemMat :=
  (geo edge).bind fun g =>
  (S.layout edge).bind fun fe =>
  (S.mesh.refEl edge).bind fun ref =>
  (get ref (2 * fe.degree)).bind fun qr =>
  (qr.points.mapM g.integrationElement).bind fun determinants =>
  (gamma edge qr.points).bind fun gammaval =>
  (qr.points.mapM fe.eval).bind fun rsf =>
  ((List.range determinants.length).foldlM (fun (mat : Matrix (Fin fe.num) (Fin fe.num) ℝ) k =>
    (qr.weights[k]?).bind fun weight => (determinants[k]?).bind fun det =>
    (gammaval[k]?).bind fun c => (rsf[k]?).bind fun col =>
    if col.length = fe.num then
      some (mat + (weight * det * c) • Matrix.of fun i j => col.getD i.val 0 * col.getD j.val 0)
    else none) 0).map fun mat => ⟨fe.num, mat⟩

/-- `ScalarLoadElementVectorProvider::Eval`; /repo/lib/lf/fe/loc_comp_ellbvp.h:642-694. -/
noncomputable def loadElementVector (f : MeshFn ℝ ℝ) (cell : Ent) : Option ElemVec :=
  (S.layout cell).bind fun fe =>
  (S.mesh.refEl cell).bind fun ref =>
  (get ref (2 * fe.degree)).bind fun qr =>
  (geo cell).bind fun g =>
  if g.kind.dimension ≠ 2 then none else
  (qr.points.mapM g.integrationElement).bind fun determinants =>
  (f cell qr.points).bind fun fval =>
  (qr.points.mapM fe.eval).bind fun rsf =>
  ((List.range determinants.length).foldlM (fun (vec : Fin fe.num → ℝ) k =>
    (qr.weights[k]?).bind fun weight => (determinants[k]?).bind fun det =>
    (fval[k]?).bind fun c => (rsf[k]?).bind fun col =>
    if col.length = fe.num then some (vec + (weight * det * c) • fun i => col.getD i.val 0) else none)
    0).map fun vec => ⟨fe.num, vec⟩

/-- `ScalarLoadEdgeVectorProvider::Eval`; /repo/lib/lf/fe/loc_comp_ellbvp.h:798-836. -/
noncomputable def loadEdgeVector (f : MeshFn ℝ ℝ) (edge : Ent) : Option ElemVec :=
  (geo edge).bind fun g =>
  if g.kind.dimension ≠ 1 then none else
  (S.layout edge).bind fun fe =>
  (S.mesh.refEl edge).bind fun ref =>
  (get ref (2 * fe.degree)).bind fun qr =>
  (qr.points.mapM g.integrationElement).bind fun determinants =>
  (f edge qr.points).bind fun fval =>
  (qr.points.mapM fe.eval).bind fun rsf =>
  ((List.range qr.numPoints).foldlM (fun (vec : Fin fe.num → ℝ) k =>
    (qr.weights[k]?).bind fun weight => (determinants[k]?).bind fun det =>
    (fval[k]?).bind fun c => (rsf[k]?).bind fun col =>
    if col.length = fe.num then some (vec + (weight * det * c) • fun i => col.getD i.val 0) else none)
    0).map fun vec => ⟨fe.num, vec⟩

end Fe

section Uscalfe

/-- `PrecomputedScalarReferenceFiniteElement`, if initialized;
/repo/lib/lf/uscalfe/precomputed_scalar_reference_finite_element.h:75-81, 169-180. -/
structure PrecompFE where
  fe : RefFE ℝ
  qr : QuadRule ℝ
  rsf : List (List ℝ)
  grsf : List (List (List ℝ))

/-- The constructor; /repo/lib/lf/uscalfe/precomputed_scalar_reference_finite_element.h:75-81. -/
noncomputable def PrecompFE.make (fe : RefFE ℝ) (qr : QuadRule ℝ) : Option PrecompFE :=
  (qr.points.mapM fe.eval).bind fun rsf => (qr.points.mapM fe.grad).map fun grsf => ⟨fe, qr, rsf, grsf⟩

/-- Which rule the first constructors of `ReactionDiffusionElementMatrixProvider` and
`ScalarLoadElementVectorProvider` take; /repo/lib/lf/uscalfe/loc_comp_ellbvp.h:226-227, 652. -/
noncomputable def builtinRule (B : QuadBase ℝ) (ref : RefEl) (fe : RefFE ℝ) : Option (Option (QuadRule ℝ)) :=
  (makeQuadRule B ref (2 * fe.degree)).map some

/-- Which rule the second constructors take from the collection passed by the user: a missing rule leaves
the entry uninitialized (`ReactionDiffusionElementMatrixProvider`, `strict = false`) or is an error
(`ScalarLoadElementVectorProvider`, `strict = true`); /repo/lib/lf/uscalfe/loc_comp_ellbvp.h:250-260,
667-684. -/
def userRule (strict : Bool) (coll : RefEl → Option (QuadRule ℝ)) (ref : RefEl) (_fe : RefFE ℝ) :
    Option (Option (QuadRule ℝ)) :=
  match coll ref with
  | some q => if q.ref = ref then some (some q) else none
  | none => if strict then none else some none

/-- What the constructors store in `fe_precomp_[ref.Id()]`: `none` if they fail, `some none` if the entry is
left uninitialized; /repo/lib/lf/uscalfe/loc_comp_ellbvp.h:209-263, 641-687. -/
noncomputable def precompute (S : UniformFESpace ℝ) (rule : RefEl → RefFE ℝ → Option (Option (QuadRule ℝ)))
    (ref : RefEl) : Option (Option PrecompFE) :=
  if ref = .tria ∨ ref = .quad then
    match S.layout ref with
    | some fe => (rule ref fe).bind fun
      | some qr => (PrecompFE.make fe qr).map some
      | none => some none
    | none => some none
  else some none

variable (pre : RefEl → Option PrecompFE) (T : Topo) (geo : Ent → Option (Geo ℝ w))

/-- `ReactionDiffusionElementMatrixProvider::Eval`; /repo/lib/lf/uscalfe/loc_comp_ellbvp.h:265-339.  `pre` is
`fe_precomp_`, with `none` for uninitialized entries. -/
noncomputable def reactionDiffusionElementMatrix (alpha : MeshFn ℝ (DiffCoeff w)) (gamma : MeshFn ℝ ℝ)
    (cell : Ent) : Option ElemMat :=
  (T.refEl cell).bind fun ref =>
  (pre ref).bind fun pfe =>
  (geo cell).bind fun g =>
  if g.kind.dimension ≠ 2 then none else
  (pfe.qr.points.mapM g.integrationElement).bind fun determinants =>
  (pfe.qr.points.mapM g.jacobianInverseGramian).bind fun JinvT =>
  (alpha cell pfe.qr.points).bind fun alphaval =>
  (gamma cell pfe.qr.points).bind fun gammaval =>
  ((List.range pfe.qr.numPoints).foldlM (fun (mat : Matrix (Fin pfe.fe.num) (Fin pfe.fe.num) ℝ) k =>
    (pfe.qr.weights[k]?).bind fun weight => (determinants[k]?).bind fun det =>
    (JinvT[k]?).bind fun J => (pfe.grsf[k]?).bind fun grads => (alphaval[k]?).bind fun a =>
    (gammaval[k]?).bind fun c => (pfe.rsf[k]?).bind fun col =>
    if blocksFit pfe.fe.num J grads ∧ col.length = pfe.fe.num then
      some (mat + (weight * det) •
        ((Matrix.of fun i j => dot (trfGrad J grads i.val) (a.act (trfGrad J grads j.val))) +
          Matrix.of fun i j => (c * col.getD i.val 0) * col.getD j.val 0))
    else none) 0).map fun mat => ⟨pfe.fe.num, mat⟩

/-- `MassEdgeMatrixProvider::Eval` (of `lf::uscalfe`); /repo/lib/lf/uscalfe/loc_comp_ellbvp.h:491-530.  `pfe`
is `fe_precomp_`. -/
noncomputable def uMassEdgeMatrix (pfe : PrecompFE) (gamma : MeshFn ℝ ℝ) (edge : Ent) : Option ElemMat :=
  (T.refEl edge).bind fun ref =>
  if ref ≠ .segment then none else
  (geo edge).bind fun g =>
  (pfe.qr.points.mapM g.integrationElement).bind fun determinants =>
  (gamma edge pfe.qr.points).bind fun gammaval =>
  ((List.range determinants.length).foldlM (fun (mat : Matrix (Fin pfe.fe.num) (Fin pfe.fe.num) ℝ) k =>
    (pfe.qr.weights[k]?).bind fun weight => (determinants[k]?).bind fun det =>
    (gammaval[k]?).bind fun c => (pfe.rsf[k]?).bind fun col =>
    if col.length = pfe.fe.num then
      some (mat + (weight * det * c) • Matrix.of fun i j => col.getD i.val 0 * col.getD j.val 0)
    else none) 0).map fun mat => ⟨pfe.fe.num, mat⟩

/-- `ScalarLoadElementVectorProvider::Eval` (of `lf::uscalfe`);
/repo/lib/lf/uscalfe/loc_comp_ellbvp.h:690-747. -/
noncomputable def uLoadElementVector (f : MeshFn ℝ ℝ) (cell : Ent) : Option ElemVec :=
  (T.refEl cell).bind fun ref =>
  (pre ref).bind fun pfe =>
  (geo cell).bind fun g =>
  if g.kind.dimension ≠ 2 then none else
  (pfe.qr.points.mapM g.integrationElement).bind fun determinants =>
  (f cell pfe.qr.points).bind fun fval =>
  ((List.range determinants.length).foldlM (fun (vec : Fin pfe.fe.num → ℝ) k =>
    (pfe.qr.weights[k]?).bind fun weight => (determinants[k]?).bind fun det =>
    (fval[k]?).bind fun c => (pfe.rsf[k]?).bind fun col =>
    if col.length = pfe.fe.num then some (vec + (weight * det * c) • fun i => col.getD i.val 0) else none)
    0).map fun vec => ⟨pfe.fe.num, vec⟩

/-- `ScalarLoadEdgeVectorProvider::Eval` (of `lf::uscalfe`);
/repo/lib/lf/uscalfe/loc_comp_ellbvp.h:882-921.  `pfe` is `pfe_`. -/
noncomputable def uLoadEdgeVector (pfe : PrecompFE) (f : MeshFn ℝ ℝ) (edge : Ent) : Option ElemVec :=
  (T.refEl edge).bind fun ref =>
  if ref ≠ .segment then none else
  (geo edge).bind fun g =>
  (pfe.qr.points.mapM g.global).bind fun _mapped =>
  (pfe.qr.points.mapM g.integrationElement).bind fun determinants =>
  (f edge pfe.qr.points).bind fun fval =>
  ((List.range pfe.qr.numPoints).foldlM (fun (vec : Fin pfe.fe.num → ℝ) k =>
    (pfe.qr.weights[k]?).bind fun weight => (determinants[k]?).bind fun det =>
    (fval[k]?).bind fun c => (pfe.rsf[k]?).bind fun col =>
    if col.length = pfe.fe.num then some (vec + (weight * det * c) • fun i => col.getD i.val 0) else none)
    0).map fun vec => ⟨pfe.fe.num, vec⟩

end Uscalfe
end Verif
