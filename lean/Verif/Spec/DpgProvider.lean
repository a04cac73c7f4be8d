import Verif.Model.DpgProvider
import Verif.Spec.Galerkin

/-!
# Specification vocabulary: bilinear forms on product spaces and minimisation
-/

namespace Verif.Dpg
open Verif

/-- The coefficients of component `i` in a vector of coefficients of the product space `D`. -/
def compPart (D : ProductFE.Data) (i : ℕ) (u : List ℝ) : List ℝ :=
  (u.drop ((D.offset i).getD 0)).take (((D.comps[i]?).map DofHandler.numDofs).getD 0)

/-- The coefficients of the dofs of an entity, in the order of `GlobalDofIndices`. -/
def localPart (h : DofHandler) (u : List ℝ) (e : Ent) : List ℝ := (h.all e).map fun d => u.getD d 0

/-- The provider `p` evaluates to matrices of the size required by the dof handlers on all cells where it is active. -/
def MatProv.Fits (P : MatProv) (T : Topo) (trial test : DofHandler) : Prop :=
  ∀ e ∈ T.entities 0, P.isActive e = true → ∃ M, P.eval e = some M ∧ M.rows = (test.all e).length ∧
    M.cols = (trial.all e).length

def VecProv.Fits (P : VecProv) (T : Topo) (test : DofHandler) : Prop :=
  ∀ e ∈ T.entities 0, P.isActive e = true → ∃ v, P.eval e = some v ∧ v.length = (test.all e).length

/-- What the assembly functions need of a dof handler. -/
structure DofsOk (T : Topo) (h : DofHandler) : Prop where
  answers : ∀ e ∈ T.entities 0, h.globalDofIndices e = some (h.all e)
  range : ∀ e ∈ T.entities 0, ∀ d ∈ h.all e, d < h.numDofs
  fits : h.numDofs < 2 ^ 31

/-- The matrix assembled from a sub-provider alone, on the spaces of its two components. -/
noncomputable def componentMatrix (T : Topo) (U V : ProductFE.Data) (p : SubMat) : Option (Dense ℝ) :=
  (U.comps[p.trialComponent]?).bind fun hU =>
  (V.comps[p.testComponent]?).bind fun hV =>
  (assembleMat T hU hV p.toMatProv).bind Coo.makeDense

/-- The vector assembled from a sub-provider alone, on the space of its component. -/
noncomputable def componentVector (T : Topo) (V : ProductFE.Data) (p : SubVec) : Option (List ℝ) :=
  (V.comps[p.testComponent]?).bind fun hV => assembleVec T hV p.toVecProv

/-- The components of a sub-provider exist, and its element matrices have the sizes required by them. -/
def SubMat.FitsIn (p : SubMat) (T : Topo) (U V : ProductFE.Data) : Prop :=
  ∃ hU hV, U.comps[p.trialComponent]? = some hU ∧ V.comps[p.testComponent]? = some hV ∧ p.toMatProv.Fits T hU hV

def SubVec.FitsIn (p : SubVec) (T : Topo) (V : ProductFE.Data) : Prop :=
  ∃ hV, V.comps[p.testComponent]? = some hV ∧ p.toVecProv.Fits T hV

/-- A symmetric positive definite matrix. -/
structure SPD (G : Dense ℝ) : Prop where
  square : G.rows = G.cols
  symm : ∀ i < G.rows, ∀ j < G.rows, G.entry i j = G.entry j i
  pos : ∀ x : List ℝ, (∃ i < G.rows, x.getD i 0 ≠ 0) → 0 < G.form x x

/-- What the code expects of `ldlt().solve()`: linear systems with a symmetric positive definite matrix are solved. -/
def Ldlt.Solves (ldlt : Ldlt) : Prop :=
  ∀ G, SPD G → ∀ l : List ℝ, l.length = G.rows →
    ∀ i < G.rows, ∑ j ∈ Finset.range G.rows, G.entry i j * (ldlt G l).getD j 0 = l.getD i 0

/-- `z` represents the functional `r` with respect to the inner product `G`: `G z = r`. -/
def Represents (G : Dense ℝ) (z r : List ℝ) : Prop :=
  ∀ i < G.rows, ∑ j ∈ Finset.range G.cols, G.entry i j * z.getD j 0 = r.getD i 0

/-- The setting of the DPG method: all cells are active, and on every cell there are an extended element matrix `B`, a
symmetric positive definite Gramian `G` and a load vector `l` of matching sizes. -/
structure DpgSetting (ldlt : Ldlt) (T : Topo) (dofh : DofHandler) (stiffness gramian : MatProv) (load : VecProv) : Prop where
  solves : ldlt.Solves
  dofs : DofsOk T dofh
  numLocal : ∀ e ∈ T.entities 0, dofh.numLocalDofs e = some (dofh.all e).length
  active : ∀ e ∈ T.entities 0, stiffness.isActive e = true ∧ gramian.isActive e = true ∧ load.isActive e = true
  cell : ∀ e ∈ T.entities 0, ∃ B G l, stiffness.eval e = some B ∧ gramian.eval e = some G ∧ load.eval e = some l ∧
    SPD G ∧ B.rows = G.rows ∧ B.cols = (dofh.all e).length ∧ l.length = G.rows

/-- The DPG error estimator of the function with coefficients `u`: `ElementErrorEstimators` and `EvalPosteriorError`. -/
noncomputable def estimator (ldlt : Ldlt) (m : MeshObj) (dofh : DofHandler) (stiffness gramian : MatProv) (load : VecProv)
    (u : List ℝ) : Option ℝ :=
  (elementErrorEstimators ldlt m dofh stiffness gramian load u).bind (evalPosteriorError m)

end Verif.Dpg
