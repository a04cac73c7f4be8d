import Verif.Model.Galerkin
import Verif.Spec.LocComp
import Verif.Spec.DofHandler

/-!
# Specification vocabulary: bilinear and linear forms on finite element functions
-/

namespace Verif
open Geo Finset

/-- `νᵀ D μ`. -/
def Dense.form (D : Dense ℝ) (ν μ : List ℝ) : ℝ :=
  ∑ r ∈ range D.rows, ∑ c ∈ range D.cols, ν.getD r 0 * (D.entry r c * μ.getD c 0)

/-- `νᵀ b`. -/
def dotList (ν b : List ℝ) : ℝ := ∑ r ∈ range b.length, ν.getD r 0 * b.getD r 0

/-- The value at the point `x` of entity `e` of the function with coefficients `u`, as returned by `MeshFunctionFE`. -/
noncomputable def FeSpace.value (S : FeSpace ℝ) (u : List ℝ) (e : Ent) (x : List ℝ) : ℝ := (S.evalFE u e x).getD 0

/-- The gradient, as returned by `MeshFunctionGradFE`. -/
noncomputable def FeSpace.gradient {w : ℕ} (S : FeSpace ℝ) (geo : Ent → Option (Geo ℝ w)) (u : List ℝ) (e : Ent)
    (x : List ℝ) : Vec ℝ w := (S.gradFE geo u e x).getD 0

/-- Geometry, finite element, quadrature rule and metric factor of an entity. -/
structure EntData (w : ℕ) where
  geo : Geo ℝ w
  fe : RefFE ℝ
  rule : QuadRule ℝ
  detJ : List ℝ → ℝ

/-- `X` describes the entity `e` of the mesh: these are its geometry, its finite element and the quadrature rule of the
degree used by the providers, and the finite element has one shape function for each dof of the entity. -/
structure EntData.Describes {w : ℕ} (X : EntData w) (get : RefEl → ℕ → Option (QuadRule ℝ)) (S : FeSpace ℝ)
    (geo : Ent → Option (Geo ℝ w)) (e : Ent) : Prop where
  geo : geo e = some X.geo
  layout : S.layout e = some X.fe
  kind : S.mesh.refEl e = some X.geo.kind
  rule : get X.geo.kind (2 * X.fe.degree) = some X.rule
  num : (S.dofh.all e).length = X.fe.num

section
variable {w : ℕ} (S : FeSpace ℝ) (X : Ent → EntData w) (es : List Ent)

/-- `∑ₑ ∫ₑ γ v u` for the finite element functions `v` and `u` with coefficients `ν` and `μ`, with the integrals over the
entities of `es` replaced by quadrature on the reference element. -/
noncomputable def massSum (γ : Ent → List ℝ → ℝ) (ν μ : List ℝ) : ℝ :=
  (es.map fun e => (X e).rule.integrate fun x => (X e).detJ x * (γ e x * (S.value ν e x * S.value μ e x))).sum

/-- Likewise `∑ₑ ∫ₑ grad v · α grad u`. -/
noncomputable def diffusionSum (geo : Ent → Option (Geo ℝ w)) (α : Ent → List ℝ → Matrix (Fin w) (Fin w) ℝ)
    (ν μ : List ℝ) : ℝ :=
  (es.map fun e => (X e).rule.integrate fun x => (X e).detJ x *
    dot (S.gradient geo ν e x) ((α e x).mulVec (S.gradient geo μ e x))).sum

/-- Likewise `∑ₑ ∫ₑ f v`. -/
noncomputable def loadSum (f : Ent → List ℝ → ℝ) (ν : List ℝ) : ℝ :=
  (es.map fun e => (X e).rule.integrate fun x => (X e).detJ x * (f e x * S.value ν e x)).sum

end

/-- The dofs of a finite element space as the assembly functions need them: `GlobalDofIndices` returns for all entities
and all indices are below `NumDofs()`, which fits the index type. -/
structure FeSpace.DofsOk (S : FeSpace ℝ) : Prop where
  answers : S.dofh.Answers S.mesh
  range : S.dofh.DistinctInRange S.mesh
  fits : S.dofh.numDofs < 2 ^ 31

end Verif
