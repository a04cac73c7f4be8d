import Verif.Model.LocComp
import Verif.Spec.LinFE
import Verif.Spec.ScalarFE

/-!
# Specification vocabulary for element matrices and element vectors
-/

namespace Verif
open Geo

/-- The reference gradient of the `i`-th shape function, as returned by
`GradientsReferenceShapeFunctions`. -/
def RefFE.gradAt (fe : RefFE ℝ) (i : ℕ) (x : List ℝ) : List ℝ := ((fe.grad x).getD []).getD i []

/-- The function on the reference element with coefficients `c`. -/
noncomputable def RefFE.combine (fe : RefFE ℝ) (c : Fin fe.num → ℝ) (x : List ℝ) : ℝ :=
  ∑ i, c i * fe.shape i.val x

/-- The same combination of the reference gradients, on elements of dimension two. -/
noncomputable def RefFE.combineGrad (fe : RefFE ℝ) (c : Fin fe.num → ℝ) (x : List ℝ) : List ℝ :=
  [∑ i, c i * (fe.gradAt i.val x).getD 0 0, ∑ i, c i * (fe.gradAt i.val x).getD 1 0]

/-- The coefficient as a matrix. -/
noncomputable def DiffCoeff.toMatrix {w : ℕ} : DiffCoeff w → Matrix (Fin w) (Fin w) ℝ
  | scalar c => c • 1
  | tensor A => A

variable {w : ℕ}

/-- What the local computations on a cell or edge with geometry `g` need from the finite element `fe` and the
quadrature rule `q`: shape functions and metric factors `detJ` can be evaluated in the quadrature points. -/
structure Computable (g : Geo ℝ w) (fe : RefFE ℝ) (q : QuadRule ℝ) (detJ : List ℝ → ℝ) : Prop where
  rule : q.weights.length = q.points.length
  metric : ∀ x ∈ q.points, g.integrationElement x = some (detJ x)
  shapes : ∀ x ∈ q.points, ∃ v, fe.eval x = some v ∧ v.length = fe.num

/-- In addition, for gradients: the reference gradients can be evaluated and the Jacobian has full rank. -/
structure ComputableGrad (g : Geo ℝ w) (fe : RefFE ℝ) (q : QuadRule ℝ) (detJ : List ℝ → ℝ) : Prop where
  dim : g.kind.dimension = 2
  rule : q.weights.length = q.points.length
  metric : ∀ x ∈ q.points, g.integrationElement x = some (detJ x)
  grads : ∀ x ∈ q.points, ∃ v, fe.grad x = some v ∧ v.length = fe.num ∧ ∀ d ∈ v, d.length = 2
  rank : ∀ x ∈ q.points, ∃ cols, g.jacobian x = some cols ∧
    ((matrix 2 cols).transpose * matrix 2 cols).det ≠ 0

/-- The value of the quadrature rule for the mass form of shape functions `i` and `j`,
`∫ γ N_j N_i`, transformed to the reference element. -/
noncomputable def massForm (fe : RefFE ℝ) (q : QuadRule ℝ) (detJ γ : List ℝ → ℝ) (i j : ℕ) : ℝ :=
  q.integrate fun x => detJ x * (γ x * (fe.shape j x * fe.shape i x))

/-- The value of the quadrature rule for the diffusion form of shape functions `i` and `j`,
`∫ (α grad N_j) · grad N_i`, transformed to the reference element. -/
noncomputable def diffusionForm (g : Geo ℝ w) (fe : RefFE ℝ) (q : QuadRule ℝ) (detJ : List ℝ → ℝ)
    (α : List ℝ → Matrix (Fin w) (Fin w) ℝ) (i j : ℕ) : ℝ :=
  q.integrate fun x => detJ x *
    dot (g.pushGrad x (fe.gradAt i x)) ((α x).mulVec (g.pushGrad x (fe.gradAt j x)))

/-- The value of the quadrature rule for the load of shape function `i`, `∫ f N_i`. -/
noncomputable def loadForm (fe : RefFE ℝ) (q : QuadRule ℝ) (detJ f : List ℝ → ℝ) (i : ℕ) : ℝ :=
  q.integrate fun x => detJ x * (f x * fe.shape i x)

end Verif
