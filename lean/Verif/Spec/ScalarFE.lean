import Mathlib.Analysis.Calculus.Deriv.Basic
import Verif.Model.ScalarFE
import Verif.Spec.Quad

/-!
# Specification vocabulary for scalar reference finite elements
-/

namespace Verif
namespace RefFE

/-- Value of the `i`-th reference shape function, as returned by `EvalReferenceShapeFunctions`. -/
def shape {K : Type} [Zero K] (fe : RefFE K) (i : ℕ) (x : List K) : K :=
  ((fe.eval x).getD []).getD i 0

/-- Evaluation succeeds exactly for points with the coordinates of the reference element, and gives one
value per shape function. -/
def Evaluates {K : Type} (fe : RefFE K) : Prop :=
  (∀ x, x.length = fe.ref.dimension → ∃ v, fe.eval x = some v ∧ v.length = fe.num) ∧
  ∀ x, x.length ≠ fe.ref.dimension → fe.eval x = none

/-- As many evaluation nodes as shape functions; shape function `i` is `1` at node `i`, `0` at the
others. -/
def Cardinal {K : Type} [Zero K] [One K] (fe : RefFE K) : Prop :=
  fe.nodes.length = fe.num ∧ (∀ p ∈ fe.nodes, p.length = fe.ref.dimension) ∧
  ∀ i < fe.num, ∀ j < fe.num, fe.shape i (fe.nodes.getD j []) = if i = j then 1 else 0

/-- The shape functions sum up to one. -/
def SumsToOne {K : Type} [Field K] (fe : RefFE K) : Prop :=
  ∀ x, x.length = fe.ref.dimension → ∑ i ∈ Finset.range fe.num, fe.shape i x = 1

/-- The linear combination of the shape functions with the coefficients which `NodalValuesToDofs`
computes from the values of `f` at the evaluation nodes is `f`, for all polynomials `f` of the degree
of the finite element. -/
def Reproduces (fe : RefFE ℝ) : Prop :=
  ∀ f, IsPolyOn fe.ref fe.degree f → ∃ c : List ℝ, fe.toDofs (fe.nodes.map f) = some c ∧
    c.length = fe.num ∧
    ∀ x, x.length = fe.ref.dimension → ∑ i ∈ Finset.range fe.num, c.getD i 0 * fe.shape i x = f x

/-- The shape functions are polynomials of the degree of the finite element. -/
def Polynomial (fe : RefFE ℝ) : Prop := ∀ i < fe.num, IsPolyOn fe.ref fe.degree (fe.shape i)

/-- `GradientsReferenceShapeFunctions` returns the partial derivatives. -/
def GradCorrect (fe : RefFE ℝ) : Prop :=
  ∀ x, x.length = fe.ref.dimension → ∃ g, fe.grad x = some g ∧ g.length = fe.num ∧
    ∀ i < fe.num, (g.getD i []).length = fe.ref.dimension ∧ ∀ k < fe.ref.dimension,
      HasDerivAt (fun t => fe.shape i (x.set k t)) ((g.getD i []).getD k 0) (x.getD k 0)

/-- The number of shape functions is the sum of the numbers announced for all sub-entities, and sub-entities of
the same codimension have the same number of shape functions. -/
def CountsConsistent {K : Type} (fe : RefFE K) : Prop :=
  (∀ c ≤ fe.ref.dimension, ∀ j < (fe.ref.numSubEntities c).getD 0,
    fe.numSub c j = fe.numCodim c ∧ (fe.numCodim c).isSome) ∧
  fe.num = ∑ c ∈ Finset.range (fe.ref.dimension + 1),
    (fe.ref.numSubEntities c).getD 0 * (fe.numCodim c).getD 0

/-- What is expected from a Lagrangian finite element. -/
structure IsLagrange (fe : RefFE ℝ) : Prop where
  evaluates : fe.Evaluates
  cardinal : fe.Cardinal
  sumsToOne : fe.SumsToOne
  reproduces : fe.Reproduces
  polynomial : fe.Polynomial
  gradCorrect : fe.GradCorrect
  countsConsistent : fe.CountsConsistent

end RefFE
end Verif
