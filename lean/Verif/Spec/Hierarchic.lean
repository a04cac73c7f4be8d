import Verif.Spec.ScalarFE

/-!
# Specification vocabulary for hierarchic finite elements
-/

namespace Verif
namespace RefFE

/-- The number of shape functions is the sum of the numbers of those associated with the single
sub-entities; sub-entities of the same codimension may have different numbers. -/
def CountsBySubEntity {K : Type} (fe : RefFE K) : Prop :=
  (∀ c ≤ fe.ref.dimension, ∀ j < (fe.ref.numSubEntities c).getD 0, (fe.numSub c j).isSome) ∧
  fe.num = ∑ c ∈ Finset.range (fe.ref.dimension + 1),
    ∑ j ∈ Finset.range ((fe.ref.numSubEntities c).getD 0), (fe.numSub c j).getD 0

/-- The functionals behind `NodalValuesToDofs` are dual to the shape functions: from the values of a
linear combination of the shape functions at the evaluation nodes the coefficients are recovered. -/
def Dual {K : Type} [Field K] (fe : RefFE K) : Prop :=
  ∀ c : List K, c.length = fe.num →
    fe.toDofs (fe.nodes.map fun x => ∑ i ∈ Finset.range fe.num, c.getD i 0 * fe.shape i x) = some c

/-- Polynomials of degree `m` are reproduced: the linear combination of the shape functions with the coefficients which
`NodalValuesToDofs` computes from the values of `f` at the evaluation nodes is `f`. -/
def ReproducesUpTo (fe : RefFE ℝ) (m : ℕ) : Prop :=
  ∀ f, IsPolyOn fe.ref m f → ∃ c : List ℝ, fe.toDofs (fe.nodes.map f) = some c ∧ c.length = fe.num ∧
    ∀ x, x.length = fe.ref.dimension → ∑ i ∈ Finset.range fe.num, c.getD i 0 * fe.shape i x = f x

end RefFE
end Verif
