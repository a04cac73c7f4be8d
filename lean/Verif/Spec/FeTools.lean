import Verif.Model.FeTools
import Verif.Spec.DofHandler
import Verif.Spec.Hierarchic

/-!
# Specification vocabulary for `lf/fe/fe_tools.h`
-/

namespace Verif

namespace FeSpace
variable {K : Type} [Field K]

/-- `v` are the dof values which the finite element on entity `e` computes from the values of the mesh
function `g` at its evaluation nodes, one for each dof of the entity. -/
def Interpolant (S : FeSpace K) (g : MeshFn K K) (e : Ent) (v : List K) : Prop :=
  ∃ fe vals, S.layout e = some fe ∧ g e fe.nodes = some vals ∧ vals ≠ [] ∧ fe.toDofs vals = some v ∧
    v.length = (S.dofh.all e).length ∧ (e.1 = 1 → v.length = fe.num)

/-- On entity `e` the functionals behind `NodalValuesToDofs` are dual to the shape functions, which are
as many as the entity has dofs and can be evaluated at the evaluation nodes. -/
def Unisolvent (S : FeSpace K) (e : Ent) : Prop :=
  ∃ fe, S.layout e = some fe ∧ fe.Dual ∧ fe.nodes ≠ [] ∧
    (∀ p ∈ fe.nodes, ∃ v, fe.eval p = some v ∧ v.length = fe.num) ∧ (S.dofh.all e).length = fe.num

end FeSpace

section
variable {K V : Type} [Field K] [AddCommMonoid V] [Module K V]

/-- The value of a quadrature rule, transformed to an entity, for the integrand `f`. -/
def QuadRule.transformed (q : QuadRule K) (detJ : List K → K) (f : List K → V) : V :=
  ((List.zip q.weights q.points).map fun p => (p.1 * detJ p.2) • f p.2).sum

/-- The sum over the selected ones among the first `n` entities. -/
def sumSelected (n : ℕ) (sel : ℕ → Bool) (I : ℕ → V) : V :=
  (((List.range n).filter sel).map I).sum

end
end Verif
