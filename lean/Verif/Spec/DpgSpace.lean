import Verif.Model.DpgSpace
import Verif.Spec.DofHandler

/-!
# Specification vocabulary for product spaces and their factory
-/

namespace Verif.Dpg
open Verif

variable {K : Type} [Field K]

/-- A sequence of calls of the methods adding components; the final state and the indices they returned. -/
def SpaceFactory.addAll : SpaceFactory K → List (Kind × ℕ) → Option (SpaceFactory K × List ℕ)
  | F, [] => some (F, [])
  | F, kp :: l =>
    (F.add kp.1 kp.2).bind fun r => (r.1.addAll l).map fun s => (s.1, r.2 :: s.2)

/-- The degrees supported for a kind of component. -/
def Kind.supports : Kind → ℕ → Prop
  | .h1, p => 1 ≤ p ∧ p ≤ 3
  | .l2, p => p ≤ 3
  | .flux, p => p ≤ 3
  | .trace, p => 1 ≤ p ∧ p ≤ 3

/-- Numbers of dofs per node, edge, triangle and quadrilateral of a component of degree `p`: polynomials which are
continuous, piecewise discontinuous, discontinuous on edges and continuous on the skeleton, respectively. -/
def Kind.dofs : Kind → ℕ → UniformLayout
  | .h1, p => ⟨1, p - 1, (p - 1) * (p - 2) / 2, (p - 1) * (p - 1)⟩
  | .l2, p => ⟨0, 0, (p + 1) * (p + 2) / 2, (p + 1) * (p + 1)⟩
  | .flux, p => ⟨0, p + 1, 0, 0⟩
  | .trace, p => ⟨1, p - 1, 0, 0⟩

end Verif.Dpg
