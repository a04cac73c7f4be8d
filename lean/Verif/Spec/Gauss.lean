import Verif.Model.Gauss
import Verif.Spec.Quad

/-!
# Specification for the one-dimensional Gauss rules

Newton's iteration is not modelled (see `Verif.Model.Gauss`); the rules are described for the values
it is meant to converge to.
-/

namespace Verif

/-- The Newton iterations of `GaussLegendre` have ended where a further step changes nothing, at
different places, in the order of the starting values: from the largest down to the smallest root that
is not negative. -/
structure LegConverged (n : ℕ) (root : ℕ → ℝ) : Prop where
  stands : ∀ i < (n + 1) / 2, legDeriv n (root i) ≠ 0 ∧ legNewton n (root i) = root i
  nonneg : ∀ i < (n + 1) / 2, 0 ≤ root i
  sorted : ∀ i j, i < j → j < (n + 1) / 2 → root j < root i

/-- The Newton iterations of `GaussJacobi` have ended where a further step changes nothing, at different
places. -/
structure JacConverged (n : ℕ) (alpha beta : ℝ) (root : ℕ → ℝ) : Prop where
  stands : ∀ i < n, jacDeriv n alpha beta (root i) ≠ 0 ∧ jacNewton n alpha beta (root i) = root i
  distinct : ∀ i < n, ∀ j < n, root i = root j → i = j

/-- `p` is the polynomial of degree `n` that is orthogonal to all polynomials of lower degree for the
weight function `ω` on `[-1, 1]`, with the value `v` at `1`. -/
def IsOrthogonal (ω : ℝ → ℝ) (n : ℕ) (v : ℝ) (p : Polynomial ℝ) : Prop :=
  p.natDegree = n ∧ p.eval 1 = v ∧
    ∀ q : Polynomial ℝ, q.natDegree < n → ∫ x in (-1 : ℝ)..1, ω x * (p.eval x * q.eval x) = 0

end Verif
