import Verif.Model.Strang
import Mathlib.Analysis.Calculus.Deriv.Basic

/-!
# Specification vocabulary: the Fisher/KPP equation
-/

namespace Verif.Fisher
open Matrix

variable {n : ℕ}

/-- The square of the `L²` norm of the finite element function with coefficients `x`, for the mass matrix `M`. -/
noncomputable def normSq (M : Matrix (Fin n) (Fin n) ℝ) (x : Fin n → ℝ) : ℝ := x ⬝ᵥ M *ᵥ x

/-- Its integral. -/
noncomputable def integral (M : Matrix (Fin n) (Fin n) ℝ) (x : Fin n → ℝ) : ℝ := ∑ i, (M *ᵥ x) i

/-- Symmetric and positive semi-definite. -/
structure SemiDefinite (A : Matrix (Fin n) (Fin n) ℝ) : Prop where
  symm : ∀ i j, A i j = A j i
  nonneg : ∀ x, 0 ≤ x ⬝ᵥ A *ᵥ x

/-- Symmetric and positive definite. -/
structure Definite (M : Matrix (Fin n) (Fin n) ℝ) : Prop where
  symm : ∀ i j, M i j = M j i
  pos : ∀ x, x ≠ 0 → 0 < x ⬝ᵥ M *ᵥ x

/-- The length of the time interval of the first call and of the other calls of `diffusionEvolutionOperator`. -/
noncomputable def StrangSplit.interval (s : StrangSplit n) (firstcall : Bool) : ℝ := if firstcall then s.tau / 2 else s.tau

/-- `y` is a solution, for all non-negative times, of the logistic equation `y' = λ y (1 - y / K)` with initial value `y₀`. -/
def IsLogistic (lambda K y₀ : ℝ) (y : ℝ → ℝ) : Prop :=
  y 0 = y₀ ∧ ∀ t, 0 ≤ t → HasDerivAt y (lambda * y t * (1 - y t / K)) t

end Verif.Fisher
