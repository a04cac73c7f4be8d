import Mathlib.Data.Matrix.Mul
import Verif.Model.MeshFunction

/-!
# Specification vocabulary for mesh functions

Values of mesh functions are compared with Mathlib's matrices.
-/

namespace Verif
variable {R : Type}

/-- The Eigen object `m` is the matrix `A`. -/
def EigenVal.Is (m : EigenVal R) {r c : ℕ} (A : Matrix (Fin r) (Fin c) R) : Prop :=
  m.rows = r ∧ m.cols = c ∧ m.data.length = r * c ∧ ∀ i j, m.coeff i.val j.val = some (A i j)

/-- The Eigen object `m` may have the type `t`. -/
def EigenTy.Has (t : EigenTy) (m : EigenVal R) : Prop :=
  (∀ r, t.rows = some r → m.rows = r) ∧ (∀ c, t.cols = some c → m.cols = c) ∧ m.rowMajor = t.rowMajor

/-- Both sizes are known at compile time. -/
def EigenTy.Fixed (t : EigenTy) : Prop := t.rows ≠ none ∧ t.cols ≠ none

/-- If the size is fixed, the storage order is the default one (column-major except for row vectors).  This holds for
all types without explicit storage order. -/
def EigenTy.Standard (t : EigenTy) : Prop :=
  ∀ r c, t.rows = some r → t.cols = some c → t.rowMajor = defaultRowMajor r c

/-- The list `u` consists of `n` objects, the `i`-th being the matrix `A i`. -/
def Values (n : ℕ) (u : List (EigenVal R)) {r c : ℕ → ℕ} (A : ∀ i, Matrix (Fin (r i)) (Fin (c i)) R) : Prop :=
  u.length = n ∧ ∀ i < n, ∃ m, u[i]? = some m ∧ m.Is (A i)

/-- All objects in the list have type `t`. -/
def EigenTy.All (t : EigenTy) (u : List (EigenVal R)) : Prop := ∀ m ∈ u, t.Has m

end Verif
