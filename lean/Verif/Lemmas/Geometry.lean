import Verif.Spec.Geometry
import Mathlib.Analysis.Calculus.FDeriv.Mul
import Mathlib.Analysis.Calculus.FDeriv.Add
import Mathlib.Analysis.Calculus.FDeriv.Pi
import Mathlib.Analysis.Calculus.FDeriv.Prod
import Mathlib.Topology.Algebra.Module.FiniteDimension
import Mathlib.LinearAlgebra.Matrix.ToLin
import Mathlib.LinearAlgebra.Matrix.Determinant.Basic
import Mathlib.LinearAlgebra.Matrix.Adjugate
import Mathlib.Algebra.Order.BigOperators.Ring.Finset
import Mathlib.Data.Fin.VecNotation
import Mathlib.Tactic.FinCases
import Mathlib.Tactic.FieldSimp
import Mathlib.Tactic.Ring
import Mathlib.Tactic.Linarith
import Mathlib.Tactic.NormNum

/-! Lemmas on geometries: Gram matrices and derivatives of the parametrizations. -/

set_option linter.unusedSectionVars false

namespace Verif
open Geo

section Field
variable {K : Type} [Field K] [LinearOrder K] [IsStrictOrderedRing K] {w : ℕ}

theorem inUnit_one (x : K) : inUnit [x] ↔ 0 ≤ x ∧ x ≤ 1 := by simp [inUnit]
theorem inUnit_two (x y : K) : inUnit [x, y] ↔ (0 ≤ x ∧ x ≤ 1) ∧ (0 ≤ y ∧ y ≤ 1) := by simp [inUnit]

theorem gram_two (A B : Vec K w) :
    ((matrix 2 [A, B]).transpose * matrix 2 [A, B]).det = dot A A * dot B B - dot A B * dot A B := by
  rw [Matrix.det_fin_two]
  simp only [Matrix.mul_apply, Matrix.transpose_apply, matrix, dot]
  simp
  rw [Finset.sum_congr rfl (fun i _ => mul_comm (B i) (A i))]
  exact Or.inl rfl

theorem gram_one (A : Vec K w) : ((matrix 1 [A]).transpose * matrix 1 [A]).det = dot A A := by
  rw [Matrix.det_fin_one]
  simp only [Matrix.mul_apply, Matrix.transpose_apply, matrix, dot]
  simp

theorem det2_sq (A B : Vec K 2) : dot A A * dot B B - dot A B * dot A B = det2 A B * det2 A B := by
  simp only [dot, det2, entry, Fin.sum_univ_two]
  simp
  ring

theorem matrix_two_ext {C D : Vec K w} {M : Matrix (Fin w) (Fin 2) K} (h0 : ∀ i, C i = M i 0)
    (h1 : ∀ i, D i = M i 1) : matrix 2 [C, D] = M := by
  ext i j
  fin_cases j
  · simpa [matrix] using h0 i
  · simpa [matrix] using h1 i

theorem gramInv2_spec (A B : Vec K w) (h : dot A A * dot B B - dot A B * dot A B ≠ 0) :
    ∃ C, gramInv2 A B = some C ∧ C.length = 2 ∧
      matrix 2 C = matrix 2 [A, B] * ((matrix 2 [A, B]).transpose * matrix 2 [A, B])⁻¹ := by
  refine ⟨_, if_neg h, rfl, ?_⟩
  have hG : ((matrix 2 [A, B]).transpose * matrix 2 [A, B]) = !![dot A A, dot A B; dot A B, dot B B] := by
    ext i j
    fin_cases i <;> fin_cases j <;> simp [Matrix.mul_apply, matrix, dot]
    exact Finset.sum_congr rfl (fun i _ => mul_comm (B i) (A i))
  rw [hG, Matrix.inv_def, Matrix.adjugate_fin_two_of, Matrix.det_fin_two_of, Ring.inverse_eq_inv']
  apply matrix_two_ext
  · intro i
    simp [Matrix.mul_apply, matrix, Fin.sum_univ_two]
    ring
  · intro i
    simp [Matrix.mul_apply, matrix, Fin.sum_univ_two]
    ring

theorem invTranspose2_spec (A B : Vec K 2) (h : dot A A * dot B B - dot A B * dot A B ≠ 0) :
    ∃ C, invTranspose2 A B = some C ∧ C.length = 2 ∧
      matrix 2 C = matrix 2 [A, B] * ((matrix 2 [A, B]).transpose * matrix 2 [A, B])⁻¹ := by
  have hd : det2 A B ≠ 0 := by
    rw [det2_sq] at h
    exact fun hh => h (by rw [hh]; ring)
  refine ⟨_, if_neg hd, rfl, ?_⟩
  have hJ : (matrix 2 [A, B]).det = det2 A B := by
    rw [Matrix.det_fin_two]
    simp [matrix, det2, entry]
  have hu : IsUnit (matrix 2 [A, B]).det := by rw [hJ]; exact isUnit_iff_ne_zero.2 hd
  have hut : IsUnit ((matrix 2 [A, B]).transpose).det := by rw [Matrix.det_transpose]; exact hu
  rw [Matrix.mul_inv_rev, ← mul_assoc, Matrix.mul_nonsing_inv _ hu, one_mul, Matrix.inv_def,
    Matrix.adjugate_fin_two, Matrix.det_transpose, hJ, Ring.inverse_eq_inv']
  apply matrix_two_ext
  · intro i
    fin_cases i <;> simp [matrix, entry, vec2]
  · intro i
    fin_cases i <;> simp [matrix, entry, vec2]

theorem segJIG_spec (A : Vec K w) (h : dot A A ≠ 0) :
    matrix 1 [(dot A A)⁻¹ • A] = matrix 1 [A] * ((matrix 1 [A]).transpose * matrix 1 [A])⁻¹ := by
  rw [Matrix.inv_def, gram_one, Ring.inverse_eq_inv']
  ext i j
  fin_cases j
  simp [matrix, Matrix.mul_apply, mul_comm]

theorem seg1_spec (A : Vec K 1) (h : dot A A ≠ 0) : entry A 0 ≠ 0 ∧
    (fun i => (A i)⁻¹) = (dot A A)⁻¹ • A := by
  have h0 : A 0 ≠ 0 := by
    intro h0
    apply h
    simp [dot, h0]
  refine ⟨by simpa [entry] using h0, ?_⟩
  ext i
  fin_cases i
  simp [dot]
  field_simp

theorem segGram_eq (a b m : Vec K w) (x : K) :
    segGram a b m x = dot (x • ((2 : K) • (segCoef a b m).1) + (segCoef a b m).2.1)
      (x • ((2 : K) • (segCoef a b m).1) + (segCoef a b m).2.1) := by
  unfold segGram
  generalize (segCoef a b m).1 = α
  generalize (segCoef a b m).2.1 = β
  simp only [dot, Finset.mul_sum, ← Finset.sum_add_distrib]
  apply Finset.sum_congr rfl
  intro i _
  simp
  ring

end Field

section Real
variable {w : ℕ}

theorem dot_self_nonneg (A : Vec ℝ w) : 0 ≤ dot A A := Finset.sum_nonneg fun _ _ => mul_self_nonneg _

theorem gram_nonneg (A B : Vec ℝ w) : 0 ≤ dot A A * dot B B - dot A B * dot A B := by
  have := Finset.sum_mul_sq_le_sq_mul_sq Finset.univ A B
  have h1 : dot A A = ∑ i, A i ^ 2 := Finset.sum_congr rfl fun i _ => (sq (A i)).symm
  have h2 : dot B B = ∑ i, B i ^ 2 := Finset.sum_congr rfl fun i _ => (sq (B i)).symm
  have h3 : dot A B * dot A B = (∑ i, A i * B i) ^ 2 := (sq _).symm
  rw [h1, h2, h3]
  linarith


/-- Derivative of a polynomial map of the plane with the monomials of `QuadO2`. -/
theorem hasFDerivAt_poly (q : Coef ℝ w) (x : Fin 2 → ℝ) (J : Matrix (Fin w) (Fin 2) ℝ)
    (h0 : ∀ i, J i 0 = (q.beta0 + x 0 • ((2 : ℝ) • q.gamma0) + (x 1 * x 1) • q.eps1 + (x 0 * x 1) • ((2 : ℝ) • q.eps0) + x 1 • q.delta) i)
    (h1 : ∀ i, J i 1 = (q.beta1 + x 1 • ((2 : ℝ) • q.gamma1) + (x 0 * x 0) • q.eps0 + (x 0 * x 1) • ((2 : ℝ) • q.eps1) + x 0 • q.delta) i) :
    HasFDerivAt (fun p : Fin 2 → ℝ => (p 0 • q.beta0 + p 1 • q.beta1) + ((p 0 * p 0) • q.gamma0 + (p 1 * p 1) • q.gamma1) +
      (p 0 * p 1) • q.delta + ((p 0 * p 0 * p 1) • q.eps0 + (p 1 * p 1 * p 0) • q.eps1) + q.alpha)
      (LinearMap.toContinuousLinearMap J.mulVecLin) x := by
  have e0 : HasFDerivAt (fun p : Fin 2 → ℝ => p 0) (ContinuousLinearMap.proj (R := ℝ) 0) x := hasFDerivAt_apply 0 x
  have e1 : HasFDerivAt (fun p : Fin 2 → ℝ => p 1) (ContinuousLinearMap.proj (R := ℝ) 1) x := hasFDerivAt_apply 1 x
  have := (((((e0.smul_const q.beta0).add (e1.smul_const q.beta1)).add
    (((e0.mul e0).smul_const q.gamma0).add ((e1.mul e1).smul_const q.gamma1))).add
    ((e0.mul e1).smul_const q.delta)).add
    ((((e0.mul e0).mul e1).smul_const q.eps0).add (((e1.mul e1).mul e0).smul_const q.eps1))).add_const q.alpha
  refine this.congr_fderiv ?_
  ext v i
  simp [Matrix.mulVec, dotProduct, Fin.sum_univ_two, h0, h1]
  ring

/-- Derivative of a quadratic map of the line. -/
theorem hasFDerivAt_line (α β γ : Vec ℝ w) (x : Fin 1 → ℝ) (J : Matrix (Fin w) (Fin 1) ℝ)
    (h0 : ∀ i, J i 0 = (x 0 • ((2 : ℝ) • α) + β) i) :
    HasFDerivAt (fun p : Fin 1 → ℝ => p 0 • (p 0 • α + β) + γ) (LinearMap.toContinuousLinearMap J.mulVecLin) x := by
  have e0 : HasFDerivAt (fun p : Fin 1 → ℝ => p 0) (ContinuousLinearMap.proj (R := ℝ) 0) x := hasFDerivAt_apply 0 x
  have := (e0.smul ((e0.smul_const α).add_const β)).add_const γ
  refine this.congr_fderiv ?_
  ext v i
  simp [Matrix.mulVec, dotProduct, h0]
  ring

end Real
end Verif
