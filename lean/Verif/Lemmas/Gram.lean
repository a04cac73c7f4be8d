import Verif.Lemmas.Quad
import Verif.Model.Geometry
import Mathlib.LinearAlgebra.Matrix.Notation
import Mathlib.Data.Matrix.Mul

/-!
Sums of Gram matrices, which quadrature formulas for bilinear forms produce.
-/

namespace Verif
open Geo Matrix Finset

theorem integrate_eq_sum (q : QuadRule ℝ) (h : q.weights.length = q.points.length) (f : List ℝ → ℝ) :
    q.integrate f = ∑ k ∈ range q.numPoints, q.weights.getD k 0 * f (q.points.getD k []) := by
  obtain ⟨r, d, P, W⟩ := q
  simp only [QuadRule.integrate, QuadRule.numPoints] at h ⊢
  induction P generalizing W with
  | nil => simp
  | cons p P ih =>
    cases W with
    | nil => simp at h
    | cons w W =>
      simp only [List.length_cons, add_left_inj] at h
      rw [List.zipWith_cons_cons, List.sum_cons, ih W h, List.length_cons, Finset.sum_range_succ']
      simp [add_comm]

variable {n w : ℕ} {ι : Type}

theorem dot_sum_smul (x y : Fin n → ℝ) (P Q : Fin n → Vec ℝ w) :
    dot (∑ i, x i • P i) (∑ j, y j • Q j) = ∑ i, ∑ j, x i * (y j * dot (P i) (Q j)) := by
  have h1 : ∀ (a : Vec ℝ w) , dot (∑ i, x i • P i) a = ∑ i, x i * dot (P i) a := by
    intro a
    simp only [dot, Finset.sum_apply, Pi.smul_apply, smul_eq_mul, Finset.sum_mul, Finset.mul_sum]
    rw [Finset.sum_comm]
    exact Finset.sum_congr rfl fun _ _ => Finset.sum_congr rfl fun _ _ => by ring
  have h2 : ∀ (a : Vec ℝ w) , dot a (∑ j, y j • Q j) = ∑ j, y j * dot a (Q j) := by
    intro a
    simp only [dot, Finset.sum_apply, Pi.smul_apply, smul_eq_mul, Finset.mul_sum]
    rw [Finset.sum_comm]
    exact Finset.sum_congr rfl fun _ _ => Finset.sum_congr rfl fun _ _ => by ring
  rw [h1]
  exact Finset.sum_congr rfl fun i _ => by rw [h2, Finset.mul_sum]

/-- The bilinear form of a sum of weighted Gram matrices. -/
theorem gram_sum (s : Finset ι) (c : ι → ℝ) (P Q : ι → Fin n → Vec ℝ w) (M : Matrix (Fin n) (Fin n) ℝ)
    (hM : ∀ i j, M i j = ∑ k ∈ s, c k * dot (P k i) (Q k j)) (x y : Fin n → ℝ) :
    x ⬝ᵥ M.mulVec y = ∑ k ∈ s, c k * dot (∑ i, x i • P k i) (∑ j, y j • Q k j) := by
  simp only [dotProduct, Matrix.mulVec, hM, dot_sum_smul, Finset.sum_mul, Finset.mul_sum]
  conv_rhs => rw [Finset.sum_comm]
  refine Finset.sum_congr rfl fun i _ => ?_
  conv_rhs => rw [Finset.sum_comm]
  exact Finset.sum_congr rfl fun j _ => Finset.sum_congr rfl fun k _ => by ring

end Verif
