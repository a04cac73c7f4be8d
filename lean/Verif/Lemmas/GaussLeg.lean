import Mathlib.Algebra.Polynomial.Derivative
import Mathlib.Analysis.SpecialFunctions.Integrals.Basic
import Mathlib.Analysis.Calculus.Deriv.Polynomial
import Mathlib.MeasureTheory.Integral.IntervalIntegral.FundThmCalculus
import Mathlib.Tactic.LinearCombination
import Mathlib.Tactic.FieldSimp
import Verif.Lemmas.GaussGen

/-!
# Legendre polynomials and the Jacobi polynomials with parameters (1, 0)

Only what is needed for the Gauss rules: recurrences, derivatives, orthogonality, norms.
-/

namespace Verif.Gauss
open Polynomial Finset

/-- Legendre polynomials on `[-1, 1]`. -/
noncomputable def P : ℕ → ℝ[X]
  | 0 => 1
  | 1 => X
  | n + 2 => C (1 / ((n : ℝ) + 2)) * (C (2 * (n : ℝ) + 3) * X * P (n + 1) - C ((n : ℝ) + 1) * P n)

theorem P_rec (n : ℕ) : C ((n : ℝ) + 2) * P (n + 2) =
    C (2 * (n : ℝ) + 3) * X * P (n + 1) - C ((n : ℝ) + 1) * P n := by
  have h : ((n : ℝ) + 2) * (1 / ((n : ℝ) + 2)) = 1 := by
    have : ((n : ℝ) + 2) ≠ 0 := by positivity
    field_simp
  rw [P, ← mul_assoc, ← C_mul, h, C_1, one_mul]

private theorem C_two : (C 2 : ℝ[X]) = 2 := map_ofNat C 2
private theorem C_three : (C 3 : ℝ[X]) = 3 := map_ofNat C 3

private theorem C_ne (c : ℝ) (h : c ≠ 0) : (C c : ℝ[X]) ≠ 0 := C_ne_zero.2 h

private theorem P_ident (n : ℕ) :
    (X ^ 2 - 1) * derivative (P (n + 1)) = C ((n : ℝ) + 1) * (X * P (n + 1) - P n) ∧
      X * derivative (P (n + 1)) - derivative (P n) = C ((n : ℝ) + 1) * P (n + 1) := by
  induction n with
  | zero => constructor <;> simp [P]; ring
  | succ n ih =>
    obtain ⟨hA, hB⟩ := ih
    have hR := P_rec n
    have hR' := congrArg derivative hR
    simp only [derivative_mul, derivative_C, derivative_sub, derivative_X, zero_mul, zero_add,
      mul_one] at hR'
    have e2 : (C ((n : ℝ) + 2) : ℝ[X]) = C (n : ℝ) + 2 := by rw [C_add, C_two]
    have e1 : (C ((n : ℝ) + 1) : ℝ[X]) = C (n : ℝ) + 1 := by simp
    have e3 : (C (2 * (n : ℝ) + 3) : ℝ[X]) = 2 * C (n : ℝ) + 3 := by rw [C_add, C_mul, C_two, C_three]
    have hne : (C ((n : ℝ) + 2) : ℝ[X]) ≠ 0 := C_ne _ (by positivity)
    have e4 : (C (((n + 1 : ℕ) : ℝ) + 1) : ℝ[X]) = C (n : ℝ) + 2 := by
      rw [← e2]; congr 1; push_cast; ring
    rw [e2] at hR hR' hne
    rw [e1, e3] at hR hR'
    rw [e1] at hA hB
    rw [e4]
    constructor
    · refine mul_left_cancel₀ hne ?_
      linear_combination (X ^ 2 - 1) * hR' + (C (n : ℝ) + 1) * (X ^ 2 - 1) * hB
        + (C (n : ℝ) + 2) * X * hA - (C (n : ℝ) + 2) * X * hR
    · refine mul_left_cancel₀ hne ?_
      linear_combination X * hR' + (C (n : ℝ) + 1) * X * hB + (C (n : ℝ) + 2) * hA
        - (C (n : ℝ) + 2) * hR

theorem P_deriv (n : ℕ) :
    (X ^ 2 - 1) * derivative (P (n + 1)) = C ((n : ℝ) + 1) * (X * P (n + 1) - P n) := (P_ident n).1

theorem P_antideriv (n : ℕ) :
    derivative (P (n + 2)) - derivative (P n) = C (2 * (n : ℝ) + 3) * P (n + 1) := by
  have hB := (P_ident n).2
  have hR := P_rec n
  have hR' := congrArg derivative hR
  simp only [derivative_mul, derivative_C, derivative_sub, derivative_X, zero_mul, zero_add,
    mul_one] at hR'
  have e2 : (C ((n : ℝ) + 2) : ℝ[X]) = C (n : ℝ) + 2 := by rw [C_add, C_two]
  have e1 : (C ((n : ℝ) + 1) : ℝ[X]) = C (n : ℝ) + 1 := by simp
  have e3 : (C (2 * (n : ℝ) + 3) : ℝ[X]) = 2 * C (n : ℝ) + 3 := by rw [C_add, C_mul, C_two, C_three]
  have hne : (C ((n : ℝ) + 2) : ℝ[X]) ≠ 0 := C_ne _ (by positivity)
  rw [e1] at hB
  rw [e2, e1, e3] at hR'
  rw [e2] at hne
  rw [e3]
  refine mul_left_cancel₀ hne ?_
  linear_combination hR' + (2 * C (n : ℝ) + 3) * hB

theorem P_one (n : ℕ) : (P n).eval 1 = 1 ∧ (P (n + 1)).eval 1 = 1 := by
  induction n with
  | zero => simp [P]
  | succ n ih =>
    refine ⟨ih.2, ?_⟩
    have h := congrArg (eval 1) (P_rec n)
    simp only [eval_mul, eval_C, eval_sub, eval_X, ih.1, ih.2] at h
    have : ((n : ℝ) + 2) ≠ 0 := by positivity
    refine mul_left_cancel₀ this ?_
    linear_combination h

theorem P_neg (n : ℕ) (x : ℝ) : (P n).eval (-x) = (-1) ^ n * (P n).eval x ∧
    (P (n + 1)).eval (-x) = (-1) ^ (n + 1) * (P (n + 1)).eval x := by
  induction n with
  | zero => simp [P]
  | succ n ih =>
    refine ⟨ih.2, ?_⟩
    have h := congrArg (eval (-x)) (P_rec n)
    have h' := congrArg (eval x) (P_rec n)
    simp only [eval_mul, eval_C, eval_sub, eval_X, ih.1, ih.2] at h h'
    have : ((n : ℝ) + 2) ≠ 0 := by positivity
    refine mul_left_cancel₀ this ?_
    linear_combination h + (-1) ^ (n + 1) * h'

theorem P_neg_deriv (n : ℕ) (x : ℝ) :
    (derivative (P n)).eval (-x) = (-1) ^ (n + 1) * (derivative (P n)).eval x := by
  have h : (P n).comp (-X) = C ((-1) ^ n) * P n := by
    refine Polynomial.funext fun y => ?_
    rw [eval_comp, eval_neg, eval_X, (P_neg n y).1, eval_mul, eval_C]
  have h' := congrArg (fun q => (derivative q).eval x) h
  simp only [derivative_comp, derivative_mul, derivative_neg, derivative_X, derivative_C, zero_mul,
    zero_add, eval_mul, eval_comp, eval_neg, eval_X, eval_one, eval_C] at h'
  rw [pow_succ]
  linear_combination -h'

theorem P_coeff (n : ℕ) : (P n).natDegree ≤ n ∧ (P (n + 1)).natDegree ≤ n + 1 ∧
    ((n : ℝ) + 1) * (P (n + 1)).coeff (n + 1) = (2 * (n : ℝ) + 1) * (P n).coeff n := by
  induction n with
  | zero => simp [P]
  | succ n ih =>
    obtain ⟨h0, h1, -⟩ := ih
    refine ⟨h1, ?_, ?_⟩
    · rw [P, mul_assoc]
      refine le_trans (natDegree_C_mul_le _ _) (le_trans (natDegree_sub_le _ _) (max_le ?_ ?_))
      · refine le_trans (natDegree_C_mul_le _ _) (le_trans natDegree_mul_le ?_)
        rw [natDegree_X]; omega
      · exact le_trans (natDegree_C_mul_le _ _) (by omega)
    · have h := congrArg (fun q => coeff q (n + 2)) (P_rec n)
      simp only [coeff_C_mul, coeff_sub, mul_assoc, coeff_X_mul,
        coeff_eq_zero_of_natDegree_lt (show (P n).natDegree < n + 2 by omega), mul_zero, sub_zero] at h
      push_cast
      linear_combination h

theorem P_coeff_pos (n : ℕ) : 0 < (P n).coeff n := by
  induction n with
  | zero => simp [P]
  | succ n ih =>
    have h := (P_coeff n).2.2
    have : 0 < ((n : ℝ) + 1) * (P (n + 1)).coeff (n + 1) := by rw [h]; positivity
    exact pos_of_mul_pos_right this (by positivity)

theorem P_natDegree (n : ℕ) : (P n).natDegree = n :=
  le_antisymm (P_coeff n).1 (le_natDegree_of_ne_zero (P_coeff_pos n).ne')

theorem P_ne_zero (n : ℕ) : P n ≠ 0 := fun h => by
  have := P_coeff_pos n
  rw [h] at this
  simp at this

/-! ## The functionals -/

private theorem ii (f : ℝ[X]) : IntervalIntegrable (fun x => f.eval x) MeasureTheory.volume (-1) 1 :=
  Continuous.intervalIntegrable (by fun_prop) _ _

/-- Integration over `[-1, 1]`. -/
noncomputable def L : ℝ[X] →ₗ[ℝ] ℝ where
  toFun f := ∫ x in (-1 : ℝ)..1, f.eval x
  map_add' f g := by
    simp only [eval_add]
    exact intervalIntegral.integral_add (ii f) (ii g)
  map_smul' c f := by
    simp only [eval_smul, smul_eq_mul, RingHom.id_apply]
    exact intervalIntegral.integral_const_mul _ _

theorem L_def (f : ℝ[X]) : L f = ∫ x in (-1 : ℝ)..1, f.eval x := rfl

theorem L_derivative (f : ℝ[X]) : L (derivative f) = f.eval 1 - f.eval (-1) := by
  rw [L_def]
  refine intervalIntegral.integral_eq_sub_of_hasDerivAt (fun x _ => f.hasDerivAt x) (ii _)

theorem L_P (n : ℕ) : L (P (n + 1)) = 0 := by
  have h := congrArg L (P_antideriv n)
  rw [map_sub, L_derivative, L_derivative, ← smul_eq_C_mul, map_smul, (P_one _).1, (P_one _).1,
    (P_neg _ _).1, (P_neg _ _).1, (P_one _).1, (P_one _).1, pow_add, smul_eq_mul] at h
  have : (2 * (n : ℝ) + 3) ≠ 0 := by positivity
  refine mul_left_cancel₀ this ?_
  rw [mul_zero, ← h]
  ring

theorem X_mul_P (n : ℕ) : X * P (n + 1) =
    (((n : ℝ) + 2) / (2 * (n : ℝ) + 3)) • P (n + 2) + (((n : ℝ) + 1) / (2 * (n : ℝ) + 3)) • P n := by
  have h3 : (2 * (n : ℝ) + 3) ≠ 0 := by positivity
  refine Polynomial.funext fun x => ?_
  have h := congrArg (eval x) (P_rec n)
  simp only [eval_mul, eval_C, eval_sub, eval_X] at h
  simp only [eval_add, eval_mul, eval_X, eval_smul, smul_eq_mul]
  field_simp
  linear_combination -h

theorem L_P_pow (j : ℕ) : ∀ n, j < n → L (P n * X ^ j) = 0 := by
  induction j with
  | zero =>
    intro n hn
    obtain ⟨n, rfl⟩ : ∃ m, n = m + 1 := ⟨n - 1, by omega⟩
    rw [pow_zero, mul_one, L_P]
  | succ j ih =>
    intro n hn
    obtain ⟨n, rfl⟩ : ∃ m, n = m + 1 := ⟨n - 1, by omega⟩
    have : P (n + 1) * X ^ (j + 1) = (((n : ℝ) + 2) / (2 * (n : ℝ) + 3)) • (P (n + 2) * X ^ j) +
        (((n : ℝ) + 1) / (2 * (n : ℝ) + 3)) • (P n * X ^ j) := by
      rw [pow_succ', ← mul_assoc, mul_comm (P (n + 1)) X, X_mul_P, add_mul, smul_mul_assoc,
        smul_mul_assoc]
    rw [this, map_add, map_smul, map_smul, ih _ (by omega), ih _ (by omega)]
    simp

theorem L_orth {n : ℕ} (q : ℝ[X]) (hq : q.natDegree < n) : L (P n * q) = 0 := by
  rw [q.as_sum_range_C_mul_X_pow' hq, Finset.mul_sum, map_sum]
  refine Finset.sum_eq_zero fun j hj => ?_
  rw [mul_left_comm, ← smul_eq_C_mul, map_smul, L_P_pow j n (Finset.mem_range.1 hj), smul_zero]

theorem L_norm (n : ℕ) : L (P n * P n) = 2 / (2 * n + 1) := by
  induction n with
  | zero =>
    rw [L_def]
    simp [P]; norm_num
  | succ n ih =>
    have h1 : L (P (n + 1) * P (n + 1)) = (2 * n + 1) / (n + 1) * L (P n * (X * P (n + 1))) := by
      -- the difference has lower degree
      have hd : L (P (n + 1) * (P (n + 1) - ((2 * (n : ℝ) + 1) / (n + 1)) • (X * P n))) = 0 := by
        refine L_orth _ ?_
        have hle : (P (n + 1) - ((2 * (n : ℝ) + 1) / (n + 1)) • (X * P n)).natDegree ≤ n := by
          rw [natDegree_le_iff_coeff_eq_zero]
          intro m hm
          obtain ⟨m, rfl⟩ : ∃ k, m = k + 1 := ⟨m - 1, by omega⟩
          rw [coeff_sub, coeff_smul, coeff_X_mul, smul_eq_mul]
          rcases Nat.lt_or_ge n m with h | h
          · rw [coeff_eq_zero_of_natDegree_lt (by rw [P_natDegree]; omega),
              coeff_eq_zero_of_natDegree_lt (by rw [P_natDegree]; omega)]
            simp
          · obtain rfl : m = n := by omega
            have := (P_coeff m).2.2
            have hm : ((m : ℝ) + 1) ≠ 0 := by positivity
            field_simp
            linear_combination this
        omega
      rw [mul_sub, map_sub, mul_smul_comm, map_smul, smul_eq_mul, sub_eq_zero] at hd
      rw [hd]
      congr 2
      ring
    rw [h1, X_mul_P, mul_add, map_add, mul_smul_comm, mul_smul_comm, map_smul, map_smul, ih,
      mul_comm (P n), L_orth (P n) (by rw [P_natDegree]; omega)]
    have h3 : (2 * (n : ℝ) + 3) ≠ 0 := by positivity
    have h2 : (2 * (n : ℝ) + 1) ≠ 0 := by positivity
    have h1 : ((n : ℝ) + 1) ≠ 0 := by positivity
    simp only [smul_eq_mul, mul_zero, zero_add]
    push_cast
    field_simp
    ring

theorem L_pos (f : ℝ[X]) (hf : f ≠ 0) (h : ∀ x ∈ Set.Ioo (-1 : ℝ) 1, 0 ≤ f.eval x) : 0 < L f := by
  have hcl : ∀ x ∈ Set.Icc (-1 : ℝ) 1, 0 ≤ f.eval x := by
    intro x hx
    have hclos : x ∈ closure (Set.Ioo (-1 : ℝ) 1) := by
      rw [closure_Ioo (by norm_num)]; exact hx
    exact closure_minimal (s := Set.Ioo (-1 : ℝ) 1) (t := {x | 0 ≤ f.eval x}) (fun y hy => h y hy)
      (isClosed_le continuous_const (by fun_prop)) hclos
  -- there is a point where f does not vanish
  obtain ⟨x, hx, hfx⟩ : ∃ x ∈ Set.Icc (-1 : ℝ) 1, f.eval x ≠ 0 := by
    by_contra hc
    push Not at hc
    refine hf (Polynomial.eq_zero_of_infinite_isRoot f ?_)
    exact (Set.Icc_infinite (by norm_num : (-1 : ℝ) < 1)).mono fun y hy => hc y hy
  rw [L_def]
  exact intervalIntegral.integral_pos (by norm_num) (by fun_prop) (fun y hy => hcl y ⟨hy.1.le, hy.2⟩)
    ⟨x, hx, lt_of_le_of_ne (hcl x hx) (Ne.symm hfx)⟩

end Verif.Gauss
