import Verif.Lemmas.GaussLeg

/-!
# Jacobi polynomials with parameters (1, 0)
-/

namespace Verif.Gauss
open Polynomial Finset

/-- Jacobi polynomials with parameters `(1, 0)`. -/
noncomputable def J : ℕ → ℝ[X]
  | 0 => 1
  | 1 => C (1 / 2) * (1 + C 3 * X)
  | n + 2 => C (1 / (((n : ℝ) + 3) * (2 * n + 3))) *
      ((1 + C ((2 * (n : ℝ) + 5) * (2 * n + 3)) * X) * J (n + 1) - C (((n : ℝ) + 1) * (2 * n + 5)) * J n)

theorem J_rec (n : ℕ) (x : ℝ) : ((n : ℝ) + 3) * (2 * n + 3) * (J (n + 2)).eval x =
    (1 + (2 * (n : ℝ) + 5) * (2 * n + 3) * x) * (J (n + 1)).eval x
      - ((n : ℝ) + 1) * (2 * n + 5) * (J n).eval x := by
  have h : ((n : ℝ) + 3) * (2 * n + 3) ≠ 0 := by positivity
  rw [J]
  simp only [eval_mul, eval_C, eval_sub, eval_add, eval_one, eval_X]
  field_simp

private theorem P_rec' (n : ℕ) (x : ℝ) : ((n : ℝ) + 2) * (P (n + 2)).eval x =
    (2 * (n : ℝ) + 3) * x * (P (n + 1)).eval x - ((n : ℝ) + 1) * (P n).eval x := by
  have h := congrArg (eval x) (P_rec n)
  simpa only [eval_mul, eval_C, eval_sub, eval_X] using h

theorem J_eval (n : ℕ) (x : ℝ) :
    (1 - x) * (J n).eval x = (P n).eval x - (P (n + 1)).eval x ∧
      (1 - x) * (J (n + 1)).eval x = (P (n + 1)).eval x - (P (n + 2)).eval x := by
  induction n with
  | zero =>
    have := P_rec' 0 x
    simp only [P, Nat.cast_zero, zero_add, eval_X, eval_one] at this
    refine ⟨by simp [J, P], ?_⟩
    simp only [J, P, eval_X, eval_mul, eval_C, eval_add, eval_one, eval_sub, Nat.cast_zero]
    ring
  | succ n ih =>
    obtain ⟨h0, h1⟩ := ih
    refine ⟨h1, ?_⟩
    have hJ := J_rec n x
    have hP := P_rec' n x
    have hP' := P_rec' (n + 1) x
    push_cast at hP'
    have h : ((n : ℝ) + 3) * (2 * n + 3) ≠ 0 := by positivity
    refine mul_left_cancel₀ h ?_
    show _ = _ * (eval x (P (n + 2)) - eval x (P (n + 3)))
    linear_combination (1 - x) * hJ + (1 + (2 * (n : ℝ) + 5) * (2 * n + 3) * x) * h1
      - ((n : ℝ) + 1) * (2 * n + 5) * h0 - (2 * (n : ℝ) + 5) * hP + (2 * (n : ℝ) + 3) * hP'

theorem J_mul (n : ℕ) : (1 - X) * J n = P n - P (n + 1) := by
  refine Polynomial.funext fun x => ?_
  simpa using (J_eval n x).1

theorem J_ne_zero (n : ℕ) : J n ≠ 0 := by
  intro h
  have := J_mul n
  rw [h, mul_zero] at this
  have hd := congrArg (fun q => q.coeff (n + 1)) this
  simp only [coeff_zero, coeff_sub,
    coeff_eq_zero_of_natDegree_lt (by rw [P_natDegree]; omega : (P n).natDegree < n + 1)] at hd
  have := P_coeff_pos (n + 1)
  linarith

private theorem one_sub_X : (1 - X : ℝ[X]) = -(X - C 1) := by simp

private theorem deg_one_sub_X : (1 - X : ℝ[X]).natDegree = 1 := by
  rw [one_sub_X, natDegree_neg, natDegree_X_sub_C]

private theorem one_sub_X_ne : (1 - X : ℝ[X]) ≠ 0 := by
  intro h
  have := deg_one_sub_X
  rw [h] at this
  simp at this

theorem J_natDegree (n : ℕ) : (J n).natDegree = n := by
  have h := congrArg natDegree (J_mul n)
  rw [natDegree_mul one_sub_X_ne (J_ne_zero n), deg_one_sub_X,
    natDegree_sub_eq_right_of_natDegree_lt (by rw [P_natDegree, P_natDegree]; omega), P_natDegree] at h
  omega

theorem J_coeff (n : ℕ) : (J n).coeff n = (P (n + 1)).coeff (n + 1) := by
  have h := congrArg (fun q => q.coeff (n + 1)) (J_mul n)
  simp only [sub_mul, one_mul, coeff_sub, coeff_X_mul,
    coeff_eq_zero_of_natDegree_lt (by rw [P_natDegree]; omega : (P n).natDegree < n + 1),
    coeff_eq_zero_of_natDegree_lt (by rw [J_natDegree]; omega : (J n).natDegree < n + 1)] at h
  linarith

/-- Integration over `[-1, 1]` with weight `1 - x`. -/
noncomputable def LJ : ℝ[X] →ₗ[ℝ] ℝ := L ∘ₗ LinearMap.mulLeft ℝ (1 - X)

theorem LJ_def (f : ℝ[X]) : LJ f = L ((1 - X) * f) := rfl

theorem LJ_orth {n : ℕ} (q : ℝ[X]) (hq : q.natDegree < n) : LJ (J n * q) = 0 := by
  rw [LJ_def, ← mul_assoc, J_mul, sub_mul, map_sub, L_orth q hq, L_orth q (by omega), sub_zero]

theorem LJ_norm (n : ℕ) : LJ (J n * J n) = 2 / ((n : ℝ) + 1) := by
  rw [LJ_def, ← mul_assoc, J_mul, sub_mul, map_sub,
    L_orth (n := n + 1) (J n) (by rw [J_natDegree]; omega), sub_zero]
  have hd : L (P n * (J n - ((2 * (n : ℝ) + 1) / ((n : ℝ) + 1)) • P n)) = 0 := by
    rcases Nat.eq_zero_or_pos n with h0 | h0
    · subst h0
      simp [J, P]
    · refine L_orth _ ?_
      have hle : (J n - ((2 * (n : ℝ) + 1) / ((n : ℝ) + 1)) • P n).natDegree ≤ n - 1 := by
        rw [natDegree_le_iff_coeff_eq_zero]
        intro m hm
        rw [coeff_sub, coeff_smul, smul_eq_mul]
        rcases Nat.lt_or_ge n m with h | h
        · rw [coeff_eq_zero_of_natDegree_lt (by rw [J_natDegree]; omega),
            coeff_eq_zero_of_natDegree_lt (by rw [P_natDegree]; omega)]
          simp
        · obtain rfl : m = n := by omega
          have := (P_coeff m).2.2
          rw [J_coeff]
          have hm : ((m : ℝ) + 1) ≠ 0 := by positivity
          field_simp
          linear_combination this
      omega
  rw [mul_sub, map_sub, mul_smul_comm, map_smul, smul_eq_mul, L_norm, sub_eq_zero] at hd
  rw [hd]
  have h2 : (2 * (n : ℝ) + 1) ≠ 0 := by positivity
  have h1 : ((n : ℝ) + 1) ≠ 0 := by positivity
  field_simp

theorem LJ_pos (f : ℝ[X]) (hf : f ≠ 0) (h : ∀ x ∈ Set.Ioo (-1 : ℝ) 1, 0 ≤ f.eval x) : 0 < LJ f := by
  rw [LJ_def]
  refine L_pos _ (mul_ne_zero one_sub_X_ne hf) fun x hx => ?_
  rw [eval_mul, eval_sub, eval_one, eval_X]
  exact mul_nonneg (by linarith [hx.2]) (h x hx)

private theorem P_deriv' (n : ℕ) (x : ℝ) : (x ^ 2 - 1) * (derivative (P (n + 1))).eval x =
    ((n : ℝ) + 1) * (x * (P (n + 1)).eval x - (P n).eval x) := by
  have h := congrArg (eval x) (P_deriv n)
  simpa only [eval_mul, eval_C, eval_sub, eval_X, eval_pow, eval_one] using h

/-- The relation used for the derivative. -/
theorem J_deriv (n : ℕ) (x : ℝ) :
    (2 * (n : ℝ) + 3) * (1 - x ^ 2) * (derivative (J (n + 1))).eval x =
      ((n : ℝ) + 1) * (1 - (2 * (n : ℝ) + 3) * x) * (J (n + 1)).eval x
        + 2 * ((n : ℝ) + 2) * ((n : ℝ) + 1) * (J n).eval x := by
  -- as polynomials, so that 1 - X can be cancelled
  have key : (C (2 * (n : ℝ) + 3) * (1 - X ^ 2) * derivative (J (n + 1)) : ℝ[X]) =
      C ((n : ℝ) + 1) * (1 - C (2 * (n : ℝ) + 3) * X) * J (n + 1)
        + C (2 * ((n : ℝ) + 2) * ((n : ℝ) + 1)) * J n := by
    refine mul_left_cancel₀ one_sub_X_ne ?_
    refine Polynomial.funext fun x => ?_
    have hd := congrArg (fun q => (derivative q).eval x) (J_mul (n + 1))
    simp only [derivative_mul, derivative_sub, derivative_one, derivative_X, eval_add, eval_sub,
      eval_mul, eval_one, eval_X, zero_sub, eval_neg] at hd
    obtain ⟨h0, h1⟩ := J_eval n x
    have hp := P_deriv' n x
    have hp' := P_deriv' (n + 1) x
    have hr := P_rec' n x
    push_cast at hp'
    simp only [eval_mul, eval_add, eval_sub, eval_one, eval_X, eval_C, eval_pow]
    simp only [Nat.add_assoc, Nat.reduceAdd] at hd hp' h1
    linear_combination (2 * (n : ℝ) + 3) * (1 - x ^ 2) * hd + (2 * (n : ℝ) + 3) * (1 + x) * h1
      - (2 * (n : ℝ) + 3) * hp + (2 * (n : ℝ) + 3) * hp'
      - ((n : ℝ) + 1) * (1 - (2 * (n : ℝ) + 3) * x) * h1 - 2 * ((n : ℝ) + 2) * ((n : ℝ) + 1) * h0 - hr
  have h := congrArg (eval x) key
  simpa only [eval_mul, eval_add, eval_sub, eval_one, eval_X, eval_C, eval_pow] using h

end Verif.Gauss
