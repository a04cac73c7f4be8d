import Mathlib.Tactic.Ring
import Mathlib.Tactic.LinearCombination
import Mathlib.Tactic.FieldSimp
import Mathlib.Algebra.CharZero.Defs
import Mathlib.Data.Nat.Cast.Field
import Mathlib.Analysis.Calculus.Deriv.Mul
import Mathlib.Analysis.Calculus.Deriv.Add
import Mathlib.Analysis.Calculus.Deriv.Pow
import Mathlib.MeasureTheory.Integral.IntervalIntegral.IntegrationByParts
import Verif.Model.HierPoly

/-!
# Lemmas: the Legendre polynomials of the hierarchic elements
-/

namespace Verif
section
variable {K : Type} [Field K]

theorem legendre_zero (x t : K) : legendre 0 x t = 1 := rfl

theorem legendre_one (x t : K) : legendre 1 x t = 2 * x - t := rfl

theorem legendre_eq_loop (n : ℕ) (x t : K) : legendre (n + 1) x t = (legendreLoop x t n).2 := by
  cases n with
  | zero => rfl
  | succ n => rfl

theorem legendreLoop_fst (n : ℕ) (x t : K) : (legendreLoop x t n).1 = legendre n x t := by
  cases n with
  | zero => rfl
  | succ n => rw [legendre_eq_loop]; rfl

variable [CharZero K]

theorem legendre_rec (n : ℕ) (x t : K) : ((n : K) + 2) * legendre (n + 2) x t =
    (2 * n + 3) * (2 * x - t) * legendre (n + 1) x t - (n + 1) * t ^ 2 * legendre n x t := by
  have h : (((n + 2 : ℕ) : K)) ≠ 0 := Nat.cast_ne_zero.mpr (by omega)
  rw [legendre_eq_loop (n + 1), legendre_eq_loop n, ← legendreLoop_fst n]
  simp only [legendreLoop]
  rw [show 2 * (n + 2) - 1 = 2 * n + 3 by omega, show n + 2 - 1 = n + 1 by omega]
  push_cast at h ⊢
  field_simp

theorem legendreDx_succ (n : ℕ) (x t : K) : legendreDx (n + 1) x t =
    2 * (n + 1) * legendre n x t + (2 * x - t) * legendreDx n x t := by
  rw [legendreDx]; push_cast; ring

/-- `(2x - t) P'_n - t² P'_{n-1} = 2 n P_n`. -/
theorem legendre_E (n : ℕ) (x t : K) : (2 * x - t) * legendreDx (n + 1) x t - t ^ 2 * legendreDx n x t =
    2 * (n + 1) * legendre (n + 1) x t := by
  induction n with
  | zero => simp [legendreDx, legendre_zero, legendre_one, mul_comm]
  | succ n ih =>
    have h1 := legendre_rec n x t
    rw [legendreDx_succ (n + 1)]
    have h2 := legendreDx_succ n x t
    push_cast
    linear_combination (2 * x - t) * ih - t ^ 2 * h2 - 2 * h1

/-- `(y² - t²) P'_n = 2 (n+1) (P_{n+1} - y P_n)` with `y = 2x - t`. -/
theorem legendre_G (n : ℕ) (x t : K) : ((2 * x - t) ^ 2 - t ^ 2) * legendreDx n x t =
    2 * (n + 1) * (legendre (n + 1) x t - (2 * x - t) * legendre n x t) := by
  have h1 := legendre_E n x t
  rw [legendreDx_succ] at h1
  linear_combination h1

theorem legendreDx_diff (n : ℕ) (x t : K) : legendreDx (n + 2) x t - t ^ 2 * legendreDx n x t =
    2 * (2 * n + 3) * legendre (n + 1) x t := by
  have h1 := legendre_E n x t
  have h2 := legendreDx_succ (n + 1) x t
  push_cast at h2
  linear_combination h1 + h2

theorem legendre_symm (n : ℕ) (x t : K) : legendre n (t - x) t = (-1) ^ n * legendre n x t := by
  induction n using Nat.strong_induction_on with
  | _ n ih =>
    match n with
    | 0 => simp [legendre_zero]
    | 1 => rw [legendre_one, legendre_one]; ring
    | n + 2 =>
      have h : ((n : K) + 2) ≠ 0 := by exact_mod_cast (by omega : n + 2 ≠ 0)
      apply mul_left_cancel₀ h
      rw [legendre_rec, ih (n + 1) (by omega), ih n (by omega)]
      have := legendre_rec n x t
      linear_combination -(-(1 : K)) ^ n * this

theorem legendre_diag (n : ℕ) (t : K) : legendre n t t = t ^ n := by
  induction n using Nat.strong_induction_on with
  | _ n ih =>
    match n with
    | 0 => simp [legendre_zero]
    | 1 => rw [legendre_one]; ring
    | n + 2 =>
      have h : ((n : K) + 2) ≠ 0 := by exact_mod_cast (by omega : n + 2 ≠ 0)
      apply mul_left_cancel₀ h
      rw [legendre_rec, ih (n + 1) (by omega), ih n (by omega)]
      ring

theorem legendre_left (n : ℕ) (t : K) : legendre n 0 t = (-t) ^ n := by
  have := legendre_symm n t t
  rw [sub_self] at this
  rw [this, legendre_diag, ← neg_one_mul t, mul_pow]

omit [CharZero K] in
theorem iLegendre_one (x t : K) : iLegendre 1 x t = x := rfl

theorem iLegendre_eq (n : ℕ) (x t : K) : 2 * (2 * n + 3) * iLegendre (n + 2) x t =
    legendre (n + 2) x t - t ^ 2 * legendre n x t := by
  have h : ((2 * (2 * (n + 2) - 1) : ℕ) : K) ≠ 0 := Nat.cast_ne_zero.mpr (by omega)
  rw [iLegendre, if_neg (by omega)]
  rw [show 2 * (n + 2) - 1 = 2 * n + 3 by omega] at h ⊢
  push_cast at h ⊢
  rw [mul_div_cancel₀ _ h]
  ring

theorem two_mul_add_three_ne (n : ℕ) : (2 * (2 * (n : K) + 3)) ≠ 0 := by
  exact_mod_cast (by omega : 2 * (2 * n + 3) ≠ 0)

theorem iLegendre_left (n : ℕ) (t : K) : iLegendre (n + 2) 0 t = 0 := by
  apply mul_left_cancel₀ (two_mul_add_three_ne (K := K) n)
  rw [iLegendre_eq, legendre_left, legendre_left]; ring

theorem iLegendre_right (n : ℕ) (t : K) : iLegendre (n + 2) t t = 0 := by
  apply mul_left_cancel₀ (two_mul_add_three_ne (K := K) n)
  rw [iLegendre_eq, legendre_diag, legendre_diag]; ring

theorem iLegendre_symm (n : ℕ) (x t : K) :
    iLegendre (n + 2) (t - x) t = (-1) ^ n * iLegendre (n + 2) x t := by
  apply mul_left_cancel₀ (two_mul_add_three_ne (K := K) n)
  have h := iLegendre_eq n x t
  rw [iLegendre_eq, legendre_symm, legendre_symm]
  linear_combination -(-1 : K) ^ n * h

/-- Scaling: `P_n(t x; t) = t^n P_n(x; 1)`. -/
theorem legendre_scale (n : ℕ) (s x t : K) : legendre n (s * x) (s * t) = s ^ n * legendre n x t := by
  induction n using Nat.strong_induction_on with
  | _ n ih =>
    match n with
    | 0 => simp [legendre_zero]
    | 1 => rw [legendre_one, legendre_one]; ring
    | n + 2 =>
      have h : ((n : K) + 2) ≠ 0 := by exact_mod_cast (by omega : n + 2 ≠ 0)
      apply mul_left_cancel₀ h
      rw [legendre_rec, ih (n + 1) (by omega), ih n (by omega)]
      have := legendre_rec n x t
      linear_combination -s ^ (n + 2) * this

theorem iLegendre_scale (n : ℕ) (s x t : K) :
    iLegendre (n + 2) (s * x) (s * t) = s ^ (n + 2) * iLegendre (n + 2) x t := by
  apply mul_left_cancel₀ (two_mul_add_three_ne (K := K) n)
  have h := iLegendre_eq n x t
  rw [iLegendre_eq, legendre_scale, legendre_scale]
  linear_combination -s ^ (n + 2) * h

end

section
open intervalIntegral

theorem legendre_hasDeriv (n : ℕ) (x t : ℝ) :
    HasDerivAt (fun x => legendre n x t) (legendreDx n x t) x := by
  induction n using Nat.strong_induction_on with
  | _ n ih =>
    match n with
    | 0 => simpa [legendre_zero, legendreDx] using hasDerivAt_const x (1 : ℝ)
    | 1 =>
      have : HasDerivAt (fun x => 2 * x - t) (2 * 1) x := ((hasDerivAt_id x).const_mul 2).sub_const t
      simpa [legendre_one, legendreDx, legendre_zero] using this
    | n + 2 =>
      have h : ((n : ℝ) + 2) ≠ 0 := by positivity
      have hf : (fun x => legendre (n + 2) x t) = fun x => ((n : ℝ) + 2)⁻¹ *
          ((2 * n + 3) * ((2 * x - t) * legendre (n + 1) x t) - (n + 1) * t ^ 2 * legendre n x t) := by
        funext x
        rw [eq_inv_mul_iff_mul_eq₀ h, legendre_rec]; ring
      rw [hf]
      have hy : HasDerivAt (fun x => 2 * x - t) (2 * 1) x :=
        ((hasDerivAt_id x).const_mul 2).sub_const t
      have := (((hy.mul (ih (n + 1) (by omega))).const_mul ((2 : ℝ) * n + 3)).sub
        ((ih n (by omega)).const_mul (((n : ℝ) + 1) * t ^ 2))).const_mul ((n : ℝ) + 2)⁻¹
      refine this.congr_deriv ?_
      rw [inv_mul_eq_iff_eq_mul₀ h]
      have h1 := legendre_E n x t
      have h2 := legendreDx_succ (n + 1) x t
      push_cast at h2
      linear_combination (n + 1) * h1 - (n + 2) * h2

/-- The derivative of `P_n` with respect to the scaling parameter. -/
noncomputable def legendreT : ℕ → ℝ → ℝ → ℝ
  | 0, _, _ => 0
  | n + 1, x, t => -(1 / 2) * (legendreDx (n + 1) x t + t * legendreDx n x t)

theorem legendre_hasDerivT (n : ℕ) (x t : ℝ) :
    HasDerivAt (fun t => legendre n x t) (legendreT n x t) t := by
  induction n using Nat.strong_induction_on with
  | _ n ih =>
    match n with
    | 0 => simpa [legendre_zero, legendreT] using hasDerivAt_const t (1 : ℝ)
    | 1 =>
      have : HasDerivAt (fun t => 2 * x - t) (-1) t := (hasDerivAt_id t).const_sub (2 * x)
      refine this.congr_deriv ?_
      simp [legendreT, legendreDx, legendre_zero]
    | n + 2 =>
      have h : ((n : ℝ) + 2) ≠ 0 := by positivity
      have hf : (fun t => legendre (n + 2) x t) = fun t => ((n : ℝ) + 2)⁻¹ *
          ((2 * n + 3) * ((2 * x - t) * legendre (n + 1) x t) - (n + 1) * (t ^ 2 * legendre n x t)) := by
        funext t
        rw [eq_inv_mul_iff_mul_eq₀ h, legendre_rec]; ring
      rw [hf]
      have hy : HasDerivAt (fun t => 2 * x - t) (-1) t := (hasDerivAt_id t).const_sub (2 * x)
      have hs : HasDerivAt (fun t : ℝ => t ^ 2) (2 * t) t := by simpa using hasDerivAt_pow 2 t
      have := (((hy.mul (ih (n + 1) (by omega))).const_mul ((2 : ℝ) * n + 3)).sub
        ((hs.mul (ih n (by omega))).const_mul ((n : ℝ) + 1))).const_mul ((n : ℝ) + 2)⁻¹
      refine this.congr_deriv ?_
      rw [inv_mul_eq_iff_eq_mul₀ h]
      have h1 := legendre_E n x t
      have h2 := legendreDx_succ (n + 1) x t
      have h4 := legendreDx_succ n x t
      push_cast at h2
      cases n with
      | zero =>
        simp only [legendreT, legendreDx, legendre_zero, legendre_one]
        push_cast
        rw [zero_add, legendre_one]
        ring
      | succ n =>
        have h3 := legendre_E n x t
        have h5 := legendreDx_succ n x t
        simp only [legendreT]
        push_cast at *
        linear_combination (-(n + 2) / 2 : ℝ) * h1 + ((n + 3) / 2 : ℝ) * h2 - (n + 2) / 2 * t * h3 +
          (n + 3) / 2 * t * h4

theorem iLegendre_hasDeriv (n : ℕ) (hn : 1 ≤ n) (x t : ℝ) :
    HasDerivAt (fun x => iLegendre n x t) (iLegendreDx n x t) x := by
  match n, hn with
  | 1, _ => exact hasDerivAt_id x
  | n + 2, _ =>
    have h := two_mul_add_three_ne (K := ℝ) n
    have hf : (fun x => iLegendre (n + 2) x t) = fun x => (2 * (2 * (n : ℝ) + 3))⁻¹ *
        (legendre (n + 2) x t - t ^ 2 * legendre n x t) := by
      funext x
      rw [eq_inv_mul_iff_mul_eq₀ h, iLegendre_eq]
    rw [hf]
    refine (((legendre_hasDeriv (n + 2) x t).sub
      ((legendre_hasDeriv n x t).const_mul (t ^ 2))).const_mul (2 * (2 * (n : ℝ) + 3))⁻¹).congr_deriv ?_
    rw [inv_mul_eq_iff_eq_mul₀ h]
    exact legendreDx_diff n x t

theorem iLegendre_hasDerivT (n : ℕ) (hn : 1 ≤ n) (x t : ℝ) :
    HasDerivAt (fun t => iLegendre n x t) (iLegendreDt n x t) t := by
  match n, hn with
  | 1, _ => simpa [iLegendre_one, iLegendreDt] using hasDerivAt_const t x
  | n + 2, _ =>
    have h := two_mul_add_three_ne (K := ℝ) n
    have hf : (fun t => iLegendre (n + 2) x t) = fun t => (2 * (2 * (n : ℝ) + 3))⁻¹ *
        (legendre (n + 2) x t - t ^ 2 * legendre n x t) := by
      funext t
      rw [eq_inv_mul_iff_mul_eq₀ h, iLegendre_eq]
    rw [hf]
    have hs : HasDerivAt (fun t : ℝ => t ^ 2) (2 * t) t := by simpa using hasDerivAt_pow 2 t
    refine (((legendre_hasDerivT (n + 2) x t).sub
      (hs.mul (legendre_hasDerivT n x t))).const_mul (2 * (2 * (n : ℝ) + 3))⁻¹).congr_deriv ?_
    rw [inv_mul_eq_iff_eq_mul₀ h]
    have h1 := legendreDx_diff n x t
    rw [iLegendreDt, if_neg (by omega)]
    simp only [Nat.add_sub_cancel, show n + 2 - 1 = n + 1 by omega]
    cases n with
    | zero =>
      simp only [legendreT, legendreDx, legendre_zero, legendre_one]
      push_cast
      rw [legendre_one]
      ring
    | succ n =>
      have h2 := legendreDx_diff n x t
      simp only [legendreT]
      push_cast at *
      linear_combination (-(1 / 2) : ℝ) * h1 - 1 / 2 * t * h2

theorem legendre_continuous (n : ℕ) (t : ℝ) : Continuous fun x => legendre n x t :=
  continuous_iff_continuousAt.mpr fun x => (legendre_hasDeriv n x t).continuousAt

theorem legendreDx_continuous (n : ℕ) (t : ℝ) : Continuous fun x => legendreDx n x t := by
  induction n with
  | zero => exact continuous_const
  | succ n ih =>
    have := legendre_continuous n t
    simp only [legendreDx_succ]
    fun_prop

/-- Integration by parts. -/
theorem by_parts {u u' v v' : ℝ → ℝ} (a b : ℝ) (hu : ∀ x, HasDerivAt u (u' x) x)
    (hv : ∀ x, HasDerivAt v (v' x) x) (cu : Continuous u') (cv : Continuous v') :
    ∫ x in a..b, u' x * v x = u b * v b - u a * v a - ∫ x in a..b, u x * v' x := by
  have hcu : Continuous u := continuous_iff_continuousAt.mpr fun x => (hu x).continuousAt
  have hcv : Continuous v := continuous_iff_continuousAt.mpr fun x => (hv x).continuousAt
  have := intervalIntegral.integral_deriv_mul_eq_sub (u := u) (v := v) (a := a) (b := b)
    (fun x _ => hu x) (fun x _ => hv x) (cu.intervalIntegrable a b) (cv.intervalIntegrable a b)
  rw [intervalIntegral.integral_add (by apply Continuous.intervalIntegrable; fun_prop)
      (by apply Continuous.intervalIntegrable; fun_prop)] at this
  linarith

/-- Legendre's differential equation `((y² - 1) P'_n)' = 4 n (n + 1) P_n`, `y = 2x - 1`. -/
theorem legendre_ode (n : ℕ) (x : ℝ) :
    HasDerivAt (fun x => ((2 * x - 1) ^ 2 - 1 ^ 2) * legendreDx n x 1) (4 * n * (n + 1) * legendre n x 1) x := by
  simp only [legendre_G]
  have hy : HasDerivAt (fun x : ℝ => 2 * x - 1) (2 * 1) x :=
    ((hasDerivAt_id x).const_mul 2).sub_const 1
  refine (((legendre_hasDeriv (n + 1) x 1).sub (hy.mul (legendre_hasDeriv n x 1))).const_mul
    (2 * ((n : ℝ) + 1))).congr_deriv ?_
  rw [legendreDx_succ]
  ring

theorem legendre_orthogonal {m n : ℕ} (h : m ≠ n) :
    ∫ x in (0 : ℝ)..1, legendre m x 1 * legendre n x 1 = 0 := by
  have key : ∀ m n : ℕ, (4 * (m : ℝ) * (m + 1)) * ∫ x in (0 : ℝ)..1, legendre m x 1 * legendre n x 1 =
      -∫ x in (0 : ℝ)..1, ((2 * x - 1) ^ 2 - 1 ^ 2) * legendreDx m x 1 * legendreDx n x 1 := by
    intro m n
    have hm := legendre_continuous m 1
    have hn := legendre_continuous n 1
    have hm' := legendreDx_continuous m 1
    have hn' := legendreDx_continuous n 1
    have := by_parts 0 1 (legendre_ode m) (fun x => legendre_hasDeriv n x 1) (by fun_prop) hn'
    simp only [mul_assoc, intervalIntegral.integral_const_mul] at this ⊢
    norm_num at this ⊢
    linarith
  have h1 := key m n
  have h2 := key n m
  have e1 : ∫ x in (0 : ℝ)..1, legendre n x 1 * legendre m x 1 =
      ∫ x in (0 : ℝ)..1, legendre m x 1 * legendre n x 1 := by
    congr 1; funext x; ring
  have e2 : ∫ x in (0 : ℝ)..1, ((2 * x - 1) ^ 2 - 1 ^ 2) * legendreDx n x 1 * legendreDx m x 1 =
      ∫ x in (0 : ℝ)..1, ((2 * x - 1) ^ 2 - 1 ^ 2) * legendreDx m x 1 * legendreDx n x 1 := by
    congr 1; funext x; ring
  rw [e1, e2] at h2
  have h3 : ((m : ℝ) - n) * (m + n + 1) * ∫ x in (0 : ℝ)..1, legendre m x 1 * legendre n x 1 = 0 := by
    linear_combination (1 / 4) * h1 - (1 / 4) * h2
  rcases mul_eq_zero.mp h3 with h4 | h4
  · rcases mul_eq_zero.mp h4 with h5 | h5
    · exact absurd (by exact_mod_cast sub_eq_zero.mp h5) h
    · exact absurd h5 (by positivity)
  · exact h4

/-- `P'_m` is orthogonal to `P_n` for `n ≥ m`. -/
theorem legendreDx_orthogonal (m n : ℕ) (h : m ≤ n) :
    ∫ x in (0 : ℝ)..1, legendreDx m x 1 * legendre n x 1 = 0 := by
  induction m using Nat.strong_induction_on with
  | _ m ih =>
    match m with
    | 0 => simp [legendreDx]
    | 1 =>
      have := legendre_orthogonal (m := 0) (n := n) (by omega)
      have e : ∀ x, legendreDx 1 x 1 * legendre n x 1 = 2 * (legendre 0 x 1 * legendre n x (1 : ℝ)) := by
        intro x; simp [legendreDx, legendre_zero]
      simp only [e]
      rw [intervalIntegral.integral_const_mul, this, mul_zero]
    | m + 2 =>
      have h1 := legendre_orthogonal (m := m + 1) (n := n) (by omega)
      have h2 := ih m (by omega) (by omega)
      have c1 := legendre_continuous (m + 1) 1
      have c2 := legendreDx_continuous m 1
      have c3 := legendre_continuous n 1
      have e : ∀ x, legendreDx (m + 2) x 1 * legendre n x 1 = legendreDx m x 1 * legendre n x 1 +
          2 * (2 * m + 3) * (legendre (m + 1) x 1 * legendre n x (1 : ℝ)) := by
        intro x
        have := legendreDx_diff m x (1 : ℝ)
        linear_combination legendre n x 1 * this
      simp only [e]
      rw [intervalIntegral.integral_add (by apply Continuous.intervalIntegrable; fun_prop)
        (by apply Continuous.intervalIntegrable; fun_prop), intervalIntegral.integral_const_mul,
        h1, h2, mul_zero, add_zero]

theorem legendre_norm (n : ℕ) :
    ∫ x in (0 : ℝ)..1, legendre n x 1 * legendre n x 1 = 1 / (2 * n + 1) := by
  have c0 := legendre_continuous n 1
  have c1 := legendre_continuous (n + 1) 1
  have c2 := legendreDx_continuous n 1
  have c3 := legendreDx_continuous (n + 1) 1
  have := by_parts 0 1 (fun x => legendre_hasDeriv (n + 1) x 1) (fun x => legendre_hasDeriv n x 1) c3 c2
  have o1 := legendreDx_orthogonal n (n + 1) (by omega)
  rw [show (∫ x in (0 : ℝ)..1, legendre (n + 1) x 1 * legendreDx n x 1) = 0 by
    rw [← o1]; congr 1; funext x; ring, sub_zero] at this
  simp only [legendre_diag, legendre_left, one_pow] at this
  have e : ∫ x in (0 : ℝ)..1, legendreDx (n + 1) x 1 * legendre n x 1 =
      2 * (2 * n + 1) * ∫ x in (0 : ℝ)..1, legendre n x 1 * legendre n x 1 := by
    cases n with
    | zero =>
      rw [← intervalIntegral.integral_const_mul]
      congr 1; funext x
      simp [legendreDx, legendre_zero]
    | succ n =>
      have o2 := legendreDx_orthogonal n (n + 1) (by omega)
      have c4 := legendreDx_continuous n 1
      have e' : ∀ x, legendreDx (n + 1 + 1) x 1 * legendre (n + 1) x 1 =
          legendreDx n x 1 * legendre (n + 1) x 1 +
          2 * (2 * n + 3) * (legendre (n + 1) x 1 * legendre (n + 1) x (1 : ℝ)) := by
        intro x
        have := legendreDx_diff n x (1 : ℝ)
        linear_combination legendre (n + 1) x 1 * this
      simp only [e']
      rw [intervalIntegral.integral_add (by apply Continuous.intervalIntegrable; fun_prop)
        (by apply Continuous.intervalIntegrable; fun_prop), intervalIntegral.integral_const_mul, o2]
      push_cast
      ring
  rw [e] at this
  have h2 : (2 : ℝ) * (2 * n + 1) ≠ 0 := by positivity
  have h3 : (2 * (n : ℝ) + 1) ≠ 0 := by positivity
  have h4 : (-(1 : ℝ)) ^ n * (-1) ^ n = 1 := by rw [← mul_pow]; norm_num
  rw [eq_div_iff h3]
  have : 2 * (2 * (n : ℝ) + 1) * ∫ x in (0 : ℝ)..1, legendre n x 1 * legendre n x 1 = 2 := by
    rw [this, pow_succ]
    linear_combination h4
  linarith

end
end Verif
