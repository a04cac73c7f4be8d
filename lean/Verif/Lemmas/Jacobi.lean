import Mathlib.Topology.Instances.Real.Lemmas
import Mathlib.Topology.Algebra.Module.Cardinality
import Mathlib.Analysis.SpecialFunctions.Integrals.Basic
import Verif.Lemmas.Legendre

/-!
# Lemmas: the Jacobi polynomials of the hierarchic elements
-/

namespace Verif
section
variable {K : Type} [Field K]

theorem jacobiAB_zero (al be x : K) : jacobiAB 0 al be x = 1 := rfl

theorem jacobiAB_one (al be x : K) :
    jacobiAB 1 al be x = 1 / 2 * (al - be + (2 * x - 1) * (al + be + 2)) := rfl

theorem jacobiAB_eq_loop (n : ℕ) (al be x : K) :
    jacobiAB (n + 1) al be x = (jacobiLoop al be (2 * x - 1) n).2 := by
  cases n <;> rfl

theorem jacobiLoop_fst (n : ℕ) (al be x : K) :
    (jacobiLoop al be (2 * x - 1) n).1 = jacobiAB n al be x := by
  cases n with
  | zero => rfl
  | succ n => rw [jacobiAB_eq_loop]; rfl

end

section
variable {K : Type} [Field K] [LinearOrder K] [IsStrictOrderedRing K]

/-- The three-term recurrence of the Jacobi polynomials. -/
theorem jacobiAB_rec (n : ℕ) {al be : K} (ha : 0 ≤ al) (hb : 0 ≤ be) (x : K) :
    2 * (n + 2) * (n + al + be + 2) * (2 * n + al + be + 2) * jacobiAB (n + 2) al be x =
    ((2 * n + al + be + 3) * (al ^ 2 - be ^ 2) +
      (2 * n + al + be + 2) * (2 * n + al + be + 3) * (2 * n + al + be + 4) * (2 * x - 1)) *
        jacobiAB (n + 1) al be x -
    2 * (n + 1 + al) * (n + 1 + be) * (2 * n + al + be + 4) * jacobiAB n al be x := by
  rw [jacobiAB_eq_loop (n + 1), jacobiAB_eq_loop n, ← jacobiLoop_fst n]
  simp only [jacobiLoop]
  push_cast
  have h1 : (2 * ((n : K) + 1 + 1) * ((n : K) + 1 + al + be + 1) * (2 * ((n : K) + 1) + al + be)) ≠ 0 := by
    positivity
  rw [one_div, ← mul_assoc,
    show 2 * ((n : K) + 2) * (n + al + be + 2) * (2 * n + al + be + 2) =
    2 * ((n : K) + 1 + 1) * ((n : K) + 1 + al + be + 1) * (2 * ((n : K) + 1) + al + be) by ring,
    mul_inv_cancel₀ h1]
  ring

theorem jacobi_zero (al x : K) : jacobi 0 al x = 1 := rfl

theorem jacobi_one (al x : K) : jacobi 1 al x = 1 / 2 * (al + (2 * x - 1) * (al + 2)) := by
  rw [jacobi, jacobiAB_one]; ring

theorem jacobi_rec (n : ℕ) {al : K} (ha : 0 ≤ al) (x : K) :
    2 * (n + 2) * (n + al + 2) * (2 * n + al + 2) * jacobi (n + 2) al x =
    ((2 * n + al + 3) * al ^ 2 + (2 * n + al + 2) * (2 * n + al + 3) * (2 * n + al + 4) * (2 * x - 1)) *
        jacobi (n + 1) al x -
    2 * (n + 1 + al) * (n + 1) * (2 * n + al + 4) * jacobi n al x := by
  have := jacobiAB_rec n ha (le_refl 0) x
  simp only [jacobi]
  linear_combination this

theorem iJacobiStep_eq (n : ℕ) {al : K} (ha : 0 ≤ al) (x : K) :
    iJacobiStep al x (n + 2) (jacobi (n + 1) al x) (jacobi n al x) = jacobi (n + 2) al x := by
  have h1 : (2 * ((n : K) + 2) * (n + al + 2) * (2 * n + al + 2)) ≠ 0 := by positivity
  have h := jacobi_rec n ha x
  simp only [iJacobiStep, show n + 2 - 1 = n + 1 by omega]
  push_cast
  rw [show 2 * ((n : K) + 2) * ((n : K) + 2 + al) * (2 * ((n : K) + 2) + al - 2) =
    2 * ((n : K) + 2) * (n + al + 2) * (2 * n + al + 2) by ring, div_eq_iff h1]
  linear_combination -h

theorem iJacobiLoop_eq (n : ℕ) {al : K} (ha : 0 ≤ al) (x : K) :
    iJacobiLoop al x n = (jacobi n al x, jacobi (n + 1) al x, jacobi (n + 2) al x) := by
  induction n with
  | zero =>
    have h1 : (2 + al) * x - 1 = jacobi 1 al x := by rw [jacobi_one]; ring
    rw [iJacobiLoop, h1, show (1 : K) = jacobi 0 al x from rfl, iJacobiStep_eq 0 ha]
  | succ n ih =>
    rw [iJacobiLoop, ih]
    simp only
    rw [iJacobiStep_eq (n + 1) ha]

omit [LinearOrder K] [IsStrictOrderedRing K] in
theorem iJacobi_one (al x : K) : iJacobi 1 al x = x := rfl

theorem iJacobi_eq (n : ℕ) {al : K} (ha : 0 ≤ al) (x : K) :
    (2 * n + al + 2) * (2 * n + al + 3) * (2 * n + al + 4) * iJacobi (n + 2) al x =
    (2 * n + al + 2) * (n + 2 + al) * jacobi (n + 2) al x +
      (2 * n + al + 3) * al * jacobi (n + 1) al x - (2 * n + al + 4) * (n + 1) * jacobi n al x := by
  have h2 : (2 * (n : K) + al + 2) ≠ 0 := by positivity
  have h3 : (2 * (n : K) + al + 3) ≠ 0 := by positivity
  have h4 : (2 * (n : K) + al + 4) ≠ 0 := by positivity
  rw [iJacobi, if_neg (by omega), if_neg (by omega)]
  simp only [Nat.add_sub_cancel, iJacobiLoop_eq n ha, show n + 2 - 1 = n + 1 by omega]
  push_cast
  rw [show (2 * ((n : K) + 2) + al - 1) = 2 * n + al + 3 by ring,
    show (2 * ((n : K) + 2) + al - 2) = 2 * n + al + 2 by ring,
    show (2 * ((n : K) + 2) + al) = 2 * n + al + 4 by ring]
  field_simp

/-- Value at `0`. -/
theorem jacobi_left (n : ℕ) {al : K} (ha : 0 ≤ al) : jacobi n al 0 = (-1) ^ n := by
  induction n using Nat.strong_induction_on with
  | _ n ih =>
    match n with
    | 0 => simp [jacobi_zero]
    | 1 => rw [jacobi_one]; ring
    | n + 2 =>
      have h1 : (2 * ((n : K) + 2) * (n + al + 2) * (2 * n + al + 2)) ≠ 0 := by positivity
      apply mul_left_cancel₀ h1
      rw [jacobi_rec n ha, ih (n + 1) (by omega), ih n (by omega)]
      ring

theorem iJacobi_left (n : ℕ) {al : K} (ha : 0 ≤ al) : iJacobi (n + 1) al 0 = 0 := by
  cases n with
  | zero => rfl
  | succ n =>
    have h1 : (2 * (n : K) + al + 2) * (2 * n + al + 3) * (2 * n + al + 4) ≠ 0 := by positivity
    apply mul_left_cancel₀ h1
    rw [iJacobi_eq n ha, jacobi_left _ ha, jacobi_left _ ha, jacobi_left _ ha]
    ring

end

section

theorem jacobiAB_differentiable (n : ℕ) {al be : ℝ} (ha : 0 ≤ al) (hb : 0 ≤ be) :
    ContDiff ℝ 2 (jacobiAB n al be) := by
  induction n using Nat.strong_induction_on with
  | _ n ih =>
    match n with
    | 0 => exact contDiff_const
    | 1 =>
      have : jacobiAB 1 al be = fun x => 1 / 2 * (al - be + (2 * x - 1) * (al + be + 2)) := by
        funext x; exact jacobiAB_one al be x
      rw [this]
      fun_prop
    | n + 2 =>
      have h1 : 2 * ((n : ℝ) + 2) * (n + al + be + 2) * (2 * n + al + be + 2) ≠ 0 := by positivity
      have : jacobiAB (n + 2) al be = fun x =>
        (2 * ((n : ℝ) + 2) * (n + al + be + 2) * (2 * n + al + be + 2))⁻¹ *
        (((2 * n + al + be + 3) * (al ^ 2 - be ^ 2) +
          (2 * n + al + be + 2) * (2 * n + al + be + 3) * (2 * n + al + be + 4) * (2 * x - 1)) *
            jacobiAB (n + 1) al be x -
          2 * (n + 1 + al) * (n + 1 + be) * (2 * n + al + be + 4) * jacobiAB n al be x) := by
        funext x
        rw [eq_inv_mul_iff_mul_eq₀ h1, jacobiAB_rec n ha hb]
      rw [this]
      have i1 := ih (n + 1) (by omega)
      have i2 := ih n (by omega)
      fun_prop

/-- The derivative of the Jacobi polynomial. -/
noncomputable def jacobiD (n : ℕ) (al x : ℝ) : ℝ := deriv (jacobi n al) x

variable {al : ℝ} (ha : 0 ≤ al)
include ha

theorem jacobi_contDiff (n : ℕ) : ContDiff ℝ 2 (jacobi n al) := jacobiAB_differentiable n ha (le_refl 0)

theorem jacobi_hasDeriv (n : ℕ) (x : ℝ) : HasDerivAt (jacobi n al) (jacobiD n al x) x :=
  ((jacobi_contDiff ha n).differentiable (by norm_num) x).hasDerivAt

theorem jacobiD_continuous (n : ℕ) : Continuous (jacobiD n al) :=
  (jacobi_contDiff ha n).continuous_deriv (by norm_num)

theorem jacobi_continuous (n : ℕ) : Continuous (jacobi n al) := (jacobi_contDiff ha n).continuous

omit ha in
theorem jacobiD_zero (x : ℝ) : jacobiD 0 al x = 0 := by
  have : jacobi 0 al = fun _ => (1 : ℝ) := rfl
  rw [jacobiD, this, deriv_const]

omit ha in
theorem jacobiD_one (x : ℝ) : jacobiD 1 al x = al + 2 := by
  have : jacobi 1 al = fun x => 1 / 2 * (al + (2 * x - 1) * (al + 2)) := by
    funext x; exact jacobi_one al x
  rw [jacobiD, this]
  have h : HasDerivAt (fun x : ℝ => 1 / 2 * (al + (2 * x - 1) * (al + 2)))
      (1 / 2 * ((2 * 1) * (al + 2))) x :=
    (((((hasDerivAt_id x).const_mul 2).sub_const 1).mul_const (al + 2)).const_add al).const_mul (1 / 2)
  rw [h.deriv]; ring

theorem jacobiD_rec (n : ℕ) (x : ℝ) :
    2 * (n + 2) * (n + al + 2) * (2 * n + al + 2) * jacobiD (n + 2) al x =
    2 * ((2 * n + al + 2) * (2 * n + al + 3) * (2 * n + al + 4)) * jacobi (n + 1) al x +
    ((2 * n + al + 3) * al ^ 2 + (2 * n + al + 2) * (2 * n + al + 3) * (2 * n + al + 4) * (2 * x - 1)) *
        jacobiD (n + 1) al x -
    2 * (n + 1 + al) * (n + 1) * (2 * n + al + 4) * jacobiD n al x := by
  have h1 := (jacobi_hasDeriv ha (n + 2) x).const_mul (2 * ((n : ℝ) + 2) * (n + al + 2) * (2 * n + al + 2))
  have hy : HasDerivAt (fun x : ℝ => (2 * n + al + 3) * al ^ 2 +
      (2 * n + al + 2) * (2 * n + al + 3) * (2 * n + al + 4) * (2 * x - 1))
      ((2 * n + al + 2) * (2 * n + al + 3) * (2 * n + al + 4) * (2 * 1)) x :=
    ((((hasDerivAt_id x).const_mul 2).sub_const 1).const_mul _).const_add _
  have h2 := (hy.mul (jacobi_hasDeriv ha (n + 1) x)).sub
    ((jacobi_hasDeriv ha n x).const_mul (2 * ((n : ℝ) + 1 + al) * (n + 1) * (2 * n + al + 4)))
  have e : (fun y => 2 * ((n : ℝ) + 2) * (n + al + 2) * (2 * n + al + 2) * jacobi (n + 2) al y) =
      ((fun x : ℝ => (2 * n + al + 3) * al ^ 2 +
      (2 * n + al + 2) * (2 * n + al + 3) * (2 * n + al + 4) * (2 * x - 1)) * jacobi (n + 1) al -
      fun y => 2 * ((n : ℝ) + 1 + al) * (n + 1) * (2 * n + al + 4) * jacobi n al y) := by
    funext y
    exact jacobi_rec n ha y
  rw [e] at h1
  have := h1.unique h2
  rw [this]
  ring

theorem jacobi_structure (n : ℕ) (x : ℝ) :
    (2 * n + 2 + al) * (2 * x * (1 - x)) * jacobiD n al x = (n + 1 + al) *
      ((al + (2 * n + 2 + al) * (2 * x - 1)) * jacobi n al x - 2 * (n + 1) * jacobi (n + 1) al x) ∧
    (2 * n + 2 + al) * (2 * x * (1 - x)) * jacobiD (n + 1) al x =
      (n + 1) * (al - (2 * n + 2 + al) * (2 * x - 1)) * jacobi (n + 1) al x +
      2 * (n + 1) * (n + 1 + al) * jacobi n al x := by
  induction n with
  | zero =>
    simp only [zero_add, jacobiD_zero, jacobiD_one, jacobi_zero, jacobi_one]
    push_cast
    constructor <;> ring
  | succ n ih =>
    obtain ⟨h0, h1⟩ := ih
    have r := jacobi_rec n ha x
    have rd := jacobiD_rec ha n x
    have p1 : (2 * (n : ℝ) + 2 + al) ≠ 0 := by positivity
    have p2 : 2 * ((n : ℝ) + 2) * (n + al + 2) * (2 * n + al + 2) ≠ 0 := by positivity
    push_cast
    constructor
    · apply mul_left_cancel₀ p1
      linear_combination (2 * (n + 1) + 2 + al) * h1 + r
    · apply mul_left_cancel₀ p1
      apply mul_left_cancel₀ p2
      linear_combination (2 * n + 2 + al) * (2 * (n + 1) + 2 + al) * (2 * x * (1 - x)) * rd +
        (2 * (n + 1) + 2 + al) * ((2 * n + al + 3) * al ^ 2 +
          (2 * n + al + 2) * (2 * n + al + 3) * (2 * n + al + 4) * (2 * x - 1)) * h1 -
        (2 * (n + 1) + 2 + al) * (2 * (n + 1 + al) * (n + 1) * (2 * n + al + 4)) * h0 -
        (2 * n + 2 + al) * (n + 2) * (al - (2 * n + 4 + al) * (2 * x - 1)) * r

omit ha in
/-- Two continuous functions that agree after multiplication by `x (1 - x)` agree. -/
theorem cancel_bubble {f g : ℝ → ℝ} (hf : Continuous f) (hg : Continuous g)
    (h : ∀ x, 2 * x * (1 - x) * f x = 2 * x * (1 - x) * g x) (x : ℝ) : f x = g x := by
  have hd : Dense ({0, 1}ᶜ : Set ℝ) := Set.Countable.dense_compl ℝ (Set.toFinite _).countable
  have := Continuous.ext_on hd hf hg (fun y hy => by
    have h0 : y ≠ 0 := fun e => hy (by simp [e])
    have h1 : 1 - y ≠ 0 := fun e => hy (by simp [(sub_eq_zero.mp e).symm])
    exact mul_left_cancel₀ (mul_ne_zero (mul_ne_zero two_ne_zero h0) h1) (h y))
  exact congrFun this x

/-- The derivatives of the three polynomials in `IJacobi`. -/
theorem jacobi_integral (n : ℕ) (x : ℝ) :
    (2 * n + al + 2) * (n + 2 + al) * jacobiD (n + 2) al x +
      (2 * n + al + 3) * al * jacobiD (n + 1) al x - (2 * n + al + 4) * (n + 1) * jacobiD n al x =
    (2 * n + al + 2) * (2 * n + al + 3) * (2 * n + al + 4) * jacobi (n + 1) al x := by
  have c0 := jacobiD_continuous ha n
  have c1 := jacobiD_continuous ha (n + 1)
  have c2 := jacobiD_continuous ha (n + 2)
  have c3 := jacobi_continuous ha (n + 1)
  refine cancel_bubble (f := fun x => (2 * n + al + 2) * (n + 2 + al) * jacobiD (n + 2) al x +
      (2 * n + al + 3) * al * jacobiD (n + 1) al x - (2 * n + al + 4) * (n + 1) * jacobiD n al x)
    (g := fun x => (2 * n + al + 2) * (2 * n + al + 3) * (2 * n + al + 4) * jacobi (n + 1) al x)
    (by fun_prop) (by fun_prop) (fun x => ?_) x
  obtain ⟨h0, h1⟩ := jacobi_structure ha n x
  obtain ⟨-, h2⟩ := jacobi_structure ha (n + 1) x
  have r := jacobi_rec n ha x
  push_cast at h2
  have p1 : (2 * (n : ℝ) + 2 + al) * (2 * n + 4 + al) ≠ 0 := by positivity
  apply mul_left_cancel₀ p1
  linear_combination (2 * n + 2 + al) ^ 2 * (n + 2 + al) * h2 +
    (2 * n + 3 + al) * al * (2 * n + 4 + al) * h1 - (2 * n + 4 + al) ^ 2 * (n + 1) * h0 +
    (2 * n + 2 + al) * (al - (2 * n + 4 + al) * (2 * x - 1)) / 2 * r

theorem iJacobi_hasDeriv (n : ℕ) (x : ℝ) :
    HasDerivAt (iJacobi (n + 1) al) (iJacobiDx (n + 1) al x) x := by
  cases n with
  | zero => exact hasDerivAt_id x
  | succ n =>
    have h : (2 * (n : ℝ) + al + 2) * (2 * n + al + 3) * (2 * n + al + 4) ≠ 0 := by positivity
    have hf : iJacobi (n + 1 + 1) al = fun x =>
        ((2 * (n : ℝ) + al + 2) * (2 * n + al + 3) * (2 * n + al + 4))⁻¹ *
        ((2 * n + al + 2) * (n + 2 + al) * jacobi (n + 2) al x +
        (2 * n + al + 3) * al * jacobi (n + 1) al x - (2 * n + al + 4) * (n + 1) * jacobi n al x) := by
      funext x
      rw [eq_inv_mul_iff_mul_eq₀ h, iJacobi_eq n ha]
    rw [hf]
    refine (((((jacobi_hasDeriv ha (n + 2) x).const_mul ((2 * (n : ℝ) + al + 2) * (n + 2 + al))).add
      ((jacobi_hasDeriv ha (n + 1) x).const_mul ((2 * (n : ℝ) + al + 3) * al))).sub
      ((jacobi_hasDeriv ha n x).const_mul ((2 * (n : ℝ) + al + 4) * (n + 1)))).const_mul
      ((2 * (n : ℝ) + al + 2) * (2 * n + al + 3) * (2 * n + al + 4))⁻¹).congr_deriv ?_
    rw [inv_mul_eq_iff_eq_mul₀ h]
    exact jacobi_integral ha n x

/-- `JacobiDx` is the derivative of `Jacobi`. -/
theorem jacobiDx_eq (n : ℕ) (x : ℝ) : jacobiDx n al x = jacobiD n al x := by
  have key : ∀ n : ℕ, ∀ x, (al + n + 2) * jacobiAB n (al + 1) 1 x = jacobiD (n + 1) al x := by
    intro n
    induction n using Nat.strong_induction_on with
    | _ n ih =>
      match n with
      | 0 => intro x; rw [jacobiAB_zero, zero_add, jacobiD_one]; push_cast; ring
      | 1 =>
        intro x
        have r := jacobiD_rec ha 0 x
        rw [zero_add, zero_add, jacobiD_zero, jacobiD_one, jacobi_one] at r
        rw [jacobiAB_one]
        push_cast at r ⊢
        have p : 2 * ((0 : ℝ) + 2) * (0 + al + 2) * (2 * 0 + al + 2) ≠ 0 := by positivity
        apply mul_left_cancel₀ p
        linear_combination -r
      | n + 2 =>
        intro x
        refine cancel_bubble (f := fun x => (al + (n + 2 : ℕ) + 2) * jacobiAB (n + 2) (al + 1) 1 x)
          (g := fun x => jacobiD (n + 2 + 1) al x) ?_ ?_ (fun x => ?_) x
        · have := (jacobiAB_differentiable (n + 2) (al := al + 1) (be := 1) (by linarith)
            (by norm_num)).continuous
          fun_prop
        · exact jacobiD_continuous ha _
        have i0 := ih n (by omega) x
        have i1 := ih (n + 1) (by omega) x
        have r := jacobiAB_rec n (al := al + 1) (be := 1) (by linarith) (by norm_num) x
        obtain ⟨h0, -⟩ := jacobi_structure ha (n + 1) x
        obtain ⟨h1, h2⟩ := jacobi_structure ha (n + 2) x
        have rj := jacobi_rec (n + 1) ha x
        push_cast at i0 i1 r h0 h1 h2 rj ⊢
        have p : 2 * ((n : ℝ) + 2) * (n + (al + 1) + 1 + 2) * (2 * n + (al + 1) + 1 + 2) *
          ((2 * n + 4 + al) * (2 * n + 6 + al)) * (n + al + 3) ≠ 0 := by positivity
        apply mul_left_cancel₀ p
        linear_combination
          2 * x * (1 - x) * ((2 * n + 4 + al) * (2 * n + 6 + al)) * (n + al + 3) * (al + n + 4) * r +
          2 * x * (1 - x) * ((2 * n + 4 + al) * (2 * n + 6 + al)) * (al + n + 4) *
            ((2 * n + (al + 1) + 1 + 3) * ((al + 1) ^ 2 - 1 ^ 2) + (2 * n + (al + 1) + 1 + 2) *
              (2 * n + (al + 1) + 1 + 3) * (2 * n + (al + 1) + 1 + 4) * (2 * x - 1)) * i1 -
          2 * x * (1 - x) * ((2 * n + 4 + al) * (2 * n + 6 + al)) * (n + al + 3) * (al + n + 4) *
            (2 * (n + 2) * (2 * n + al + 6)) * i0 +
          (2 * n + 4 + al) * (al + n + 4) *
            ((2 * n + (al + 1) + 1 + 3) * ((al + 1) ^ 2 - 1 ^ 2) + (2 * n + (al + 1) + 1 + 2) *
              (2 * n + (al + 1) + 1 + 3) * (2 * n + (al + 1) + 1 + 4) * (2 * x - 1)) * h1 -
          (2 * n + 6 + al) * (n + al + 3) * (al + n + 4) * (2 * (n + 2) * (2 * n + al + 6)) * h0 -
          2 * (n + 2) * (n + (al + 1) + 1 + 2) * (2 * n + (al + 1) + 1 + 2) * (2 * n + 4 + al) *
            (n + al + 3) * h2 -
          (2 * n + 6 + al) * (n + al + 3) * (al + n + 4) * (al + (2 * n + 4 + al) * (2 * x - 1)) * rj
  cases n with
  | zero => rw [jacobiD_zero]; rfl
  | succ n =>
    rw [← key n x, jacobiDx, if_neg (by omega), Nat.add_sub_cancel]
    push_cast
    ring

theorem jacobi_ode_aux (n : ℕ) (x : ℝ) :
    (n + 1 + al) * (2 * (2 * n + 2 + al) * jacobi n al x +
      (al + (2 * n + 2 + al) * (2 * x - 1)) * jacobiD n al x - 2 * (n + 1) * jacobiD (n + 1) al x) =
    (2 * n + 2 + al) * (2 * al * x * jacobiD n al x - 2 * n * (n + al + 1) * jacobi n al x) := by
  have c0 := jacobiD_continuous ha n
  have c1 := jacobiD_continuous ha (n + 1)
  have c3 := jacobi_continuous ha n
  refine cancel_bubble (f := fun x => (n + 1 + al) * (2 * (2 * n + 2 + al) * jacobi n al x +
      (al + (2 * n + 2 + al) * (2 * x - 1)) * jacobiD n al x - 2 * (n + 1) * jacobiD (n + 1) al x))
    (g := fun x => (2 * n + 2 + al) * (2 * al * x * jacobiD n al x -
      2 * n * (n + al + 1) * jacobi n al x))
    (by fun_prop) (by fun_prop) (fun x => ?_) x
  obtain ⟨h0, h1⟩ := jacobi_structure ha n x
  have p1 : (2 * (n : ℝ) + 2 + al) ≠ 0 := by positivity
  apply mul_left_cancel₀ p1
  linear_combination ((n + 1 + al) * (al + (2 * n + 2 + al) * (2 * x - 1)) -
    (2 * n + 2 + al) * (2 * al * x)) * h0 - 2 * (n + 1) * (n + 1 + al) * h1

omit ha in
/-- The Jacobi differential equation `(x (1-x)^(k+1) P'_n)' = -n (n+k+1) (1-x)^k P_n`. -/
theorem jacobi_ode (n k : ℕ) (hk : 1 ≤ k) (x : ℝ) :
    HasDerivAt (fun x => (1 - x) ^ k * (2 * x * (1 - x) * jacobiD n (k : ℝ) x))
      (-(2 * n * (n + k + 1)) * ((1 - x) ^ k * jacobi n (k : ℝ) x)) x := by
  obtain ⟨m, rfl⟩ : ∃ m, k = m + 1 := ⟨k - 1, by omega⟩
  have ha : (0 : ℝ) ≤ ((m + 1 : ℕ) : ℝ) := Nat.cast_nonneg _
  have p1 : (2 * (n : ℝ) + 2 + ((m + 1 : ℕ) : ℝ)) ≠ 0 := by positivity
  have e : (fun x : ℝ => (1 - x) ^ (m + 1) * (2 * x * (1 - x) * jacobiD n ((m + 1 : ℕ) : ℝ) x)) =
      fun x => ((n + 1 + ((m + 1 : ℕ) : ℝ)) / (2 * (n : ℝ) + 2 + ((m + 1 : ℕ) : ℝ))) * ((1 - x) ^ (m + 1) *
      ((((m + 1 : ℕ) : ℝ) + (2 * n + 2 + ((m + 1 : ℕ) : ℝ)) * (2 * x - 1)) * jacobi n ((m + 1 : ℕ) : ℝ) x -
        2 * (n + 1) * jacobi (n + 1) ((m + 1 : ℕ) : ℝ) x)) := by
    funext x
    obtain ⟨h0, -⟩ := jacobi_structure ha n x
    rw [div_mul_eq_mul_div, eq_div_iff p1]
    linear_combination (1 - x) ^ (m + 1) * h0
  rw [e]
  have hp : HasDerivAt (fun x : ℝ => (1 - x) ^ (m + 1)) (((m + 1 : ℕ) : ℝ) * (1 - x) ^ m * (-1)) x := by
    have := ((hasDerivAt_id x).const_sub 1).pow (m + 1)
    refine this.congr_deriv ?_
    simp
  have hy : HasDerivAt (fun x : ℝ => ((m + 1 : ℕ) : ℝ) + (2 * n + 2 + ((m + 1 : ℕ) : ℝ)) * (2 * x - 1))
      ((2 * n + 2 + ((m + 1 : ℕ) : ℝ)) * (2 * 1)) x :=
    ((((hasDerivAt_id x).const_mul 2).sub_const 1).const_mul _).const_add _
  refine ((hp.mul ((hy.mul (jacobi_hasDeriv ha n x)).sub
    ((jacobi_hasDeriv ha (n + 1) x).const_mul (2 * ((n : ℝ) + 1))))).const_mul _).congr_deriv ?_
  rw [div_mul_eq_mul_div, div_eq_iff p1]
  obtain ⟨h0, -⟩ := jacobi_structure ha n x
  have h1 := jacobi_ode_aux ha n x
  simp only [Pi.sub_apply, Pi.mul_apply]
  generalize ((m + 1 : ℕ) : ℝ) = al at *
  linear_combination al * (1 - x) ^ m * h0 + (1 - x) ^ (m + 1) * h1

omit ha in
theorem jacobi_orthogonal {k m n : ℕ} (hk : 1 ≤ k) (h : m ≠ n) :
    ∫ x in (0 : ℝ)..1, (1 - x) ^ k * jacobi m (k : ℝ) x * jacobi n (k : ℝ) x = 0 := by
  have ha : (0 : ℝ) ≤ (k : ℝ) := Nat.cast_nonneg _
  have key : ∀ m n : ℕ, (2 * (m : ℝ) * (m + k + 1)) *
      ∫ x in (0 : ℝ)..1, (1 - x) ^ k * jacobi m (k : ℝ) x * jacobi n (k : ℝ) x =
      ∫ x in (0 : ℝ)..1, (1 - x) ^ k * (2 * x * (1 - x) * jacobiD m (k : ℝ) x) * jacobiD n (k : ℝ) x := by
    intro m n
    have hm := jacobi_continuous ha m
    have hn' := jacobiD_continuous ha n
    have := by_parts 0 1 (jacobi_ode m k hk) (fun x => jacobi_hasDeriv ha n x) (by fun_prop) hn'
    simp only [mul_assoc, intervalIntegral.integral_const_mul, neg_mul,
      intervalIntegral.integral_neg] at this ⊢
    norm_num at this ⊢
    linarith
  have h1 := key m n
  have h2 := key n m
  have e1 : ∫ x in (0 : ℝ)..1, (1 - x) ^ k * jacobi n (k : ℝ) x * jacobi m (k : ℝ) x =
      ∫ x in (0 : ℝ)..1, (1 - x) ^ k * jacobi m (k : ℝ) x * jacobi n (k : ℝ) x := by
    congr 1; funext x; ring
  have e2 : ∫ x in (0 : ℝ)..1, (1 - x) ^ k * (2 * x * (1 - x) * jacobiD n (k : ℝ) x) * jacobiD m (k : ℝ) x =
      ∫ x in (0 : ℝ)..1, (1 - x) ^ k * (2 * x * (1 - x) * jacobiD m (k : ℝ) x) * jacobiD n (k : ℝ) x := by
    congr 1; funext x; ring
  rw [e1, e2] at h2
  have h3 : ((m : ℝ) - n) * (m + n + k + 1) *
      ∫ x in (0 : ℝ)..1, (1 - x) ^ k * jacobi m (k : ℝ) x * jacobi n (k : ℝ) x = 0 := by
    linear_combination (1 / 2) * h1 - (1 / 2) * h2
  rcases mul_eq_zero.mp h3 with h4 | h4
  · rcases mul_eq_zero.mp h4 with h5 | h5
    · exact absurd (by exact_mod_cast sub_eq_zero.mp h5) h
    · exact absurd h5 (by positivity)
  · exact h4

omit ha in
theorem jacobi_rec' (n : ℕ) {al : ℝ} (ha : 0 ≤ al) (x : ℝ) :
    2 * (n + 1) * (n + al + 1) * (2 * n + al) * jacobi (n + 1) al x =
    ((2 * n + al + 1) * al ^ 2 + (2 * n + al) * (2 * n + al + 1) * (2 * n + al + 2) * (2 * x - 1)) *
        jacobi n al x -
    2 * (n + al) * n * (2 * n + al + 2) * jacobi (n - 1) al x := by
  cases n with
  | zero => rw [zero_add, jacobi_one, jacobi_zero]; push_cast; ring
  | succ n =>
    have := jacobi_rec n ha x
    rw [Nat.add_sub_cancel]
    push_cast
    linear_combination this

omit ha in
theorem jacobi_norm {k : ℕ} (hk : 1 ≤ k) (n : ℕ) :
    ∫ x in (0 : ℝ)..1, (1 - x) ^ k * jacobi n (k : ℝ) x * jacobi n (k : ℝ) x = 1 / (2 * n + k + 1) := by
  have ha : (0 : ℝ) ≤ (k : ℝ) := Nat.cast_nonneg _
  have hk' : (0 : ℝ) < (k : ℝ) := by exact_mod_cast hk
  induction n with
  | zero =>
    simp only [jacobi_zero, mul_one]
    have := intervalIntegral.integral_comp_sub_left (fun x : ℝ => x ^ k) (a := 0) (b := 1) 1
    rw [this]
    simp
  | succ n ih =>
    have c0 := jacobi_continuous ha n
    have c1 := jacobi_continuous ha (n + 1)
    have c2 := jacobi_continuous ha (n + 2)
    have c3 := jacobi_continuous ha (n - 1)
    -- the mixed integral
    set M := ∫ x in (0 : ℝ)..1, (1 - x) ^ k * (2 * x - 1) * jacobi n (k : ℝ) x * jacobi (n + 1) (k : ℝ) x with hM
    have o1 := jacobi_orthogonal hk (show n ≠ n + 1 by omega)
    have o2 := jacobi_orthogonal hk (show n + 2 ≠ n by omega)
    have o3 := jacobi_orthogonal hk (show n - 1 ≠ n + 1 by omega)
    have e1 : 2 * (n + 1) * (n + (k : ℝ) + 1) * (2 * n + k) *
        ∫ x in (0 : ℝ)..1, (1 - x) ^ k * jacobi (n + 1) (k : ℝ) x * jacobi (n + 1) (k : ℝ) x =
        (2 * n + k) * (2 * n + k + 1) * (2 * n + k + 2) * M := by
      have : ∀ x : ℝ, 2 * (n + 1) * (n + (k : ℝ) + 1) * (2 * n + k) *
          ((1 - x) ^ k * jacobi (n + 1) (k : ℝ) x * jacobi (n + 1) (k : ℝ) x) =
          (2 * n + k + 1) * (k : ℝ) ^ 2 * ((1 - x) ^ k * jacobi n (k : ℝ) x * jacobi (n + 1) (k : ℝ) x) +
          (2 * n + k) * (2 * n + k + 1) * (2 * n + k + 2) *
            ((1 - x) ^ k * (2 * x - 1) * jacobi n (k : ℝ) x * jacobi (n + 1) (k : ℝ) x) -
          2 * (n + (k : ℝ)) * n * (2 * n + k + 2) *
            ((1 - x) ^ k * jacobi (n - 1) (k : ℝ) x * jacobi (n + 1) (k : ℝ) x) := by
        intro x
        have r := jacobi_rec' n ha x
        linear_combination (1 - x) ^ k * jacobi (n + 1) (k : ℝ) x * r
      rw [← intervalIntegral.integral_const_mul]
      simp only [this]
      rw [intervalIntegral.integral_sub (by apply Continuous.intervalIntegrable; fun_prop)
        (by apply Continuous.intervalIntegrable; fun_prop),
        intervalIntegral.integral_add (by apply Continuous.intervalIntegrable; fun_prop)
        (by apply Continuous.intervalIntegrable; fun_prop), intervalIntegral.integral_const_mul,
        intervalIntegral.integral_const_mul, intervalIntegral.integral_const_mul, o1, o3]
      ring
    have e2 : 2 * (n + 1 + (k : ℝ)) * (n + 1) * (2 * n + k + 4) *
        ∫ x in (0 : ℝ)..1, (1 - x) ^ k * jacobi n (k : ℝ) x * jacobi n (k : ℝ) x =
        (2 * n + k + 2) * (2 * n + k + 3) * (2 * n + k + 4) * M := by
      have : ∀ x : ℝ, 2 * (n + 1 + (k : ℝ)) * (n + 1) * (2 * n + k + 4) *
          ((1 - x) ^ k * jacobi n (k : ℝ) x * jacobi n (k : ℝ) x) =
          (2 * n + k + 3) * (k : ℝ) ^ 2 * ((1 - x) ^ k * jacobi n (k : ℝ) x * jacobi (n + 1) (k : ℝ) x) +
          (2 * n + k + 2) * (2 * n + k + 3) * (2 * n + k + 4) *
            ((1 - x) ^ k * (2 * x - 1) * jacobi n (k : ℝ) x * jacobi (n + 1) (k : ℝ) x) -
          2 * (n + 2) * (n + (k : ℝ) + 2) * (2 * n + k + 2) *
            ((1 - x) ^ k * jacobi (n + 2) (k : ℝ) x * jacobi n (k : ℝ) x) := by
        intro x
        have r := jacobi_rec n ha x
        linear_combination (1 - x) ^ k * jacobi n (k : ℝ) x * r
      rw [← intervalIntegral.integral_const_mul]
      simp only [this]
      rw [intervalIntegral.integral_sub (by apply Continuous.intervalIntegrable; fun_prop)
        (by apply Continuous.intervalIntegrable; fun_prop),
        intervalIntegral.integral_add (by apply Continuous.intervalIntegrable; fun_prop)
        (by apply Continuous.intervalIntegrable; fun_prop), intervalIntegral.integral_const_mul,
        intervalIntegral.integral_const_mul, intervalIntegral.integral_const_mul, o1, o2]
      ring
    rw [ih] at e2
    have p1 : 2 * ((n : ℝ) + 1) * (n + (k : ℝ) + 1) * (2 * n + k) ≠ 0 := by positivity
    have p2 : (2 * (n : ℝ) + k + 2) * (2 * n + k + 3) * (2 * n + k + 4) ≠ 0 := by positivity
    have p3 : (2 * (n : ℝ) + k + 1) ≠ 0 := by positivity
    have p4 : (2 * ((n + 1 : ℕ) : ℝ) + k + 1) ≠ 0 := by positivity
    have hMv : M = 2 * (n + 1 + (k : ℝ)) * (n + 1) * (2 * n + k + 4) * (1 / (2 * n + k + 1)) /
        ((2 * (n : ℝ) + k + 2) * (2 * n + k + 3) * (2 * n + k + 4)) := by
      rw [eq_div_iff p2]; linarith
    rw [hMv] at e1
    apply mul_left_cancel₀ p1
    rw [e1]
    have p5 : (2 * (n : ℝ) + k + 2) ≠ 0 := by positivity
    have p6 : (2 * (n : ℝ) + k + 3) ≠ 0 := by positivity
    have p7 : (2 * (n : ℝ) + k + 4) ≠ 0 := by positivity
    push_cast at p4 ⊢
    rw [show 2 * ((n : ℝ) + 1) + k + 1 = 2 * n + k + 3 by ring]
    field_simp
    ring

end
end Verif
