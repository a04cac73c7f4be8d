import Mathlib.Tactic.NormNum.Basic
import Verif.Lemmas.PolyFn

/-!
# Properties of the polynomials behind the hierarchic elements (C46, C60)

`legendre n x t` models `Legendre(n, x, t)` etc.; all statements are about the values the routines
return, for every degree.
-/

namespace Verif

/-- **C46** (polynomials): `Legendre(n, ·, t)`, `ILegendre(n, ·, t)` and `LegendreDx(n, ·, t)` are
polynomials of degree at most `n`, `n` and `n - 1`. -/
theorem C46_polynomials (t : ℝ) :
    (∀ n, ∃ p : Polynomial ℝ, p.natDegree ≤ n ∧ ∀ x, legendre n x t = p.eval x) ∧
    (∀ n, ∃ p : Polynomial ℝ, p.natDegree ≤ n - 1 ∧ ∀ x, legendreDx n x t = p.eval x) ∧
    ∀ n, 1 ≤ n → ∃ p : Polynomial ℝ, p.natDegree ≤ n ∧ ∀ x, iLegendre n x t = p.eval x := by
  refine ⟨fun n => PolyFn.legendre n t, fun n => PolyFn.legendreDx n t, fun n hn => ?_⟩
  match n, hn with
  | 1, _ => exact PolyFn.id 1 (le_refl 1)
  | n + 2, _ => exact PolyFn.iLegendre n t

/-- **C46** (derivatives): `LegendreDx`, `ILegendreDx` and `ILegendreDt` are the derivatives of
`Legendre` with respect to the first, and of `ILegendre` with respect to the first and the second
argument. -/
theorem C46_derivatives (x t : ℝ) :
    (∀ n, HasDerivAt (fun x => legendre n x t) (legendreDx n x t) x) ∧
    ∀ n, 1 ≤ n → HasDerivAt (fun x => iLegendre n x t) (iLegendreDx n x t) x ∧
      HasDerivAt (fun t => iLegendre n x t) (iLegendreDt n x t) t :=
  ⟨fun n => legendre_hasDeriv n x t,
    fun n hn => ⟨iLegendre_hasDeriv n hn x t, iLegendre_hasDerivT n hn x t⟩⟩

/-- **C46** (boundary values): integrated Legendre polynomials of degree at least two vanish at both
ends, `Legendre` is `±t^n` there. -/
theorem C46_boundary {K : Type} [Field K] [CharZero K] (t : K) :
    (∀ n, 2 ≤ n → iLegendre n 0 t = 0 ∧ iLegendre n t t = 0) ∧
    ∀ n, legendre n t t = t ^ n ∧ legendre n 0 t = (-t) ^ n := by
  refine ⟨fun n hn => ?_, fun n => ⟨legendre_diag n t, legendre_left n t⟩⟩
  obtain ⟨m, rfl⟩ : ∃ m, n = m + 2 := ⟨n - 2, by omega⟩
  exact ⟨iLegendre_left m t, iLegendre_right m t⟩

/-- **C46** (symmetry): mirroring changes the sign of the polynomials of odd degree. -/
theorem C46_symmetry {K : Type} [Field K] [CharZero K] (n : ℕ) (x t : K) :
    legendre n (t - x) t = (-1) ^ n * legendre n x t ∧
    (2 ≤ n → iLegendre n (t - x) t = (-1) ^ n * iLegendre n x t) := by
  refine ⟨legendre_symm n x t, fun hn => ?_⟩
  obtain ⟨m, rfl⟩ : ∃ m, n = m + 2 := ⟨n - 2, by omega⟩
  rw [iLegendre_symm, pow_add]
  norm_num

/-- **C46** (orthogonality): Legendre polynomials of different degrees are orthogonal on `[0, 1]`, and
the square of the norm is `1 / (2 n + 1)`. -/
theorem C46_orthogonal (m n : ℕ) :
    ∫ x in (0 : ℝ)..1, legendre m x 1 * legendre n x 1 = if m = n then (1 : ℝ) / (2 * n + 1) else 0 := by
  split
  · rename_i h
    rw [h]
    exact legendre_norm n
  · rename_i h
    exact legendre_orthogonal h

/-- `ILegendre` and `LegendreDx` of degree 3 with scaling parameter 2 at `x = 1/2`, computed by hand. -/
example : iLegendre 3 (1 / 2 : ℚ) 2 = 3 / 4 ∧ legendreDx 3 (1 / 2 : ℚ) 2 = 3 ∧
    iLegendreDt 3 (1 / 2 : ℚ) 2 = 5 / 4 := by
  norm_num [iLegendre, iLegendreDt, legendreDx, legendre, legendreLoop]

/-- **C60** (polynomials): `Jacobi(n, alpha, ·)`, `JacobiDx(n, alpha, ·)` and `IJacobi(n, alpha, ·)` are
polynomials of degree at most `n`, `n - 1` and `n`. -/
theorem C60_polynomials (al : ℝ) (ha : 0 ≤ al) :
    (∀ n, ∃ p : Polynomial ℝ, p.natDegree ≤ n ∧ ∀ x, jacobi n al x = p.eval x) ∧
    (∀ n, ∃ p : Polynomial ℝ, p.natDegree ≤ n - 1 ∧ ∀ x, jacobiDx n al x = p.eval x) ∧
    ∀ n, 1 ≤ n → ∃ p : Polynomial ℝ, p.natDegree ≤ n ∧ ∀ x, iJacobi n al x = p.eval x := by
  refine ⟨fun n => PolyFn.jacobi n ha, fun n => PolyFn.jacobiDx n ha, fun n hn => ?_⟩
  obtain ⟨m, rfl⟩ : ∃ m, n = m + 1 := ⟨n - 1, by omega⟩
  exact PolyFn.iJacobi m ha

/-- **C60** (derivatives): `JacobiDx` and `IJacobiDx` are the derivatives of `Jacobi` and `IJacobi`, and
`IJacobi` vanishes at `0`; hence `IJacobi(n, alpha, x)` is the integral of
`Jacobi(n - 1, alpha, ·)` over `[0, x]`. -/
theorem C60_derivatives (al : ℝ) (ha : 0 ≤ al) :
    (∀ n x, HasDerivAt (jacobi n al) (jacobiDx n al x) x) ∧
    ∀ n, 1 ≤ n → (∀ x, HasDerivAt (iJacobi n al) (iJacobiDx n al x) x) ∧ iJacobi n al 0 = 0 ∧
      ∀ x, iJacobi n al x = ∫ s in (0 : ℝ)..x, jacobi (n - 1) al s := by
  refine ⟨fun n x => ?_, fun n hn => ?_⟩
  · rw [jacobiDx_eq ha]
    exact jacobi_hasDeriv ha n x
  · obtain ⟨m, rfl⟩ : ∃ m, n = m + 1 := ⟨n - 1, by omega⟩
    refine ⟨iJacobi_hasDeriv ha m, iJacobi_left m ha, fun x => ?_⟩
    have := intervalIntegral.integral_eq_sub_of_hasDerivAt (a := 0) (b := x)
      (fun y _ => iJacobi_hasDeriv ha m y) ((jacobi_continuous ha m).intervalIntegrable 0 x)
    rw [iJacobi_left m ha, sub_zero] at this
    exact this.symm

/-- **C60** (orthogonality): Jacobi polynomials are orthogonal on `[0, 1]` with respect to the weight
`(1 - x)^alpha`, for every integer `alpha ≥ 1`; the square of the norm is `1 / (2 n + alpha + 1)`. -/
theorem C60_orthogonal (k : ℕ) (hk : 1 ≤ k) (m n : ℕ) :
    ∫ x in (0 : ℝ)..1, (1 - x) ^ k * jacobi m (k : ℝ) x * jacobi n (k : ℝ) x =
      if m = n then (1 : ℝ) / (2 * n + k + 1) else 0 := by
  split
  · rename_i h
    rw [h]
    exact jacobi_norm hk n
  · rename_i h
    exact jacobi_orthogonal hk h

/-- `IJacobi(3, 4, 1/2)`, `Jacobi(3, 4, 1/2)` and `JacobiDx(2, 4, 1/2)`, computed by hand. -/
example : iJacobi 3 4 (1 / 2 : ℚ) = -1 / 12 ∧ jacobi 3 4 (1 / 2 : ℚ) = -1 ∧ jacobiDx 2 4 (1 / 2 : ℚ) = 14 := by
  norm_num [iJacobi, iJacobiLoop, iJacobiStep, jacobi, jacobiDx, jacobiAB, jacobiLoop]

end Verif
