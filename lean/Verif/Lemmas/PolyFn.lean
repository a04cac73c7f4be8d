import Mathlib.Algebra.Polynomial.Degree.Lemmas
import Mathlib.Algebra.Polynomial.BigOperators
import Verif.Spec.Quad
import Verif.Lemmas.Jacobi

/-!
# Lemmas: functions that are polynomials of bounded degree
-/

namespace Verif
open Finset

/-- A real function that is a polynomial of degree at most `d`. -/
def PolyFn (d : ℕ) (f : ℝ → ℝ) : Prop := ∃ p : Polynomial ℝ, p.natDegree ≤ d ∧ ∀ x, f x = p.eval x

namespace PolyFn

theorem const (d : ℕ) (c : ℝ) : PolyFn d fun _ => c :=
  ⟨Polynomial.C c, by simp, fun x => by simp⟩

theorem id (d : ℕ) (h : 1 ≤ d) : PolyFn d fun x => x :=
  ⟨Polynomial.X, le_trans Polynomial.natDegree_X_le h, fun x => by simp⟩

theorem add {d : ℕ} {f g : ℝ → ℝ} (hf : PolyFn d f) (hg : PolyFn d g) : PolyFn d fun x => f x + g x := by
  obtain ⟨p, hp, hp'⟩ := hf
  obtain ⟨q, hq, hq'⟩ := hg
  exact ⟨p + q, Polynomial.natDegree_add_le_of_degree_le hp hq, fun x => by simp [hp', hq']⟩

theorem mul {d e n : ℕ} {f g : ℝ → ℝ} (hf : PolyFn d f) (hg : PolyFn e g) (h : d + e ≤ n) :
    PolyFn n fun x => f x * g x := by
  obtain ⟨p, hp, hp'⟩ := hf
  obtain ⟨q, hq, hq'⟩ := hg
  exact ⟨p * q, le_trans (Polynomial.natDegree_mul_le_of_le hp hq) h, fun x => by simp [hp', hq']⟩

theorem mono {d e : ℕ} {f : ℝ → ℝ} (hf : PolyFn d f) (h : d ≤ e) : PolyFn e f := by
  obtain ⟨p, hp, hp'⟩ := hf
  exact ⟨p, le_trans hp h, hp'⟩

theorem smul {d : ℕ} {f : ℝ → ℝ} (c : ℝ) (hf : PolyFn d f) : PolyFn d fun x => c * f x :=
  (const 0 c).mul hf (by omega)

theorem neg {d : ℕ} {f : ℝ → ℝ} (hf : PolyFn d f) : PolyFn d fun x => -f x := by
  simpa using hf.smul (-1)

theorem sub {d : ℕ} {f g : ℝ → ℝ} (hf : PolyFn d f) (hg : PolyFn d g) : PolyFn d fun x => f x - g x := by
  simpa [sub_eq_add_neg] using hf.add hg.neg

theorem sum {d : ℕ} {ι : Type} (s : Finset ι) {f : ι → ℝ → ℝ} (hf : ∀ i ∈ s, PolyFn d (f i)) :
    PolyFn d fun x => ∑ i ∈ s, f i x := by
  classical
  induction s using Finset.induction_on with
  | empty => simpa using const d 0
  | insert a s ha ih =>
    simp only [Finset.sum_insert ha]
    exact (hf a (Finset.mem_insert_self a s)).add (ih fun i hi => hf i (Finset.mem_insert_of_mem hi))

theorem comp_one_sub {d : ℕ} {f : ℝ → ℝ} (hf : PolyFn d f) : PolyFn d fun x => f (1 - x) := by
  obtain ⟨p, hp, hp'⟩ := hf
  refine ⟨p.comp (1 - Polynomial.X), ?_, fun x => by simp [hp']⟩
  refine le_trans Polynomial.natDegree_comp_le ?_
  have : (1 - Polynomial.X : Polynomial ℝ).natDegree ≤ 1 :=
    le_trans (Polynomial.natDegree_sub_le _ _) (by simp)
  nlinarith

theorem pow_one_sub (d : ℕ) : PolyFn d fun x => (1 - x) ^ d := by
  induction d with
  | zero => simpa using const 0 1
  | succ d ih =>
    simp only [pow_succ]
    exact ih.mul ((const 1 1).sub (id 1 (by omega))) (by omega)

/-- The form used in the specification of quadrature rules. -/
theorem isPolyOn {d : ℕ} {f : List ℝ → ℝ} (h : PolyFn d fun x => f [x]) : IsPolyOn .segment d f := by
  obtain ⟨p, hp, hp'⟩ := h
  refine ⟨fun a => p.coeff a, fun x => ?_⟩
  exact (hp' x).trans (Polynomial.eval_eq_sum_range' (Nat.lt_succ_of_le hp) x)

theorem legendre (n : ℕ) (t : ℝ) : PolyFn n fun x => legendre n x t := by
  induction n using Nat.strong_induction_on with
  | _ n ih =>
    match n with
    | 0 => simpa [legendre_zero] using const 0 1
    | 1 =>
      simp only [legendre_one]
      exact ((id 1 (le_refl 1)).smul 2).sub (const 1 t)
    | n + 2 =>
      have h : ((n : ℝ) + 2) ≠ 0 := by positivity
      have hf : (fun x => Verif.legendre (n + 2) x t) = fun x => ((n : ℝ) + 2)⁻¹ *
          ((2 * n + 3) * ((2 * x - t) * Verif.legendre (n + 1) x t) -
            (n + 1) * t ^ 2 * Verif.legendre n x t) := by
        funext x
        rw [eq_inv_mul_iff_mul_eq₀ h, legendre_rec]; ring
      rw [hf]
      have hy : PolyFn 1 fun x => 2 * x - t := ((id 1 (le_refl 1)).smul 2).sub (const 1 t)
      exact (((hy.mul (ih (n + 1) (by omega)) (by omega)).smul _).sub
        (((ih n (by omega)).smul _).mono (by omega))).smul _

theorem legendreDx (n : ℕ) (t : ℝ) : PolyFn (n - 1) fun x => legendreDx n x t := by
  induction n with
  | zero => exact const _ 0
  | succ n ih =>
    simp only [legendreDx_succ]
    have hy : PolyFn 1 fun x => 2 * x - t := ((id 1 (le_refl 1)).smul 2).sub (const 1 t)
    refine ((legendre n t).smul _).add ?_
    cases n with
    | zero => simpa [Verif.legendreDx] using const 0 0
    | succ n => exact hy.mul ih (by omega)

theorem iLegendre (n : ℕ) (t : ℝ) : PolyFn (n + 2) fun x => iLegendre (n + 2) x t := by
  have h := two_mul_add_three_ne (K := ℝ) n
  have hf : (fun x => Verif.iLegendre (n + 2) x t) = fun x => (2 * (2 * (n : ℝ) + 3))⁻¹ *
      (Verif.legendre (n + 2) x t - t ^ 2 * Verif.legendre n x t) := by
    funext x
    rw [eq_inv_mul_iff_mul_eq₀ h, iLegendre_eq]
  rw [hf]
  exact ((legendre (n + 2) t).sub (((legendre n t).smul _).mono (by omega))).smul _

theorem jacobiAB (n : ℕ) {al be : ℝ} (ha : 0 ≤ al) (hb : 0 ≤ be) : PolyFn n (jacobiAB n al be) := by
  induction n using Nat.strong_induction_on with
  | _ n ih =>
    match n with
    | 0 => exact const 0 1
    | 1 =>
      have : Verif.jacobiAB 1 al be = fun x => 1 / 2 * ((al - be) + (al + be + 2) * (2 * x - 1)) := by
        funext x; rw [jacobiAB_one]; ring
      rw [this]
      have hy : PolyFn 1 fun x => 2 * x - 1 := ((id 1 (le_refl 1)).smul 2).sub (const 1 1)
      exact ((const 1 _).add (hy.smul _)).smul _
    | n + 2 =>
      have h1 : 2 * ((n : ℝ) + 2) * (n + al + be + 2) * (2 * n + al + be + 2) ≠ 0 := by positivity
      have : Verif.jacobiAB (n + 2) al be = fun x =>
        (2 * ((n : ℝ) + 2) * (n + al + be + 2) * (2 * n + al + be + 2))⁻¹ *
        (((2 * n + al + be + 3) * (al ^ 2 - be ^ 2) +
          (2 * n + al + be + 2) * (2 * n + al + be + 3) * (2 * n + al + be + 4) * (2 * x - 1)) *
            Verif.jacobiAB (n + 1) al be x -
          2 * (n + 1 + al) * (n + 1 + be) * (2 * n + al + be + 4) * Verif.jacobiAB n al be x) := by
        funext x
        rw [eq_inv_mul_iff_mul_eq₀ h1, jacobiAB_rec n ha hb]
      rw [this]
      have hy : PolyFn 1 fun x => 2 * x - 1 := ((id 1 (le_refl 1)).smul 2).sub (const 1 1)
      exact ((((const 1 _).add (hy.smul _)).mul (ih (n + 1) (by omega)) (by omega)).sub
        (((ih n (by omega)).smul _).mono (by omega))).smul _

theorem jacobi (n : ℕ) {al : ℝ} (ha : 0 ≤ al) : PolyFn n (jacobi n al) := jacobiAB n ha (le_refl 0)

theorem jacobiDx (n : ℕ) {al : ℝ} (ha : 0 ≤ al) : PolyFn (n - 1) (jacobiDx n al) := by
  cases n with
  | zero => exact const 0 0
  | succ n =>
    have : Verif.jacobiDx (n + 1) al = fun x => (al + ((n + 1 : ℕ) : ℝ) + 1) *
        Verif.jacobiAB n (al + 1) 1 x := by
      funext x
      rw [Verif.jacobiDx, if_neg (by omega), Nat.add_sub_cancel, mul_comm]
    rw [this]
    exact (jacobiAB n (by linarith) (by norm_num)).smul _

theorem iJacobi (n : ℕ) {al : ℝ} (ha : 0 ≤ al) : PolyFn (n + 1) (iJacobi (n + 1) al) := by
  cases n with
  | zero => exact id 1 (le_refl 1)
  | succ n =>
    have h : (2 * (n : ℝ) + al + 2) * (2 * n + al + 3) * (2 * n + al + 4) ≠ 0 := by positivity
    have hf : Verif.iJacobi (n + 1 + 1) al = fun x =>
        ((2 * (n : ℝ) + al + 2) * (2 * n + al + 3) * (2 * n + al + 4))⁻¹ *
        ((2 * n + al + 2) * (n + 2 + al) * Verif.jacobi (n + 2) al x +
        (2 * n + al + 3) * al * Verif.jacobi (n + 1) al x -
        (2 * n + al + 4) * (n + 1) * Verif.jacobi n al x) := by
      funext x
      rw [eq_inv_mul_iff_mul_eq₀ h, iJacobi_eq n ha]
    rw [hf]
    exact ((((jacobi (n + 2) ha).smul _).add (((jacobi (n + 1) ha).smul _).mono (by omega))).sub
      (((jacobi n ha).smul _).mono (by omega))).smul _

end PolyFn
end Verif
