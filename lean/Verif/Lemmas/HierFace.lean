import Verif.Lemmas.HierDual
import Verif.Lemmas.TriaPoly

/-!
# The functionals dual to the interior functions of the hierarchic triangle
-/

namespace Verif
open intervalIntegral

/-- `∫₀ᵗ L_{k+2} P'_{i+1}` for the scaled polynomials. -/
theorem scaled_ortho (i k : ℕ) (t : ℝ) :
    ∫ x in (0 : ℝ)..t, iLegendre (k + 2) x t * legendreDx (i + 1) x t =
      if k = i then -(t ^ (2 * i + 3) / (2 * i + 3)) else 0 := by
  have hbp := by_parts 0 t (fun x => legendre_hasDeriv (i + 1) x t)
    (fun x => iLegendre_hasDeriv (k + 2) (by omega) x t) (legendreDx_continuous (i + 1) t)
    (legendre_continuous (k + 1) t)
  rw [iLegendre_left, iLegendre_right] at hbp
  have e1 : ∀ x, iLegendre (k + 2) x t * legendreDx (i + 1) x t =
      legendreDx (i + 1) x t * iLegendre (k + 2) x t := fun x => mul_comm _ _
  simp only [e1]
  rw [hbp]
  have hs := mul_integral_comp_mul_left (a := 0) (b := 1) (c := t)
    (f := fun x => legendre (i + 1) x t * iLegendreDx (k + 2) x t)
  rw [mul_zero, mul_one] at hs
  rw [← hs]
  have e2 : ∀ x, legendre (i + 1) (t * x) t * iLegendreDx (k + 2) (t * x) t =
      t ^ (i + k + 2) * (legendre (i + 1) x 1 * legendre (k + 1) x 1) := by
    intro x
    have h1 := legendre_scale (i + 1) t x 1
    have h2 := legendre_scale (k + 1) t x 1
    rw [mul_one] at h1 h2
    rw [iLegendreDx, show k + 2 - 1 = k + 1 by omega, h1, h2]
    ring
  simp only [e2]
  rw [integral_const_mul]
  split
  · rename_i h
    subst h
    rw [legendre_norm]
    push_cast
    have : (2 * (k : ℝ) + 3) ≠ 0 := by positivity
    have : (2 * ((k : ℝ) + 1) + 1) ≠ 0 := by positivity
    field_simp
    ring
  · rename_i h
    rw [legendre_orthogonal (by omega)]
    ring

/-- The reflected version. -/
theorem scaled_ortho_flip (i k : ℕ) (t : ℝ) :
    ∫ x in (0 : ℝ)..t, iLegendre (k + 2) (t - x) t * legendreDx (i + 1) (t - x) t =
      if k = i then -(t ^ (2 * i + 3) / (2 * i + 3)) else 0 := by
  have := integral_comp_sub_left (a := 0) (b := t)
    (fun x => iLegendre (k + 2) x t * legendreDx (i + 1) x t) t
  rw [sub_self, sub_zero] at this
  rw [this, scaled_ortho]

/-- The part in the second variable. -/
theorem jacobi_part (i j l : ℕ) :
    ∫ y in (0 : ℝ)..1, ((1 - y) ^ (2 * i + 3) * ((1 - y) * jacobiDx j ((2 * i + 4 : ℕ) : ℝ) y -
        ((2 * i + 4 : ℕ) : ℝ) * jacobi j ((2 * i + 4 : ℕ) : ℝ) y)) * iJacobi (l + 1) ((2 * i + 4 : ℕ) : ℝ) y =
      if j = l then (-(1 / (2 * j + 2 * i + 5)) : ℝ) else 0 := by
  set al : ℝ := ((2 * i + 4 : ℕ) : ℝ) with hal
  have ha : (0 : ℝ) ≤ al := Nat.cast_nonneg _
  have hu : ∀ y, HasDerivAt (fun y => (1 - y) ^ (2 * i + 4) * jacobi j al y)
      ((1 - y) ^ (2 * i + 3) * ((1 - y) * jacobiDx j al y - al * jacobi j al y)) y := by
    intro y
    have h1 : HasDerivAt (fun y : ℝ => (1 - y) ^ (2 * i + 4)) (-(al * (1 - y) ^ (2 * i + 3))) y := by
      have := ((hasDerivAt_id y).const_sub 1).pow (2 * i + 4)
      refine this.congr_deriv ?_
      rw [hal, show 2 * i + 4 - 1 = 2 * i + 3 by omega]
      simp
    refine (h1.mul (jacobi_hasDeriv ha j y)).congr_deriv ?_
    rw [jacobiDx_eq ha]
    ring
  have c1 := jacobi_continuous ha j
  have c2 := jacobiD_continuous ha j
  have cu : Continuous fun y => (1 - y) ^ (2 * i + 3) * ((1 - y) * jacobiDx j al y - al * jacobi j al y) := by
    simp only [jacobiDx_eq ha]
    fun_prop
  have hbp := by_parts 0 1 hu (fun y => iJacobi_hasDeriv ha l y) cu (jacobi_continuous ha l)
  rw [hbp, iJacobi_left l ha]
  have e : ∀ y, (1 - y) ^ (2 * i + 4) * jacobi j al y * iJacobiDx (l + 1) al y =
      (1 - y) ^ (2 * i + 4) * jacobi j al y * jacobi l al y := fun y => rfl
  simp only [e]
  split
  · rename_i h
    subst h
    rw [hal, jacobi_norm (by omega)]
    rw [sub_self, zero_pow (by omega)]
    push_cast
    ring
  · rename_i h
    rw [hal, jacobi_orthogonal (by omega) h, sub_self, zero_pow (by omega)]
    ring

namespace HierTria
variable (F : HierTria ℝ)

/-- The weight in the functional, as a polynomial. -/
noncomputable def wPoly (i j : ℕ) (x y : ℝ) : ℝ :=
  legendreDx (i + 1) (if F.o 0 then x else 1 - y - x) (1 - y) *
    ((1 - y) * jacobiDx j ((2 * i + 4 : ℕ) : ℝ) y - ((2 * i + 4 : ℕ) : ℝ) * jacobi j ((2 * i + 4 : ℕ) : ℝ) y)

theorem legendreDx_scale (n : ℕ) (s x t : ℝ) : legendreDx (n + 1) (s * x) (s * t) = s ^ n * legendreDx (n + 1) x t := by
  induction n with
  | zero => simp [legendreDx, legendre_zero]
  | succ n ih =>
    rw [legendreDx_succ, ih, legendre_scale, legendreDx_succ (n + 1) x t]
    ring

theorem faceWeight_eq (i j : ℕ) (x y : ℝ) (hy : y ≠ 1) : F.faceWeight i j [x, y] = F.wPoly i j x y := by
  have h1 : (1 - y) ≠ 0 := sub_ne_zero.mpr (Ne.symm hy)
  have hs := legendreDx_scale i (1 - y) (if F.o 0 then x / (1 - y) else 1 - x / (1 - y)) 1
  have hx : (1 - y) * (if F.o 0 then x / (1 - y) else 1 - x / (1 - y)) = if F.o 0 then x else 1 - y - x := by
    split <;> field_simp
  rw [hx, mul_one] at hs
  simp only [faceWeight, wPoly, List.getD_cons_zero, List.getD_cons_succ, iJacobiDx, Nat.add_sub_cancel]
  rw [hs]
  ring

theorem edgeFn_zero_eq (k : ℕ) (x y : ℝ) :
    F.edgeFn 0 k x y = iLegendre (k + 2) (if F.o 0 then x else 1 - y - x) (1 - y) := by
  simp only [edgeFn, bary]
  congr 1
  · split <;> ring
  · ring

theorem wPoly_poly (i j : ℕ) : TP (i + j) fun x y => F.wPoly i j x y := by
  have ha : (0 : ℝ) ≤ ((2 * i + 4 : ℕ) : ℝ) := Nat.cast_nonneg _
  have hv : TP 1 fun _ y => 1 - y := (TP.const 1 1).sub (TP.snd 1 le_rfl)
  have hu : TP 1 fun x y => if F.o 0 then x else 1 - y - x := by
    cases F.o 0
    · exact hv.sub (TP.fst 1 le_rfl)
    · exact TP.fst 1 le_rfl
  refine (TP.legendreDx hu hv (i + 1)).mul (e := j) ?_ (by omega)
  refine TP.sub ?_ ((TP.of_polyFn (PolyFn.jacobi j ha)).smul _)
  cases j with
  | zero => simpa [jacobiDx] using TP.const 0 0
  | succ j => exact hv.mul (TP.of_polyFn (PolyFn.jacobiDx (j + 1) ha)) (by omega)

theorem intFn_poly (ij : ℕ × ℕ) : TP (ij.1 + ij.2 + 3) fun x y => F.intFn ij x y := by
  have ha : (0 : ℝ) ≤ ((2 * ij.1 + 4 : ℕ) : ℝ) := Nat.cast_nonneg _
  have hv : TP 1 fun _ y => 1 - y := (TP.const 1 1).sub (TP.snd 1 le_rfl)
  have hu : TP 1 fun x y => if F.o 0 then x else 1 - y - x := by
    cases F.o 0
    · exact hv.sub (TP.fst 1 le_rfl)
    · exact TP.fst 1 le_rfl
  simp only [intFn, edgeFn_zero_eq]
  exact (TP.iLegendre hu hv ij.1).mul (TP.of_polyFn (PolyFn.iJacobi ij.2 ha)) (by omega)

/-- The functionals of the interior are dual to the interior functions. -/
theorem face_ortho (i j k l : ℕ) :
    ∫ y in (0 : ℝ)..1, ∫ x in (0 : ℝ)..(1 - y), F.intFn (k, l) x y * F.wPoly i j x y =
      if k = i ∧ l = j then (1 : ℝ) / ((2 * i + 3) * (2 * j + 2 * i + 5)) else 0 := by
  have hin : ∀ y : ℝ, ∫ x in (0 : ℝ)..(1 - y), F.intFn (k, l) x y * F.wPoly i j x y =
      (if k = i then -((1 - y) ^ (2 * i + 3) / (2 * i + 3)) else 0) *
        (iJacobi (l + 1) ((2 * k + 4 : ℕ) : ℝ) y * ((1 - y) * jacobiDx j ((2 * i + 4 : ℕ) : ℝ) y -
          ((2 * i + 4 : ℕ) : ℝ) * jacobi j ((2 * i + 4 : ℕ) : ℝ) y)) := by
    intro y
    have e : ∀ x, F.intFn (k, l) x y * F.wPoly i j x y =
        (iLegendre (k + 2) (if F.o 0 then x else 1 - y - x) (1 - y) *
          legendreDx (i + 1) (if F.o 0 then x else 1 - y - x) (1 - y)) *
        (iJacobi (l + 1) ((2 * k + 4 : ℕ) : ℝ) y * ((1 - y) * jacobiDx j ((2 * i + 4 : ℕ) : ℝ) y -
          ((2 * i + 4 : ℕ) : ℝ) * jacobi j ((2 * i + 4 : ℕ) : ℝ) y)) := by
      intro x
      rw [intFn, wPoly, edgeFn_zero_eq]
      ring
    simp only [e]
    rw [integral_mul_const]
    congr 1
    cases F.o 0
    · exact scaled_ortho_flip i k (1 - y)
    · exact scaled_ortho i k (1 - y)
  by_cases hk : k = i
  · subst hk
    have h := jacobi_part k j l
    have e : ∀ y : ℝ, (if k = k then -((1 - y) ^ (2 * k + 3) / (2 * (k : ℝ) + 3)) else 0) *
        (iJacobi (l + 1) ((2 * k + 4 : ℕ) : ℝ) y * ((1 - y) * jacobiDx j ((2 * k + 4 : ℕ) : ℝ) y -
          ((2 * k + 4 : ℕ) : ℝ) * jacobi j ((2 * k + 4 : ℕ) : ℝ) y)) =
        (-(1 / (2 * (k : ℝ) + 3))) * (((1 - y) ^ (2 * k + 3) * ((1 - y) * jacobiDx j ((2 * k + 4 : ℕ) : ℝ) y -
        ((2 * k + 4 : ℕ) : ℝ) * jacobi j ((2 * k + 4 : ℕ) : ℝ) y)) * iJacobi (l + 1) ((2 * k + 4 : ℕ) : ℝ) y) := by
      intro y
      rw [if_pos rfl]
      ring
    rw [show (fun y : ℝ => ∫ x in (0 : ℝ)..(1 - y), F.intFn (k, l) x y * F.wPoly k j x y) = _ from
      funext fun y => (hin y).trans (e y), integral_const_mul, h]
    by_cases hj : j = l
    · subst hj
      rw [if_pos rfl, if_pos ⟨rfl, rfl⟩]
      have : (2 * (k : ℝ) + 3) ≠ 0 := by positivity
      have : (2 * (j : ℝ) + 2 * k + 5) ≠ 0 := by positivity
      field_simp
    · rw [if_neg hj, if_neg (fun h => hj h.2.symm), mul_zero]
  · simp [hin, hk]

end HierTria
end Verif
