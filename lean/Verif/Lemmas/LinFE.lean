import Verif.Spec.LinFE
import Verif.Lemmas.Quad

namespace Verif
open Geo Matrix

theorem triaX_det (v : Fin 3 → Vec ℝ 2) : (triaX v).det = det2 (v 1 - v 0) (v 2 - v 0) := by
  simp [triaX, Matrix.det_fin_three, det2, entry]
  ring

theorem dot_two (a b : Vec ℝ 2) : dot a b = a 0 * b 0 + a 1 * b 1 := by simp [dot, Fin.sum_univ_two]

theorem dot_comm' {w : ℕ} (a b : Vec ℝ w) : dot a b = dot b a := Finset.sum_congr rfl fun _ _ => mul_comm _ _

theorem dot_self_nonneg' {w : ℕ} (a : Vec ℝ w) : 0 ≤ dot a a := Finset.sum_nonneg fun _ _ => mul_self_nonneg _

theorem dot_self_zero {w : ℕ} {a : Vec ℝ w} : dot a a = 0 ↔ a = 0 := by
  rw [dot, Finset.sum_eq_zero_iff_of_nonneg fun _ _ => mul_self_nonneg _]
  simp [funext_iff]

theorem int_one_sub : ∫ x in (0 : ℝ)..1, (1 - x) = 1 / 2 := by
  rw [intervalIntegral.integral_sub (by simp) (by simp)]
  norm_num [integral_id]

/-- The inverse of `X` holds the coefficients of the barycentric coordinates. -/
theorem IsBary.inv {v : Fin 3 → Vec ℝ 2} {k : Fin 3 → ℝ} {gr : Fin 3 → Vec ℝ 2} (h : IsBary v k gr) :
    (triaX v)⁻¹ = (Matrix.of fun i => ![k i, gr i 0, gr i 1]).transpose := by
  apply Matrix.inv_eq_right_inv
  ext j i
  have := h i j
  rw [dot_two] at this
  simp only [Matrix.mul_apply, Fin.sum_univ_three, triaX, Matrix.of_apply, Matrix.transpose_apply,
    Matrix.one_apply]
  simp only [Matrix.cons_val_zero, Matrix.cons_val_one, Matrix.cons_val]
  rw [show (if j = i then (1 : ℝ) else 0) = if i = j then 1 else 0 by simp [eq_comm], ← this]
  ring

theorem isBary_exists (v : Fin 3 → Vec ℝ 2) (h : (triaX v).det ≠ 0) : ∃ k gr, IsBary v k gr := by
  refine ⟨fun i => (triaX v)⁻¹ 0 i, fun i => ![(triaX v)⁻¹ 1 i, (triaX v)⁻¹ 2 i], fun i j => ?_⟩
  have := congrFun (congrFun (Matrix.mul_nonsing_inv (triaX v) (isUnit_iff_ne_zero.mpr h)) j) i
  simp only [Matrix.mul_apply, Fin.sum_univ_three, triaX, Matrix.of_apply, Matrix.one_apply] at this
  rw [dot_two]
  simp only [Matrix.cons_val_zero, Matrix.cons_val_one, Matrix.cons_val] at this ⊢
  rw [show (if i = j then (1 : ℝ) else 0) = if j = i then 1 else 0 by simp [eq_comm], ← this]
  simp only [triaX]
  ring

/-- The matrix in terms of the gradients of the barycentric coordinates. -/
theorem laplaceTria_bary {v : Fin 3 → Vec ℝ 2} {k : Fin 3 → ℝ} {gr : Fin 3 → Vec ℝ 2} (h : IsBary v k gr)
    (hd : (triaX v).det ≠ 0) :
    laplaceTria v = some (block33 (.of fun i j => 1 / 2 * |(triaX v).det| * dot (gr i) (gr j))) := by
  simp only [laplaceTria, if_neg hd]
  congr 2
  ext i j
  rw [Matrix.smul_apply, Matrix.mul_apply, Fin.sum_univ_two, h.inv]
  show _ = 1 / 2 * |(triaX v).det| * dot (gr i) (gr j)
  rw [dot_two]
  rfl

/-- There is only one system of barycentric coordinates. -/
theorem IsBary.det_ne {v : Fin 3 → Vec ℝ 2} {k : Fin 3 → ℝ} {gr : Fin 3 → Vec ℝ 2} (h : IsBary v k gr) :
    (triaX v).det ≠ 0 := by
  intro h0
  have h1 : triaX v * (Matrix.of fun i => ![k i, gr i 0, gr i 1]).transpose = 1 := by
    ext j i
    have := h i j
    rw [dot_two] at this
    simp only [Matrix.mul_apply, Fin.sum_univ_three, triaX, Matrix.of_apply, Matrix.transpose_apply,
      Matrix.one_apply]
    simp only [Matrix.cons_val_zero, Matrix.cons_val_one, Matrix.cons_val]
    rw [show (if j = i then (1 : ℝ) else 0) = if i = j then 1 else 0 by simp [eq_comm], ← this]
    ring
  have := congrArg Matrix.det h1
  rw [Matrix.det_mul, h0] at this
  simp at this

theorem block33_cast (B : Matrix (Fin 3) (Fin 3) ℝ) (i j : Fin 3) :
    block33 B i.castSucc j.castSucc = B i j := by
  simp [block33, i.isLt, j.isLt]

theorem block33_last (B : Matrix (Fin 3) (Fin 3) ℝ) (i : Fin 4) : block33 B i 3 = 0 ∧ block33 B 3 i = 0 := by
  simp [block33]

theorem sum_four (f : Fin 4 → ℝ) : ∑ i, f i = (∑ i : Fin 3, f i.castSucc) + f 3 := Fin.sum_univ_castSucc f

/-- Gram matrices: the quadratic form is a square. -/
theorem gram_form (c : ℝ) (gr : Fin 3 → Vec ℝ 2) (x : Fin 4 → ℝ) :
    x ⬝ᵥ (block33 (.of fun i j => c * dot (gr i) (gr j))).mulVec x =
      c * dot (∑ i : Fin 3, x i.castSucc • gr i) (∑ i : Fin 3, x i.castSucc • gr i) := by
  have key : ∀ B : Matrix (Fin 3) (Fin 3) ℝ, x ⬝ᵥ (block33 B).mulVec x =
      ∑ i : Fin 3, ∑ j : Fin 3, x i.castSucc * (B i j * x j.castSucc) := by
    intro B
    simp only [dotProduct, Matrix.mulVec, sum_four, block33_cast, (block33_last B _).1, (block33_last B _).2,
      Finset.mul_sum, zero_mul, Finset.sum_const_zero, add_zero, mul_zero]
  rw [key]
  simp only [Matrix.of_apply, dot_two, Fin.sum_univ_three, Pi.add_apply, Pi.smul_apply, smul_eq_mul]
  ring

/-- A combination of the barycentric coordinates with gradient zero is constant. -/
theorem IsBary.kernel {v : Fin 3 → Vec ℝ 2} {k : Fin 3 → ℝ} {gr : Fin 3 → Vec ℝ 2} (h : IsBary v k gr)
    (x : Fin 3 → ℝ) : ∑ i, x i • gr i = 0 ↔ x 0 = x 1 ∧ x 1 = x 2 := by
  have hd := h.det_ne
  -- the combination takes the values `x` in the corners
  have hval : ∀ j, (∑ i, x i * k i) + dot (∑ i, x i • gr i) (v j) = x j := by
    intro j
    have : (∑ i, x i * k i) + dot (∑ i, x i • gr i) (v j) = ∑ i, x i * (k i + dot (gr i) (v j)) := by
      simp only [dot_two, Fin.sum_univ_three, Pi.add_apply, Pi.smul_apply, smul_eq_mul]
      ring
    rw [this]
    simp [h _ j]
  constructor
  · intro h0
    have hc : ∀ j, (∑ i, x i * k i) = x j := fun j => by
      have := hval j
      rwa [h0, show dot (0 : Vec ℝ 2) (v j) = 0 by simp [dot], add_zero] at this
    exact ⟨(hc 0).symm.trans (hc 1), (hc 1).symm.trans (hc 2)⟩
  · rintro ⟨h01, h12⟩
    set S := ∑ i, x i • gr i with hS
    have e1 : dot S (v 1 - v 0) = 0 := by
      have a := hval 0; have b := hval 1
      rw [dot_two] at a b ⊢
      simp only [Pi.sub_apply]; linarith
    have e2 : dot S (v 2 - v 0) = 0 := by
      have a := hval 0; have b := hval 2
      rw [dot_two] at a b ⊢
      simp only [Pi.sub_apply]; linarith
    rw [triaX_det] at hd
    simp only [det2, entry] at hd
    rw [dot_two] at e1 e2
    simp at hd e1 e2
    have g0 : S 0 * ((v 1 0 - v 0 0) * (v 2 1 - v 0 1) - (v 2 0 - v 0 0) * (v 1 1 - v 0 1)) = 0 := by
      linear_combination (v 2 1 - v 0 1) * e1 - (v 1 1 - v 0 1) * e2
    have g1 : S 1 * ((v 1 0 - v 0 0) * (v 2 1 - v 0 1) - (v 2 0 - v 0 0) * (v 1 1 - v 0 1)) = 0 := by
      linear_combination -(v 2 0 - v 0 0) * e1 + (v 1 0 - v 0 0) * e2
    have s0 := (mul_eq_zero.mp g0).resolve_right hd
    have s1 := (mul_eq_zero.mp g1).resolve_right hd
    funext i
    fin_cases i <;> simpa

end Verif
