import Verif.Spec.DpgProvider
import Mathlib.LinearAlgebra.Matrix.NonsingularInverse
import Mathlib.LinearAlgebra.Matrix.ToLin
import Mathlib.Tactic.LinearCombination
import Mathlib.Tactic.NormNum
import Mathlib.Tactic.Linarith

/-!
# Linear algebra of DPG element matrices
-/

namespace Verif.Dpg
open Verif Finset Matrix

def vecN (n : ℕ) (x : List ℝ) : Fin n → ℝ := fun i => x.getD i 0
def matN (n m : ℕ) (D : Dense ℝ) : Matrix (Fin n) (Fin m) ℝ := Matrix.of fun i j => D.entry i j

theorem form_eq (D : Dense ℝ) {n m : ℕ} (hr : D.rows = n) (hc : D.cols = m) (x y : List ℝ) :
    D.form x y = vecN n x ⬝ᵥ (matN n m D).mulVec (vecN m y) := by
  subst hr hc
  simp only [Dense.form, dotProduct, mulVec, vecN, matN, Matrix.of_apply]
  rw [Finset.sum_range]
  refine Finset.sum_congr rfl fun i _ => ?_
  rw [Finset.sum_range, Finset.mul_sum]

theorem dot_eq (b : List ℝ) {n : ℕ} (hb : b.length = n) (x : List ℝ) : dotList x b = vecN n x ⬝ᵥ vecN n b := by
  subst hb
  simp only [dotList, dotProduct, vecN]
  rw [Finset.sum_range]

theorem vecN_surj {n : ℕ} (v : Fin n → ℝ) : vecN n (List.ofFn v) = v := by
  funext i
  simp [vecN]

theorem spd_inv {G : Dense ℝ} (h : SPD G) {n : ℕ} (hn : G.rows = n) :
    ∃ Gi : Matrix (Fin n) (Fin n) ℝ, Giᵀ = Gi ∧ matN n n G * Gi = 1 ∧ Gi * matN n n G = 1 ∧
      ∀ a, 0 ≤ a ⬝ᵥ Gi.mulVec a ∧ (a ⬝ᵥ Gi.mulVec a = 0 → a = 0) := by
  have hsym : (matN n n G)ᵀ = matN n n G := by
    ext i j
    exact h.symm j (by rw [hn]; exact j.2) i (by rw [hn]; exact i.2)
  have hpos : ∀ v : Fin n → ℝ, v ≠ 0 → 0 < v ⬝ᵥ (matN n n G).mulVec v := by
    intro v hv
    have := h.pos (List.ofFn v) (by
      obtain ⟨i, hi⟩ := Function.ne_iff.1 hv
      exact ⟨i, by rw [hn]; exact i.2, by simpa using hi⟩)
    rwa [form_eq G hn (h.square.symm.trans hn), vecN_surj] at this
  have hinj : Function.Injective (matN n n G).mulVec := by
    intro a b hab
    by_contra hne
    have := hpos (a - b) (sub_ne_zero.2 hne)
    rw [mulVec_sub, sub_eq_zero.2 hab, dotProduct_zero] at this
    exact lt_irrefl _ this
  have hu : IsUnit (matN n n G).det := by
    rw [← Matrix.isUnit_iff_isUnit_det]
    exact Matrix.mulVec_injective_iff_isUnit.1 hinj
  refine ⟨(matN n n G)⁻¹, ?_, Matrix.mul_nonsing_inv _ hu, Matrix.nonsing_inv_mul _ hu, ?_⟩
  · rw [Matrix.transpose_nonsing_inv, hsym]
  · intro a
    have e : a ⬝ᵥ (matN n n G)⁻¹.mulVec a = ((matN n n G)⁻¹.mulVec a) ⬝ᵥ (matN n n G).mulVec ((matN n n G)⁻¹.mulVec a) := by
      rw [mulVec_mulVec, Matrix.mul_nonsing_inv _ hu, one_mulVec, dotProduct_comm]
    by_cases hz : (matN n n G)⁻¹.mulVec a = 0
    · have ha : a = 0 := by
        have : (matN n n G).mulVec ((matN n n G)⁻¹.mulVec a) = a := by
          rw [mulVec_mulVec, Matrix.mul_nonsing_inv _ hu, one_mulVec]
        rw [← this, hz, mulVec_zero]
      subst ha
      simp
    · have := hpos _ hz
      rw [e]
      exact ⟨this.le, fun h => absurd h this.ne'⟩

theorem represents_eq {G : Dense ℝ} {n : ℕ} (hn : G.rows = n) (hc : G.cols = n) {Gi : Matrix (Fin n) (Fin n) ℝ}
    (h1 : Gi * matN n n G = 1) {z r : List ℝ} (h : Represents G z r) : vecN n z = Gi.mulVec (vecN n r) := by
  have : (matN n n G).mulVec (vecN n z) = vecN n r := by
    funext i
    have := h i (by rw [hn]; exact i.2)
    rw [hc, Finset.sum_range] at this
    exact this
  rw [← this, mulVec_mulVec, h1, one_mulVec]

theorem ldlt_represents {ldlt : Ldlt} (hl : ldlt.Solves) {G : Dense ℝ} (h : SPD G) {l : List ℝ} (hll : l.length = G.rows) :
    Represents G (ldlt G l) l := by
  intro i hi
  rw [← h.square]
  exact hl G h l hll i hi

theorem normalMatrix_eq {ldlt : Ldlt} (hl : ldlt.Solves) {G B : Dense ℝ} (h : SPD G) {n m : ℕ} (hn : G.rows = n)
    (hB : B.rows = n) (hm : B.cols = m) {Gi : Matrix (Fin n) (Fin n) ℝ} (h1 : Gi * matN n n G = 1) :
    ∃ A, normalMatrix ldlt G B = some A ∧ A.rows = m ∧ A.cols = m ∧
      ∀ x y, A.form x y = (matN n m B).mulVec (vecN m x) ⬝ᵥ Gi.mulVec ((matN n m B).mulVec (vecN m y)) := by
  refine ⟨⟨B.cols, B.cols, fun i j => ∑ k ∈ range B.rows, B.entry k i * (ldlt G (denseCol B j)).getD k 0⟩,
    by rw [normalMatrix, if_pos (by omega)], hm, hm, fun x y => ?_⟩
  rw [form_eq ⟨B.cols, B.cols, _⟩ (n := m) (m := m) hm hm]
  have : matN m m ⟨B.cols, B.cols, fun i j => ∑ k ∈ range B.rows, B.entry k i * (ldlt G (denseCol B j)).getD k 0⟩ =
      (matN n m B)ᵀ * (Gi * matN n m B) := by
    ext i j
    simp only [matN, Matrix.of_apply, Matrix.mul_apply, Matrix.transpose_apply]
    rw [hB, Finset.sum_range]
    refine Finset.sum_congr rfl fun k _ => ?_
    congr 1
    have := congrFun (represents_eq hn (h.square.symm.trans hn) h1
      (ldlt_represents hl h (l := denseCol B j) (by simp [denseCol, hB, hn]))) k
    simp only [vecN] at this
    rw [this]
    simp only [mulVec, dotProduct]
    refine Finset.sum_congr rfl fun k' _ => ?_
    congr 1
    have hk' : (k' : ℕ) < B.rows := by rw [hB]; exact k'.2
    simp [denseCol, vecN, hk']
  rw [this, ← mulVec_mulVec, ← mulVec_mulVec, dotProduct_mulVec, vecMul_transpose]

theorem normalVector_eq {ldlt : Ldlt} (hl : ldlt.Solves) {G B : Dense ℝ} (h : SPD G) {n m : ℕ} (hn : G.rows = n)
    (hB : B.rows = n) (hm : B.cols = m) {l : List ℝ} (hll : l.length = n) {Gi : Matrix (Fin n) (Fin n) ℝ}
    (h1 : Gi * matN n n G = 1) :
    ∃ b, normalVector ldlt G B l = some b ∧ b.length = m ∧
      ∀ x, dotList x b = (matN n m B).mulVec (vecN m x) ⬝ᵥ Gi.mulVec (vecN n l) := by
  have hb : ((List.range B.cols).map fun i => ∑ k ∈ range B.rows, B.entry k i * (ldlt G l).getD k 0).length = m := by
    simp [hm]
  refine ⟨_, by rw [normalVector, if_pos ⟨by omega, by rw [← h.square]; omega⟩], hb, fun x => ?_⟩
  rw [dot_eq _ hb]
  have : vecN m ((List.range B.cols).map fun i => ∑ k ∈ range B.rows, B.entry k i * (ldlt G l).getD k 0) =
      (matN n m B)ᵀ.mulVec (Gi.mulVec (vecN n l)) := by
    funext i
    have hi : (i : ℕ) < B.cols := by rw [hm]; exact i.2
    simp only [vecN, List.getD_eq_getElem?_getD, List.getElem?_map, List.getElem?_range hi, Option.map_some, Option.getD_some]
    rw [hB, Finset.sum_range]
    rw [← represents_eq hn (h.square.symm.trans hn) h1 (ldlt_represents hl h (l := l) (by omega))]
    simp [mulVec, dotProduct, matN, vecN, List.getD_eq_getElem?_getD]
  rw [this, dotProduct_mulVec, vecMul_transpose]

end Verif.Dpg
