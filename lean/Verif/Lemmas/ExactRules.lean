import Mathlib.LinearAlgebra.Lagrange
import Mathlib.Topology.Algebra.Polynomial
import Mathlib.Analysis.SpecialFunctions.Integrals.Basic
import Verif.Lemmas.Quad

/-!
# Quadrature rules of every degree

Interpolatory rules with equidistant points on segments, and products of them on triangles.  They serve
as instances of the hypotheses of theorems which ask for exact rules; they are not the rules of the code.
-/

namespace Verif
open Finset

/-- Equidistant points inside `(0, 1)`. -/
noncomputable def eqPt (d i : ℕ) : ℝ := (i + 1) / (d + 2)

/-- The weights of the interpolatory rule. -/
noncomputable def eqWt (d i : ℕ) : ℝ :=
  ∫ x in (0 : ℝ)..1, (Lagrange.basis (range (d + 1)) (eqPt d) i).eval x

theorem eqPt_inj (d : ℕ) : Function.Injective (eqPt d) := by
  intro i j h
  have h2 : ((d : ℝ) + 2) ≠ 0 := by positivity
  unfold eqPt at h
  field_simp at h
  exact_mod_cast (add_right_cancel h : (i : ℝ) = j)

theorem eqPt_ne_one {d i : ℕ} (h : i ≤ d) : eqPt d i ≠ 1 := by
  have h2 : ((d : ℝ) + 2) ≠ 0 := by positivity
  unfold eqPt
  rw [Ne, div_eq_one_iff_eq h2]
  intro e
  have : (i : ℝ) ≤ d := by exact_mod_cast h
  linarith

theorem eq_rule (d : ℕ) (p : Polynomial ℝ) (hp : p.natDegree ≤ d) :
    ∑ i ∈ range (d + 1), eqWt d i * p.eval (eqPt d i) = ∫ x in (0 : ℝ)..1, p.eval x := by
  have hd : p.degree < (range (d + 1)).card := by
    rw [card_range]
    exact lt_of_le_of_lt Polynomial.degree_le_natDegree (by exact_mod_cast Nat.lt_succ_of_le hp)
  have h := Lagrange.eq_interpolate (s := range (d + 1)) (v := eqPt d) (f := p) ((eqPt_inj d).injOn) hd
  have hx : ∀ x : ℝ, p.eval x = ∑ i ∈ range (d + 1), p.eval (eqPt d i) *
      (Lagrange.basis (range (d + 1)) (eqPt d) i).eval x := by
    intro x
    conv_lhs => rw [h]
    rw [Lagrange.interpolate_apply, Polynomial.eval_finset_sum]
    simp
  conv_rhs => rw [show (fun x => p.eval x) = _ from funext hx]
  rw [intervalIntegral.integral_finsetSum]
  · refine sum_congr rfl fun i _ => ?_
    rw [intervalIntegral.integral_const_mul, eqWt, mul_comm]
  · intro i _
    exact (Continuous.mul continuous_const (Polynomial.continuous _)).intervalIntegrable _ _

/-- The rule of degree `d` on segments. -/
noncomputable def eqSegment (d : ℕ) : QuadRule ℝ :=
  ⟨.segment, d, (List.range (d + 1)).map fun i => [eqPt d i], (List.range (d + 1)).map (eqWt d)⟩

theorem sum_map_range (n : ℕ) (f : ℕ → ℝ) : ((List.range n).map f).sum = ∑ i ∈ range n, f i := by
  induction n with
  | zero => simp
  | succ n ih => rw [List.range_succ, List.map_append, List.sum_append, ih, Finset.sum_range_succ]; simp

theorem eqSegment_wf (d : ℕ) : (eqSegment d).WellFormed := by
  simp [QuadRule.WellFormed, eqSegment, RefEl.dimension]

theorem eqSegment_exact (d : ℕ) : (eqSegment d).ExactFor d := by
  refine seg_exact rfl d (fun a ha f hf => ?_) (eqSegment_wf d)
  rw [QuadRule.integrate, eqSegment]
  rw [List.zipWith_map_left, List.zipWith_map_right, List.zipWith_self, sum_map_range]
  simp only [hf]
  have h := eq_rule d (Polynomial.X ^ a) (by simpa using ha)
  simp only [Polynomial.eval_pow, Polynomial.eval_X, integral_pow] at h
  rw [h]
  simp

/-- The rule of degree `d` on triangles. -/
noncomputable def eqTria (d : ℕ) : QuadRule ℝ :=
  ⟨.tria, d, (List.range (d + 1)).flatMap fun i => (List.range (d + 2)).map fun j =>
      [eqPt d i * (1 - eqPt (d + 1) j), eqPt (d + 1) j],
    (List.range (d + 1)).flatMap fun i => (List.range (d + 2)).map fun j =>
      eqWt d i * (eqWt (d + 1) j * (1 - eqPt (d + 1) j))⟩

theorem eqTria_wf (d : ℕ) : (eqTria d).WellFormed := by
  constructor
  · intro c hc
    simp only [eqTria, List.mem_flatMap, List.mem_map] at hc
    obtain ⟨i, -, j, -, rfl⟩ := hc
    rfl
  · simp [eqTria, List.length_flatMap]

theorem eqTria_top (d : ℕ) : ∀ p ∈ (eqTria d).points, p.getD 1 0 ≠ 1 := by
  intro c hc
  simp only [eqTria, List.mem_flatMap, List.mem_map, List.mem_range] at hc
  obtain ⟨i, -, j, hj, rfl⟩ := hc
  exact eqPt_ne_one (by omega)

theorem eqTria_exact (d : ℕ) : (eqTria d).ExactFor d := by
  refine tria_exact rfl d (fun a b hab f hf => ?_) (eqTria_wf d)
  rw [QuadRule.integrate, eqTria]
  dsimp only
  rw [tensor_sum]
  simp only [hf]
  have h1 := eq_rule d (Polynomial.X ^ a) (by simpa using (by omega : a ≤ d))
  have h2 := eq_rule (d + 1) ((1 - Polynomial.X) ^ (a + 1) * Polynomial.X ^ b) (by
    refine le_trans Polynomial.natDegree_mul_le ?_
    have e1 : (1 - Polynomial.X : Polynomial ℝ).natDegree ≤ 1 := by
      refine le_trans (Polynomial.natDegree_sub_le _ _) ?_
      simp
    have e2 := Polynomial.natDegree_pow_le_of_le (a + 1) e1
    have e3 : (Polynomial.X ^ b : Polynomial ℝ).natDegree ≤ b := by simp
    omega)
  simp only [Polynomial.eval_pow, Polynomial.eval_X, Polynomial.eval_mul, Polynomial.eval_sub,
    Polynomial.eval_one, integral_pow] at h1 h2
  rw [triaMoment, ← h2, show (1 : ℝ) / (a + 1) = (1 ^ (a + 1) - 0 ^ (a + 1)) / (a + 1) by simp, ← h1,
    ← sum_map_range, ← sum_map_range, ← sum_prod]
  congr 2; funext i; congr 2; funext j
  rw [mul_pow]
  ring

/-- Rules for all segments and triangles. -/
noncomputable def eqRules (r : RefEl) (d : ℕ) : Option (QuadRule ℝ) :=
  if r = .segment then some (eqSegment d) else if r = .tria then some (eqTria d) else none

end Verif
