import Verif.Lemmas.TriaTable
import Mathlib.Tactic.Linarith
import Mathlib.Tactic.LinearCombination
import Mathlib.Tactic.NormNum
import Mathlib.Tactic.NormNum.NatFactorial

/-!
# Lemmas: polynomials which vanish at all points of a rule on the triangle

The rules need not be exact: an error of `10⁻¹⁴` in the moments is small enough for polynomials of degree 1, 2 and 3.
-/

namespace Verif
open Finset

/-- Errors of the moments. -/
theorem moments_of_exactUpTo {q : QuadRule ℝ} {ε : ℝ} {d : ℕ} (h : q.ExactUpTo ε d) (a b : ℕ) (hab : a + b ≤ d) :
    |q.integrate (fun p => p.getD 0 0 ^ a * p.getD 1 0 ^ b) - triaMoment a b| ≤ ε := by
  have key : ∀ f : ℕ → ℕ → ℝ, ∑ a' ∈ range (d + 1), ∑ b' ∈ range (d + 1 - a'), (if a' = a ∧ b' = b then 1 else 0) * f a' b' = f a b := by
    intro f
    rw [Finset.sum_eq_single a]
    · rw [Finset.sum_eq_single b]
      · simp
      · intro b' _ hb'
        simp [hb']
      · intro hb
        exact absurd (mem_range.2 (by omega)) hb
    · intro a' _ ha'
      simp [ha']
    · intro ha
      exact absurd (mem_range.2 (by omega)) ha
  have := h fun a' b' => if a' = a ∧ b' = b then 1 else 0
  have e1 : polyXY d (fun a' b' => if a' = a ∧ b' = b then 1 else 0) = fun p => p.getD 0 0 ^ a * p.getD 1 0 ^ b := by
    funext p
    exact key fun a b => p.getD 0 0 ^ a * p.getD 1 0 ^ b
  have e2 : coeffSum d (fun a' b' => if a' = a ∧ b' = b then 1 else 0) = 1 := by
    rw [coeffSum]
    refine Eq.trans ?_ (key fun _ _ => 1)
    refine sum_congr rfl fun a' _ => sum_congr rfl fun b' _ => ?_
    by_cases hc : a' = a ∧ b' = b
    · rw [if_pos hc]
      simp
    · rw [if_neg hc]
      simp
  have e3 : refIntegral .tria (fun p => p.getD 0 0 ^ a * p.getD 1 0 ^ b) = triaMoment a b := by
    rw [← e1, ← key triaMoment, ← tria_int_sum]
    simp [refIntegral, polyXY]
  rwa [e1, e2, e3, mul_one] at this

/-- The moments of a polynomial which vanishes at all points are small. -/
theorem small_moments {q : QuadRule ℝ} {ε : ℝ} {r d : ℕ} (h : q.ExactUpTo ε d) (hd : 2 * r ≤ d) (c : ℕ → ℕ → ℝ)
    (h0 : ∀ x ∈ q.points, polyXY r c x = 0) (i j : ℕ) (hij : i + j ≤ r) :
    |∑ a ∈ range (r + 1), ∑ b ∈ range (r + 1 - a), c a b * triaMoment (a + i) (b + j)| ≤ ε * coeffSum r c := by
  have hz : q.integrate (fun p => p.getD 0 0 ^ i * p.getD 1 0 ^ j * polyXY r c p) = 0 := by
    rw [← integrate_zero q]
    exact integrate_congr _ fun x hx => by rw [h0 x hx, mul_zero]
  have hs : q.integrate (fun p => p.getD 0 0 ^ i * p.getD 1 0 ^ j * polyXY r c p) = ∑ a ∈ range (r + 1), ∑ b ∈ range (r + 1 - a),
      c a b * q.integrate (fun p => p.getD 0 0 ^ (a + i) * p.getD 1 0 ^ (b + j)) := by
    have : (fun p : List ℝ => p.getD 0 0 ^ i * p.getD 1 0 ^ j * polyXY r c p) = fun p => ∑ a ∈ range (r + 1), ∑ b ∈ range (r + 1 - a),
        c a b * (p.getD 0 0 ^ (a + i) * p.getD 1 0 ^ (b + j)) := by
      funext p
      rw [polyXY, mul_sum]
      refine sum_congr rfl fun a _ => ?_
      rw [mul_sum]
      refine sum_congr rfl fun b _ => ?_
      rw [pow_add, pow_add]
      ring
    rw [this, integrate_sum]
    refine sum_congr rfl fun a _ => ?_
    rw [integrate_sum]
    exact sum_congr rfl fun b _ => integrate_smul _ _ _
  have : ∑ a ∈ range (r + 1), ∑ b ∈ range (r + 1 - a), c a b * triaMoment (a + i) (b + j) =
      ∑ a ∈ range (r + 1), ∑ b ∈ range (r + 1 - a),
        c a b * (triaMoment (a + i) (b + j) - q.integrate (fun p => p.getD 0 0 ^ (a + i) * p.getD 1 0 ^ (b + j))) := by
    simp only [mul_sub, sum_sub_distrib]
    rw [← hs, hz, sub_zero]
  rw [this, coeffSum, mul_sum]
  refine (abs_sum_le_sum_abs _ _).trans (sum_le_sum fun a ha => ?_)
  rw [mul_sum]
  refine (abs_sum_le_sum_abs _ _).trans (sum_le_sum fun b hb => ?_)
  rw [abs_mul, mul_comm ε, abs_sub_comm]
  rw [mem_range] at ha hb
  exact mul_le_mul_of_nonneg_left (moments_of_exactUpTo h _ _ (by omega)) (abs_nonneg _)

theorem coeff_zero_1 {q : QuadRule ℝ} {d : ℕ} (h : q.ExactUpTo (1 / 10 ^ 14) d) (hd : 2 * 1 ≤ d) (c : ℕ → ℕ → ℝ)
    (h0 : ∀ x ∈ q.points, polyXY 1 c x = 0) : coeffSum 1 c = 0 := by
  have hS : coeffSum 1 c = |c 0 0| + |c 0 1| + |c 1 0| := by
    simp only [coeffSum, Finset.sum_range_succ, Finset.sum_range_zero, Nat.reduceAdd, Nat.reduceSub]
    ring
  have e00 : |c 0 0 * (1/2) + c 0 1 * (1/6) + c 1 0 * (1/6)| ≤ 1 / 10 ^ 14 * coeffSum 1 c := by
    have := small_moments h hd c h0 0 0 (by norm_num)
    simp only [Finset.sum_range_succ, Finset.sum_range_zero, Nat.reduceAdd, Nat.reduceSub, triaMoment_eq, Nat.factorial] at this
    refine le_of_eq_of_le ?_ this
    congr 1
    norm_num
    try ring
  have e01 : |c 0 0 * (1/6) + c 0 1 * (1/12) + c 1 0 * (1/24)| ≤ 1 / 10 ^ 14 * coeffSum 1 c := by
    have := small_moments h hd c h0 0 1 (by norm_num)
    simp only [Finset.sum_range_succ, Finset.sum_range_zero, Nat.reduceAdd, Nat.reduceSub, triaMoment_eq, Nat.factorial] at this
    refine le_of_eq_of_le ?_ this
    congr 1
    norm_num
    try ring
  have e10 : |c 0 0 * (1/6) + c 0 1 * (1/24) + c 1 0 * (1/12)| ≤ 1 / 10 ^ 14 * coeffSum 1 c := by
    have := small_moments h hd c h0 1 0 (by norm_num)
    simp only [Finset.sum_range_succ, Finset.sum_range_zero, Nat.reduceAdd, Nat.reduceSub, triaMoment_eq, Nat.factorial] at this
    refine le_of_eq_of_le ?_ this
    congr 1
    norm_num
    try ring
  generalize coeffSum 1 c = S at *
  rw [abs_le] at e00 e01 e10
  have f00 : |c 0 0| ≤ 66 * (1 / 10 ^ 14 * S) := abs_le.2 ⟨by linear_combination 18 * e00.1 + 24 * e01.2 + 24 * e10.2, by linear_combination 18 * e00.2 + 24 * e01.1 + 24 * e10.1⟩
  have f01 : |c 0 1| ≤ 96 * (1 / 10 ^ 14 * S) := abs_le.2 ⟨by linear_combination 24 * e00.2 + 48 * e01.1 + 24 * e10.1, by linear_combination 24 * e00.1 + 48 * e01.2 + 24 * e10.2⟩
  have f10 : |c 1 0| ≤ 96 * (1 / 10 ^ 14 * S) := abs_le.2 ⟨by linear_combination 24 * e00.2 + 24 * e01.1 + 48 * e10.1, by linear_combination 24 * e00.1 + 24 * e01.2 + 48 * e10.2⟩
  have hn : 0 ≤ S := by rw [hS]; positivity
  clear e00 e01 e10
  linarith

theorem coeff_zero_2 {q : QuadRule ℝ} {d : ℕ} (h : q.ExactUpTo (1 / 10 ^ 14) d) (hd : 2 * 2 ≤ d) (c : ℕ → ℕ → ℝ)
    (h0 : ∀ x ∈ q.points, polyXY 2 c x = 0) : coeffSum 2 c = 0 := by
  have hS : coeffSum 2 c = |c 0 0| + |c 0 1| + |c 0 2| + |c 1 0| + |c 1 1| + |c 2 0| := by
    simp only [coeffSum, Finset.sum_range_succ, Finset.sum_range_zero, Nat.reduceAdd, Nat.reduceSub]
    ring
  have e00 : |c 0 0 * (1/2) + c 0 1 * (1/6) + c 0 2 * (1/12) + c 1 0 * (1/6) + c 1 1 * (1/24) + c 2 0 * (1/12)| ≤ 1 / 10 ^ 14 * coeffSum 2 c := by
    have := small_moments h hd c h0 0 0 (by norm_num)
    simp only [Finset.sum_range_succ, Finset.sum_range_zero, Nat.reduceAdd, Nat.reduceSub, triaMoment_eq, Nat.factorial] at this
    refine le_of_eq_of_le ?_ this
    congr 1
    norm_num
    try ring
  have e01 : |c 0 0 * (1/6) + c 0 1 * (1/12) + c 0 2 * (1/20) + c 1 0 * (1/24) + c 1 1 * (1/60) + c 2 0 * (1/60)| ≤ 1 / 10 ^ 14 * coeffSum 2 c := by
    have := small_moments h hd c h0 0 1 (by norm_num)
    simp only [Finset.sum_range_succ, Finset.sum_range_zero, Nat.reduceAdd, Nat.reduceSub, triaMoment_eq, Nat.factorial] at this
    refine le_of_eq_of_le ?_ this
    congr 1
    norm_num
    try ring
  have e02 : |c 0 0 * (1/12) + c 0 1 * (1/20) + c 0 2 * (1/30) + c 1 0 * (1/60) + c 1 1 * (1/120) + c 2 0 * (1/180)| ≤ 1 / 10 ^ 14 * coeffSum 2 c := by
    have := small_moments h hd c h0 0 2 (by norm_num)
    simp only [Finset.sum_range_succ, Finset.sum_range_zero, Nat.reduceAdd, Nat.reduceSub, triaMoment_eq, Nat.factorial] at this
    refine le_of_eq_of_le ?_ this
    congr 1
    norm_num
    try ring
  have e10 : |c 0 0 * (1/6) + c 0 1 * (1/24) + c 0 2 * (1/60) + c 1 0 * (1/12) + c 1 1 * (1/60) + c 2 0 * (1/20)| ≤ 1 / 10 ^ 14 * coeffSum 2 c := by
    have := small_moments h hd c h0 1 0 (by norm_num)
    simp only [Finset.sum_range_succ, Finset.sum_range_zero, Nat.reduceAdd, Nat.reduceSub, triaMoment_eq, Nat.factorial] at this
    refine le_of_eq_of_le ?_ this
    congr 1
    norm_num
    try ring
  have e11 : |c 0 0 * (1/24) + c 0 1 * (1/60) + c 0 2 * (1/120) + c 1 0 * (1/60) + c 1 1 * (1/180) + c 2 0 * (1/120)| ≤ 1 / 10 ^ 14 * coeffSum 2 c := by
    have := small_moments h hd c h0 1 1 (by norm_num)
    simp only [Finset.sum_range_succ, Finset.sum_range_zero, Nat.reduceAdd, Nat.reduceSub, triaMoment_eq, Nat.factorial] at this
    refine le_of_eq_of_le ?_ this
    congr 1
    norm_num
    try ring
  have e20 : |c 0 0 * (1/12) + c 0 1 * (1/60) + c 0 2 * (1/180) + c 1 0 * (1/20) + c 1 1 * (1/120) + c 2 0 * (1/30)| ≤ 1 / 10 ^ 14 * coeffSum 2 c := by
    have := small_moments h hd c h0 2 0 (by norm_num)
    simp only [Finset.sum_range_succ, Finset.sum_range_zero, Nat.reduceAdd, Nat.reduceSub, triaMoment_eq, Nat.factorial] at this
    refine le_of_eq_of_le ?_ this
    congr 1
    norm_num
    try ring
  generalize coeffSum 2 c = S at *
  rw [abs_le] at e00 e01 e02 e10 e11 e20
  have f00 : |c 0 0| ≤ 1272 * (1 / 10 ^ 14 * S) := abs_le.2 ⟨by linear_combination 72 * e00.1 + 240 * e01.2 + 180 * e02.1 + 240 * e10.2 + 360 * e11.1 + 180 * e20.1, by linear_combination 72 * e00.2 + 240 * e01.1 + 180 * e02.2 + 240 * e10.1 + 360 * e11.2 + 180 * e20.2⟩
  have f01 : |c 0 1| ≤ 4920 * (1 / 10 ^ 14 * S) := abs_le.2 ⟨by linear_combination 240 * e00.2 + 1200 * e01.1 + 1080 * e02.2 + 600 * e10.1 + 1440 * e11.2 + 360 * e20.2, by linear_combination 240 * e00.1 + 1200 * e01.2 + 1080 * e02.1 + 600 * e10.2 + 1440 * e11.1 + 360 * e20.1⟩
  have f02 : |c 0 2| ≤ 3960 * (1 / 10 ^ 14 * S) := abs_le.2 ⟨by linear_combination 180 * e00.1 + 1080 * e01.2 + 1080 * e02.1 + 360 * e10.2 + 1080 * e11.1 + 180 * e20.1, by linear_combination 180 * e00.2 + 1080 * e01.1 + 1080 * e02.2 + 360 * e10.1 + 1080 * e11.2 + 180 * e20.2⟩
  have f10 : |c 1 0| ≤ 4920 * (1 / 10 ^ 14 * S) := abs_le.2 ⟨by linear_combination 240 * e00.2 + 600 * e01.1 + 360 * e02.2 + 1200 * e10.1 + 1440 * e11.2 + 1080 * e20.2, by linear_combination 240 * e00.1 + 600 * e01.2 + 360 * e02.1 + 1200 * e10.2 + 1440 * e11.1 + 1080 * e20.1⟩
  have f11 : |c 1 1| ≤ 8280 * (1 / 10 ^ 14 * S) := abs_le.2 ⟨by linear_combination 360 * e00.1 + 1440 * e01.2 + 1080 * e02.1 + 1440 * e10.2 + 2880 * e11.1 + 1080 * e20.1, by linear_combination 360 * e00.2 + 1440 * e01.1 + 1080 * e02.2 + 1440 * e10.1 + 2880 * e11.2 + 1080 * e20.2⟩
  have f20 : |c 2 0| ≤ 3960 * (1 / 10 ^ 14 * S) := abs_le.2 ⟨by linear_combination 180 * e00.1 + 360 * e01.2 + 180 * e02.1 + 1080 * e10.2 + 1080 * e11.1 + 1080 * e20.1, by linear_combination 180 * e00.2 + 360 * e01.1 + 180 * e02.2 + 1080 * e10.1 + 1080 * e11.2 + 1080 * e20.2⟩
  have hn : 0 ≤ S := by rw [hS]; positivity
  clear e00 e01 e02 e10 e11 e20
  linarith

theorem coeff_zero_3 {q : QuadRule ℝ} {d : ℕ} (h : q.ExactUpTo (1 / 10 ^ 14) d) (hd : 2 * 3 ≤ d) (c : ℕ → ℕ → ℝ)
    (h0 : ∀ x ∈ q.points, polyXY 3 c x = 0) : coeffSum 3 c = 0 := by
  have hS : coeffSum 3 c = |c 0 0| + |c 0 1| + |c 0 2| + |c 0 3| + |c 1 0| + |c 1 1| + |c 1 2| + |c 2 0| + |c 2 1| + |c 3 0| := by
    simp only [coeffSum, Finset.sum_range_succ, Finset.sum_range_zero, Nat.reduceAdd, Nat.reduceSub]
    ring
  have e00 : |c 0 0 * (1/2) + c 0 1 * (1/6) + c 0 2 * (1/12) + c 0 3 * (1/20) + c 1 0 * (1/6) + c 1 1 * (1/24) + c 1 2 * (1/60) + c 2 0 * (1/12) + c 2 1 * (1/60) + c 3 0 * (1/20)| ≤ 1 / 10 ^ 14 * coeffSum 3 c := by
    have := small_moments h hd c h0 0 0 (by norm_num)
    simp only [Finset.sum_range_succ, Finset.sum_range_zero, Nat.reduceAdd, Nat.reduceSub, triaMoment_eq, Nat.factorial] at this
    refine le_of_eq_of_le ?_ this
    congr 1
    norm_num
    try ring
  have e01 : |c 0 0 * (1/6) + c 0 1 * (1/12) + c 0 2 * (1/20) + c 0 3 * (1/30) + c 1 0 * (1/24) + c 1 1 * (1/60) + c 1 2 * (1/120) + c 2 0 * (1/60) + c 2 1 * (1/180) + c 3 0 * (1/120)| ≤ 1 / 10 ^ 14 * coeffSum 3 c := by
    have := small_moments h hd c h0 0 1 (by norm_num)
    simp only [Finset.sum_range_succ, Finset.sum_range_zero, Nat.reduceAdd, Nat.reduceSub, triaMoment_eq, Nat.factorial] at this
    refine le_of_eq_of_le ?_ this
    congr 1
    norm_num
    try ring
  have e02 : |c 0 0 * (1/12) + c 0 1 * (1/20) + c 0 2 * (1/30) + c 0 3 * (1/42) + c 1 0 * (1/60) + c 1 1 * (1/120) + c 1 2 * (1/210) + c 2 0 * (1/180) + c 2 1 * (1/420) + c 3 0 * (1/420)| ≤ 1 / 10 ^ 14 * coeffSum 3 c := by
    have := small_moments h hd c h0 0 2 (by norm_num)
    simp only [Finset.sum_range_succ, Finset.sum_range_zero, Nat.reduceAdd, Nat.reduceSub, triaMoment_eq, Nat.factorial] at this
    refine le_of_eq_of_le ?_ this
    congr 1
    norm_num
    try ring
  have e03 : |c 0 0 * (1/20) + c 0 1 * (1/30) + c 0 2 * (1/42) + c 0 3 * (1/56) + c 1 0 * (1/120) + c 1 1 * (1/210) + c 1 2 * (1/336) + c 2 0 * (1/420) + c 2 1 * (1/840) + c 3 0 * (1/1120)| ≤ 1 / 10 ^ 14 * coeffSum 3 c := by
    have := small_moments h hd c h0 0 3 (by norm_num)
    simp only [Finset.sum_range_succ, Finset.sum_range_zero, Nat.reduceAdd, Nat.reduceSub, triaMoment_eq, Nat.factorial] at this
    refine le_of_eq_of_le ?_ this
    congr 1
    norm_num
    try ring
  have e10 : |c 0 0 * (1/6) + c 0 1 * (1/24) + c 0 2 * (1/60) + c 0 3 * (1/120) + c 1 0 * (1/12) + c 1 1 * (1/60) + c 1 2 * (1/180) + c 2 0 * (1/20) + c 2 1 * (1/120) + c 3 0 * (1/30)| ≤ 1 / 10 ^ 14 * coeffSum 3 c := by
    have := small_moments h hd c h0 1 0 (by norm_num)
    simp only [Finset.sum_range_succ, Finset.sum_range_zero, Nat.reduceAdd, Nat.reduceSub, triaMoment_eq, Nat.factorial] at this
    refine le_of_eq_of_le ?_ this
    congr 1
    norm_num
    try ring
  have e11 : |c 0 0 * (1/24) + c 0 1 * (1/60) + c 0 2 * (1/120) + c 0 3 * (1/210) + c 1 0 * (1/60) + c 1 1 * (1/180) + c 1 2 * (1/420) + c 2 0 * (1/120) + c 2 1 * (1/420) + c 3 0 * (1/210)| ≤ 1 / 10 ^ 14 * coeffSum 3 c := by
    have := small_moments h hd c h0 1 1 (by norm_num)
    simp only [Finset.sum_range_succ, Finset.sum_range_zero, Nat.reduceAdd, Nat.reduceSub, triaMoment_eq, Nat.factorial] at this
    refine le_of_eq_of_le ?_ this
    congr 1
    norm_num
    try ring
  have e12 : |c 0 0 * (1/60) + c 0 1 * (1/120) + c 0 2 * (1/210) + c 0 3 * (1/336) + c 1 0 * (1/180) + c 1 1 * (1/420) + c 1 2 * (1/840) + c 2 0 * (1/420) + c 2 1 * (1/1120) + c 3 0 * (1/840)| ≤ 1 / 10 ^ 14 * coeffSum 3 c := by
    have := small_moments h hd c h0 1 2 (by norm_num)
    simp only [Finset.sum_range_succ, Finset.sum_range_zero, Nat.reduceAdd, Nat.reduceSub, triaMoment_eq, Nat.factorial] at this
    refine le_of_eq_of_le ?_ this
    congr 1
    norm_num
    try ring
  have e20 : |c 0 0 * (1/12) + c 0 1 * (1/60) + c 0 2 * (1/180) + c 0 3 * (1/420) + c 1 0 * (1/20) + c 1 1 * (1/120) + c 1 2 * (1/420) + c 2 0 * (1/30) + c 2 1 * (1/210) + c 3 0 * (1/42)| ≤ 1 / 10 ^ 14 * coeffSum 3 c := by
    have := small_moments h hd c h0 2 0 (by norm_num)
    simp only [Finset.sum_range_succ, Finset.sum_range_zero, Nat.reduceAdd, Nat.reduceSub, triaMoment_eq, Nat.factorial] at this
    refine le_of_eq_of_le ?_ this
    congr 1
    norm_num
    try ring
  have e21 : |c 0 0 * (1/60) + c 0 1 * (1/180) + c 0 2 * (1/420) + c 0 3 * (1/840) + c 1 0 * (1/120) + c 1 1 * (1/420) + c 1 2 * (1/1120) + c 2 0 * (1/210) + c 2 1 * (1/840) + c 3 0 * (1/336)| ≤ 1 / 10 ^ 14 * coeffSum 3 c := by
    have := small_moments h hd c h0 2 1 (by norm_num)
    simp only [Finset.sum_range_succ, Finset.sum_range_zero, Nat.reduceAdd, Nat.reduceSub, triaMoment_eq, Nat.factorial] at this
    refine le_of_eq_of_le ?_ this
    congr 1
    norm_num
    try ring
  have e30 : |c 0 0 * (1/20) + c 0 1 * (1/120) + c 0 2 * (1/420) + c 0 3 * (1/1120) + c 1 0 * (1/30) + c 1 1 * (1/210) + c 1 2 * (1/840) + c 2 0 * (1/42) + c 2 1 * (1/336) + c 3 0 * (1/56)| ≤ 1 / 10 ^ 14 * coeffSum 3 c := by
    have := small_moments h hd c h0 3 0 (by norm_num)
    simp only [Finset.sum_range_succ, Finset.sum_range_zero, Nat.reduceAdd, Nat.reduceSub, triaMoment_eq, Nat.factorial] at this
    refine le_of_eq_of_le ?_ this
    congr 1
    norm_num
    try ring
  generalize coeffSum 3 c = S at *
  rw [abs_le] at e00 e01 e02 e03 e10 e11 e12 e20 e21 e30
  have f00 : |c 0 0| ≤ 19960 * (1 / 10 ^ 14 * S) := abs_le.2 ⟨by linear_combination 200 * e00.1 + 1200 * e01.2 + 2100 * e02.1 + 1120 * e03.2 + 1200 * e10.2 + 4200 * e11.1 + 3360 * e12.2 + 2100 * e20.1 + 3360 * e21.2 + 1120 * e30.2, by linear_combination 200 * e00.2 + 1200 * e01.1 + 2100 * e02.2 + 1120 * e03.1 + 1200 * e10.1 + 4200 * e11.2 + 3360 * e12.1 + 2100 * e20.2 + 3360 * e21.1 + 1120 * e30.1⟩
  have f01 : |c 0 1| ≤ 145080 * (1 / 10 ^ 14 * S) := abs_le.2 ⟨by linear_combination 1200 * e00.2 + 10800 * e01.1 + 22680 * e02.2 + 13440 * e03.1 + 5400 * e10.1 + 30240 * e11.2 + 30240 * e12.1 + 7560 * e20.2 + 20160 * e21.1 + 3360 * e30.1, by linear_combination 1200 * e00.1 + 10800 * e01.2 + 22680 * e02.1 + 13440 * e03.2 + 5400 * e10.2 + 30240 * e11.1 + 30240 * e12.2 + 7560 * e20.1 + 20160 * e21.2 + 3360 * e30.2⟩
  have f02 : |c 0 2| ≤ 274680 * (1 / 10 ^ 14 * S) := abs_le.2 ⟨by linear_combination 2100 * e00.1 + 22680 * e01.2 + 52920 * e02.1 + 33600 * e03.2 + 7560 * e10.2 + 52920 * e11.1 + 60480 * e12.2 + 8820 * e20.1 + 30240 * e21.2 + 3360 * e30.2, by linear_combination 2100 * e00.2 + 22680 * e01.1 + 52920 * e02.2 + 33600 * e03.1 + 7560 * e10.1 + 52920 * e11.2 + 60480 * e12.1 + 8820 * e20.2 + 30240 * e21.1 + 3360 * e30.1⟩
  have f03 : |c 0 3| ≤ 152320 * (1 / 10 ^ 14 * S) := abs_le.2 ⟨by linear_combination 1120 * e00.2 + 13440 * e01.1 + 33600 * e02.2 + 22400 * e03.1 + 3360 * e10.1 + 26880 * e11.2 + 33600 * e12.1 + 3360 * e20.2 + 13440 * e21.1 + 1120 * e30.1, by linear_combination 1120 * e00.1 + 13440 * e01.2 + 33600 * e02.1 + 22400 * e03.2 + 3360 * e10.2 + 26880 * e11.1 + 33600 * e12.2 + 3360 * e20.1 + 13440 * e21.2 + 1120 * e30.2⟩
  have f10 : |c 1 0| ≤ 145080 * (1 / 10 ^ 14 * S) := abs_le.2 ⟨by linear_combination 1200 * e00.2 + 5400 * e01.1 + 7560 * e02.2 + 3360 * e03.1 + 10800 * e10.1 + 30240 * e11.2 + 20160 * e12.1 + 22680 * e20.2 + 30240 * e21.1 + 13440 * e30.1, by linear_combination 1200 * e00.1 + 5400 * e01.2 + 7560 * e02.1 + 3360 * e03.2 + 10800 * e10.2 + 30240 * e11.1 + 20160 * e12.2 + 22680 * e20.1 + 30240 * e21.2 + 13440 * e30.2⟩
  have f11 : |c 1 1| ≤ 607320 * (1 / 10 ^ 14 * S) := abs_le.2 ⟨by linear_combination 4200 * e00.1 + 30240 * e01.2 + 52920 * e02.1 + 26880 * e03.2 + 30240 * e10.2 + 141120 * e11.1 + 120960 * e12.2 + 52920 * e20.1 + 120960 * e21.2 + 26880 * e30.2, by linear_combination 4200 * e00.2 + 30240 * e01.1 + 52920 * e02.2 + 26880 * e03.1 + 30240 * e10.1 + 141120 * e11.2 + 120960 * e12.1 + 52920 * e20.2 + 120960 * e21.1 + 26880 * e30.1⟩
  have f12 : |c 1 2| ≤ 524160 * (1 / 10 ^ 14 * S) := abs_le.2 ⟨by linear_combination 3360 * e00.2 + 30240 * e01.1 + 60480 * e02.2 + 33600 * e03.1 + 20160 * e10.1 + 120960 * e11.2 + 120960 * e12.1 + 30240 * e20.2 + 90720 * e21.1 + 13440 * e30.1, by linear_combination 3360 * e00.1 + 30240 * e01.2 + 60480 * e02.1 + 33600 * e03.2 + 20160 * e10.2 + 120960 * e11.1 + 120960 * e12.2 + 30240 * e20.1 + 90720 * e21.2 + 13440 * e30.2⟩
  have f20 : |c 2 0| ≤ 274680 * (1 / 10 ^ 14 * S) := abs_le.2 ⟨by linear_combination 2100 * e00.1 + 7560 * e01.2 + 8820 * e02.1 + 3360 * e03.2 + 22680 * e10.2 + 52920 * e11.1 + 30240 * e12.2 + 52920 * e20.1 + 60480 * e21.2 + 33600 * e30.2, by linear_combination 2100 * e00.2 + 7560 * e01.1 + 8820 * e02.2 + 3360 * e03.1 + 22680 * e10.1 + 52920 * e11.2 + 30240 * e12.1 + 52920 * e20.2 + 60480 * e21.1 + 33600 * e30.1⟩
  have f21 : |c 2 1| ≤ 524160 * (1 / 10 ^ 14 * S) := abs_le.2 ⟨by linear_combination 3360 * e00.2 + 20160 * e01.1 + 30240 * e02.2 + 13440 * e03.1 + 30240 * e10.1 + 120960 * e11.2 + 90720 * e12.1 + 60480 * e20.2 + 120960 * e21.1 + 33600 * e30.1, by linear_combination 3360 * e00.1 + 20160 * e01.2 + 30240 * e02.1 + 13440 * e03.2 + 30240 * e10.2 + 120960 * e11.1 + 90720 * e12.2 + 60480 * e20.1 + 120960 * e21.2 + 33600 * e30.2⟩
  have f30 : |c 3 0| ≤ 152320 * (1 / 10 ^ 14 * S) := abs_le.2 ⟨by linear_combination 1120 * e00.2 + 3360 * e01.1 + 3360 * e02.2 + 1120 * e03.1 + 13440 * e10.1 + 26880 * e11.2 + 13440 * e12.1 + 33600 * e20.2 + 33600 * e21.1 + 22400 * e30.1, by linear_combination 1120 * e00.1 + 3360 * e01.2 + 3360 * e02.1 + 1120 * e03.2 + 13440 * e10.2 + 26880 * e11.1 + 13440 * e12.2 + 33600 * e20.1 + 33600 * e21.2 + 22400 * e30.2⟩
  have hn : 0 ≤ S := by rw [hS]; positivity
  clear e00 e01 e02 e03 e10 e11 e12 e20 e21 e30
  linarith

end Verif
