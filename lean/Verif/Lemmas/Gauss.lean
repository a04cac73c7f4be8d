import Mathlib.Analysis.SpecialFunctions.Gamma.Basic
import Mathlib.Data.Finset.Sort
import Verif.Spec.Gauss
import Verif.Lemmas.GaussJac

/-!
# The model of the Gauss rules computes with Legendre and Jacobi polynomials
-/

namespace Verif.Gauss
open Polynomial Finset

/-! ## Evaluation -/

theorem legLoop_eq (z : ℝ) (n : ℕ) : legLoop z (n + 1) = ((P (n + 1)).eval z, (P n).eval z) := by
  induction n with
  | zero => simp [legLoop, P]
  | succ n ih =>
    rw [legLoop, ih]
    simp only [P, eval_mul, eval_C, eval_sub, eval_X, Prod.mk.injEq, and_true]
    push_cast
    have h2 : ((n : ℝ) + 2) ≠ 0 := by positivity
    have h2' : ((n : ℝ) + 1 + 1) ≠ 0 := by positivity
    field_simp
    ring

theorem legLoop_fst (z : ℝ) (n : ℕ) : (legLoop z n).1 = (P n).eval z := by
  cases n with
  | zero => simp [legLoop, P]
  | succ n => rw [legLoop_eq]

theorem legDeriv_eq (n : ℕ) (z : ℝ) (hz : z ^ 2 ≠ 1) :
    legDeriv n z = (derivative (P n)).eval z := by
  cases n with
  | zero => simp [legDeriv, P]
  | succ n =>
    have h := congrArg (eval z) (P_deriv n)
    simp only [eval_mul, eval_C, eval_sub, eval_X, eval_pow, eval_one] at h
    have hne : z * z - 1 ≠ 0 := fun h0 => hz (by linear_combination h0)
    rw [legDeriv, legLoop_eq]
    rw [div_eq_iff hne]
    push_cast
    linear_combination -h

theorem jacLoop_eq (z : ℝ) (k : ℕ) :
    jacLoop 1 0 z k = ((J (k + 1)).eval z, (J k).eval z, 2 * (k : ℝ) + 3) := by
  induction k with
  | zero => simp [jacLoop, J]; constructor <;> ring
  | succ k ih =>
    rw [jacLoop, ih]
    have h := J_rec k z
    simp only [Prod.mk.injEq, true_and]
    have e1 : ((k + 2 : ℕ) : ℝ) = (k : ℝ) + 2 := by push_cast; ring
    rw [e1]
    constructor
    · rw [div_eq_iff]
      · linear_combination -(2 * ((k : ℝ) + 2)) * h
      · have : (2 * ((k : ℝ) + 2) * ((k : ℝ) + 2 + (1 + 0)) * (2 * ((k : ℝ) + 2) + (1 + 0) - 2)) =
            2 * ((k : ℝ) + 2) * ((k : ℝ) + 3) * (2 * (k : ℝ) + 3) := by ring
        rw [this]; positivity
    · push_cast; ring

theorem jacDeriv_eq (n : ℕ) (z : ℝ) (hz : z ^ 2 ≠ 1) :
    jacDeriv (n + 1) 1 0 z = (derivative (J (n + 1))).eval z := by
  have h := J_deriv n z
  rw [jacDeriv, Nat.add_sub_cancel, jacLoop_eq]
  have h3 : (2 * (n : ℝ) + 3) ≠ 0 := by positivity
  have hne : (1 - z * z) ≠ 0 := fun h0 => hz (by linear_combination -h0)
  rw [div_eq_iff (mul_ne_zero h3 hne)]
  push_cast
  linear_combination -h

/-! ## Roots -/

/-- All roots of an orthogonal polynomial are in the interval, for there are already `n` of them. -/
private theorem root_mem' {p : ℝ[X]} {n : ℕ} (hdeg : p.natDegree = n) (hp0 : p ≠ 0) {S : Finset ℝ}
    (hc : S.card = n) (hS : ∀ s ∈ S, s ∈ Set.Ioo (-1 : ℝ) 1 ∧ p.eval s = 0) {z : ℝ}
    (hz : p.eval z = 0) : z ∈ Set.Ioo (-1 : ℝ) 1 ∧ z ∈ S := by
  classical
  have hsub : S ⊆ p.roots.toFinset := fun s hs => by
    rw [Multiset.mem_toFinset, mem_roots hp0]; exact (hS s hs).2
  have heq : S = p.roots.toFinset := Finset.eq_of_subset_of_card_le hsub (by
    rw [hc, ← hdeg]; exact le_trans (Multiset.toFinset_card_le _) (card_roots' p))
  have hzS : z ∈ S := by rw [heq, Multiset.mem_toFinset, mem_roots hp0]; exact hz
  exact ⟨(hS z hzS).1, hzS⟩

theorem P_roots (n : ℕ) : ∃ S : Finset ℝ, S.card = n ∧
    ∀ s ∈ S, s ∈ Set.Ioo (-1 : ℝ) 1 ∧ (P n).eval s = 0 :=
  exists_roots (-1) 1 L L_pos (P_natDegree n) (P_ne_zero n) fun q hq => L_orth q hq

theorem J_roots (n : ℕ) : ∃ S : Finset ℝ, S.card = n ∧
    ∀ s ∈ S, s ∈ Set.Ioo (-1 : ℝ) 1 ∧ (J n).eval s = 0 :=
  exists_roots (-1) 1 LJ LJ_pos (J_natDegree n) (J_ne_zero n) fun q hq => LJ_orth q hq

theorem P_root_mem {n : ℕ} {z : ℝ} (hz : (P n).eval z = 0) : z ∈ Set.Ioo (-1 : ℝ) 1 := by
  obtain ⟨S, hc, hS⟩ := P_roots n
  exact (root_mem' (P_natDegree n) (P_ne_zero n) hc hS hz).1

theorem P_root_in {n : ℕ} {S : Finset ℝ} (hc : S.card = n)
    (hS : ∀ s ∈ S, s ∈ Set.Ioo (-1 : ℝ) 1 ∧ (P n).eval s = 0) {z : ℝ} (hz : (P n).eval z = 0) : z ∈ S :=
  (root_mem' (P_natDegree n) (P_ne_zero n) hc hS hz).2

theorem J_root_mem {n : ℕ} {z : ℝ} (hz : (J n).eval z = 0) : z ∈ Set.Ioo (-1 : ℝ) 1 := by
  obtain ⟨S, hc, hS⟩ := J_roots n
  exact (root_mem' (J_natDegree n) (J_ne_zero n) hc hS hz).1

theorem sq_ne_one {z : ℝ} (hz : z ∈ Set.Ioo (-1 : ℝ) 1) : z ^ 2 ≠ 1 := by
  intro h
  nlinarith [hz.1, hz.2]

/-- `P n` and `P (n + 1)` have no common root. -/
theorem P_no_common (n : ℕ) (z : ℝ) (h0 : (P n).eval z = 0) (h1 : (P (n + 1)).eval z = 0) : False := by
  induction n with
  | zero => simp [P] at h0
  | succ n ih =>
    refine ih ?_ h0
    have h := congrArg (eval z) (P_rec n)
    simp only [eval_mul, eval_C, eval_sub, eval_X, h0, h1, mul_zero, zero_sub] at h
    have hn : ((n : ℝ) + 1) ≠ 0 := by positivity
    have := neg_eq_zero.1 h.symm
    exact (mul_eq_zero.1 this).resolve_left hn

theorem J_no_common (n : ℕ) (z : ℝ) (h0 : (J n).eval z = 0) (h1 : (J (n + 1)).eval z = 0) : False := by
  induction n with
  | zero => simp [J] at h0
  | succ n ih =>
    refine ih ?_ h0
    have h := J_rec n z
    rw [h0, h1, mul_zero, mul_zero, zero_sub] at h
    have hn : ((n : ℝ) + 1) * (2 * n + 5) ≠ 0 := by positivity
    have := neg_eq_zero.1 h.symm
    exact (mul_eq_zero.1 this).resolve_left hn

/-- The relation of derivative and polynomial of lower degree at a root. -/
theorem P_deriv_root {n : ℕ} {z : ℝ} (hz : (P (n + 1)).eval z = 0) :
    (1 - z ^ 2) * (derivative (P (n + 1))).eval z = ((n : ℝ) + 1) * (P n).eval z := by
  have h := congrArg (eval z) (P_deriv n)
  simp only [eval_mul, eval_C, eval_sub, eval_X, eval_pow, eval_one, hz] at h
  linear_combination -h

theorem legDeriv_ne {n : ℕ} {z : ℝ} (hz : (P (n + 1)).eval z = 0) : legDeriv (n + 1) z ≠ 0 := by
  rw [legDeriv_eq _ _ (sq_ne_one (P_root_mem hz))]
  intro h0
  have h := P_deriv_root hz
  rw [h0, mul_zero] at h
  have hn : ((n : ℝ) + 1) ≠ 0 := by positivity
  exact P_no_common n z ((mul_eq_zero.1 h.symm).resolve_left hn) hz

theorem J_deriv_root {n : ℕ} {z : ℝ} (hz : (J (n + 1)).eval z = 0) :
    (2 * (n : ℝ) + 3) * (1 - z ^ 2) * (derivative (J (n + 1))).eval z =
      2 * ((n : ℝ) + 2) * ((n : ℝ) + 1) * (J n).eval z := by
  have h := J_deriv n z
  rw [hz, mul_zero, zero_add] at h
  exact h

theorem jacDeriv_ne {n : ℕ} {z : ℝ} (hz : (J (n + 1)).eval z = 0) : jacDeriv (n + 1) 1 0 z ≠ 0 := by
  rw [jacDeriv_eq _ _ (sq_ne_one (J_root_mem hz))]
  intro h0
  have h := J_deriv_root hz
  rw [h0, mul_zero] at h
  have hn : 2 * ((n : ℝ) + 2) * ((n : ℝ) + 1) ≠ 0 := by positivity
  exact J_no_common n z ((mul_eq_zero.1 h.symm).resolve_left hn) hz

/-! ## Weights -/

/-- The weight of a root of the Legendre polynomial. -/
theorem P_weight {n : ℕ} {z : ℝ} (hz : (P (n + 1)).eval z = 0) :
    L (P (n + 1) /ₘ (X - C z)) / (derivative (P (n + 1))).eval z =
      2 / ((1 - z ^ 2) * (derivative (P (n + 1))).eval z ^ 2) := by
  have hm := P_root_mem hz
  have h1 : (1 - z ^ 2) ≠ 0 := fun h => sq_ne_one hm (by linarith)
  have hd : (derivative (P (n + 1))).eval z ≠ 0 := by
    rw [← legDeriv_eq _ _ (sq_ne_one hm)]; exact legDeriv_ne hz
  have hn : ((n : ℝ) + 1) ≠ 0 := by positivity
  have hn2 : (2 * (n : ℝ) + 1) ≠ 0 := by positivity
  have hk : (P (n + 1)).coeff (n + 1) = (2 * (n : ℝ) + 1) / ((n : ℝ) + 1) * (P n).coeff n := by
    have := (P_coeff n).2.2
    field_simp
    linear_combination this
  have hw := weight L (P_natDegree (n + 1)) (P_natDegree n).le (fun q hq => L_orth q hq)
    (fun q hq => L_orth q hq) hk hz
  rw [L_norm] at hw
  have hr := P_deriv_root hz
  have hp : (P n).eval z ≠ 0 := fun h0 => P_no_common n z h0 hz
  have hLe : L (P (n + 1) /ₘ (X - C z)) = 2 / (((n : ℝ) + 1) * (P n).eval z) := by
    rw [eq_div_iff (mul_ne_zero hn hp)]
    calc _ = ((n : ℝ) + 1) * (L (P (n + 1) /ₘ (X - C z)) * (P n).eval z) := by ring
      _ = _ := by rw [hw]; field_simp
  rw [hLe, ← hr]
  field_simp

/-- The weight of a root of the Jacobi polynomial. -/
theorem J_weight {n : ℕ} {z : ℝ} (hz : (J (n + 1)).eval z = 0) :
    LJ (J (n + 1) /ₘ (X - C z)) / (derivative (J (n + 1))).eval z =
      2 * (2 * (n : ℝ) + 3) / (((n : ℝ) + 1) * ((n : ℝ) + 2)) /
        ((derivative (J (n + 1))).eval z * (J n).eval z) := by
  have hm := J_root_mem hz
  have hd : (derivative (J (n + 1))).eval z ≠ 0 := by
    rw [← jacDeriv_eq _ _ (sq_ne_one hm)]; exact jacDeriv_ne hz
  have hn : ((n : ℝ) + 1) ≠ 0 := by positivity
  have hn2 : ((n : ℝ) + 2) ≠ 0 := by positivity
  have hk : (J (n + 1)).coeff (n + 1) = (2 * (n : ℝ) + 3) / ((n : ℝ) + 2) * (J n).coeff n := by
    have := (P_coeff (n + 1)).2.2
    rw [J_coeff, J_coeff]
    push_cast at this
    field_simp
    linear_combination this
  have hw := weight LJ (J_natDegree (n + 1)) (J_natDegree n).le (fun q hq => LJ_orth q hq)
    (fun q hq => LJ_orth q hq) hk hz
  rw [LJ_norm] at hw
  have hp : (J n).eval z ≠ 0 := fun h0 => J_no_common n z h0 hz
  rw [div_eq_div_iff hd (mul_ne_zero hd hp)]
  calc _ = (derivative (J (n + 1))).eval z * (LJ (J (n + 1) /ₘ (X - C z)) * (J n).eval z) := by ring
    _ = _ := by rw [hw]; field_simp

/-! ## The stored rule -/

/-- The loop over the roots fills the lists from both ends. -/
theorem fold_store (n : ℕ) (a b w : ℕ → ℝ) (k : ℕ) (hk : k ≤ (n + 1) / 2) :
    (List.range k).foldl (fun (r : List ℝ × List ℝ) i =>
        ((r.1.set i (a i)).set (n - 1 - i) (b i), (r.2.set i (w i)).set (n - 1 - i) (w i)))
        (List.replicate n 0, List.replicate n 0) =
      ((List.range n).map fun e => if n - 1 - e < k then b (n - 1 - e) else if e < k then a e else 0,
        (List.range n).map fun e => if n - 1 - e < k then w (n - 1 - e) else if e < k then w e else 0) := by
  induction k with
  | zero => simp [List.map_const']
  | succ k ih =>
    rw [List.range_succ, List.foldl_append, ih (by omega)]
    simp only [List.foldl_cons, List.foldl_nil, Prod.mk.injEq]
    constructor
    all_goals
      refine List.ext_getElem (by simp) fun e h1 h2 => ?_
      simp only [List.length_map, List.length_range] at h2
      simp only [List.getElem_set, List.getElem_map, List.getElem_range]
      by_cases c1 : n - 1 - k = e
      · rw [if_pos c1, if_pos (show n - 1 - e < k + 1 by omega)]
        congr 1; omega
      · rw [if_neg c1]
        by_cases c2 : k = e
        · rw [if_pos c2, if_neg (show ¬ n - 1 - e < k + 1 by omega), if_pos (show e < k + 1 by omega), c2]
        · rw [if_neg c2]
          by_cases c3 : n - 1 - e < k
          · rw [if_pos c3, if_pos (show n - 1 - e < k + 1 by omega)]
          · rw [if_neg c3, if_neg (show ¬ n - 1 - e < k + 1 by omega)]
            by_cases c4 : e < k
            · rw [if_pos c4, if_pos (show e < k + 1 by omega)]
            · rw [if_neg c4, if_neg (show ¬ e < k + 1 by omega)]

end Verif.Gauss
