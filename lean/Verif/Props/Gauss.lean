import Verif.Lemmas.Gauss
import Verif.Props.Quad
import Verif.Props.TriaTable

/-!
# C76: the one-dimensional Gauss rules

`IsGauss a b ω n r` (`Verif/Spec/Quad.lean`) says that the rule `r` has `n` points and integrates all polynomials of
degree at most `2 n - 1` exactly over `[a, b]` with weight function `ω`.  `LegConverged`, `JacConverged` say where the
Newton iterations have ended (`Verif/Spec/Gauss.lean`).
-/

namespace Verif
open Polynomial Finset Gauss

/-- **C76**: the recurrence in `GaussLegendre` evaluates the Legendre polynomial, the polynomial of degree `n` that is
orthogonal to all polynomials of lower degree and is 1 at 1, and `pp` is its derivative. -/
theorem C76_legendre_polynomial (n : ℕ) : ∃ p : ℝ[X], IsOrthogonal (fun _ => 1) n 1 p ∧
    ∀ z, (legLoop z n).1 = p.eval z ∧ (z ^ 2 ≠ 1 → legDeriv n z = (derivative p).eval z) := by
  refine ⟨P n, ⟨P_natDegree n, (P_one n).1, fun q hq => ?_⟩, fun z => ⟨legLoop_fst z n, legDeriv_eq n z⟩⟩
  rw [← L_orth q hq, L_def]
  simp

/-- **C76**: the recurrence in `GaussJacobi(n, 1, 0)` evaluates the Jacobi polynomial, the polynomial of degree `n` that
is orthogonal to all polynomials of lower degree for the weight function `1 - x` and is `n + 1` at 1, and `pp` is its
derivative. -/
theorem C76_jacobi_polynomial (n : ℕ) (hn : 0 < n) :
    ∃ p : ℝ[X], IsOrthogonal (fun x => (1 - x) ^ (1 : ℕ) * (1 + x) ^ (0 : ℕ)) n (n + 1) p ∧
      ∀ z, (jacLoop 1 0 z (n - 1)).1 = p.eval z ∧ (z ^ 2 ≠ 1 → jacDeriv n 1 0 z = (derivative p).eval z) := by
  obtain ⟨n, rfl⟩ : ∃ m, n = m + 1 := ⟨n - 1, by omega⟩
  refine ⟨J (n + 1), ⟨J_natDegree _, ?_, fun q hq => ?_⟩, fun z => ⟨?_, jacDeriv_eq n z⟩⟩
  · have : ∀ m : ℕ, (J m).eval 1 = (m : ℝ) + 1 ∧ (J (m + 1)).eval 1 = (m : ℝ) + 2 := by
      intro m
      induction m with
      | zero => simp [J]; norm_num
      | succ m ih =>
        refine ⟨by rw [ih.2]; push_cast; ring, ?_⟩
        have h := J_rec m 1
        rw [ih.1, ih.2] at h
        have hne : ((m : ℝ) + 3) * (2 * m + 3) ≠ 0 := by positivity
        refine mul_left_cancel₀ hne ?_
        push_cast
        linear_combination h
    exact (this (n + 1)).1
  · rw [← LJ_orth q hq, LJ_def, L_def]
    simp
  · rw [Nat.add_sub_cancel, jacLoop_eq]

/-! ## The rules -/

private theorem isGauss_list {a b : ℝ} {ω : ℝ → ℝ} {n : ℕ} (x w : ℕ → ℝ)
    (h : ∀ p : ℝ[X], p.natDegree ≤ 2 * n - 1 →
      ∑ i ∈ range n, w i * p.eval (x i) = ∫ t in a..b, ω t * p.eval t) :
    IsGauss a b ω n ((List.range n).map x, (List.range n).map w) := by
  refine ⟨by simp, by simp, fun p hp => ?_⟩
  rw [← h p hp, List.zipWith_map, List.zipWith_self, Finset.sum_range]
  rw [← List.sum_ofFn]
  congr 1
  refine List.ext_getElem (by simp) fun i h1 h2 => by simp

private theorem newton_root {n : ℕ} {z : ℝ} (h : legDeriv n z ≠ 0 ∧ legNewton n z = z) : (P n).eval z = 0 := by
  have h2 := h.2
  rw [legNewton, sub_eq_self, div_eq_zero_iff, legLoop_fst] at h2
  exact h2.resolve_right h.1

private theorem newton_root_jac {n : ℕ} {z : ℝ} (h : jacDeriv (n + 1) 1 0 z ≠ 0 ∧ jacNewton (n + 1) 1 0 z = z) :
    (J (n + 1)).eval z = 0 := by
  have h2 := h.2
  rw [jacNewton, sub_eq_self, div_eq_zero_iff, Nat.add_sub_cancel, jacLoop_eq] at h2
  exact h2.resolve_right h.1

/-- The nodes on `[-1, 1]` in the order in which they are stored. -/
private noncomputable def node (n : ℕ) (root : ℕ → ℝ) (e : ℕ) : ℝ :=
  if e < n / 2 then -root e else root (n - 1 - e)

private theorem legendre_eq (n : ℕ) (hn : 0 < n) (root : ℕ → ℝ) (h : LegConverged n root) :
    gaussLegendre n root = some ((List.range n).map fun e => (1 + node n root e) / 2,
      (List.range n).map fun e => 1 / ((1 - node n root e ^ 2) * (derivative (P n)).eval (node n root e) ^ 2)) := by
  rw [gaussLegendre, if_pos hn]
  simp only [legStore]
  rw [fold_store n (fun i => 1 / 2 * (1 - legNewton n (root i))) (fun i => 1 / 2 * (1 + legNewton n (root i)))
    (fun i => 1 / ((1 - legNewton n (root i) * legNewton n (root i)) * legDeriv n (root i) * legDeriv n (root i)))
    _ le_rfl]
  congr 2
  · refine List.map_congr_left fun e he => ?_
    rw [List.mem_range] at he
    rw [node]
    by_cases c : e < n / 2
    · rw [if_neg (show ¬ n - 1 - e < (n + 1) / 2 by omega), if_pos (show e < (n + 1) / 2 by omega), if_pos c,
        (h.stands e (by omega)).2]
      ring
    · rw [if_pos (show n - 1 - e < (n + 1) / 2 by omega), if_neg c, (h.stands (n - 1 - e) (by omega)).2]
      ring
  · refine List.map_congr_left fun e he => ?_
    rw [List.mem_range] at he
    have hd : ∀ i < (n + 1) / 2, legDeriv n (root i) = (derivative (P n)).eval (root i) := fun i hi =>
      legDeriv_eq _ _ (sq_ne_one (P_root_mem (newton_root (h.stands i hi))))
    rw [node]
    by_cases c : e < n / 2
    · rw [if_neg (show ¬ n - 1 - e < (n + 1) / 2 by omega), if_pos (show e < (n + 1) / 2 by omega), if_pos c,
        (h.stands e (by omega)).2, hd e (by omega), P_neg_deriv, mul_pow, ← pow_mul, mul_comm (n + 1) 2, pow_mul,
        neg_one_sq, one_pow]
      congr 1; ring
    · rw [if_pos (show n - 1 - e < (n + 1) / 2 by omega), if_neg c, (h.stands (n - 1 - e) (by omega)).2,
        hd (n - 1 - e) (by omega)]
      congr 1; ring

/-- At the end of the loops the middle root is not counted twice. -/
private theorem root_pos {n : ℕ} {root : ℕ → ℝ} (h : LegConverged n root) {i : ℕ} (hi : i < n / 2) : 0 < root i := by
  by_cases hl : i + 1 < (n + 1) / 2
  · exact lt_of_le_of_lt (h.nonneg _ hl) (h.sorted i (i + 1) (by omega) hl)
  · refine lt_of_le_of_ne (h.nonneg i (by omega)) fun h0 => ?_
    have hs := h.stands i (by omega)
    rw [← h0, legDeriv_eq _ _ (by norm_num)] at hs
    have hp := P_neg_deriv n 0
    obtain ⟨k, rfl⟩ : ∃ k, n = 2 * k := ⟨n / 2, by omega⟩
    rw [neg_zero, pow_succ, pow_mul, neg_one_sq, one_pow] at hp
    exact hs.1 (by linarith)

private theorem node_root {n : ℕ} {root : ℕ → ℝ} (h : LegConverged n root) {e : ℕ} (he : e < n) :
    (P n).eval (node n root e) = 0 := by
  rw [node]
  split_ifs with c
  · rw [(P_neg n _).1, newton_root (h.stands e (by omega)), mul_zero]
  · exact newton_root (h.stands _ (by omega))

private theorem node_lt {n : ℕ} {root : ℕ → ℝ} (h : LegConverged n root) {e e' : ℕ} (hee : e < e') (he : e' < n) :
    node n root e < node n root e' := by
  rw [node, node]
  by_cases c : e < n / 2
  · rw [if_pos c]
    by_cases c' : e' < n / 2
    · rw [if_pos c']
      exact neg_lt_neg (h.sorted e e' hee (by omega))
    · rw [if_neg c']
      have := root_pos h c
      have := h.nonneg (n - 1 - e') (by omega)
      linarith
  · rw [if_neg c, if_neg (by omega)]
    exact h.sorted _ _ (by omega) (by omega)

private theorem node_inj {n : ℕ} {root : ℕ → ℝ} (h : LegConverged n root) :
    Function.Injective fun i : Fin n => node n root i := by
  intro i j hij
  rcases lt_trichotomy i.1 j.1 with c | c | c
  · exact absurd hij (node_lt h c j.2).ne
  · exact Fin.ext c
  · exact absurd hij (node_lt h c i.2).ne'

private theorem leg_exact {n : ℕ} {root : ℕ → ℝ} (h : LegConverged (n + 1) root) (f : ℝ[X])
    (hf : f.natDegree ≤ 2 * (n + 1) - 1) :
    ∑ e ∈ range (n + 1), 1 / ((1 - node (n + 1) root e ^ 2) *
        (derivative (P (n + 1))).eval (node (n + 1) root e) ^ 2) * f.eval (node (n + 1) root e) = 1 / 2 * L f := by
  rw [Gauss.exact L (P_natDegree (n + 1)) (by omega) (fun q hq => L_orth q hq) _ (node_inj h)
    (fun i => node_root h i.2) f hf, Finset.sum_range, Finset.mul_sum]
  refine Finset.sum_congr rfl fun i _ => ?_
  rw [P_weight (node_root h i.2)]
  ring

private theorem shift_integral (p : ℝ[X]) :
    ∫ t in (0 : ℝ)..1, p.eval t = 1 / 2 * L (p.comp (C (1 / 2) * X + C (1 / 2))) := by
  rw [L_def]
  have h := intervalIntegral.integral_comp_mul_add (a := -1) (b := 1) (fun x => p.eval x)
    (show (1 / 2 : ℝ) ≠ 0 by norm_num) (1 / 2)
  simp only [eval_comp, eval_add, eval_mul, eval_C, eval_X]
  rw [h]
  norm_num
  ring

/-- **C76**, `GaussLegendre`: if Newton's iterations have converged, the result is the Gauss rule on `[0, 1]`.  Its
points increase from left to right inside the interval, and its weights are positive. -/
theorem C76_legendre (n : ℕ) (hn : 0 < n) (root : ℕ → ℝ) (h : LegConverged n root) :
    ∃ r, gaussLegendre n root = some r ∧ IsGauss 0 1 (fun _ => 1) n r ∧
      (∀ x ∈ r.1, 0 < x ∧ x < 1) ∧ r.1.Pairwise (· < ·) ∧ (∀ w ∈ r.2, 0 < w) := by
  obtain ⟨n, rfl⟩ : ∃ m, n = m + 1 := ⟨n - 1, by omega⟩
  refine ⟨_, legendre_eq _ hn root h, isGauss_list _ _ fun p hp => ?_, ?_, ?_, ?_⟩
  · simp only [one_mul]
    rw [shift_integral, ← leg_exact h _ ?_]
    · refine Finset.sum_congr rfl fun i _ => ?_
      simp only [eval_comp, eval_add, eval_mul, eval_C, eval_X]
      congr 2; ring
    · refine le_trans natDegree_comp_le ?_
      have : (C (1 / 2 : ℝ) * X + C (1 / 2)).natDegree ≤ 1 := natDegree_linear_le
      calc _ ≤ p.natDegree * 1 := Nat.mul_le_mul_left _ this
        _ ≤ _ := by omega
  · intro x hx
    simp only [List.mem_map, List.mem_range] at hx
    obtain ⟨e, he, rfl⟩ := hx
    have := P_root_mem (node_root h he)
    constructor <;> linarith [this.1, this.2]
  · rw [List.pairwise_map]
    refine List.Pairwise.imp_of_mem ?_ List.pairwise_lt_range
    intro a b _ hb hab
    have := node_lt h hab (List.mem_range.1 hb)
    linarith
  · intro w hw
    simp only [List.mem_map, List.mem_range] at hw
    obtain ⟨e, he, rfl⟩ := hw
    have hr := node_root h he
    have hm := P_root_mem hr
    have hd : (derivative (P (n + 1))).eval (node (n + 1) root e) ≠ 0 := by
      rw [← legDeriv_eq _ _ (sq_ne_one hm)]; exact legDeriv_ne hr
    have : 0 < 1 - node (n + 1) root e ^ 2 := by nlinarith [hm.1, hm.2]
    positivity

/-- **C76**, `GaussJacobi(n, 1, 0)`: if Newton's iterations have converged to different values, the result is the Gauss
rule on `[-1, 1]` for the weight function `1 - x`.  Its points are inside the interval, and its weights are
positive. -/
theorem C76_jacobi (n : ℕ) (hn : 0 < n) (root : ℕ → ℝ) (h : JacConverged n 1 0 root) :
    ∃ r, gaussJacobi n 1 0 root = some r ∧ IsGauss (-1) 1 (fun x => (1 - x) ^ 1 * (1 + x) ^ 0) n r ∧
      (∀ x ∈ r.1, -1 < x ∧ x < 1) ∧ r.1.Nodup ∧ (∀ w ∈ r.2, 0 < w) := by
  obtain ⟨n, rfl⟩ : ∃ m, n = m + 1 := ⟨n - 1, by omega⟩
  have hroot : ∀ i < n + 1, (J (n + 1)).eval (root i) = 0 := fun i hi => newton_root_jac (h.stands i hi)
  have hw : ∀ i < n + 1, jacWeight (n + 1) 1 0 (root i) =
      2 * (2 * (n : ℝ) + 3) / (((n : ℝ) + 1) * ((n : ℝ) + 2)) /
        ((derivative (J (n + 1))).eval (root i) * (J n).eval (root i)) := by
    intro i hi
    rw [jacWeight, Nat.add_sub_cancel, jacLoop_eq, jacDeriv_eq _ _ (sq_ne_one (J_root_mem (hroot i hi)))]
    have e1 : Real.Gamma (1 + ((n + 1 : ℕ) : ℝ)) = ((n + 1).factorial : ℝ) := by
      rw [add_comm, Real.Gamma_nat_eq_factorial]
    have e2 : Real.Gamma (0 + ((n + 1 : ℕ) : ℝ)) = (n.factorial : ℝ) := by
      rw [zero_add]; push_cast; rw [Real.Gamma_nat_eq_factorial]
    have e3 : Real.Gamma (((n + 1 : ℕ) : ℝ) + 1) = ((n + 1).factorial : ℝ) := Real.Gamma_nat_eq_factorial _
    have e4 : Real.Gamma (((n + 1 : ℕ) : ℝ) + (1 + 0) + 1) = ((n + 2).factorial : ℝ) := by
      rw [← Real.Gamma_nat_eq_factorial]; congr 1; push_cast; ring
    rw [e1, e2, e3, e4, add_zero, Real.rpow_one]
    have hf : (n.factorial : ℝ) ≠ 0 := by exact_mod_cast n.factorial_ne_zero
    have : ((n + 1).factorial : ℝ) * n.factorial / ((n + 1).factorial * (n + 2).factorial) =
        1 / (((n : ℝ) + 1) * ((n : ℝ) + 2)) := by
      rw [Nat.factorial_succ (n + 1), Nat.factorial_succ n]
      push_cast
      have h1 : ((n : ℝ) + 1) ≠ 0 := by positivity
      have h2 : ((n : ℝ) + 1 + 1) ≠ 0 := by positivity
      have h2' : ((n : ℝ) + 2) ≠ 0 := by positivity
      field_simp
      ring
    rw [this]
    congr 1
    have h1 : ((n : ℝ) + 1) ≠ 0 := by positivity
    have h2 : ((n : ℝ) + 2) ≠ 0 := by positivity
    field_simp
  refine ⟨((List.range (n + 1)).map fun i => root i, (List.range (n + 1)).map fun i => jacWeight (n + 1) 1 0 (root i)),
    ?_, isGauss_list _ _ fun p hp => ?_, ?_, ?_, ?_⟩
  · rw [gaussJacobi, if_pos ⟨hn, by norm_num, by norm_num⟩]
    congr 2
    exact List.map_congr_left fun i hi => (h.stands i (List.mem_range.1 hi)).2
  · have hinj : Function.Injective fun i : Fin (n + 1) => root i := fun i j hij =>
      Fin.ext (h.distinct i i.2 j j.2 hij)
    have hL : (∫ t in (-1 : ℝ)..1, (1 - t) ^ 1 * (1 + t) ^ 0 * p.eval t) = LJ p := by
      rw [LJ_def, L_def]; simp
    rw [hL, Gauss.exact LJ (J_natDegree (n + 1)) (by omega) (fun q hq => LJ_orth q hq) _ hinj
      (fun i => hroot i i.2) p hp, Finset.sum_range]
    refine Finset.sum_congr rfl fun i _ => ?_
    rw [J_weight (hroot i i.2), hw i i.2]
  · intro x hx
    simp only [List.mem_map, List.mem_range] at hx
    obtain ⟨i, hi, rfl⟩ := hx
    exact J_root_mem (hroot i hi)
  · refine List.Nodup.map_on ?_ List.nodup_range
    intro i hi j hj hij
    exact h.distinct i (List.mem_range.1 hi) j (List.mem_range.1 hj) hij
  · intro w hw'
    simp only [List.mem_map, List.mem_range] at hw'
    obtain ⟨i, hi, rfl⟩ := hw'
    rw [hw i hi]
    have hm := J_root_mem (hroot i hi)
    have hd := J_deriv_root (hroot i hi)
    have hne : (J n).eval (root i) ≠ 0 := fun h0 => J_no_common n _ h0 (hroot i hi)
    have h1 : 0 < 1 - root i ^ 2 := by nlinarith [hm.1, hm.2]
    have h2 : 0 < (derivative (J (n + 1))).eval (root i) * (J n).eval (root i) := by
      have : (2 * (n : ℝ) + 3) * (1 - root i ^ 2) * ((derivative (J (n + 1))).eval (root i) * (J n).eval (root i)) =
          2 * ((n : ℝ) + 2) * ((n : ℝ) + 1) * (J n).eval (root i) ^ 2 := by linear_combination (J n).eval (root i) * hd
      have hpos : 0 < (2 * (n : ℝ) + 3) * (1 - root i ^ 2) *
          ((derivative (J (n + 1))).eval (root i) * (J n).eval (root i)) := by rw [this]; positivity
      exact pos_of_mul_pos_right hpos (by positivity)
    positivity

/-- **C76**: for every number of points there are values at which Newton's iterations stand still, as required
above. -/
theorem C76_converged_exists (n : ℕ) (hn : 0 < n) :
    (∃ root, LegConverged n root) ∧ ∃ root, JacConverged n 1 0 root := by
  obtain ⟨n, rfl⟩ : ∃ m, n = m + 1 := ⟨n - 1, by omega⟩
  constructor
  · obtain ⟨S, hc, hS⟩ := P_roots (n + 1)
    -- S is symmetric
    have hneg : ∀ s ∈ S, -s ∈ S := by
      intro s hs
      exact (P_root_in hc hS (by rw [(P_neg _ _).1, (hS s hs).2, mul_zero]))
    set T := S.filter (0 ≤ ·) with hT
    have hTc : T.card = (n + 1 + 1) / 2 := by
      have hpos : (S.filter (0 < ·)).card = (S.filter (· < 0)).card := by
        refine Finset.card_bij (fun s _ => -s) ?_ ?_ ?_
        · intro s hs
          rw [Finset.mem_filter] at hs ⊢
          exact ⟨hneg s hs.1, by linarith [hs.2]⟩
        · intro a _ b _ hab; linarith
        · intro s hs
          rw [Finset.mem_filter] at hs
          exact ⟨-s, by rw [Finset.mem_filter]; exact ⟨hneg s hs.1, by linarith [hs.2]⟩, by ring⟩
      have h1 : T.card + (S.filter (· < 0)).card = n + 1 := by
        rw [← hc, hT, ← Finset.card_filter_add_card_filter_not (s := S) (p := (0 ≤ ·))]
        simp only [not_le]
      have h2 : T.card = (S.filter (0 < ·)).card + (S.filter (· = 0)).card := by
        rw [← Finset.card_union_of_disjoint]
        · congr 1
          ext s
          simp only [hT, Finset.mem_filter, Finset.mem_union, ← and_or_left]
          exact and_congr_right fun _ => by rw [le_iff_lt_or_eq, eq_comm]
        · rw [Finset.disjoint_filter]
          intro s _ h h'
          exact h.ne' h'
      have h3 : (S.filter (· = 0)).card ≤ 1 := by
        rw [Finset.card_le_one]
        intro a ha b hb
        rw [Finset.mem_filter] at ha hb
        rw [ha.2, hb.2]
      omega
    have hTm : ∀ i, T.orderEmbOfFin hTc i ∈ T := fun i => Finset.orderEmbOfFin_mem T hTc i
    refine ⟨fun i => if h : i < (n + 1 + 1) / 2 then T.orderEmbOfFin hTc ⟨(n + 1 + 1) / 2 - 1 - i, by omega⟩ else 0,
      fun i hi => ?_, fun i hi => ?_, fun i j hij hj => ?_⟩
    · rw [dif_pos hi]
      have := hS _ (Finset.mem_filter.1 (hTm ⟨(n + 1 + 1) / 2 - 1 - i, by omega⟩)).1
      refine ⟨legDeriv_ne this.2, ?_⟩
      rw [legNewton, legLoop_fst, this.2, zero_div, sub_zero]
    · rw [dif_pos hi]
      exact (Finset.mem_filter.1 (hTm ⟨(n + 1 + 1) / 2 - 1 - i, by omega⟩)).2
    · rw [dif_pos hj, dif_pos (by omega)]
      refine (T.orderEmbOfFin hTc).strictMono ?_
      rw [Fin.mk_lt_mk]
      omega
  · obtain ⟨S, hc, hS⟩ := J_roots (n + 1)
    refine ⟨fun i => if h : i < n + 1 then S.orderEmbOfFin hc ⟨i, h⟩ else 0, fun i hi => ?_, fun i hi j hj hij => ?_⟩
    · rw [dif_pos hi]
      have := hS _ (Finset.orderEmbOfFin_mem S hc ⟨i, hi⟩)
      refine ⟨jacDeriv_ne this.2, ?_⟩
      rw [jacNewton, Nat.add_sub_cancel, jacLoop_eq, this.2, zero_div, sub_zero]
    · rw [dif_pos hi, dif_pos hj] at hij
      have := (S.orderEmbOfFin hc).injective hij
      exact congrArg Fin.val this

/-- **C76**: the parameters are checked. -/
theorem C76_rejects (n : ℕ) (alpha beta : ℝ) (root : ℕ → ℝ) :
    (gaussLegendre 0 root = none) ∧ (gaussJacobi n alpha beta root = none ↔ n = 0 ∨ alpha ≤ -1 ∨ beta ≤ -1) := by
  refine ⟨rfl, ?_⟩
  rw [gaussJacobi]
  split_ifs with h
  · simp only [false_iff, not_or, not_le]
    exact ⟨by omega, h.2.1, h.2.2⟩
  · simp only [true_iff]
    by_contra hc
    push Not at hc
    exact h ⟨by omega, hc.2.1, hc.2.2⟩

/-- The one-dimensional rules `make_QuadRule` works with. -/
noncomputable def gaussBase (leg jac : ℕ → ℕ → ℝ) : QuadBase ℝ where
  legendre n := (gaussLegendre n (leg n)).getD ([], [])
  jacobi10 n := (gaussJacobi n 1 0 (jac n)).getD ([], [])
  hard d := hardRule d (triaTab d)

/-- **C76** for `make_QuadRule`: if Newton's iterations have converged, `make_QuadRule` succeeds for every reference
element other than a point and every degree.  The rule has at least the degree asked for, and it is exact up to the
error of the hard-coded tables, which concerns triangles and degrees from 1 to 50 only. -/
theorem C76_make (leg jac : ℕ → ℕ → ℝ) (hl : ∀ n, 0 < n → LegConverged n (leg n))
    (hj : ∀ n, 0 < n → JacConverged n 1 0 (jac n)) (ref : RefEl) (hp : ref ≠ .point) (degree : ℕ) :
    ∃ q, makeQuadRule (gaussBase leg jac) ref degree = some q ∧ q.ref = ref ∧ q.WellFormed ∧ degree ≤ q.degree ∧
      if ref = .tria ∧ 1 ≤ degree ∧ degree ≤ 50 then q.ExactUpTo (1 / 10 ^ 15) q.degree else q.ExactFor q.degree := by
  have hB : (gaussBase leg jac).Exact (degree / 2 + 1) := by
    obtain ⟨r, hr, hg, -⟩ := C76_legendre (degree / 2 + 1) (by omega) _ (hl _ (by omega))
    obtain ⟨s, hs, hg', -⟩ := C76_jacobi (degree / 2 + 1) (by omega) _ (hj _ (by omega))
    constructor
    · rw [gaussBase]; dsimp only; rw [hr]; exact hg
    · rw [gaussBase]; dsimp only; rw [hs]; exact hg'
  cases ref with
  | point => exact absurd rfl hp
  | segment =>
    obtain ⟨q, h1, h2, h3, -, -, h4, h5⟩ := C41_segment _ degree hB.legendre
    exact ⟨q, h1, h2, h3, h4, by rw [if_neg (by simp)]; exact h5⟩
  | quad =>
    obtain ⟨q, h1, h2, h3, -, -, h4, h5⟩ := C41_quad _ degree hB.legendre
    exact ⟨q, h1, h2, h3, h4, by rw [if_neg (by simp)]; exact h5⟩
  | tria =>
    by_cases hd : 1 ≤ degree ∧ degree ≤ 50
    · obtain ⟨q, h1, h2, h4, h3, -, h5⟩ := C75_make (gaussBase leg jac) rfl degree hd.1 hd.2
      exact ⟨q, h1, h2, h3, h4, by rw [if_pos ⟨rfl, hd⟩]; exact h5⟩
    · obtain ⟨q, h1, h2, h3, -, -, h4, h5⟩ := C41_tria _ degree (by omega) hB
      exact ⟨q, h1, h2, h3, h4, by rw [if_neg (fun h => hd h.2)]; exact h5⟩

/-- The hypotheses of `C76_make` can be met. -/
example : ∃ leg jac : ℕ → ℕ → ℝ, (∀ n, 0 < n → LegConverged n (leg n)) ∧ ∀ n, 0 < n → JacConverged n 1 0 (jac n) := by
  choose a b using fun (n : ℕ) (hn : 0 < n) => C76_converged_exists n hn
  choose l hl using a
  choose j hj using b
  exact ⟨fun n => if h : 0 < n then l n h else fun _ => 0, fun n => if h : 0 < n then j n h else fun _ => 0,
    fun n hn => by simp only [hn, dite_true]; exact hl n hn, fun n hn => by simp only [hn, dite_true]; exact hj n hn⟩

/-- With two points, Newton's iteration ends at `1 / √3`. -/
example : LegConverged 2 fun _ => 1 / √3 := by
  have h3 : (√3 : ℝ) ^ 2 = 3 := Real.sq_sqrt (by norm_num)
  have hs : (0 : ℝ) < √3 := by positivity
  refine ⟨fun i _ => ?_, fun i _ => by positivity, fun i j hij hj => by omega⟩
  have hz : (P 2).eval (1 / √3) = 0 := by
    simp only [P, eval_mul, eval_C, eval_sub, eval_X, eval_one, Nat.cast_zero]
    field_simp
    rw [h3]; norm_num
  refine ⟨legDeriv_ne hz, ?_⟩
  rw [legNewton, legLoop_fst, hz, zero_div, sub_zero]

end Verif
