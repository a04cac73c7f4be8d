import Mathlib.LinearAlgebra.Lagrange
import Mathlib.Algebra.Polynomial.FieldDivision
import Mathlib.Topology.Algebra.Polynomial
import Mathlib.Topology.Instances.Real.Lemmas
import Mathlib.Topology.Order.IntermediateValue

/-!
# Gauss quadrature for a linear functional

The general facts behind Gauss rules: a polynomial `p` of degree `n` that is orthogonal to all
polynomials of lower degree, evaluated at its `n` distinct roots, gives a rule of degree `2 n - 1`.
-/

namespace Verif.Gauss
open Polynomial Finset

/-- The rule at the roots of an orthogonal polynomial is exact up to degree `2 n - 1`. -/
theorem exact {n : ℕ} (L : ℝ[X] →ₗ[ℝ] ℝ) {p : ℝ[X]} (hdeg : p.natDegree = n) (hn : 0 < n)
    (horth : ∀ q : ℝ[X], q.natDegree < n → L (p * q) = 0) (z : Fin n → ℝ)
    (hz : Function.Injective z) (hroot : ∀ i, p.eval (z i) = 0) (f : ℝ[X])
    (hf : f.natDegree ≤ 2 * n - 1) :
    L f = ∑ i, L (p /ₘ (X - C (z i))) / p.derivative.eval (z i) * f.eval (z i) := by
  have hp0 : p ≠ 0 := by rintro rfl; simp at hdeg; omega
  have hpd : p.degree = n := by rw [degree_eq_natDegree hp0, hdeg]
  set r := f % p with hr
  have hfr : f = p * (f / p) + r := (EuclideanDomain.div_add_mod f p).symm
  have hrd : r.degree < (n : ℕ) := by rw [← hpd]; exact degree_mod_lt f hp0
  have hq : (f / p).natDegree < n := by
    rcases lt_or_ge f.degree p.degree with h | h
    · rw [(Polynomial.div_eq_zero_iff hp0).2 h, natDegree_zero]
      exact hn
    · have h2 := degree_add_div hp0 h
      by_cases h0 : f / p = 0
      · rw [h0, natDegree_zero]; exact hn
      have hf0 : f ≠ 0 := by rintro rfl; exact h0 (by simp)
      rw [degree_eq_natDegree hp0, degree_eq_natDegree h0, degree_eq_natDegree hf0] at h2
      have h3 : p.natDegree + (f / p).natDegree = f.natDegree := by exact_mod_cast h2
      omega
  have hLf : L f = L r := by
    conv_lhs => rw [hfr]
    rw [map_add, horth _ hq, zero_add]
  have hev : ∀ i, f.eval (z i) = r.eval (z i) := fun i => by
    conv_lhs => rw [hfr]
    rw [eval_add, eval_mul, hroot, zero_mul, zero_add]
  have hfac : ∀ i, (X - C (z i)) * (p /ₘ (X - C (z i))) = p := fun i =>
    mul_divByMonic_eq_iff_isRoot.2 (hroot i)
  have hder : ∀ i, (p /ₘ (X - C (z i))).eval (z i) = p.derivative.eval (z i) := fun i => by
    conv_rhs => rw [← hfac i]
    simp
  have hoff : ∀ i j, i ≠ j → (p /ₘ (X - C (z i))).eval (z j) = 0 := fun i j hij => by
    have h := congrArg (eval (z j)) (hfac i)
    rw [eval_mul, hroot j] at h
    rcases mul_eq_zero.1 h with h | h
    · simp only [eval_sub, eval_X, eval_C, sub_eq_zero] at h
      exact absurd (hz h).symm hij
    · exact h
  have hgd : ∀ i, (p /ₘ (X - C (z i))).degree < (n : ℕ) := fun i => by
    rw [← hpd]
    exact degree_divByMonic_lt p _ hp0 (by simp)
  have hd0 : ∀ i, p.derivative.eval (z i) ≠ 0 := fun i h0 => by
    have : p /ₘ (X - C (z i)) = 0 := by
      refine Polynomial.eq_of_degrees_lt_of_eval_index_eq univ (v := z) hz.injOn
        (by simpa using hgd i) (by simp) fun j _ => ?_
      rw [eval_zero]
      by_cases hij : i = j
      · rw [← hij, hder, h0]
      · exact hoff i j hij
    rw [← hfac i, this, mul_zero] at hp0
    exact hp0 rfl
  have hint : r = ∑ i, C (r.eval (z i) / p.derivative.eval (z i)) * (p /ₘ (X - C (z i))) := by
    refine Polynomial.eq_of_degrees_lt_of_eval_index_eq univ (v := z) hz.injOn
      (by simpa using hrd) ?_ fun j _ => ?_
    · rw [Finset.card_univ, Fintype.card_fin, ← mem_degreeLT]
      refine Submodule.sum_mem _ fun i _ => ?_
      rw [← smul_eq_C_mul]
      exact Submodule.smul_mem _ _ (mem_degreeLT.2 (hgd i))
    · rw [eval_finsetSum, Finset.sum_eq_single j]
      · rw [eval_mul, eval_C, hder, div_mul_cancel₀ _ (hd0 j)]
      · intro i _ hij
        rw [eval_mul, hoff i j hij, mul_zero]
      · simp
  rw [hLf]
  conv_lhs => rw [hint]
  rw [map_sum]
  refine Finset.sum_congr rfl fun i _ => ?_
  rw [← smul_eq_C_mul, map_smul, hev, smul_eq_mul]
  ring

/-- The weight of a root, in terms of the orthogonal polynomial of one lower degree. -/
theorem weight {n : ℕ} (L : ℝ[X] →ₗ[ℝ] ℝ) {p p₂ : ℝ[X]} {κ : ℝ} (hdeg : p.natDegree = n + 1)
    (hdeg₂ : p₂.natDegree ≤ n)
    (horth : ∀ q : ℝ[X], q.natDegree < n + 1 → L (p * q) = 0)
    (horth₂ : ∀ q : ℝ[X], q.natDegree < n → L (p₂ * q) = 0)
    (hk : p.coeff (n + 1) = κ * p₂.coeff n) {z : ℝ} (hroot : p.eval z = 0) :
    L (p /ₘ (X - C z)) * p₂.eval z = κ * L (p₂ * p₂) := by
  set g := p /ₘ (X - C z) with hg
  have hfac : (X - C z) * g = p := mul_divByMonic_eq_iff_isRoot.2 hroot
  have hgd : g.natDegree = n := by
    rw [hg, natDegree_divByMonic _ (monic_X_sub_C z), hdeg, natDegree_X_sub_C]
    rfl
  -- L (g p₂) computed from the leading coefficient of g
  have hgc : g.coeff n = κ * p₂.coeff n := by
    rw [← hk, ← hfac, sub_mul, coeff_sub, coeff_X_mul, coeff_C_mul,
      coeff_eq_zero_of_natDegree_lt (by omega : g.natDegree < n + 1), mul_zero, sub_zero]
  have h1 : L (p₂ * g) = κ * L (p₂ * p₂) := by
    have hsplit : g = κ • p₂ + (g - κ • p₂) := by ring
    have hlow : L (p₂ * (g - κ • p₂)) = 0 := by
      rcases Nat.eq_zero_or_pos n with h0 | h0
      · have : g - κ • p₂ = 0 := by
          ext m
          rcases Nat.eq_zero_or_pos m with hm | hm
          · subst hm; rw [h0] at hgc
            simp [hgc]
          · rw [coeff_sub, coeff_smul, coeff_eq_zero_of_natDegree_lt (by omega : g.natDegree < m),
              coeff_eq_zero_of_natDegree_lt (by omega : p₂.natDegree < m)]
            simp
        rw [this, mul_zero, map_zero]
      · refine horth₂ _ ?_
        have hle : (g - κ • p₂).natDegree ≤ n - 1 := by
          rw [natDegree_le_iff_coeff_eq_zero]
          intro m hm
          rcases Nat.lt_or_ge n m with h | h
          · rw [coeff_sub, coeff_smul, coeff_eq_zero_of_natDegree_lt (by omega : g.natDegree < m),
              coeff_eq_zero_of_natDegree_lt (by omega : p₂.natDegree < m)]
            simp
          · obtain rfl : m = n := by omega
            rw [coeff_sub, coeff_smul, hgc]
            simp
        omega
    conv_lhs => rw [hsplit]
    rw [mul_add, map_add, hlow, add_zero, mul_smul_comm, map_smul, smul_eq_mul]
  -- L (g p₂) computed from p₂ = p₂(z) + (X - z) s
  set s := (p₂ - C (p₂.eval z)) /ₘ (X - C z) with hs
  have hsf : (X - C z) * s = p₂ - C (p₂.eval z) := mul_divByMonic_eq_iff_isRoot.2 (by simp)
  have hsd : s.natDegree < n + 1 := by
    rw [hs, natDegree_divByMonic _ (monic_X_sub_C z), natDegree_sub_C]
    omega
  have h2 : L (p₂ * g) = p₂.eval z * L g := by
    have : p₂ * g = (p₂.eval z) • g + p * s := by
      rw [← hfac, smul_eq_C_mul]
      have : p₂ = C (p₂.eval z) + (X - C z) * s := by rw [hsf]; ring
      conv_lhs => rw [this]
      ring
    rw [this, map_add, horth s hsd, add_zero, map_smul, smul_eq_mul]
  rw [mul_comm, ← h2, h1]

/-- A polynomial all of whose roots in an open interval have even multiplicity does not change sign
there. -/
theorem const_sign (a b : ℝ) : ∀ (n : ℕ) (f : ℝ[X]), f.natDegree ≤ n → f ≠ 0 →
    (∀ r ∈ Set.Ioo a b, Even (f.rootMultiplicity r)) →
    (∀ x ∈ Set.Ioo a b, 0 ≤ f.eval x) ∨ (∀ x ∈ Set.Ioo a b, f.eval x ≤ 0) := by
  intro n
  induction n using Nat.strong_induction_on with
  | _ n ih =>
    intro f hn hf hev
    by_cases hr : ∃ r ∈ Set.Ioo a b, f.IsRoot r
    · obtain ⟨r, hrI, hr⟩ := hr
      obtain ⟨g, hfg, hng⟩ := exists_eq_pow_rootMultiplicity_mul_and_not_dvd f hf r
      have hm : 0 < f.rootMultiplicity r := (rootMultiplicity_pos hf).2 hr
      have hg0 : g ≠ 0 := by rintro rfl; exact hng (dvd_zero _)
      have hd : f.natDegree = f.rootMultiplicity r + g.natDegree := by
        conv_lhs => rw [hfg]
        rw [natDegree_mul (pow_ne_zero _ (X_sub_C_ne_zero r)) hg0, natDegree_pow, natDegree_X_sub_C,
          mul_one]
      have hgr : g.rootMultiplicity r = 0 := by
        rw [rootMultiplicity_eq_zero_iff]
        exact fun h => absurd (dvd_iff_isRoot.2 h) hng
      have hge : ∀ t ∈ Set.Ioo a b, Even (g.rootMultiplicity t) := by
        intro t ht
        by_cases htr : t = r
        · rw [htr, hgr]; exact Even.zero
        have h := hev t ht
        rw [hfg, rootMultiplicity_mul (by rw [← hfg]; exact hf),
          rootMultiplicity_eq_zero (p := (X - C r) ^ _) (by
            simp only [IsRoot, eval_pow, eval_sub, eval_X, eval_C]
            exact pow_ne_zero _ (sub_ne_zero.2 htr)), zero_add] at h
        exact h
      have hpow : ∀ x : ℝ, 0 ≤ (x - r) ^ f.rootMultiplicity r := fun x => (hev r hrI).pow_nonneg _
      have hfe : ∀ x, f.eval x = (x - r) ^ f.rootMultiplicity r * g.eval x := fun x => by
        conv_lhs => rw [hfg]
        simp
      rcases ih g.natDegree (by omega) g le_rfl hg0 hge with h | h
      · exact .inl fun x hx => by rw [hfe]; exact mul_nonneg (hpow x) (h x hx)
      · exact .inr fun x hx => by rw [hfe]; exact mul_nonpos_of_nonneg_of_nonpos (hpow x) (h x hx)
    · push Not at hr
      by_contra hc
      push Not at hc
      obtain ⟨⟨x, hx, hfx⟩, ⟨y, hy, hfy⟩⟩ := hc
      have hsub : Set.uIcc x y ⊆ Set.Ioo a b := Set.OrdConnected.uIcc_subset Set.ordConnected_Ioo hx hy
      have hcont : ContinuousOn (fun t => f.eval t) (Set.uIcc x y) := (by fun_prop)
      have := intermediate_value_uIcc hcont
      obtain ⟨t, ht, h0⟩ := this (Set.mem_uIcc.2 (.inl ⟨hfx.le, hfy.le⟩))
      exact hr t (hsub ht) h0

/-- A polynomial of degree `n` that is orthogonal to all polynomials of lower degree has `n` distinct
roots in the interval. -/
theorem exists_roots (a b : ℝ) (L : ℝ[X] →ₗ[ℝ] ℝ)
    (hpos : ∀ f : ℝ[X], f ≠ 0 → (∀ x ∈ Set.Ioo a b, 0 ≤ f.eval x) → 0 < L f)
    {n : ℕ} {p : ℝ[X]} (hdeg : p.natDegree = n) (hp0 : p ≠ 0)
    (horth : ∀ q : ℝ[X], q.natDegree < n → L (p * q) = 0) :
    ∃ S : Finset ℝ, S.card = n ∧ ∀ s ∈ S, s ∈ Set.Ioo a b ∧ p.eval s = 0 := by
  classical
  set S := p.roots.toFinset.filter fun s => s ∈ Set.Ioo a b ∧ Odd (p.rootMultiplicity s) with hS
  have hroot : ∀ s ∈ S, s ∈ Set.Ioo a b ∧ p.eval s = 0 := by
    intro s hs
    rw [hS, Finset.mem_filter, Multiset.mem_toFinset, mem_roots hp0] at hs
    exact ⟨hs.2.1, hs.1⟩
  refine ⟨S, le_antisymm ?_ ?_, hroot⟩
  · rw [← hdeg]
    refine le_trans (Finset.card_le_card (Finset.filter_subset _ _)) ?_
    exact le_trans (Multiset.toFinset_card_le _) (card_roots' p)
  by_contra hlt
  push Not at hlt
  set q : ℝ[X] := ∏ s ∈ S, (X - C s) with hq
  have hq0 : q ≠ 0 := (monic_prod_of_monic _ _ fun s _ => monic_X_sub_C s).ne_zero
  have hqd : q.natDegree < n := by
    rw [hq, natDegree_prod_of_monic _ _ fun s _ => monic_X_sub_C s]
    simpa using hlt
  have hqm : ∀ r, q.rootMultiplicity r = if r ∈ S then 1 else 0 := by
    intro r
    rw [← count_roots, hq, roots_prod_X_sub_C, Multiset.count_eq_of_nodup S.nodup]; simp
  have hev : ∀ r ∈ Set.Ioo a b, Even ((p * q).rootMultiplicity r) := by
    intro r hr
    rw [rootMultiplicity_mul (mul_ne_zero hp0 hq0), hqm]
    by_cases ho : Odd (p.rootMultiplicity r)
    · have hrS : r ∈ S := by
        rw [hS, Finset.mem_filter, Multiset.mem_toFinset, mem_roots hp0]
        exact ⟨(rootMultiplicity_pos hp0).1 ho.pos, hr, ho⟩
      rw [if_pos hrS]
      exact ho.add_one
    · have hrS : r ∉ S := by
        rw [hS, Finset.mem_filter]
        exact fun h => ho h.2.2
      rw [if_neg hrS, add_zero]
      exact Nat.not_odd_iff_even.1 ho
  rcases const_sign a b _ (p * q) le_rfl (mul_ne_zero hp0 hq0) hev with h | h
  · have := hpos _ (mul_ne_zero hp0 hq0) h
    rw [horth q hqd] at this
    exact lt_irrefl _ this
  · have := hpos (-(p * q)) (neg_ne_zero.2 (mul_ne_zero hp0 hq0)) fun x hx => by
      rw [eval_neg]; exact neg_nonneg.2 (h x hx)
    rw [map_neg, horth q hqd, neg_zero] at this
    exact lt_irrefl _ this

end Verif.Gauss
