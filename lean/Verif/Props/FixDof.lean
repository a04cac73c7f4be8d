import Verif.Spec.Coo
import Verif.Lemmas.Coo
import Mathlib.Algebra.Order.BigOperators.Group.Finset
import Mathlib.Algebra.Order.Ring.Defs
import Mathlib.Data.Int.Basic
import Mathlib.Algebra.Order.Ring.Int
import Mathlib.Tactic.Positivity

/-!
# Properties C03 - C06: fixing solution components of linear systems
-/

namespace Verif
open Finset
variable {R : Type*}

/-- What fixing components must achieve: `x` takes the prescribed values on the flagged indices and
satisfies all equations of the original system belonging to unflagged indices. -/
def ConstrainedSolution [Ring R] (sel : ℕ → Bool × R) (D : Dense R) (b : List R) (x : ℕ → R) : Prop :=
  (∀ k < D.cols, (sel k).1 = true → x k = (sel k).2) ∧
  (∀ i < D.rows, (sel i).1 = false → RowHolds D b x i)

/-- The system passed to the routines of `fix_dof.h`: square, right-hand side of matching length, and
a dimension that fits the index type. -/
structure GoodSystem [AddCommMonoid R] (A : Coo R) (D : Dense R) (b : List R) : Prop where
  dense : A.makeDense = some D
  square : D.rows = D.cols
  rhs : b.length = D.cols
  fits : D.cols < 2 ^ 31

private theorem flagged_row [CommRing R] (sel : ℕ → Bool × R) (N i : ℕ) (hi : i < N)
    (hs : (sel i).1 = true) (f x : ℕ → R) (hf : ∀ j, f j = if i = j ∧ i < N ∧ (sel i).1 = true then 1 else 0) :
    ∑ j ∈ range N, f j * x j = x i := by
  rw [sum_eq_single i]
  · simp [hf, hi, hs]
  · intro j _ hj
    simp [hf, hj.symm]
  · intro h; exact absurd (mem_range.2 hi) h

/-- Result of `FixFlaggedSolutionComponents`, entrywise. -/
theorem fixFlagged_result [CommRing R] (sel : ℕ → Bool × R) (A : Coo R) (D : Dense R) (b : List R)
    (h : GoodSystem A D b) :
    ∃ A' b' D', fixFlaggedSolutionComponents sel A b = some (A', b') ∧ A'.makeDense = some D' ∧
      D'.rows = D.rows ∧ D'.cols = D.cols ∧ b'.length = b.length ∧
      (∀ i j, D'.entry i j = (if (sel i).1 || (sel j).1 then 0 else D.entry i j) +
        if i = j ∧ i < D.cols ∧ (sel i).1 = true then 1 else 0) ∧
      (∀ i < D.cols, b'.getD i 0 = if (sel i).1 then (sel i).2 else
        b.getD i 0 - ∑ j ∈ range D.cols, D.entry i j * (if (sel j).1 then (sel j).2 else 0)) := by
  obtain ⟨hD, hsq, hb, hfit⟩ := h
  have hin := inRange_of_makeDense A D hD
  obtain rfl := makeDense_some A D hD
  simp only at hsq hb hfit ⊢
  set tmp := (List.range A.cols).map (fun k => if (sel k).1 then (sel k).2 else 0) with htmp
  obtain ⟨b1, e1, l1, h1⟩ := foldlM_mv (-1 : R) tmp A.triplets b A.cols (by simp [htmp])
    (fun t ht => ⟨by have := (hin t ht).1; omega, (hin t ht).2⟩)
  have e1' : A.matVecMultAdd (-1) tmp b = some b1 := by
    unfold Coo.matVecMultAdd
    rw [if_neg, e1]
    simp [htmp]; omega
  have hdims := addUnitDiag_dims sel A.cols (A.setZeroIf (fun i j => (sel i).1 || (sel j).1))
    (by simp [Coo.setZeroIf]; omega) (by simp [Coo.setZeroIf]) (by omega)
  have hin' : InRange (addUnitDiag sel A.cols (A.setZeroIf (fun i j => (sel i).1 || (sel j).1))) := by
    intro t ht
    rw [hdims.1, hdims.2]
    simp only [Coo.setZeroIf]
    rcases addUnitDiag_mem _ _ _ _ ht with h | h
    · simp only [Coo.setZeroIf, List.mem_filter] at h
      exact hin t h.1
    · omega
  refine ⟨_, setFixedRhs sel A.cols b1, _, ?_, makeDense_eq _ hin', ?_, ?_, ?_, ?_, ?_⟩
  · unfold fixFlaggedSolutionComponents
    rw [if_pos ⟨hsq, hb.symm⟩]
    simp only [← htmp, e1']
    rfl
  · exact hdims.1
  · exact hdims.2
  · simp [l1]
  · intro i j
    show ent _ i j = _
    rw [addUnitDiag_ent]
    simp only [Coo.setZeroIf]
    rw [ent_filter A.triplets (fun i j => (sel i).1 || (sel j).1)]
  · intro i hi
    rw [setFixedRhs_getD _ _ _ (by omega)]
    by_cases hs : (sel i).1 = true
    · simp [hi, hs]
    · rw [if_neg (by simp [hs]), if_neg hs, h1 i, sub_eq_add_neg, ← sum_neg_distrib]
      congr 1
      apply sum_congr rfl
      intro j hj
      have : tmp.getD j 0 = if (sel j).1 then (sel j).2 else 0 := by
        simp [htmp, List.getElem?_range (mem_range.1 hj)]
      rw [this]; ring

/-- **C03**. -/
theorem C03_fixFlaggedSolutionComponents [CommRing R] (sel : ℕ → Bool × R) (A : Coo R) (D : Dense R)
    (b : List R) (h : GoodSystem A D b) :
    ∃ A' b' D', fixFlaggedSolutionComponents sel A b = some (A', b') ∧ A'.makeDense = some D' ∧
      D'.rows = D.rows ∧ D'.cols = D.cols ∧
      ∀ x, Solves D' b' x ↔ ConstrainedSolution sel D b x := by
  obtain ⟨A', b', D', e1, e2, hr, hc, -, hE, hB⟩ := fixFlagged_result sel A D b h
  refine ⟨A', b', D', e1, e2, hr, hc, ?_⟩
  have hsq := h.square
  intro x
  -- a row of the new system
  have hrow1 : ∀ i < D.cols, (sel i).1 = true →
      ((∑ j ∈ range D'.cols, D'.entry i j * x j = b'.getD i 0) ↔ x i = (sel i).2) := by
    intro i hi hs
    rw [hc, hB i hi, if_pos hs, flagged_row sel D.cols i hi hs (fun j => D'.entry i j) x]
    intro j; simp [hE, hs]
  have hrow2 : (∀ k < D.cols, (sel k).1 = true → x k = (sel k).2) → ∀ i < D.cols, (sel i).1 = false →
      ((∑ j ∈ range D'.cols, D'.entry i j * x j = b'.getD i 0) ↔ RowHolds D b x i) := by
    intro hx i hi hs
    rw [hc, hB i hi, if_neg (by simp [hs])]
    unfold RowHolds
    rw [eq_sub_iff_add_eq, ← sum_add_distrib]
    have : ∀ j ∈ range D.cols, D'.entry i j * x j + D.entry i j * (if (sel j).1 = true then (sel j).2 else 0)
        = D.entry i j * x j := by
      intro j hj
      rw [hE]
      simp only [hs, Bool.false_or, Bool.false_eq_true, and_false, if_false, add_zero]
      by_cases hsj : (sel j).1 = true
      · simp [hsj, hx j (mem_range.1 hj) hsj]
      · simp [hsj]
    rw [sum_congr rfl this]
  constructor
  · intro hS
    have hx : ∀ k < D.cols, (sel k).1 = true → x k = (sel k).2 := fun k hk hs =>
      (hrow1 k hk hs).1 (hS k (by omega))
    exact ⟨hx, fun i hi hs => (hrow2 hx i (by omega) hs).1 (hS i (by omega))⟩
  · rintro ⟨hx, hrest⟩ i hi
    by_cases hs : (sel i).1 = true
    · exact (hrow1 i (by omega) hs).2 (hx i (by omega) hs)
    · have hs : (sel i).1 = false := by simpa using hs
      exact (hrow2 hx i (by omega) hs).2 (hrest i (by omega) hs)

/-- Result of `FixFlaggedSolutionCompAlt`, entrywise. -/
theorem fixAlt_result [CommRing R] (sel : ℕ → Bool × R) (A : Coo R) (D : Dense R) (b : List R)
    (h : GoodSystem A D b) :
    ∃ A' b' D', fixFlaggedSolutionCompAlt sel A b = some (A', b') ∧ A'.makeDense = some D' ∧
      D'.rows = D.rows ∧ D'.cols = D.cols ∧ b'.length = b.length ∧
      (∀ i j, D'.entry i j = (if (sel i).1 then 0 else D.entry i j) +
        if i = j ∧ i < D.cols ∧ (sel i).1 = true then 1 else 0) ∧
      (∀ i < D.cols, b'.getD i 0 = if (sel i).1 then (sel i).2 else b.getD i 0) := by
  obtain ⟨hD, hsq, hb, hfit⟩ := h
  have hin := inRange_of_makeDense A D hD
  obtain rfl := makeDense_some A D hD
  simp only at hsq hb hfit ⊢
  have hdims := addUnitDiag_dims sel A.cols (A.setZeroIf (fun i _ => (sel i).1))
    (by simp [Coo.setZeroIf]; omega) (by simp [Coo.setZeroIf]) (by omega)
  have hin' : InRange (addUnitDiag sel A.cols (A.setZeroIf (fun i _ => (sel i).1))) := by
    intro t ht
    rw [hdims.1, hdims.2]
    simp only [Coo.setZeroIf]
    rcases addUnitDiag_mem _ _ _ _ ht with h | h
    · simp only [Coo.setZeroIf, List.mem_filter] at h
      exact hin t h.1
    · omega
  refine ⟨_, setFixedRhs sel A.cols b, _, ?_, makeDense_eq _ hin', ?_, ?_, ?_, ?_, ?_⟩
  · unfold fixFlaggedSolutionCompAlt
    rw [if_pos ⟨hsq, hb.symm⟩]
  · exact hdims.1
  · exact hdims.2
  · simp
  · intro i j
    show ent _ i j = _
    rw [addUnitDiag_ent]
    simp only [Coo.setZeroIf]
    rw [ent_filter A.triplets (fun i _ => (sel i).1)]
  · intro i hi
    rw [setFixedRhs_getD _ _ _ (by omega)]
    by_cases hs : (sel i).1 = true
    · simp [hi, hs]
    · simp [hs]

/-- **C04**. -/
theorem C04_fixFlaggedSolutionCompAlt [CommRing R] (sel : ℕ → Bool × R) (A : Coo R) (D : Dense R)
    (b : List R) (h : GoodSystem A D b) :
    ∃ A' b' D', fixFlaggedSolutionCompAlt sel A b = some (A', b') ∧ A'.makeDense = some D' ∧
      D'.rows = D.rows ∧ D'.cols = D.cols ∧
      ∀ x, Solves D' b' x ↔ ConstrainedSolution sel D b x := by
  obtain ⟨A', b', D', e1, e2, hr, hc, -, hE, hB⟩ := fixAlt_result sel A D b h
  refine ⟨A', b', D', e1, e2, hr, hc, ?_⟩
  have hsq := h.square
  intro x
  have hrow1 : ∀ i < D.cols, (sel i).1 = true →
      ((∑ j ∈ range D'.cols, D'.entry i j * x j = b'.getD i 0) ↔ x i = (sel i).2) := by
    intro i hi hs
    rw [hc, hB i hi, if_pos hs, flagged_row sel D.cols i hi hs (fun j => D'.entry i j) x]
    intro j; simp [hE, hs]
  have hrow2 : ∀ i < D.cols, (sel i).1 = false →
      ((∑ j ∈ range D'.cols, D'.entry i j * x j = b'.getD i 0) ↔ RowHolds D b x i) := by
    intro i hi hs
    rw [hc, hB i hi, if_neg (by simp [hs])]
    unfold RowHolds
    have : ∀ j ∈ range D.cols, D'.entry i j * x j = D.entry i j * x j := by
      intro j hj
      rw [hE]; simp [hs]
    rw [sum_congr rfl this]
  constructor
  · intro hS
    exact ⟨fun k hk hs => (hrow1 k hk hs).1 (hS k (by omega)),
      fun i hi hs => (hrow2 i (by omega) hs).1 (hS i (by omega))⟩
  · rintro ⟨hx, hrest⟩ i hi
    by_cases hs : (sel i).1 = true
    · exact (hrow1 i (by omega) hs).2 (hx i (by omega) hs)
    · have hs : (sel i).1 = false := by simpa using hs
      exact (hrow2 i (by omega) hs).2 (hrest i (by omega) hs)

/-- **C04**: both variants yield systems with the same solutions. -/
theorem C04_variants_agree [CommRing R] (sel : ℕ → Bool × R) (A : Coo R) (D : Dense R)
    (b : List R) (h : GoodSystem A D b) :
    ∃ A₁ b₁ D₁ A₂ b₂ D₂, fixFlaggedSolutionComponents sel A b = some (A₁, b₁) ∧
      fixFlaggedSolutionCompAlt sel A b = some (A₂, b₂) ∧
      A₁.makeDense = some D₁ ∧ A₂.makeDense = some D₂ ∧
      ∀ x, Solves D₁ b₁ x ↔ Solves D₂ b₂ x := by
  obtain ⟨A₁, b₁, D₁, e₁, m₁, -, -, h₁⟩ := C03_fixFlaggedSolutionComponents sel A D b h
  obtain ⟨A₂, b₂, D₂, e₂, m₂, -, -, h₂⟩ := C04_fixFlaggedSolutionCompAlt sel A D b h
  exact ⟨A₁, b₁, D₁, A₂, b₂, D₂, e₁, e₂, m₁, m₂, fun x => (h₁ x).trans (h₂ x).symm⟩

/-- **C05**, symmetry. -/
theorem C05_symmetric [CommRing R] (sel : ℕ → Bool × R) (A : Coo R) (D : Dense R) (b : List R)
    (h : GoodSystem A D b) (hsym : ∀ i < D.rows, ∀ j < D.rows, D.entry i j = D.entry j i) :
    ∃ A' b' D', fixFlaggedSolutionComponents sel A b = some (A', b') ∧ A'.makeDense = some D' ∧
      ∀ i < D.rows, ∀ j < D.rows, D'.entry i j = D'.entry j i := by
  obtain ⟨A', b', D', e1, e2, -, -, -, hE, -⟩ := fixFlagged_result sel A D b h
  refine ⟨A', b', D', e1, e2, ?_⟩
  intro i hi j hj
  rw [hE, hE, hsym i hi j hj, Bool.or_comm]
  by_cases hij : i = j
  · subst hij; rfl
  · simp [hij, Ne.symm hij]

/-- Quadratic form of a dense matrix. -/
def quadForm [Ring R] (D : Dense R) (x : ℕ → R) : R :=
  ∑ i ∈ range D.rows, ∑ j ∈ range D.cols, x i * D.entry i j * x j

/-- **C05**, definiteness: if the quadratic form is positive on nonzero vectors vanishing on the
flagged components, then the form of the modified matrix is positive on all nonzero vectors. -/
theorem C05_posDef [CommRing R] [LinearOrder R] [IsStrictOrderedRing R]
    (sel : ℕ → Bool × R) (A : Coo R) (D : Dense R) (b : List R) (h : GoodSystem A D b)
    (hpd : ∀ x : ℕ → R, (∀ k < D.cols, (sel k).1 = true → x k = 0) → (∃ k < D.cols, x k ≠ 0) →
      0 < quadForm D x) :
    ∃ A' b' D', fixFlaggedSolutionComponents sel A b = some (A', b') ∧ A'.makeDense = some D' ∧
      ∀ x : ℕ → R, (∃ k < D.cols, x k ≠ 0) → 0 < quadForm D' x := by
  obtain ⟨A', b', D', e1, e2, hr, hc, -, hE, -⟩ := fixFlagged_result sel A D b h
  refine ⟨A', b', D', e1, e2, ?_⟩
  have hsq := h.square
  rintro x ⟨k, hk, hxk⟩
  set y : ℕ → R := fun i => if (sel i).1 then 0 else x i with hy
  have hq : quadForm D' x = quadForm D y +
      ∑ i ∈ range D.cols, if (sel i).1 = true then x i * x i else 0 := by
    unfold quadForm
    rw [hr, hc, hsq, ← sum_add_distrib]
    apply sum_congr rfl
    intro i hi
    have hi' := mem_range.1 hi
    have : ∀ j ∈ range D.cols, x i * D'.entry i j * x j = y i * D.entry i j * y j +
        (if j = i then (if (sel i).1 = true then x i * x i else 0) else 0) := by
      intro j hj
      rw [hE]
      by_cases h1 : (sel i).1 = true
      · by_cases h3 : i = j
        · subst h3; simp [hy, h1, hi']
        · simp [hy, h1, h3, Ne.symm h3]
      · by_cases h2 : (sel j).1 = true
        · simp only [hy, h1, h2]; simp
        · simp only [hy, h1, h2]; simp
    rw [sum_congr rfl this, sum_add_distrib, sum_ite_eq' (range D.cols) i, if_pos hi]
  rw [hq]
  have hnn : 0 ≤ ∑ i ∈ range D.cols, if (sel i).1 = true then x i * x i else 0 :=
    sum_nonneg (fun i _ => by split <;> first | exact mul_self_nonneg _ | exact le_refl _)
  have hy0 : ∀ k < D.cols, (sel k).1 = true → y k = 0 := by
    intro k _ hs; simp [hy, hs]
  by_cases hex : ∃ k < D.cols, y k ≠ 0
  · have := hpd y hy0 hex
    linarith
  · push Not at hex
    have hq0 : quadForm D y = 0 := by
      unfold quadForm
      apply sum_eq_zero
      intro i hi
      apply sum_eq_zero
      intro j hj
      rw [hex j (mem_range.1 hj), mul_zero]
    have hs : (sel k).1 = true := by
      by_contra hs
      have := hex k hk
      simp [hy, hs] at this
      exact hxk this
    have hpos : 0 < ∑ i ∈ range D.cols, if (sel i).1 = true then x i * x i else 0 := by
      apply sum_pos'
      · intro i _; split <;> first | exact mul_self_nonneg _ | exact le_refl _
      · exact ⟨k, mem_range.2 hk, by simp only [hs, if_true]; exact mul_self_pos.2 hxk⟩
    rw [hq0, zero_add]
    exact hpos

/-- The values pinned by a list of (index, value) pairs: sum of the values listed for the index. -/
def listedSum [AddCommMonoid R] (fixed : List (ℕ × R)) (k : ℕ) : R :=
  ((fixed.filter (fun p => p.1 = k)).map Prod.snd).sum

private theorem lse_fold [CommRing R] (N : ℕ) (fixed : List (ℕ × R)) (hf : ∀ p ∈ fixed, p.1 < N)
    (v : List R) (fl : List Bool) (hv : v.length = N) (hfl : fl.length = N) :
    ∃ s, fixed.foldlM (lseStep N) (v, fl) = some s ∧
      (∀ k, s.1.getD k 0 = v.getD k 0 + listedSum fixed k) ∧
      (∀ k, s.2.getD k false = (fl.getD k false || decide (∃ p ∈ fixed, p.1 = k))) := by
  induction fixed generalizing v fl with
  | nil => exact ⟨_, rfl, by simp [listedSum], by simp⟩
  | cons p ps ih =>
    have hp := hf p (by simp)
    obtain ⟨s, e, h1, h2⟩ := ih (fun q hq => hf q (by simp [hq])) (v.set p.1 (v.getD p.1 0 + p.2))
      (fl.set p.1 true) (by simp [hv]) (by simp [hfl])
    refine ⟨s, ?_, ?_, ?_⟩
    · rw [List.foldlM_cons]
      have : lseStep N (v, fl) p = some (v.set p.1 (v.getD p.1 0 + p.2), fl.set p.1 true) := by
        simp [lseStep, hp, hv]
      rw [this]
      exact e
    · intro k
      rw [h1, list_set_getD _ _ _ _ (by omega)]
      by_cases hk : k = p.1
      · subst hk; simp [listedSum, add_assoc]
      · have : ¬ p.1 = k := fun h => hk h.symm
        simp [listedSum, hk, this]
    · intro k
      rw [h2]
      by_cases hk : k = p.1
      · subst hk
        simp [hfl, hp]
      · have : ¬ p.1 = k := fun h => hk h.symm
        have e : (∃ q ∈ ps, q.1 = k) ↔ (∃ q ∈ p :: ps, q.1 = k) := by simp [this]
        simp only [e]
        simp [this]

/-- **C06**.  Each listed component is pinned to the sum of the values listed for it (which is *the*
value listed for it when the indices are distinct), all equations of components that are not listed
are unchanged. -/
theorem C06_fixSolutionComponentsLse [CommRing R] (fixed : List (ℕ × R)) (A : Coo R) (D : Dense R)
    (b : List R) (h : GoodSystem A D b) (hidx : ∀ p ∈ fixed, p.1 < D.cols) :
    ∃ A' b' D', fixSolutionComponentsLse fixed A b = some (A', b') ∧ A'.makeDense = some D' ∧
      ∀ x, Solves D' b' x ↔
        (∀ k, (∃ p ∈ fixed, p.1 = k) → x k = listedSum fixed k) ∧
        (∀ i < D.rows, (¬ ∃ p ∈ fixed, p.1 = i) → RowHolds D b x i) := by
  have hD := makeDense_some A D h.dense
  have hcols : D.cols = A.cols := by rw [hD]
  have hrows : D.rows = A.rows := by rw [hD]
  have hb := h.rhs
  have hsq := h.square
  obtain ⟨s, e, h1, h2⟩ := lse_fold A.cols fixed (by rw [← hcols]; exact hidx)
    (List.replicate b.length 0) (List.replicate A.cols false) (by simp; omega) (by simp)
  have h1' : ∀ k, s.1.getD k 0 = listedSum fixed k := by
    intro k; rw [h1]
    by_cases hk : k < b.length <;> simp [hk]
  have h2' : ∀ k, s.2.getD k false = decide (∃ p ∈ fixed, p.1 = k) := by
    intro k; rw [h2]
    by_cases hk : k < A.cols <;> simp [hk]
  obtain ⟨A', b', D', e1, e2, -, -, hS⟩ := C04_fixFlaggedSolutionCompAlt
    (fun i => (s.2.getD i false, s.1.getD i 0)) A D b h
  refine ⟨A', b', D', ?_, e2, ?_⟩
  · unfold fixSolutionComponentsLse
    rw [if_pos (by constructor <;> omega), e]
    exact e1
  · intro x
    rw [hS]
    unfold ConstrainedSolution
    simp only [h1', h2', decide_eq_true_eq, decide_eq_false_iff_not]
    constructor
    · rintro ⟨ha, hb⟩
      refine ⟨?_, hb⟩
      rintro k ⟨p, hp, rfl⟩
      exact ha _ (hidx p hp) ⟨p, hp, rfl⟩
    · rintro ⟨ha, hb⟩
      exact ⟨fun k _ hk => ha k hk, hb⟩

/-- **C06**: an index that is out of range is rejected (by an assertion). -/
theorem C06_rejects_out_of_range [CommRing R] (fixed : List (ℕ × R)) (A : Coo R) (b : List R)
    (p : ℕ × R) (hp : p ∈ fixed) (hbad : A.cols ≤ p.1) :
    fixSolutionComponentsLse fixed A b = none := by
  unfold fixSolutionComponentsLse
  dsimp only
  split
  · have key : ∀ s, fixed.foldlM (lseStep A.cols) s = none := by
      induction fixed with
      | nil => simp at hp
      | cons q qs ih =>
        intro s
        rw [List.foldlM_cons]
        rcases List.mem_cons.1 hp with rfl | hp
        · simp [lseStep, show ¬ p.1 < A.cols by omega]
        · cases hs : lseStep A.cols s q with
          | none => rfl
          | some s' => exact ih hp s'
    simp [key]
  · rfl

/-- For pairwise distinct indices the pinned value is the listed value. -/
theorem C06_listedSum_of_distinct [AddCommMonoid R] (fixed : List (ℕ × R))
    (hd : (fixed.map Prod.fst).Nodup) (p : ℕ × R) (hp : p ∈ fixed) :
    listedSum fixed p.1 = p.2 := by
  induction fixed with
  | nil => simp at hp
  | cons q qs ih =>
    simp only [List.map_cons, List.nodup_cons] at hd
    rcases List.mem_cons.1 hp with rfl | hp
    · have : (qs.filter (fun r => r.1 = p.1)) = [] := by
        rw [List.filter_eq_nil_iff]
        intro r hr
        simp only [decide_eq_true_eq]
        intro h
        exact hd.1 (List.mem_map.2 ⟨r, hr, h⟩)
      simp [listedSum, this]
    · have hne : ¬ q.1 = p.1 := by
        intro h
        exact hd.1 (h ▸ List.mem_map.2 ⟨p, hp, rfl⟩)
      have := ih hd.2 hp
      simpa [listedSum, hne] using this

/-- Non-vacuity for C03-C06: a concrete symmetric positive definite system over ℤ. -/
def exampleSystem : Coo ℤ := Coo.history 3 3 [.add 0 0 2, .add 0 1 (-1), .add 1 0 (-1), .add 1 1 2,
  .add 1 2 (-1), .add 2 1 (-1), .add 2 2 2]

example : ∃ D, GoodSystem exampleSystem D [1, 2, 3] ∧ D.entry 1 2 = -1 ∧
    (∀ i < D.rows, ∀ j < D.rows, D.entry i j = D.entry j i) := by
  refine ⟨_, ⟨makeDense_eq _ ?_, rfl, rfl, by decide⟩, by decide, by decide⟩
  intro t ht
  simp [exampleSystem, Coo.history, CooOp.run, Coo.addToEntry, Coo.mk', Coo.wrap32] at ht ⊢
  rcases ht with rfl | rfl | rfl | rfl | rfl | rfl | rfl <;> simp

/-- Non-vacuity for the definiteness hypothesis of C05 (component 2 is fixed). -/
example : ∃ D, GoodSystem exampleSystem D [1, 2, 3] ∧
    ∀ x : ℕ → ℤ, (∀ k < D.cols, ((fun k => (k == 2, (5 : ℤ))) k).1 = true → x k = 0) →
      (∃ k < D.cols, x k ≠ 0) → 0 < quadForm D x := by
  refine ⟨_, ⟨makeDense_eq _ ?_, rfl, rfl, by decide⟩, ?_⟩
  · intro t ht
    simp [exampleSystem, Coo.history, CooOp.run, Coo.addToEntry, Coo.mk', Coo.wrap32] at ht ⊢
    rcases ht with rfl | rfl | rfl | rfl | rfl | rfl | rfl <;> simp
  · intro x h2 hne
    have hx2 : x 2 = 0 := h2 2 (by decide) rfl
    have hq : quadForm ⟨exampleSystem.rows, exampleSystem.cols, ent exampleSystem.triplets⟩ x
        = 2 * x 0 * x 0 - 2 * x 0 * x 1 + 2 * x 1 * x 1 := by
      simp [quadForm, exampleSystem, Coo.history, CooOp.run, Coo.addToEntry, Coo.mk', Coo.wrap32,
        sum_range_succ, ent, hx2]
      ring
    rw [hq]
    obtain ⟨k, hk, hxk⟩ := hne
    have hk3 : k < 3 := hk
    have h01 : x 0 ≠ 0 ∨ x 1 ≠ 0 := by
      have : k = 0 ∨ k = 1 ∨ k = 2 := by omega
      rcases this with rfl | rfl | rfl
      · exact Or.inl hxk
      · exact Or.inr hxk
      · exact absurd hx2 hxk
    have e : 2 * x 0 * x 0 - 2 * x 0 * x 1 + 2 * x 1 * x 1 =
        x 0 * x 0 + x 1 * x 1 + (x 0 - x 1) * (x 0 - x 1) := by ring
    rw [e]
    have a := mul_self_nonneg (x 0)
    have b := mul_self_nonneg (x 1)
    have c := mul_self_nonneg (x 0 - x 1)
    rcases h01 with h | h
    · have := mul_self_pos.2 h; linarith
    · have := mul_self_pos.2 h; linarith

end Verif
