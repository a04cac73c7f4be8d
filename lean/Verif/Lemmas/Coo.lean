import Verif.Model.Coo
import Mathlib.Algebra.BigOperators.Intervals
import Mathlib.Algebra.BigOperators.Ring.Finset
import Mathlib.Algebra.BigOperators.Group.Finset.Basic
import Mathlib.Tactic.Ring
import Mathlib.Tactic.Linarith

namespace Verif
open Finset

variable {R : Type*}

/-- Sum of the values of the triplets at position `(i,j)`. -/
def ent [AddCommMonoid R] (ts : List (Triplet R)) (i j : ℕ) : R :=
  (ts.map (fun t => if i = t.row ∧ j = t.col then t.val else 0)).sum

section
variable [AddCommMonoid R]

@[simp] theorem ent_nil (i j : ℕ) : ent ([] : List (Triplet R)) i j = 0 := rfl

@[simp] theorem ent_cons (t : Triplet R) (ts) (i j : ℕ) :
    ent (t :: ts) i j = (if i = t.row ∧ j = t.col then t.val else 0) + ent ts i j := by
  simp [ent]

@[simp] theorem ent_append (ts us : List (Triplet R)) (i j : ℕ) :
    ent (ts ++ us) i j = ent ts i j + ent us i j := by
  simp [ent]

theorem ent_filter (ts : List (Triplet R)) (p : ℕ → ℕ → Bool) (i j : ℕ) :
    ent (ts.filter (fun t => !(p t.row t.col))) i j = if p i j then 0 else ent ts i j := by
  induction ts with
  | nil => simp
  | cons t ts ih =>
    rw [List.filter_cons]
    by_cases hp : p t.row t.col
    · simp only [hp, Bool.not_true, Bool.false_eq_true, if_false, ih, ent_cons]
      by_cases h : i = t.row ∧ j = t.col
      · obtain ⟨rfl, rfl⟩ := h
        simp [hp]
      · simp [h]
    · simp only [hp, Bool.not_false, if_true, ih, ent_cons]
      by_cases h : i = t.row ∧ j = t.col
      · obtain ⟨rfl, rfl⟩ := h
        simp [hp]
      · simp [h]

/-- All triplets are inside the matrix. -/
def InRange (A : Coo R) : Prop := ∀ t ∈ A.triplets, t.row < A.rows ∧ t.col < A.cols

theorem foldlM_dense (ts : List (Triplet R)) (D : Dense R)
    (h : ∀ t ∈ ts, t.row < D.rows ∧ t.col < D.cols) :
    ts.foldlM Coo.denseStep D =
      some ⟨D.rows, D.cols, fun i j => D.entry i j + ent ts i j⟩ := by
  induction ts generalizing D with
  | nil => simp
  | cons t ts ih =>
    have ht := h t (by simp)
    simp only [List.foldlM_cons, Coo.denseStep, ht, and_self, if_true, Option.bind_eq_bind,
      Option.bind_some]
    rw [ih]
    · congr 2
      funext i j
      by_cases hij : i = t.row ∧ j = t.col
      · simp [hij, add_assoc]
      · simp [hij]
    · intro u hu
      exact h u (by simp [hu])

theorem makeDense_eq (A : Coo R) (h : InRange A) :
    A.makeDense = some ⟨A.rows, A.cols, ent A.triplets⟩ := by
  unfold Coo.makeDense
  rw [foldlM_dense A.triplets ⟨A.rows, A.cols, fun _ _ => 0⟩ (fun t ht => h t ht)]
  simp

/-- Conversely `makeDense` succeeds only if all triplets are in range. -/
theorem inRange_of_makeDense (A : Coo R) (D : Dense R) (h : A.makeDense = some D) : InRange A := by
  have key : ∀ (ts : List (Triplet R)) (D D' : Dense R), ts.foldlM Coo.denseStep D = some D' →
      ∀ t ∈ ts, t.row < D.rows ∧ t.col < D.cols := by
    intro ts
    induction ts with
    | nil => simp
    | cons t ts ih =>
      intro D D' h u hu
      simp only [List.foldlM_cons, Coo.denseStep] at h
      split at h
      · rename_i hc
        rcases List.mem_cons.1 hu with rfl | hu
        · exact ⟨hc.2, hc.1⟩
        · have := ih _ _ h u hu
          simpa using this
      · simp at h
  exact key _ _ _ h

theorem makeDense_some (A : Coo R) (D : Dense R) (h : A.makeDense = some D) :
    D = ⟨A.rows, A.cols, ent A.triplets⟩ := by
  have := makeDense_eq A (inRange_of_makeDense A D h)
  rw [h] at this
  exact Option.some.inj this

end

section mv
variable [CommSemiring R]

theorem list_set_getD (l : List R) (k i : ℕ) (v : R) (hk : k < l.length) :
    (l.set k v).getD i 0 = if i = k then v else l.getD i 0 := by
  simp only [List.getD_eq_getElem?_getD, List.getElem?_set]
  by_cases h : k = i
  · subst h; simp [hk]
  · simp [h, Ne.symm h]

theorem foldlM_mv (alpha : R) (vec : List R) (ts : List (Triplet R)) (res : List R) (n : ℕ)
    (hv : vec.length ≥ n)
    (h : ∀ t ∈ ts, t.row < res.length ∧ t.col < n) :
    ∃ res', ts.foldlM (Coo.mvStep alpha vec) res = some res' ∧ res'.length = res.length ∧
      ∀ i, res'.getD i 0 = res.getD i 0 + ∑ j ∈ range n, ent ts i j * (alpha * vec.getD j 0) := by
  induction ts generalizing res with
  | nil => exact ⟨res, by simp, rfl, by simp⟩
  | cons t ts ih =>
    obtain ⟨h1, h2⟩ := h t (by simp)
    have h2' : t.col < vec.length := lt_of_lt_of_le h2 hv
    set r1 := res.set t.row (res.getD t.row 0 + t.val * (alpha * vec.getD t.col 0)) with hr1
    have hlen : r1.length = res.length := by simp [hr1]
    obtain ⟨res', e, l, hh⟩ := ih r1 (by
      intro u hu
      rw [hlen]
      exact h u (by simp [hu]))
    refine ⟨res', ?_, by rw [l, hlen], ?_⟩
    · rw [List.foldlM_cons, ← e]
      have : Coo.mvStep alpha vec res t = some r1 := by
        simp only [Coo.mvStep, List.getElem?_eq_getElem h1, List.getElem?_eq_getElem h2', hr1,
          List.getD_eq_getElem?_getD, Option.getD_some]
        rfl
      rw [this]; rfl
    · intro i
      rw [hh i, hr1, list_set_getD _ _ _ _ h1]
      simp only [ent_cons, add_mul, sum_add_distrib]
      by_cases hi : i = t.row
      · subst hi
        simp only [true_and, if_true]
        have : ∑ x ∈ range n, (if x = t.col then t.val else 0) * (alpha * vec.getD x 0)
            = t.val * (alpha * vec.getD t.col 0) := by
          rw [sum_eq_single t.col]
          · simp
          · intro b _ hb; simp [hb]
          · intro hb; exact absurd (mem_range.2 h2) hb
        rw [this]
        ring
      · simp [hi]

end mv

section fix

@[simp] theorem setFixedRhs_length (sel : ℕ → Bool × R) (N : ℕ) (b : List R) :
    (setFixedRhs sel N b).length = b.length := by
  unfold setFixedRhs
  generalize List.range N = l
  induction l generalizing b with
  | nil => simp
  | cons k l ih =>
    simp only [List.foldl_cons]
    rw [ih]; split <;> simp

theorem setFixedRhs_getD [CommSemiring R] (sel : ℕ → Bool × R) (N : ℕ) (b : List R) (hN : N ≤ b.length) (i : ℕ) :
    (setFixedRhs sel N b).getD i 0 =
      if i < N ∧ (sel i).1 then (sel i).2 else b.getD i 0 := by
  induction N with
  | zero => simp [setFixedRhs]
  | succ N ih =>
    have ih := ih (by omega)
    have e : setFixedRhs sel (N+1) b =
      (if (sel N).1 then (setFixedRhs sel N b).set N (sel N).2 else setFixedRhs sel N b) := by
      unfold setFixedRhs
      rw [List.range_succ, List.foldl_append]; rfl
    rw [e]
    by_cases hs : (sel N).1
    · rw [if_pos hs, list_set_getD _ _ _ _ (by simp; omega), ih]
      by_cases hi : i = N
      · subst hi; simp [hs]
      · have : i < N + 1 ↔ i < N := by omega
        simp [hi, this]
    · rw [if_neg hs, ih]
      by_cases hi : i = N
      · subst hi; simp [hs]
      · have : i < N + 1 ↔ i < N := by omega
        simp [this]

theorem addUnitDiag_ent [CommSemiring R] (sel : ℕ → Bool × R) (N : ℕ) (A : Coo R) (i j : ℕ) :
    ent (addUnitDiag sel N A).triplets i j =
      ent A.triplets i j + if i = j ∧ i < N ∧ (sel i).1 then 1 else 0 := by
  induction N with
  | zero => simp [addUnitDiag]
  | succ N ih =>
    have e : addUnitDiag sel (N+1) A =
      (if (sel N).1 then (addUnitDiag sel N A).addToEntry N N 1 else addUnitDiag sel N A) := by
      unfold addUnitDiag
      rw [List.range_succ, List.foldl_append]; rfl
    rw [e]
    by_cases hs : (sel N).1
    · simp only [hs, if_true, Coo.addToEntry, ent_append, ent_cons, ent_nil, ih, add_zero]
      by_cases hi : i = N
      · subst hi
        by_cases hj : i = j
        · subst hj; simp [hs]
        · simp [hj, Ne.symm hj]
      · have : i < N + 1 ↔ i < N := by omega
        simp [hi, this]
    · rw [if_neg hs, ih]
      by_cases hi : i = N
      · subst hi; simp [hs]
      · have : i < N + 1 ↔ i < N := by omega
        simp [this]

theorem addUnitDiag_dims [One R] (sel : ℕ → Bool × R) (N : ℕ) (A : Coo R)
    (hr : N ≤ A.rows) (hc : N ≤ A.cols) (hN : N < 2 ^ 32) :
    (addUnitDiag sel N A).rows = A.rows ∧ (addUnitDiag sel N A).cols = A.cols := by
  induction N with
  | zero => simp [addUnitDiag]
  | succ N ih =>
    obtain ⟨h1, h2⟩ := ih (by omega) (by omega) (by omega)
    have e : addUnitDiag sel (N+1) A =
      (if (sel N).1 then (addUnitDiag sel N A).addToEntry N N 1 else addUnitDiag sel N A) := by
      unfold addUnitDiag
      rw [List.range_succ, List.foldl_append]; rfl
    rw [e]
    split
    · have hw : Coo.wrap32 (N+1) = N+1 := by
        unfold Coo.wrap32; exact Nat.mod_eq_of_lt hN
      simp only [Coo.addToEntry, h1, h2, hw]
      constructor
      · rw [if_neg (by omega)]
      · rw [if_neg (by omega)]
    · exact ⟨h1, h2⟩

theorem addUnitDiag_mem [One R] (sel : ℕ → Bool × R) (N : ℕ) (A : Coo R) (t : Triplet R)
    (ht : t ∈ (addUnitDiag sel N A).triplets) : t ∈ A.triplets ∨ (t.row < N ∧ t.col < N) := by
  induction N with
  | zero => left; simpa [addUnitDiag] using ht
  | succ N ih =>
    have e : addUnitDiag sel (N+1) A =
      (if (sel N).1 then (addUnitDiag sel N A).addToEntry N N 1 else addUnitDiag sel N A) := by
      unfold addUnitDiag
      rw [List.range_succ, List.foldl_append]; rfl
    rw [e] at ht
    split at ht
    · simp only [Coo.addToEntry, List.mem_append, List.mem_singleton] at ht
      rcases ht with ht | rfl
      · rcases ih ht with h | h
        · exact Or.inl h
        · right; omega
      · right; simp
    · rcases ih ht with h | h
      · exact Or.inl h
      · right; omega

end fix
end Verif
