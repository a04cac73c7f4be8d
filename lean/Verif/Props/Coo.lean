import Verif.Spec.Coo
import Verif.Lemmas.Coo
import Mathlib.Algebra.BigOperators.Fin

/-!
# Properties C01, C02: the sparse matrix container
-/

namespace Verif
open Finset
variable {R : Type*}

/-! ## C01 -/

private theorem history_concat (r c : ℕ) (ops : List (CooOp R)) (o : CooOp R) :
    Coo.history r c (ops ++ [o]) = CooOp.run (Coo.history r c ops) o := by
  simp [Coo.history]

theorem survivingSum_nil [AddCommMonoid R] (i j : ℕ) :
    survivingSum ([] : List (CooOp R)) i j = 0 := by
  simp [survivingSum]

theorem survivingSum_concat [AddCommMonoid R] (ops : List (CooOp R)) (o : CooOp R) (i j : ℕ) :
    survivingSum (ops ++ [o]) i j =
      (if o.erases i j then 0 else survivingSum ops i j) + o.adds i j := by
  classical
  unfold survivingSum
  have hlen : (ops ++ [o]).length = ops.length + 1 := by simp
  rw [← Fin.sum_congr' _ hlen.symm, Fin.sum_univ_castSucc]
  congr 1
  · by_cases ho : o.erases i j
    · rw [if_pos ho]
      apply sum_eq_zero
      intro k _
      rw [if_neg]
      intro h
      have := h ⟨ops.length, by simp⟩ (by simp [Fin.lt_def])
      simp [ho] at this
    · rw [if_neg ho]
      apply sum_congr rfl
      intro k _
      have h1 : (ops ++ [o])[(Fin.cast hlen.symm k.castSucc : Fin _)] = ops[k] := by
        simp [List.getElem_append_left]
      rw [h1]
      congr 1
      apply propext
      constructor
      · intro h l hl
        have := h ⟨l, by have := l.2; simp only [List.length_append, List.length_singleton]; omega⟩ (Fin.lt_def.2 (Fin.lt_def.1 hl))
        simpa [List.getElem_append_left] using this
      · intro h l hl
        by_cases hll : (l : ℕ) < ops.length
        · have := h ⟨l, hll⟩ (by simpa [Fin.lt_def] using hl)
          simpa [List.getElem_append_left, hll] using this
        · have hl2 : (l : ℕ) = ops.length := by
            have := l.2; simp at this; omega
          simp [hl2, Bool.not_eq_true] at ho ⊢
          exact ho
  · have h1 : (ops ++ [o])[(Fin.cast hlen.symm (Fin.last ops.length) : Fin _)] = o := by
      simp
    rw [h1, if_pos]
    intro l hl
    have := l.2
    simp [Fin.lt_def] at hl this
    omega

/-- All indices used in a history fit the index type (`Eigen::Triplet` stores `int`). -/
def IndicesFit (ops : List (CooOp R)) : Prop :=
  ∀ o ∈ ops, (∀ i ∈ o.rowIdx, i + 1 < 2 ^ 31) ∧ (∀ j ∈ o.colIdx, j + 1 < 2 ^ 31)

/-- **C01**. After any sequence of calls, `makeDense()` succeeds (no triplet is outside of the
matrix), every entry is the sum of the surviving contributions, and the dimensions are the maximum
of the initial ones and of the indices used plus one. -/
theorem C01_coo_history [AddCommMonoid R] (r c : ℕ) (ops : List (CooOp R)) (hfit : IndicesFit ops) :
    (Coo.history r c ops).rows = ((ops.filterMap CooOp.rowIdx).map (· + 1)).foldr max r ∧
    (Coo.history r c ops).cols = ((ops.filterMap CooOp.colIdx).map (· + 1)).foldr max c ∧
    (∀ t ∈ (Coo.history r c ops).triplets,
      t.row < (Coo.history r c ops).rows ∧ t.col < (Coo.history r c ops).cols) ∧
    ∃ D, (Coo.history r c ops).makeDense = some D ∧
      D.rows = (Coo.history r c ops).rows ∧ D.cols = (Coo.history r c ops).cols ∧
      ∀ i j, D.entry i j = survivingSum ops i j := by
  have foldmax : ∀ (l : List ℕ) (a b : ℕ), l.foldr max (max a b) = max (l.foldr max a) b := by
    intro l a b
    induction l with
    | nil => rfl
    | cons x l ih => simp only [List.foldr_cons, ih]; omega
  suffices H : (Coo.history r c ops).rows = ((ops.filterMap CooOp.rowIdx).map (· + 1)).foldr max r ∧
    (Coo.history r c ops).cols = ((ops.filterMap CooOp.colIdx).map (· + 1)).foldr max c ∧
    InRange (Coo.history r c ops) ∧
    ∀ i j, ent (Coo.history r c ops).triplets i j = survivingSum ops i j by
    obtain ⟨h1, h2, h3, h4⟩ := H
    exact ⟨h1, h2, h3, _, makeDense_eq _ h3, rfl, rfl, h4⟩
  induction ops using List.reverseRecOn with
  | nil => simp [Coo.history, Coo.mk', InRange, survivingSum_nil]
  | append_singleton ops o ih =>
    obtain ⟨h1, h2, h3, h4⟩ := ih (fun o ho => hfit o (by simp [ho]))
    have ho := hfit o (by simp)
    rw [history_concat]
    generalize hA : Coo.history r c ops = A at *
    cases o with
    | add a b v =>
      have ha : Coo.wrap32 (a + 1) = a + 1 := by
        have := ho.1 a (by simp [CooOp.rowIdx])
        exact Nat.mod_eq_of_lt (by omega)
      have hb : Coo.wrap32 (b + 1) = b + 1 := by
        have := ho.2 b (by simp [CooOp.colIdx])
        exact Nat.mod_eq_of_lt (by omega)
      refine ⟨?_, ?_, ?_, ?_⟩
      · simp only [CooOp.run, Coo.addToEntry, ha, List.filterMap_append, List.filterMap_cons,
          CooOp.rowIdx, List.filterMap_nil, List.map_append, List.map_cons, List.map_nil,
          List.foldr_append, List.foldr_cons, List.foldr_nil]
        rw [max_comm (a+1) r, foldmax, ← h1]
        split <;> omega
      · simp only [CooOp.run, Coo.addToEntry, hb, List.filterMap_append, List.filterMap_cons,
          CooOp.colIdx, List.filterMap_nil, List.map_append, List.map_cons, List.map_nil,
          List.foldr_append, List.foldr_cons, List.foldr_nil]
        rw [max_comm (b+1) c, foldmax, ← h2]
        split <;> omega
      · intro t ht
        simp only [CooOp.run, Coo.addToEntry, ha, hb, List.mem_append, List.mem_singleton] at ht ⊢
        rcases ht with ht | rfl
        · have := h3 t ht
          constructor <;> split <;> omega
        · constructor <;> split <;> simp <;> omega
      · intro i j
        simp only [CooOp.run, Coo.addToEntry, ent_append, ent_cons, ent_nil, add_zero, h4,
          survivingSum_concat, CooOp.erases, CooOp.adds, Bool.false_eq_true, if_false]
    | zeroAll =>
      refine ⟨?_, ?_, ?_, ?_⟩
      · simpa [CooOp.run, Coo.setZero, CooOp.rowIdx, List.filterMap_cons] using h1
      · simpa [CooOp.run, Coo.setZero, CooOp.colIdx, List.filterMap_cons] using h2
      · intro t ht; simp [CooOp.run, Coo.setZero] at ht
      · intro i j
        simp [CooOp.run, Coo.setZero, survivingSum_concat, CooOp.erases, CooOp.adds]
    | zeroIf p =>
      refine ⟨?_, ?_, ?_, ?_⟩
      · simpa [CooOp.run, Coo.setZeroIf, CooOp.rowIdx, List.filterMap_cons] using h1
      · simpa [CooOp.run, Coo.setZeroIf, CooOp.colIdx, List.filterMap_cons] using h2
      · intro t ht
        simp only [CooOp.run, Coo.setZeroIf, List.mem_filter] at ht ⊢
        exact h3 t ht.1
      · intro i j
        simp only [CooOp.run, Coo.setZeroIf, ent_filter, h4, survivingSum_concat, CooOp.erases,
          CooOp.adds, add_zero]
        rfl

/-- Non-vacuity: a history with growth, duplicates and a partial erase. -/
example : IndicesFit ([.add 0 0 2, .add 3 1 5, .add 0 0 4, .zeroIf (fun i _ => i == 3), .add 3 1 7] :
    List (CooOp ℤ)) := by
  intro o ho
  simp at ho
  rcases ho with rfl | rfl | rfl | rfl | rfl <;> simp [CooOp.rowIdx, CooOp.colIdx]

/-- `makeSparse()` agrees with `makeDense()` for a matrix with at least one row and column and
rejects others. -/
theorem C01_makeSparse [AddCommMonoid R] (A : Coo R) :
    A.makeSparse = if 0 < A.rows ∧ 0 < A.cols then A.makeDense else none := rfl

/-- The restriction to indices that fit is needed: with `i = 2^32 - 1` the computation of `i + 1`
wraps around and the triplet is outside of the matrix. -/
theorem C01_wraparound_witness :
    ((Coo.mk' 1 1 : Coo ℤ).addToEntry (2 ^ 32 - 1) 0 1).rows = 1 ∧
    ((Coo.mk' 1 1 : Coo ℤ).addToEntry (2 ^ 32 - 1) 0 1).makeDense.isNone = true := by
  constructor <;> decide

/-! ## C02 -/

/-- **C02** (accumulating version).  Whenever `makeDense()` is defined and the vectors are long
enough, `MatVecMult(alpha, x, y)` replaces `y` by `y + alpha * A x`. -/
theorem C02_matVecMultAdd [CommSemiring R] (A : Coo R) (D : Dense R) (hD : A.makeDense = some D)
    (alpha : R) (x y : List R) (hx : D.cols ≤ x.length) (hy : D.rows ≤ y.length) :
    ∃ y', A.matVecMultAdd alpha x y = some y' ∧ y'.length = y.length ∧
      ∀ i < y.length, y'.getD i 0 =
        y.getD i 0 + if i < D.rows then alpha * ∑ j ∈ range D.cols, D.entry i j * x.getD j 0 else 0 := by
  have hin := inRange_of_makeDense A D hD
  obtain rfl := makeDense_some A D hD
  simp only at hx hy ⊢
  obtain ⟨res, e, l, h⟩ := foldlM_mv alpha x A.triplets y A.cols hx
    (fun t ht => ⟨lt_of_lt_of_le (hin t ht).1 hy, (hin t ht).2⟩)
  refine ⟨res, ?_, l, ?_⟩
  · unfold Coo.matVecMultAdd
    rw [if_neg (by omega), e]
  · intro i _
    rw [h i]
    congr 1
    split
    · rw [mul_sum]
      apply sum_congr rfl
      intro j _; ring
    · rename_i hi
      apply sum_eq_zero
      intro j _
      have : ent A.triplets i j = 0 := by
        unfold ent
        apply List.sum_eq_zero
        intro v hv
        obtain ⟨t, ht, rfl⟩ := List.mem_map.1 hv
        rw [if_neg]
        rintro ⟨rfl, -⟩
        exact hi (hin t ht).1
      rw [this, zero_mul]

/-- **C02** (returning version). -/
theorem C02_matVecMult [CommSemiring R] (A : Coo R) (D : Dense R) (hD : A.makeDense = some D)
    (alpha : R) (x : List R) (hx : D.cols ≤ x.length) :
    ∃ y, A.matVecMult alpha x = some y ∧ y.length = D.rows ∧
      ∀ i < D.rows, y.getD i 0 = alpha * ∑ j ∈ range D.cols, D.entry i j * x.getD j 0 := by
  have hrows : D.rows = A.rows := by rw [makeDense_some A D hD]
  have hcols : D.cols = A.cols := by rw [makeDense_some A D hD]
  obtain ⟨y, e, l, h⟩ := C02_matVecMultAdd A D hD alpha x (List.replicate A.rows 0) hx (by simp [hrows])
  refine ⟨y, ?_, by simpa [hrows] using l, ?_⟩
  · unfold Coo.matVecMultAdd at e
    unfold Coo.matVecMult
    rw [if_neg (by simp; omega)] at e
    rw [if_neg (by omega), e]
  · intro i hi
    have := h i (by simpa [← hrows] using hi)
    rw [this, if_pos hi]
    simp [hrows ▸ hi]

/-- Non-vacuity: a matrix with duplicate entries. -/
example : ∃ D, (Coo.history 2 2 [.add 0 1 3, .add 0 1 4, .add 1 0 (-2)] : Coo ℤ).makeDense = some D ∧
    D.entry 0 1 = 7 ∧ D.cols ≤ [1, 2].length := by
  refine ⟨_, makeDense_eq _ ?_, ?_, ?_⟩
  · intro t ht
    simp [Coo.history, CooOp.run, Coo.addToEntry, Coo.mk', Coo.wrap32] at ht ⊢
    rcases ht with rfl | rfl | rfl <;> simp
  · decide
  · decide

end Verif
