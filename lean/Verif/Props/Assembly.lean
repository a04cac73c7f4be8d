import Verif.Spec.Coo
import Verif.Lemmas.Coo
import Mathlib.Data.Int.Basic

/-!
# Properties C07, C08: entity-based assembly
-/

namespace Verif
open Finset
variable {R : Type*} {E : Type*}

/-- Contribution of entity `e` to the entry `(r, c)`: the sum of all element matrix entries `(i, j)`
whose `i`-th test dof is `r` and whose `j`-th trial dof is `c`; zero for inactive entities. -/
def matContribution [AddCommMonoid R] (trial test : DofMap E) (prov : EntityMatrixProvider E R)
    (e : E) (r c : ℕ) : R :=
  if prov.isActive e then
    ∑ i ∈ range (test.dofs e).length, ∑ j ∈ range (trial.dofs e).length,
      if (test.dofs e)[i]? = some r ∧ (trial.dofs e)[j]? = some c then (prov.eval e).entry i j else 0
  else 0

/-- Contribution of entity `e` to component `r`. -/
def vecContribution [AddCommMonoid R] (dofh : DofMap E) (prov : EntityVectorProvider E R)
    (e : E) (r : ℕ) : R :=
  if prov.isActive e then
    ∑ i ∈ range (dofh.dofs e).length,
      if (dofh.dofs e)[i]? = some r then (prov.eval e).getD i 0 else 0
  else 0

/-- What the assembly functions rely on: for active entities the element matrices are large enough
and the dof indices lie in the range of the matrix; sizes fit the index type. -/
structure MatAssemblyOk (entities : List E) (trial test : DofMap E) (prov : EntityMatrixProvider E R)
    (rows cols : ℕ) : Prop where
  big : ∀ e ∈ entities, prov.isActive e = true →
    (test.dofs e).length ≤ (prov.eval e).rows ∧ (trial.dofs e).length ≤ (prov.eval e).cols
  rowRange : ∀ e ∈ entities, prov.isActive e = true → ∀ d ∈ test.dofs e, d < rows
  colRange : ∀ e ∈ entities, prov.isActive e = true → ∀ d ∈ trial.dofs e, d < cols
  fits : rows < 2 ^ 31 ∧ cols < 2 ^ 31

private def addAll (A : Coo R) (ts : List (Triplet R)) : Coo R :=
  ts.foldl (fun A t => A.addToEntry t.row t.col t.val) A

private theorem addAll_triplets (A : Coo R) (ts : List (Triplet R)) :
    (addAll A ts).triplets = A.triplets ++ ts := by
  induction ts generalizing A with
  | nil => simp [addAll]
  | cons t ts ih =>
    have := ih (A.addToEntry t.row t.col t.val)
    simp only [addAll, List.foldl_cons] at this ⊢
    rw [this]; simp [Coo.addToEntry]

private theorem addAll_dims (A : Coo R) (ts : List (Triplet R)) (hr : A.rows < 2 ^ 31)
    (hc : A.cols < 2 ^ 31) (h : ∀ t ∈ ts, t.row < A.rows ∧ t.col < A.cols) :
    (addAll A ts).rows = A.rows ∧ (addAll A ts).cols = A.cols := by
  induction ts generalizing A with
  | nil => simp [addAll]
  | cons t ts ih =>
    have ht := h t (by simp)
    have e1 : (A.addToEntry t.row t.col t.val).rows = A.rows := by
      have : Coo.wrap32 (t.row + 1) = t.row + 1 := Nat.mod_eq_of_lt (by omega)
      simp only [Coo.addToEntry, this]; rw [if_neg (by omega)]
    have e2 : (A.addToEntry t.row t.col t.val).cols = A.cols := by
      have : Coo.wrap32 (t.col + 1) = t.col + 1 := Nat.mod_eq_of_lt (by omega)
      simp only [Coo.addToEntry, this]; rw [if_neg (by omega)]
    have := ih (A.addToEntry t.row t.col t.val) (by omega) (by omega)
      (fun t ht => by rw [e1, e2]; exact h t (by simp [ht]))
    simp only [addAll, List.foldl_cons] at this ⊢
    rw [this.1, this.2, e1, e2]; simp

private def scatterTriplets (rowIdx colIdx : List ℕ) (M : Dense R) : List (Triplet R) :=
  (List.range rowIdx.length).flatMap (fun i => (List.range colIdx.length).map (fun j =>
    ⟨rowIdx.getD i 0, colIdx.getD j 0, M.entry i j⟩))

private theorem scatterMatrix_eq (rowIdx colIdx : List ℕ) (M : Dense R) (A : Coo R) :
    scatterMatrix rowIdx colIdx M A = addAll A (scatterTriplets rowIdx colIdx M) := by
  unfold scatterMatrix addAll scatterTriplets
  rw [List.foldl_flatMap]
  simp only [List.foldl_map]

private theorem ent_scatter [AddCommMonoid R] (rowIdx colIdx : List ℕ) (M : Dense R) (r c : ℕ) :
    ent (scatterTriplets rowIdx colIdx M) r c =
      ∑ i ∈ range rowIdx.length, ∑ j ∈ range colIdx.length,
      if rowIdx[i]? = some r ∧ colIdx[j]? = some c then M.entry i j else 0 := by
  have hin : ∀ (i m : ℕ), m ≤ colIdx.length → i < rowIdx.length →
      ent ((List.range m).map (fun j => (⟨rowIdx.getD i 0, colIdx.getD j 0, M.entry i j⟩ : Triplet R))) r c
      = ∑ j ∈ range m, if rowIdx[i]? = some r ∧ colIdx[j]? = some c then M.entry i j else 0 := by
    intro i m hm hi
    induction m with
    | zero => simp
    | succ m ih =>
      rw [List.range_succ, List.map_append, ent_append, ih (by omega), sum_range_succ]
      congr 1
      have e1 : rowIdx[i]? = some (rowIdx.getD i 0) := by simp [hi]
      have e2 : colIdx[m]? = some (colIdx.getD m 0) := by simp [show m < colIdx.length by omega]
      rw [e1, e2]
      simp only [List.map_cons, List.map_nil, ent_cons, ent_nil, add_zero, Option.some.injEq]
      congr 1
      simp only [eq_comm]
  have hout : ∀ n ≤ rowIdx.length,
      ent ((List.range n).flatMap (fun i => (List.range colIdx.length).map (fun j =>
        (⟨rowIdx.getD i 0, colIdx.getD j 0, M.entry i j⟩ : Triplet R)))) r c =
      ∑ i ∈ range n, ∑ j ∈ range colIdx.length,
        if rowIdx[i]? = some r ∧ colIdx[j]? = some c then M.entry i j else 0 := by
    intro n hn
    induction n with
    | zero => simp
    | succ n ih =>
      rw [List.range_succ, List.flatMap_append, ent_append, ih (by omega), sum_range_succ]
      congr 1
      simp only [List.flatMap_cons, List.flatMap_nil, List.append_nil]
      exact hin n _ le_rfl (by omega)
  exact hout _ le_rfl

private theorem scatter_range (rowIdx colIdx : List ℕ) (M : Dense R) (n m : ℕ)
    (hr : ∀ d ∈ rowIdx, d < n) (hc : ∀ d ∈ colIdx, d < m) :
    ∀ t ∈ scatterTriplets rowIdx colIdx M, t.row < n ∧ t.col < m := by
  intro t ht
  simp only [scatterTriplets, List.mem_flatMap, List.mem_range, List.mem_map] at ht
  obtain ⟨i, hi, j, hj, rfl⟩ := ht
  refine ⟨hr _ ?_, hc _ ?_⟩
  · simp [hi]
  · simp [hj]

/-- **C07**.  The assembly succeeds, keeps the size of the matrix, and changes entry `(r, c)` by
exactly the sum of the contributions of all entities. -/
theorem C07_assembleMatrixLocally [AddCommMonoid R] (entities : List E) (trial test : DofMap E)
    (prov : EntityMatrixProvider E R) (A : Coo R) (D : Dense R) (hA : A.makeDense = some D)
    (h : MatAssemblyOk entities trial test prov D.rows D.cols) :
    ∃ A' D', assembleMatrixLocally entities trial test prov A = some A' ∧ A'.makeDense = some D' ∧
      D'.rows = D.rows ∧ D'.cols = D.cols ∧
      ∀ r c, D'.entry r c =
        D.entry r c + (entities.map (fun e => matContribution trial test prov e r c)).sum := by
  induction entities generalizing A D with
  | nil => exact ⟨A, D, rfl, hA, rfl, rfl, by simp⟩
  | cons e es ih =>
    have hes : MatAssemblyOk es trial test prov D.rows D.cols :=
      ⟨fun e' he => h.big e' (by simp [he]), fun e' he => h.rowRange e' (by simp [he]),
       fun e' he => h.colRange e' (by simp [he]), h.fits⟩
    by_cases hact : prov.isActive e = true
    · have hb := h.big e (by simp) hact
      have hin := inRange_of_makeDense A D hA
      obtain rfl := makeDense_some A D hA
      have hsr := scatter_range (test.dofs e) (trial.dofs e) (prov.eval e) _ _
        (h.rowRange e (by simp) hact) (h.colRange e (by simp) hact)
      have hd := addAll_dims A _ h.fits.1 h.fits.2 hsr
      have hin1 : InRange (addAll A (scatterTriplets (test.dofs e) (trial.dofs e) (prov.eval e))) := by
        intro t ht
        rw [hd.1, hd.2]
        rw [addAll_triplets, List.mem_append] at ht
        rcases ht with ht | ht
        · exact hin t ht
        · exact hsr t ht
      have hden := makeDense_eq _ hin1
      obtain ⟨A', D', e1, e2, hr', hc', hE⟩ := ih _ _ hden (by simpa only [hd.1, hd.2] using hes)
      refine ⟨A', D', ?_, e2, ?_, ?_, ?_⟩
      · unfold assembleMatrixLocally at e1 ⊢
        rw [List.foldlM_cons]
        have : assembleMatrixStep trial test prov A e =
            some (addAll A (scatterTriplets (test.dofs e) (trial.dofs e) (prov.eval e))) := by
          simp [assembleMatrixStep, hact, hb, scatterMatrix_eq]
        rw [this]; exact e1
      · rw [hr']; exact hd.1
      · rw [hc']; exact hd.2
      · intro r c
        rw [hE, List.map_cons, List.sum_cons, ← add_assoc]
        congr 1
        simp only [addAll_triplets, ent_append, ent_scatter, matContribution, hact, if_true]
    · obtain ⟨A', D', e1, e2, hr', hc', hE⟩ := ih A D hA hes
      refine ⟨A', D', ?_, e2, hr', hc', ?_⟩
      · unfold assembleMatrixLocally at e1 ⊢
        rw [List.foldlM_cons]
        have : assembleMatrixStep trial test prov A e = some A := by simp [assembleMatrixStep, hact]
        rw [this]; exact e1
      · intro r c
        rw [hE, List.map_cons, List.sum_cons]
        simp [matContribution, hact]

/-- **C07** for the variant creating the matrix: its size is (test dofs) x (trial dofs), and its
entries are the sums of the contributions. -/
theorem C07_assembleMatrixLocallyNew [AddCommMonoid R] (entities : List E) (trial test : DofMap E)
    (prov : EntityMatrixProvider E R)
    (h : MatAssemblyOk entities trial test prov test.numDofs trial.numDofs) :
    ∃ A' D', assembleMatrixLocallyNew entities trial test prov = some A' ∧ A'.makeDense = some D' ∧
      D'.rows = test.numDofs ∧ D'.cols = trial.numDofs ∧
      ∀ r c, D'.entry r c = (entities.map (fun e => matContribution trial test prov e r c)).sum := by
  have hd := makeDense_eq ((Coo.mk' test.numDofs trial.numDofs : Coo R).setZero)
    (by intro t ht; simp [Coo.setZero] at ht)
  obtain ⟨A', D', e1, e2, hr, hc, hE⟩ := C07_assembleMatrixLocally entities trial test prov _ _ hd h
  exact ⟨A', D', e1, e2, hr, hc, fun r c => by rw [hE]; simp [Coo.setZero]⟩

/-- **C07**, order independence: visiting the entities in another order gives the same matrix. -/
theorem C07_order_independent [AddCommMonoid R] (es es' : List E) (hp : es.Perm es')
    (trial test : DofMap E) (prov : EntityMatrixProvider E R) (A : Coo R) (D : Dense R)
    (hA : A.makeDense = some D) (h : MatAssemblyOk es trial test prov D.rows D.cols) :
    ∃ A₁ A₂, assembleMatrixLocally es trial test prov A = some A₁ ∧
      assembleMatrixLocally es' trial test prov A = some A₂ ∧
      A₁.makeDense = A₂.makeDense ∧ A₁.makeDense.isSome := by
  have h' : MatAssemblyOk es' trial test prov D.rows D.cols :=
    ⟨fun e he => h.big e (hp.mem_iff.2 he), fun e he => h.rowRange e (hp.mem_iff.2 he),
     fun e he => h.colRange e (hp.mem_iff.2 he), h.fits⟩
  obtain ⟨A₁, D₁, e₁, d₁, r₁, c₁, E₁⟩ := C07_assembleMatrixLocally es trial test prov A D hA h
  obtain ⟨A₂, D₂, e₂, d₂, r₂, c₂, E₂⟩ := C07_assembleMatrixLocally es' trial test prov A D hA h'
  refine ⟨A₁, A₂, e₁, e₂, ?_, by rw [d₁]; rfl⟩
  rw [d₁, d₂]
  congr 1
  have hentry : D₁.entry = D₂.entry := by
    funext r c
    rw [E₁, E₂, (hp.map _).sum_eq]
  cases D₁; cases D₂
  simp_all

private theorem scatterVector_eq [AddCommMonoid R] (idx : List ℕ) (elem b : List R)
    (hlen : idx.length ≤ elem.length) (hr : ∀ d ∈ idx, d < b.length) :
    ∃ b', scatterVector idx elem b = some b' ∧ b'.length = b.length ∧
      ∀ r, b'.getD r 0 = b.getD r 0 + ∑ i ∈ range idx.length,
        if idx[i]? = some r then elem.getD i 0 else 0 := by
  have key : ∀ n ≤ idx.length, ∃ b', (List.range n).foldlM (fun (b : List R) i => 
      idx[i]?.bind fun k => elem[i]?.bind fun w => b[k]?.bind fun v => some (b.set k (v + w))) b = some b' ∧ b'.length = b.length ∧
      ∀ r, b'.getD r 0 = b.getD r 0 + ∑ i ∈ range n,
        if idx[i]? = some r then elem.getD i 0 else 0 := by
    intro n hn
    induction n with
    | zero => exact ⟨b, rfl, rfl, by simp⟩
    | succ n ih =>
      obtain ⟨b', e, l, hb⟩ := ih (by omega)
      have hk : idx[n]'(by omega) < b'.length := by rw [l]; exact hr _ (List.getElem_mem _)
      refine ⟨b'.set (idx[n]'(by omega)) (b'.getD (idx[n]'(by omega)) 0 + elem.getD n 0), ?_, ?_, ?_⟩
      · rw [List.range_succ, List.foldlM_append, e]
        simp [show n < idx.length by omega, show n < elem.length by omega, hk]
      · simp [l]
      · intro r
        rw [sum_range_succ, ← add_assoc, ← hb r]
        have e1 : idx[n]? = some (idx[n]'(by omega)) := by simp [show n < idx.length by omega]
        rw [e1]
        simp only [List.getD_eq_getElem?_getD, List.getElem?_set, Option.some.injEq]
        by_cases h : idx[n]'(by omega) = r
        · subst h; simp [hk]
        · simp [h]
  exact key _ le_rfl

/-- What vector assembly relies on. -/
structure VecAssemblyOk (entities : List E) (dofh : DofMap E) (prov : EntityVectorProvider E R)
    (n : ℕ) : Prop where
  big : ∀ e ∈ entities, prov.isActive e = true → (dofh.dofs e).length ≤ (prov.eval e).length
  range : ∀ e ∈ entities, prov.isActive e = true → ∀ d ∈ dofh.dofs e, d < n

/-- **C08**. -/
theorem C08_assembleVectorLocally [AddCommMonoid R] (entities : List E) (dofh : DofMap E)
    (prov : EntityVectorProvider E R) (b : List R) (h : VecAssemblyOk entities dofh prov b.length) :
    ∃ b', assembleVectorLocally entities dofh prov b = some b' ∧ b'.length = b.length ∧
      ∀ r, b'.getD r 0 = b.getD r 0 + (entities.map (fun e => vecContribution dofh prov e r)).sum := by
  induction entities generalizing b with
  | nil => exact ⟨b, rfl, rfl, by simp⟩
  | cons e es ih =>
    have hes : VecAssemblyOk es dofh prov b.length :=
      ⟨fun e' he => h.big e' (by simp [he]), fun e' he => h.range e' (by simp [he])⟩
    by_cases hact : prov.isActive e = true
    · obtain ⟨b1, e1, l1, h1⟩ := scatterVector_eq (dofh.dofs e) (prov.eval e) b
        (h.big e (by simp) hact) (h.range e (by simp) hact)
      obtain ⟨b2, e2, l2, h2⟩ := ih b1 (by rw [l1]; exact hes)
      refine ⟨b2, ?_, by omega, ?_⟩
      · unfold assembleVectorLocally at e2 ⊢
        rw [List.foldlM_cons]
        have : assembleVectorStep dofh prov b e = some b1 := by
          simp [assembleVectorStep, hact, h.big e (by simp) hact, e1]
        rw [this]; exact e2
      · intro r
        rw [h2, h1, List.map_cons, List.sum_cons, ← add_assoc]
        simp [vecContribution, hact]
    · obtain ⟨b2, e2, l2, h2⟩ := ih b hes
      refine ⟨b2, ?_, l2, ?_⟩
      · unfold assembleVectorLocally at e2 ⊢
        rw [List.foldlM_cons]
        have : assembleVectorStep dofh prov b e = some b := by simp [assembleVectorStep, hact]
        rw [this]; exact e2
      · intro r
        rw [h2, List.map_cons, List.sum_cons]
        simp [vecContribution, hact]

/-- **C08** for the variant creating the vector. -/
theorem C08_assembleVectorLocallyNew [AddCommMonoid R] (entities : List E) (dofh : DofMap E)
    (prov : EntityVectorProvider E R) (h : VecAssemblyOk entities dofh prov dofh.numDofs) :
    ∃ b', assembleVectorLocallyNew entities dofh prov = some b' ∧ b'.length = dofh.numDofs ∧
      ∀ r, b'.getD r 0 = (entities.map (fun e => vecContribution dofh prov e r)).sum := by
  obtain ⟨b', e, l, hb⟩ := C08_assembleVectorLocally entities dofh prov
    (List.replicate dofh.numDofs 0) (by simpa using h)
  refine ⟨b', e, by simpa using l, ?_⟩
  intro r
  rw [hb]
  by_cases hr : r < dofh.numDofs <;> simp [hr]

/-- **C08**, order independence. -/
theorem C08_order_independent [AddCommMonoid R] (es es' : List E) (hp : es.Perm es')
    (dofh : DofMap E) (prov : EntityVectorProvider E R) (b : List R)
    (h : VecAssemblyOk es dofh prov b.length) :
    ∃ b', assembleVectorLocally es dofh prov b = some b' ∧
      assembleVectorLocally es' dofh prov b = some b' := by
  have h' : VecAssemblyOk es' dofh prov b.length :=
    ⟨fun e he => h.big e (hp.mem_iff.2 he), fun e he => h.range e (hp.mem_iff.2 he)⟩
  obtain ⟨b₁, e₁, l₁, E₁⟩ := C08_assembleVectorLocally es dofh prov b h
  obtain ⟨b₂, e₂, l₂, E₂⟩ := C08_assembleVectorLocally es' dofh prov b h'
  refine ⟨b₁, e₁, ?_⟩
  rw [e₂]
  congr 1
  apply List.ext_getElem (by omega)
  intro i h1 h2
  have := E₂ i
  rw [← (hp.map (fun e => vecContribution dofh prov e i)).sum_eq, ← E₁ i] at this
  simpa [h1, h2] using this

/-- Non-vacuity: dofs of two triangles sharing an edge. -/
def exampleDofMap : DofMap Bool := ⟨4, fun e => if e then [0, 1, 2] else [2, 1, 3]⟩
def exampleProv : EntityMatrixProvider Bool ℤ :=
  ⟨fun _ => true, fun _ => ⟨3, 3, fun i j => if i = j then 2 else -1⟩⟩

example : MatAssemblyOk [true, false] exampleDofMap exampleDofMap exampleProv 4 4 :=
  ⟨by decide, by decide, by decide, by decide⟩
example : matContribution exampleDofMap exampleDofMap exampleProv true 1 2
    + matContribution exampleDofMap exampleDofMap exampleProv false 1 2 = -2 := by decide
example : VecAssemblyOk [true, false] exampleDofMap
    (⟨fun e => e, fun _ => [(1 : ℤ), 2, 3, 4]⟩ : EntityVectorProvider Bool ℤ) 4 :=
  ⟨by decide, by decide⟩

end Verif
