import Verif.Lemmas.DpgAssemble
import Verif.Props.DofHandler

/-!
# Element matrices of product spaces
-/

namespace Verif.Dpg
open Verif Finset

theorem flatMap_range_get {α : Type} (f : ℕ → List α) (n i a : ℕ) (hi : i < n) (ha : a < (f i).length) :
    ((List.range n).flatMap f)[((List.range i).map fun j => (f j).length).sum + a]? = (f i)[a]? := by
  induction n with
  | zero => omega
  | succ n ih =>
    rw [List.range_succ, List.flatMap_append]
    have hl : ∀ k, ((List.range k).flatMap f).length = ((List.range k).map fun j => (f j).length).sum := by
      intro k; rw [List.length_flatMap]
    by_cases h : i = n
    · subst h
      rw [List.getElem?_append_right (by rw [hl]; omega), hl, Nat.add_sub_cancel_left]
      simp
    · have hin : i < n := by omega
      have := ih hin
      rw [List.getElem?_append_left, this]
      by_contra hc
      rw [List.getElem?_eq_none (by omega), eq_comm, List.getElem?_eq_none_iff] at this
      omega

theorem list_list_sum_comm {α β : Type} (l : List α) (m : List β) (f : α → β → ℝ) :
    (l.map fun a => (m.map fun b => f a b).sum).sum = (m.map fun b => (l.map fun a => f a b).sum).sum := by
  induction l with
  | nil => simp
  | cons a l ih => simp [ih, List.sum_map_add]

section
variable {T : Topo} (hT : T.WF) {ls : List UniformLayout} {D : ProductFE.Data} (hD : ProductFE.init T ls = some D)
include hT hD

theorem comp_some {i : ℕ} (hi : i < ls.length) : ∃ h o, D.comps[i]? = some h ∧ D.offset i = some o ∧
    uniformDofHandler T ls[i] true = some h ∧ o = ((D.comps.take i).map DofHandler.numDofs).sum ∧
    o + h.numDofs ≤ (D.handler T).numDofs := by
  obtain ⟨d1, d2, d3, d4⟩ := (C15_construct T hT ls).2 D hD
  obtain ⟨h, h1, h2⟩ := d2 i ls[i] (List.getElem?_eq_getElem hi)
  refine ⟨h, _, h1, d3 i hi.le, h2, rfl, ?_⟩
  obtain ⟨hi', hi2⟩ := List.getElem?_eq_some_iff.1 h1
  rw [d4, ← List.take_append_drop i D.comps, List.map_append, List.sum_append,
    List.take_append_of_le_length (by simp; omega), List.take_take, Nat.min_self, List.drop_eq_getElem_cons hi', hi2,
    List.map_cons, List.sum_cons]
  omega

theorem comp_start {i : ℕ} (hi : i < ls.length) {e : Ent} (he : e ∈ T.entities 0) {h : DofHandler} {o : ℕ}
    (hh : D.comps[i]? = some h) (ho : D.offset i = some o) :
    ∃ s, D.localStartIndex e i = some s ∧ s + (h.all e).length ≤ ((D.handler T).all e).length ∧
      ∀ a < (h.all e).length, ((D.handler T).all e).getD (s + a) 0 = (h.all e).getD a 0 + o := by
  obtain ⟨a1, -, a3⟩ := C15_indices T hT ls D hD e (mem_cells he)
  obtain ⟨h', o', g1, g2, -, g3, -⟩ := comp_some hT hD hi
  rw [hh] at g1; cases g1
  rw [ho] at g2; cases g2
  refine ⟨_, a3 i hi.le, ?_, ?_⟩
  · rw [DofHandler.all, DofHandler.all, a1, Option.getD_some, List.length_flatMap]
    have : ∀ n, i < n → ((List.range i).map fun j => ((D.comps[j]?).elim [] (DofHandler.all · e)).length).sum +
        (h.all e).length ≤ ((List.range n).map fun j => (((D.comps[j]?).elim [] (DofHandler.all · e)).map
          (· + ((D.comps.take j).map DofHandler.numDofs).sum)).length).sum := by
      intro n hn
      induction n with
      | zero => omega
      | succ n ih =>
        rw [List.range_succ, List.map_append, List.sum_append]
        by_cases hin : i = n
        · subst hin
          simp [hh]
        · have := ih (by omega)
          omega
    exact this ls.length hi
  · intro a ha
    rw [List.getD_eq_getElem?_getD, DofHandler.all, a1, Option.getD_some]
    have key := flatMap_range_get (fun j => ((D.comps[j]?).elim [] (DofHandler.all · e)).map
          (· + ((D.comps.take j).map DofHandler.numDofs).sum)) ls.length i a hi (by simp [hh, ha])
    simp only [List.length_map] at key
    rw [key]
    simp [hh, ha, g3]

theorem product_dofsOk (hf : (D.handler T).numDofs < 2 ^ 31) : DofsOk T (D.handler T) := by
  refine ⟨fun e he => ?_, fun e he d hd => ?_, hf⟩
  · rw [DofHandler.all, (C15_indices T hT ls D hD e (mem_cells he)).1]; rfl
  · rw [DofHandler.all, (C15_indices T hT ls D hD e (mem_cells he)).1, Option.getD_some, List.mem_flatMap] at hd
    obtain ⟨i, hi, hd⟩ := hd
    obtain ⟨h, o, g1, -, g4, g3, g5⟩ := comp_some hT hD (List.mem_range.1 hi)
    rw [g1] at hd
    simp only [Option.elim_some, List.mem_map] at hd
    obtain ⟨d', hd', rfl⟩ := hd
    have := ((C11_uniform T hT _ h g4).2.2 e (mem_cells he)).1 d' hd'
    omega

theorem comp_dofsOk (hf : (D.handler T).numDofs < 2 ^ 31) {i : ℕ} (hi : i < ls.length) {h : DofHandler}
    (hh : D.comps[i]? = some h) : DofsOk T h := by
  obtain ⟨h', o, g1, -, g4, g3, g5⟩ := comp_some hT hD hi
  rw [hh] at g1; cases g1
  obtain ⟨x, -, y⟩ := C11_uniform T hT _ h g4
  exact ⟨fun e he => (x e (mem_cells he)).2.1, fun e he => (y e (mem_cells he)).1, by omega⟩

theorem product_numLocal {e : Ent} (he : e ∈ T.entities 0) :
    (D.handler T).numLocalDofs e = some ((D.handler T).all e).length := by
  have : (D.handler T).numLocalDofs e = ((D.handler T).globalDofIndices e).map List.length := rfl
  rw [this, DofHandler.all, (C15_indices T hT ls D hD e (mem_cells he)).1]
  rfl

theorem localPart_comp {i : ℕ} (hi : i < ls.length) {e : Ent} (he : e ∈ T.entities 0) {h : DofHandler} {s : ℕ}
    (hh : D.comps[i]? = some h) (hs : D.localStartIndex e i = some s) (u : List ℝ) {a : ℕ} (ha : a < (h.all e).length) :
    (localPart (D.handler T) u e).getD (s + a) 0 = (localPart h (compPart D i u) e).getD a 0 := by
  obtain ⟨h', o, g1, g2, g4, g3, g5⟩ := comp_some hT hD hi
  rw [hh] at g1; cases g1
  obtain ⟨s', b1, b2, b3⟩ := comp_start hT hD hi he hh g2
  rw [hs] at b1; cases b1
  have e1 : ∀ (g : DofHandler) (v : List ℝ) (b : ℕ), b < (g.all e).length →
      (localPart g v e).getD b 0 = v.getD ((g.all e).getD b 0) 0 := by
    intro g v b hb
    simp [localPart, hb]
  rw [e1 _ _ _ (by omega), e1 _ _ _ ha, b3 a ha, compPart, g2, hh]
  have hr : (h.all e).getD a 0 < h.numDofs := by
    refine ((C11_uniform T hT _ h g4).2.2 e (mem_cells he)).1 _ ?_
    simp [ha]
  simp only [Option.getD_some, Option.map_some, List.getD_eq_getElem?_getD, List.getElem?_take]
  rw [List.getD_eq_getElem?_getD] at hr
  rw [if_pos hr, List.getElem?_drop, Nat.add_comm]

end

/-! ## Blocks -/

theorem sum_block (n r0 k : ℕ) (h : r0 + k ≤ n) (f : ℕ → ℝ) :
    ∑ i ∈ range n, (if r0 ≤ i ∧ i < r0 + k then f (i - r0) else 0) = ∑ i ∈ range k, f i := by
  rw [← Finset.sum_filter]
  refine Finset.sum_bij' (fun i _ => i - r0) (fun i _ => r0 + i) ?_ ?_ ?_ ?_ ?_
  · intro i hi; simp only [mem_filter, mem_range] at hi ⊢; omega
  · intro i hi; simp only [mem_filter, mem_range] at hi ⊢; omega
  · intro i hi; simp only [mem_filter, mem_range] at hi ⊢; omega
  · intro i hi; simp only [mem_range] at hi ⊢; omega
  · intro i hi; rfl

theorem addBlock_form {M B M' : Dense ℝ} {r0 c0 : ℕ} (h : addBlock M r0 c0 B = some M') (x y x' y' : List ℝ)
    (hx : ∀ i < B.rows, x.getD (r0 + i) 0 = x'.getD i 0) (hy : ∀ i < B.cols, y.getD (c0 + i) 0 = y'.getD i 0) :
    M'.rows = M.rows ∧ M'.cols = M.cols ∧ M'.form x y = M.form x y + B.form x' y' := by
  unfold addBlock at h
  split_ifs at h with hb
  cases h
  refine ⟨rfl, rfl, ?_⟩
  unfold Dense.form
  have hB : ∑ r ∈ range B.rows, ∑ c ∈ range B.cols, x'.getD r 0 * (B.entry r c * y'.getD c 0) =
      ∑ r ∈ range M.rows, ∑ c ∈ range M.cols, if (r0 ≤ r ∧ r < r0 + B.rows) ∧ c0 ≤ c ∧ c < c0 + B.cols then
        x.getD r 0 * (B.entry (r - r0) (c - c0) * y.getD c 0) else 0 := by
    rw [← sum_block M.rows r0 B.rows hb.1]
    refine Finset.sum_congr rfl fun r _ => ?_
    by_cases h1 : r0 ≤ r ∧ r < r0 + B.rows
    · rw [if_pos h1]
      rw [← sum_block M.cols c0 B.cols hb.2 fun c => x'.getD (r - r0) 0 * (B.entry (r - r0) c * y'.getD c 0)]
      refine Finset.sum_congr rfl fun c _ => ?_
      by_cases h2 : c0 ≤ c ∧ c < c0 + B.cols
      · rw [if_pos h2, if_pos ⟨h1, h2⟩, ← hx _ (by omega), ← hy _ (by omega), Nat.add_sub_cancel' h1.1,
          Nat.add_sub_cancel' h2.1]
      · rw [if_neg h2, if_neg fun h => h2 h.2]
    · rw [if_neg h1]
      symm
      refine Finset.sum_eq_zero fun c _ => ?_
      rw [if_neg fun h => h1 h.1]
  rw [hB, ← Finset.sum_add_distrib]
  refine Finset.sum_congr rfl fun r _ => ?_
  rw [← Finset.sum_add_distrib]
  refine Finset.sum_congr rfl fun c _ => ?_
  by_cases h1 : (r0 ≤ r ∧ r < r0 + B.rows) ∧ c0 ≤ c ∧ c < c0 + B.cols
  · simp only [if_pos h1]; ring
  · simp only [if_neg h1]; ring

theorem addSegment_dot {v s v' : List ℝ} {r0 : ℕ} (h : addSegment v r0 s = some v') (x x' : List ℝ)
    (hx : ∀ i < s.length, x.getD (r0 + i) 0 = x'.getD i 0) :
    v'.length = v.length ∧ dotList x v' = dotList x v + dotList x' s := by
  unfold addSegment at h
  split_ifs at h with hb
  cases h
  refine ⟨by simp, ?_⟩
  unfold dotList
  rw [← sum_block v.length r0 s.length hb fun i => x'.getD i 0 * s.getD i 0, List.length_mapIdx, ← Finset.sum_add_distrib]
  refine Finset.sum_congr rfl fun r hr => ?_
  have hr' := Finset.mem_range.1 hr
  have e1 : (v.mapIdx fun i x => if r0 ≤ i ∧ i < r0 + s.length then x + s.getD (i - r0) 0 else x).getD r 0 =
      if r0 ≤ r ∧ r < r0 + s.length then v.getD r 0 + s.getD (r - r0) 0 else v.getD r 0 := by
    simp [List.getD_eq_getElem?_getD, List.getElem?_mapIdx, hr']
  rw [e1]
  by_cases h1 : r0 ≤ r ∧ r < r0 + s.length
  · rw [if_pos h1, if_pos h1, ← hx _ (by omega), Nat.add_sub_cancel' h1.1]; ring
  · rw [if_neg h1, if_neg h1]; ring

end Verif.Dpg
