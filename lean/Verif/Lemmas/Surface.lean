import Verif.Spec.Builders
import Verif.Lemmas.DataSet
import Mathlib.Data.List.Perm.Subperm
import Mathlib.Data.List.Nodup

namespace Verif

/-- All directed sides of all cells. -/
def Topo.dsides (T : Topo) : List (ℕ × ℕ) :=
  (List.range T.numCells).flatMap fun c => (List.range (T.cell c).nodes.length).map (side (T.cell c).nodes)

theorem countP_split {β : Type} (l : List β) (p q r : β → Bool)
    (h : ∀ x ∈ l, (if p x then 1 else 0) = (if q x then 1 else 0) + (if r x then 1 else 0)) :
    l.countP p = l.countP q + l.countP r := by
  induction l with
  | nil => rfl
  | cons a l ih =>
    rw [List.countP_cons, List.countP_cons, List.countP_cons, ih (fun x hx => h x (by simp [hx]))]
    have := h a (by simp)
    omega

theorem incidence_eq (T : Topo) (hT : T.WF) (e : ℕ) (he : e < T.numEdges) :
    T.incidence e = T.dsides.count (T.edge e) + T.dsides.count (T.edge e).swap := by
  have cell : ∀ c < T.numCells, (T.cell c).edges.count e =
      ((List.range (T.cell c).nodes.length).map (side (T.cell c).nodes)).count (T.edge e) +
      ((List.range (T.cell c).nodes.length).map (side (T.cell c).nodes)).count (T.edge e).swap := by
    intro c hc
    rw [count_eq_countP_range, hT.cell_edges_len c hc, List.count, List.count, List.countP_map, List.countP_map]
    apply countP_split
    intro j hj
    have hj := List.mem_range.1 hj
    have hje : j < (T.cell c).edges.length := by rw [hT.cell_edges_len c hc]; exact hj
    have hs := hT.cell_side c hc j hj
    have hget : (T.cell c).edges.getD j 0 = (T.cell c).edges[j] := by simp [hje]
    rw [hget] at hs
    have hlt := hT.cell_edges c hc _ (List.getElem_mem hje)
    have hne := hT.edge_ne e he
    have hsw : ¬ T.edge e = (T.edge e).swap := by
      intro h
      exact hne (congrArg Prod.fst h)
    rw [List.getElem?_eq_getElem hje]
    simp only [Option.some.injEq, decide_eq_true_eq, Function.comp, beq_iff_eq]
    by_cases h : (T.cell c).edges[j] = e
    · rw [if_pos h]
      rw [h] at hs
      rcases hs with hs | hs
      · rw [if_pos hs.symm, if_neg (by rw [← hs]; exact hsw)]
      · have hs' : side (T.cell c).nodes j = (T.edge e).swap := by rw [hs]; simp
        rw [if_pos hs', if_neg (by rw [hs']; exact fun h => hsw h.symm)]
    · rw [if_neg h]
      have h1 : ¬ side (T.cell c).nodes j = T.edge e := by
        intro h2; rw [h2] at hs
        exact h (hT.edge_inj _ hlt e he hs)
      have h2 : ¬ side (T.cell c).nodes j = (T.edge e).swap := by
        intro h2; rw [h2] at hs
        apply h (hT.edge_inj _ hlt e he _)
        rcases hs with hs | hs
        · exact Or.inr hs
        · exact Or.inl (by simpa using hs)
      rw [if_neg h1, if_neg h2]
  unfold Topo.incidence Topo.dsides
  have gen : ∀ n ≤ T.numCells, ((List.range n).map fun c => (T.cell c).edges.count e).sum =
      ((List.range n).flatMap fun c => (List.range (T.cell c).nodes.length).map (side (T.cell c).nodes)).count (T.edge e) +
      ((List.range n).flatMap fun c => (List.range (T.cell c).nodes.length).map (side (T.cell c).nodes)).count (T.edge e).swap := by
    intro n hn
    induction n with
    | zero => rfl
    | succ n ih =>
      rw [List.range_succ, List.map_append, List.sum_append, ih (by omega), List.flatMap_append,
        List.count_append, List.count_append]
      simp only [List.map_cons, List.map_nil, List.sum_cons, List.sum_nil, List.flatMap_cons,
        List.flatMap_nil, List.append_nil]
      rw [cell n (by omega)]
      omega
  exact gen _ (Nat.le_refl _)

/-- If no two sides have the same direction and end nodes, no edge is the side of more than two cells. -/
theorem incidence_le_two (T : Topo) (hT : T.WF) (hn : T.dsides.Nodup) (e : ℕ) (he : e < T.numEdges) :
    T.incidence e ≤ 2 := by
  rw [incidence_eq T hT e he]
  have h1 := List.nodup_iff_count_le_one.1 hn (T.edge e)
  have h2 := List.nodup_iff_count_le_one.1 hn (T.edge e).swap
  omega

theorem mem_dsides (T : Topo) (x : ℕ × ℕ) :
    x ∈ T.dsides ↔ ∃ c < T.numCells, ∃ j < (T.cell c).nodes.length, side (T.cell c).nodes j = x := by
  simp [Topo.dsides]

theorem incidence_pos (T : Topo) (hT : T.WF) (e : ℕ) (he : e < T.numEdges)
    (h : ∃ x ∈ T.dsides, SamePair (T.edge e) x) : 1 ≤ T.incidence e := by
  rw [incidence_eq T hT e he]
  obtain ⟨x, hx, hs⟩ := h
  rcases hs with hs | hs
  · have := List.one_le_count_iff.2 hx
    rw [← hs] at this
    omega
  · have := List.one_le_count_iff.2 hx
    have hx' : x = (T.edge e).swap := by rw [hs]; simp
    rw [hx'] at this
    omega

theorem incidence_two (T : Topo) (hT : T.WF) (hn : T.dsides.Nodup) (e : ℕ) (he : e < T.numEdges)
    (h1 : T.edge e ∈ T.dsides) (h2 : (T.edge e).swap ∈ T.dsides) : T.incidence e = 2 := by
  rw [incidence_eq T hT e he, List.count_eq_one_of_mem hn h1, List.count_eq_one_of_mem hn h2]

/-- Sum of the incidences. -/
theorem sum_incidence (T : Topo) (hT : T.WF) :
    ((List.range T.numEdges).map T.incidence).sum =
      ((List.range T.numCells).map fun c => (T.cell c).nodes.length).sum := by
  show ((List.range T.numEdges).map fun e =>
    ((List.range T.numCells).map fun c => (T.cell c).edges.count e).sum).sum = _
  rw [sum_comm']
  congr 1
  apply List.map_congr_left
  intro c hc
  rw [sum_count_range _ _ (hT.cell_edges c (List.mem_range.1 hc)), hT.cell_edges_len c (List.mem_range.1 hc)]

/-- The number of boundary edges, if every edge belongs to one or two cells. -/
theorem numBoundary_eq (T : Topo) (hT : T.WF)
    (h : ∀ e < T.numEdges, T.incidence e = 1 ∨ T.incidence e = 2) :
    2 * T.numEdges = ((List.range T.numCells).map fun c => (T.cell c).nodes.length).sum + T.numBoundaryEdges := by
  rw [← sum_incidence T hT]
  unfold Topo.numBoundaryEdges
  have : ∀ n ≤ T.numEdges, 2 * n = ((List.range n).map T.incidence).sum +
      (List.range n).countP fun e => T.incidence e = 1 := by
    intro n hn
    induction n with
    | zero => rfl
    | succ n ih =>
      have := ih (by omega)
      rw [List.range_succ, List.map_append, List.sum_append, List.countP_append]
      rcases h n (by omega) with h1 | h1
      · simp [h1]; omega
      · simp [h1]; omega
  exact this _ (Nat.le_refl _)

/-- Counting edges: they are in bijection with a list of increasing pairs. -/
theorem numEdges_eq (T : Topo) (hT : T.WF) (L : List (ℕ × ℕ)) (hn : L.Nodup) (hf : ∀ p ∈ L, p.1 < p.2)
    (h1 : ∀ e < T.numEdges, ∃ p ∈ L, SamePair (T.edge e) p)
    (h2 : ∀ p ∈ L, ∃ e < T.numEdges, SamePair (T.edge e) p) : T.numEdges = L.length := by
  let key : ℕ × ℕ → ℕ × ℕ := fun q => if q.1 < q.2 then q else q.swap
  have hkey : ∀ q p : ℕ × ℕ, p.1 < p.2 → SamePair q p → key q = p := by
    intro q p hp hs
    rcases hs with rfl | rfl
    · simp only [key]; rw [if_pos hp]
    · simp only [key]; rw [if_neg (by simp; omega)]; simp
  have hkp : ∀ q : ℕ × ℕ, SamePair q (key q) := by
    intro q
    simp only [key]
    split
    · exact Or.inl rfl
    · exact Or.inr (by simp)
  have hperm : ((List.range T.numEdges).map fun e => key (T.edge e)).Perm L := by
    rw [List.perm_ext_iff_of_nodup _ hn]
    · intro p
      simp only [List.mem_map, List.mem_range]
      constructor
      · rintro ⟨e, he, rfl⟩
        obtain ⟨p, hp, hs⟩ := h1 e he
        rw [hkey _ p (hf p hp) hs]; exact hp
      · intro hp
        obtain ⟨e, he, hs⟩ := h2 p hp
        exact ⟨e, he, hkey _ p (hf p hp) hs⟩
    · refine List.Nodup.map_on ?_ List.nodup_range
      intro e he f hf' hkk
      have he := List.mem_range.1 he
      have hf' := List.mem_range.1 hf'
      apply hT.edge_inj e he f hf'
      have a := hkp (T.edge e)
      have b := hkp (T.edge f)
      rw [hkk] at a
      clear hkk
      generalize key (T.edge f) = k at a b
      rcases a with a | a <;> rcases b with b | b
      · exact Or.inl (a.trans b.symm)
      · exact Or.inr (by rw [a, b]; simp)
      · exact Or.inr (by rw [a, b])
      · exact Or.inl (a.trans b.symm)
  have := hperm.length_eq
  simpa using this

end Verif
