import Verif.Lemmas.VtkFill
import Verif.Lemmas.OptList

/-!
# Cells of the grid of `VtkWriter`
-/

namespace Verif
open Geo

variable {K : Type} [Field K] [LinearOrder K] [IsStrictOrderedRing K] {V : Type}
variable {T : Topo} {n : ℕ} {aux : RefEl → List (List K)} {f : Ent → List K → V}

theorem mids_reverse (n : ℕ) : (mids n).reverse = (mids n).map fun i => n - i := by
  refine List.ext_getElem (by simp [mids]) fun i h1 h2 => ?_
  rw [List.getElem_reverse]
  have h3 : i < n - 1 := by simpa [mids] using h1
  simp only [mids, List.getElem_map, List.getElem_range, List.length_map, List.length_range]
  omega

/-- The points on an edge. -/
def edgeIdx (T : Topo) (aux : RefEl → List (List K)) (f : Ent → List K → V) (n s : ℕ) : List ℕ :=
  (List.range (n - 1)).map fun i => vtkStart T aux f (1, s) + i

/-- What is known about the offsets of a writer. -/
def OffsetsOk (T : Topo) (aux : RefEl → List (List K)) (f : Ent → List K → V) (n codim : ℕ) (off : ℕ → List ℕ) : Prop :=
  ∀ cd ≤ 1, (off cd).length = T.num cd ∧ (codim ≤ cd → ∀ i < T.num cd, ∀ r, T.refEl (cd, i) = some r →
    0 < numAuxNodes r n → (off cd)[i]? = some (vtkStart T aux f (cd, i)))

theorem vtkRefEl_edge {s : ℕ} (hs : s < T.numEdges) : T.refEl (1, s) = some .segment := by
  have : s < T.num 1 := hs
  simp [Topo.refEl, this]

omit [Field K] [LinearOrder K] [IsStrictOrderedRing K] in
theorem vtkSegmentNodes_eq {off : ℕ → List ℕ} {codim : ℕ} (hc : codim < 2) (ho : OffsetsOk T aux f n codim off) {s : ℕ}
    (hs : s < T.numEdges) (inv : Bool) : vtkSegmentNodes (off 1) (numAuxNodes .segment n) s inv =
      some (if inv then (edgeIdx T aux f n s).reverse else edgeIdx T aux f n s) := by
  obtain ⟨h1, h2⟩ := ho 1 le_rfl
  have hs1 : s < (off 1).length := h1 ▸ hs
  have hna : numAuxNodes .segment n = n - 1 := rfl
  unfold vtkSegmentNodes edgeIdx
  rw [List.getElem?_eq_getElem hs1, Option.map_some, hna]
  rcases Nat.eq_zero_or_pos (n - 1) with h0 | h0
  · rw [h0]
    cases inv <;> rfl
  · have h3 := h2 (by omega) s hs .segment (vtkRefEl_edge hs) (hna ▸ h0)
    rw [List.getElem?_eq_getElem hs1] at h3
    rw [Option.some.inj h3, List.map_reverse]

/-- Values at the points on an edge. -/
theorem edgeIdx_values {codim : ℕ} (hc : codim < 2) (hseg : aux .segment = (mids n).map fun i : ℕ => [(i : K) / n]) {s : ℕ}
    (hs : s < T.numEdges) : (edgeIdx T aux f n s).map (fun k => (vtkAll T aux f codim)[k]?) =
      (mids n).map fun i : ℕ => some (f (1, s) [(i : K) / n]) := by
  unfold edgeIdx
  rw [List.map_map]
  have hm : (mids n).map (fun i : ℕ => some (f (1, s) [(i : K) / n])) =
      (List.range (n - 1)).map fun i : ℕ => some (f (1, s) [((i + 1 : ℕ) : K) / n]) := by
    unfold mids
    rw [List.map_map]
    rfl
  rw [hm]
  refine List.map_congr_left fun i hi => ?_
  have hi' := List.mem_range.1 hi
  have hl : i < (aux .segment).length := by rw [hseg, List.length_map, mids_length]; exact hi'
  rw [Function.comp, vtkAll_aux (by omega) le_rfl hs (vtkRefEl_edge hs) hl, hseg]
  congr 2
  rw [List.getD_eq_getElem _ _ (by rw [← hseg]; exact hl)]
  simp [mids]

/-- Values at the points on a side of a cell, in the direction of the side or, if `inv`, in the opposite direction. -/
theorem sideIdx_values (hT : T.WF) (hf : T.SingleValued f) (hn : 1 ≤ n) {codim : ℕ} (hc : codim < 2)
    (hseg : aux .segment = (mids n).map fun i : ℕ => [(i : K) / n]) {c : ℕ} {r : RefEl} (hr : T.refEl (0, c) = some r)
    {j : ℕ} (hj : j < r.numNodes) (hs : (T.cell c).edges.getD j 0 < T.numEdges) (inv : Bool) :
    (if (T.cell c).ori.getD j false == inv then (edgeIdx T aux f n ((T.cell c).edges.getD j 0)).reverse
      else edgeIdx T aux f n ((T.cell c).edges.getD j 0)).map (fun k => (vtkAll T aux f codim)[k]?) =
      (mids n).map fun i : ℕ => some (f (0, c) (sidePoint r j (if inv then 1 - (i : K) / n else (i : K) / n))) := by
  have hn0 : (0 : K) < n := by exact_mod_cast hn
  have hval := edgeIdx_values (aux := aux) (f := f) hc hseg hs
  have hm : ∀ i ∈ mids n, (0 : K) ≤ (i : K) / n ∧ (i : K) / n ≤ 1 := by
    intro i hi
    have := (mem_mids.1 hi).2
    refine ⟨by positivity, ?_⟩
    rw [div_le_one hn0]
    exact_mod_cast this.le
  have hrev : ∀ i ∈ mids n, ((n - i : ℕ) : K) / n = 1 - (i : K) / n := by
    intro i hi
    have := (mem_mids.1 hi).2
    rw [Nat.cast_sub this.le, sub_div, div_self hn0.ne']
  have hside := fun (t : K) h0 h1 => (hf c r hr j hj).1 t h0 h1
  unfold Topo.onSide at hside
  cases ho : (T.cell c).ori.getD j false <;> cases inv
  · simp only [BEq.rfl, if_true, Bool.false_eq_true, if_false]
    rw [List.map_reverse, hval, ← List.map_reverse, mids_reverse, List.map_map]
    refine List.map_congr_left fun i hi => ?_
    have := hside (1 - (i : K) / n) (by linarith [(hm i hi).2]) (by linarith [(hm i hi).1])
    rw [ho] at this
    simp only [Bool.false_eq_true, if_false, sub_sub_cancel] at this
    simp only [Function.comp, hrev i hi, this]
  · simp only [Bool.false_eq_true, if_false, show (false == true) = false from rfl, if_true]
    rw [hval]
    refine List.map_congr_left fun i hi => ?_
    have := hside ((i : K) / n) (hm i hi).1 (hm i hi).2
    rw [ho] at this
    simp only [Bool.false_eq_true, if_false] at this
    rw [this]
  · simp only [show (true == false) = false from rfl, Bool.false_eq_true, if_false]
    rw [hval]
    refine List.map_congr_left fun i hi => ?_
    have := hside ((i : K) / n) (hm i hi).1 (hm i hi).2
    rw [ho] at this
    simp only [if_true] at this
    rw [this]
  · simp only [BEq.rfl, if_true]
    rw [List.map_reverse, hval, ← List.map_reverse, mids_reverse, List.map_map]
    refine List.map_congr_left fun i hi => ?_
    have := hside (1 - (i : K) / n) (by linarith [(hm i hi).2]) (by linarith [(hm i hi).1])
    rw [ho] at this
    simp only [if_true] at this
    simp only [Function.comp, hrev i hi, this]

/-- Values at the interior points of a cell. -/
theorem innerIdx_values (ha : AuxOk n aux) {c : ℕ} {r : RefEl} (hne : r ≠ .point) (hc : c < T.numCells)
    (hr : T.refEl (0, c) = some r) :
    ((List.range (numAuxNodes r n)).map fun i => vtkStart T aux f (0, c) + i).map (fun k => (vtkAll T aux f 0)[k]?) =
      (aux r).map fun x => some (f (0, c) x) := by
  rw [List.map_map]
  refine List.ext_getElem (by simp [ha.len r hne]) fun i h1 h2 => ?_
  have hi : i < (aux r).length := by simpa using h2
  rw [List.getElem_map, List.getElem_map, List.getElem_range, Function.comp, vtkAll_aux le_rfl (by omega) hc hr hi,
    List.getD_eq_getElem _ _ hi]

omit [Field K] [LinearOrder K] [IsStrictOrderedRing K] in
theorem innerIdx_eq {off : ℕ → List ℕ} (ho : OffsetsOk T aux f n 0 off) {c : ℕ} {r : RefEl} (hc : c < T.numCells)
    (hr : T.refEl (0, c) = some r) :
    ((off 0)[c]?).map (fun start => (List.range (numAuxNodes r n)).map fun i => start + i) =
      some ((List.range (numAuxNodes r n)).map fun i => vtkStart T aux f (0, c) + i) := by
  obtain ⟨h1, h2⟩ := ho 0 (by omega)
  have hc1 : c < (off 0).length := h1 ▸ hc
  rw [List.getElem?_eq_getElem hc1, Option.map_some]
  rcases Nat.eq_zero_or_pos (numAuxNodes r n) with h0 | h0
  · rw [h0]
    rfl
  · have h3 := h2 le_rfl c hc r hr h0
    rw [List.getElem?_eq_getElem hc1] at h3
    rw [Option.some.inj h3]

/-- Values at the nodes of a cell. -/
theorem nodeIdx_values {codim : ℕ} (l : List ℕ) (hl : ∀ v ∈ l, v < T.numNodes) :
    l.map (fun k => (vtkAll T aux f codim)[k]?) = l.map fun v => some (f (2, v) []) :=
  List.map_congr_left fun v hv => vtkAll_main (hl v hv)

/-- The points on side `j` of a cell. -/
def sideIdx (T : Topo) (aux : RefEl → List (List K)) (f : Ent → List K → V) (n c : ℕ) (inv : List Bool) (j : ℕ) : List ℕ :=
  if (T.cell c).ori.getD j false == inv.getD j false then (edgeIdx T aux f n ((T.cell c).edges.getD j 0)).reverse
  else edgeIdx T aux f n ((T.cell c).edges.getD j 0)

omit [Field K] [LinearOrder K] [IsStrictOrderedRing K] in
theorem vtkCellSegments_eq {off : ℕ → List ℕ} {codim : ℕ} (hcd : codim < 2) (ho : OffsetsOk T aux f n codim off)
    (hT : T.WF) {c : ℕ} (hc : c < T.numCells) (inv : List Bool) (hl : inv.length = (T.cell c).nodes.length) :
    vtkCellSegments (off 1) (numAuxNodes .segment n) ((T.cell c).edges.map fun i => (1, i)) (T.cell c).ori inv =
      some ((List.range inv.length).flatMap (sideIdx T aux f n c inv)) := by
  unfold vtkCellSegments
  have hm : (List.range inv.length).mapM (fun j => ((((T.cell c).edges.map fun i => ((1, i) : Ent))[j]?).bind fun s =>
      ((T.cell c).ori[j]?).bind fun o => (inv[j]?).bind fun i =>
        vtkSegmentNodes (off 1) (numAuxNodes .segment n) s.2 (o == i))) =
      some ((List.range inv.length).map (sideIdx T aux f n c inv)) := by
    refine mapM_pure _ _ _ fun j hj => ?_
    have hj' := List.mem_range.1 hj
    have h1 : j < (T.cell c).edges.length := by rw [hT.cell_edges_len c hc, ← hl]; exact hj'
    have h2 : j < (T.cell c).ori.length := by rw [hT.cell_ori_len c hc, ← hl]; exact hj'
    rw [List.getElem?_map, List.getElem?_eq_getElem h1, List.getElem?_eq_getElem h2, List.getElem?_eq_getElem hj']
    simp only [Option.map_some, Option.bind_some]
    rw [vtkSegmentNodes_eq hcd ho (hT.cell_edges c hc _ (List.getElem_mem h1)), sideIdx, List.getD_eq_getElem _ _ h1,
      List.getD_eq_getElem _ _ h2, List.getD_eq_getElem _ _ hj']
  rw [hm, Option.map_some, List.flatMap_def]

/-- Directions in which the sides of a cell are listed. -/
def sideInv : RefEl → List Bool
  | .quad => [false, false, true, true]
  | _ => [false, false, false]

/-- The points of a cell of the grid: for all cells of the mesh. -/
theorem vtkCell_cell (hT : T.WF) (hf : T.SingleValued f) (hn : 1 ≤ n) (ha : AuxOk n aux)
    (hseg : aux .segment = (mids n).map fun i : ℕ => [(i : K) / n]) {off : ℕ → List ℕ} (ho : OffsetsOk T aux f n 0 off)
    {c : ℕ} (hc : c < T.numCells) {r : RefEl} (hr : T.refEl (0, c) = some r) :
    vtkCell T 0 n off (0, c) = some ((T.cell c).nodes ++ (List.range r.numNodes).flatMap (sideIdx T aux f n c (sideInv r)) ++
        (List.range (numAuxNodes r n)).map (fun i => vtkStart T aux f (0, c) + i), vtkTypeOf r n) ∧
      ((T.cell c).nodes ++ (List.range r.numNodes).flatMap (sideIdx T aux f n c (sideInv r)) ++
        (List.range (numAuxNodes r n)).map (fun i => vtkStart T aux f (0, c) + i)).map (fun k => (vtkAll T aux f 0)[k]?) =
        ((r.corners : List (List K)) ++ ((List.range r.numNodes).flatMap fun j => (mids n).map fun i : ℕ =>
          sidePoint r j (if (sideInv r).getD j false then 1 - (i : K) / n else (i : K) / n)) ++ aux r).map
          fun x => some (f (0, c) x) := by
  have hin := innerIdx_eq ho hc hr
  have hlen : (T.cell c).nodes.length = r.numNodes ∧ (sideInv r).length = r.numNodes ∧
      (r.corners : List (List K)).length = r.numNodes ∧ r ≠ .point := by
    have h0 : c < T.num 0 := hc
    rcases refEl_cell_or hT hc with h | h
    · obtain rfl : r = .tria := Option.some.inj (hr ▸ h)
      refine ⟨?_, rfl, rfl, by simp⟩
      rcases hT.cell_len c hc with h3 | h4
      · exact h3
      · simp [Topo.refEl, h0, h4] at h
    · obtain rfl : r = .quad := Option.some.inj (hr ▸ h)
      refine ⟨?_, rfl, rfl, by simp⟩
      rcases hT.cell_len c hc with h3 | h4
      · simp [Topo.refEl, h0, h3] at h
      · exact h4
  obtain ⟨hl, hli, hlc, hne⟩ := hlen
  constructor
  · have hs := vtkCellSegments_eq (by omega) ho hT hc (sideInv r) (hli.trans hl.symm)
    unfold vtkCell
    rw [hr, Option.bind_some]
    have hp : T.subEntities (0, c) (2 - 0) = some ((T.cell c).nodes.map fun i => (2, i)) := rfl
    have he : T.subEntities (0, c) 1 = some ((T.cell c).edges.map fun i => (1, i)) := rfl
    have hns : (((T.cell c).nodes.map fun i => ((2, i) : Ent)).map fun p => p.2) = (T.cell c).nodes := by
      rw [List.map_map]
      simp [Function.comp_def]
    rw [hp, Option.bind_some, hin]
    rw [hli] at hs
    rcases refEl_cell_or hT hc with h | h
    · obtain rfl : r = .tria := Option.some.inj (hr ▸ h)
      simp only [he, Option.bind_some]
      rw [show ([false, false, false] : List Bool) = sideInv .tria from rfl, hs, Option.bind_some, if_pos (by norm_num),
        Option.bind_some, hns]
      by_cases h1 : n = 1
      · simp [h1, vtkTypeOf]
      · simp [h1, vtkTypeOf]
    · obtain rfl : r = .quad := Option.some.inj (hr ▸ h)
      simp only [he, Option.bind_some]
      rw [show ([false, false, true, true] : List Bool) = sideInv .quad from rfl, hs, Option.bind_some, if_pos (by norm_num),
        Option.bind_some, hns]
      by_cases h1 : n = 1
      · simp [h1, vtkTypeOf]
      · simp [h1, vtkTypeOf]
  · rw [List.map_append, List.map_append, innerIdx_values ha hne hc hr, nodeIdx_values _ (hT.cell_nodes c hc),
      List.map_append, List.map_append]
    congr 1
    congr 1
    · refine List.ext_getElem (by simp [hl, hlc]) fun i h1 h2 => ?_
      have h1' : i < (T.cell c).nodes.length := by simpa using h1
      have h2' : i < (r.corners : List (List K)).length := by simpa using h2
      have := (hf c r hr i (hl ▸ h1')).2
      rw [List.getD_eq_getElem _ _ h1', List.getD_eq_getElem _ _ h2'] at this
      rw [List.getElem_map, List.getElem_map, this]
    · rw [List.map_flatMap, List.map_flatMap]
      refine List.flatMap_congr fun j hj => ?_
      have hj' := List.mem_range.1 hj
      have he : j < (T.cell c).edges.length := by rw [hT.cell_edges_len c hc, hl]; exact hj'
      have := sideIdx_values (aux := aux) hT hf hn (codim := 0) (by omega) hseg hr hj'
        (hT.cell_edges c hc _ (by rw [List.getD_eq_getElem _ _ he]; exact List.getElem_mem _)) ((sideInv r).getD j false)
      rw [sideIdx, this, List.map_map]
      rfl

/-- The points of a cell of the grid: for all edges of the mesh. -/
theorem vtkCell_edge (hT : T.WF) (hf : T.MatchesEnds f)
    (hseg : aux .segment = (mids n).map fun i : ℕ => [(i : K) / n]) {off : ℕ → List ℕ} (ho : OffsetsOk T aux f n 1 off)
    {e : ℕ} (he : e < T.numEdges) :
    vtkCell T 1 n off (1, e) = some ([(T.edge e).1, (T.edge e).2] ++ edgeIdx T aux f n e, vtkTypeOf .segment n) ∧
      ([(T.edge e).1, (T.edge e).2] ++ edgeIdx T aux f n e).map (fun k => (vtkAll T aux f 1)[k]?) =
        (([[0], [1]] : List (List K)) ++ (mids n).map fun i : ℕ => [(i : K) / n]).map fun x => some (f (1, e) x) := by
  constructor
  · unfold vtkCell
    have hp : T.subEntities (1, e) (2 - 1) = some [(2, (T.edge e).1), (2, (T.edge e).2)] := rfl
    rw [vtkRefEl_edge he, Option.bind_some, hp, Option.bind_some]
    simp only []
    rw [vtkSegmentNodes_eq (by omega) ho he, Option.bind_some, if_neg (by norm_num), Option.bind_some]
    by_cases h1 : n = 1
    · simp [h1, vtkTypeOf]
    · simp [h1, vtkTypeOf]
  · rw [List.map_append, edgeIdx_values (by omega) hseg he, nodeIdx_values _ (by
      intro v hv
      rcases List.mem_pair.1 hv with rfl | rfl
      · exact (hT.edge_lt e he).1
      · exact (hT.edge_lt e he).2)]
    simp [(hf e he).1, (hf e he).2]

end Verif
