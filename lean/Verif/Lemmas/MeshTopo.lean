import Verif.Lemmas.MeshBuild4

/-! The topology of a constructed mesh. -/

namespace Verif
variable {G : Type}

section
variable {ops : GeoOps G} {nodes : List (Option G)} {edges : List (EdgeIn G)}
  {cells : List (CellIn G)} {M : Mesh G} (hB : Built ops nodes edges cells M)
include hB

theorem Built.points_length : M.points.length = nodes.length := by
  rw [← hB.points, List.length_map]

theorem Built.cellAt (i : ℕ) (hi : i < cells.length) :
    ∃ p cell ref, M.entityByIndex 0 i = some p ∧ M.cellOf p = some cell ∧ M.IsEntity p ∧
      Mesh.codim p = 0 ∧ M.index p = some i ∧
      CellBuilt ops M.points M.segments i cells[i] ref cell ∧
      (ref = .tria → ∃ q, p = .tria q) ∧ (ref = .quad → ∃ q, p = .quad q) := by
  rcases hB.ptr0 i hi with ⟨q, hq, rfl⟩ | ⟨q, hq, rfl⟩
  · obtain ⟨c, h1, h2, h3⟩ := hB.trias q hq
    have : cells[(M.trias[q]).index] = c := by
      rw [List.getElem?_eq_getElem hi] at h1; simpa using h1
    rw [this]
    refine ⟨.tria q, M.trias[q], .tria, ?_, ?_, hq, rfl, ?_, h2, fun _ => ⟨q, rfl⟩, by simp⟩
    · simp [Mesh.entityByIndex, h3]
    · simp [Mesh.cellOf, hq]
    · simp [Mesh.index, hq]
  · obtain ⟨c, h1, h2, h3⟩ := hB.quads q hq
    have : cells[(M.quads[q]).index] = c := by
      rw [List.getElem?_eq_getElem hi] at h1; simpa using h1
    rw [this]
    refine ⟨.quad q, M.quads[q], .quad, ?_, ?_, hq, rfl, ?_, h2, by simp, fun _ => ⟨q, rfl⟩⟩
    · simp [Mesh.entityByIndex, h3]
    · simp [Mesh.cellOf, hq]
    · simp [Mesh.index, hq]

theorem Built.segAt (i : ℕ) (hi : i < M.segments.length) :
    ∃ p, ∃ hp : p < M.segments.length, M.entityByIndex 1 i = some (.seg p) ∧
      (M.segments[p]).index = i ∧ M.topo.edge i = ((M.segments[p]).p0, (M.segments[p]).p1) := by
  obtain ⟨p, hp, hi'⟩ := hB.ptr1 i hi
  have h2 := (hB.segs p hp).2
  rw [hi'] at h2
  have he : M.entityByIndex 1 i = some (.seg p) := by simp [Mesh.entityByIndex, h2]
  refine ⟨p, hp, he, hi', ?_⟩
  simp [Mesh.topo, he, Mesh.segOf, hp]

theorem Built.numCells' : M.topo.numCells = cells.length := hB.numCells

theorem Built.cell_eq (i : ℕ) (hi : i < cells.length) :
    (M.topo.cell i).nodes = cells[i].nodes ∧
    (M.topo.cell i).edges.length = cells[i].nodes.length ∧
    (M.topo.cell i).ori.length = cells[i].nodes.length ∧
    ∀ j < cells[i].nodes.length, ∃ q, ∃ hq : q < M.segments.length,
      (M.topo.cell i).edges[j]? = some (M.segments[q]).index ∧
      SamePair ((M.segments[q]).p0, (M.segments[q]).p1) (side cells[i].nodes j) ∧
      (M.topo.cell i).ori[j]? = some (decide ((M.segments[q]).p0 = cells[i].nodes.getD j 0)) := by
  obtain ⟨p, cell, ref, h1, h2, _, _, _, hc, _⟩ := hB.cellAt i hi
  have hcell : M.topo.cell i = ⟨cell.nodes, cell.edges.map (fun p => ((M.index (.seg p)).getD 0)), cell.ori⟩ := by
    simp [Mesh.topo, h1, h2]
  rw [hcell]
  refine ⟨hc.nodes, by simpa using hc.edges_len, hc.ori_len, ?_⟩
  intro j hj
  obtain ⟨e, s, h3, h4, h5, h6⟩ := hc.sides j hj
  obtain ⟨he, rfl⟩ := List.getElem?_eq_some_iff.1 h4
  refine ⟨e, he, ?_, h5, h6⟩
  simp [h3, Mesh.index, he]

theorem Built.edge_of_seg (p : ℕ) (hp : p < M.segments.length) :
    M.topo.edge (M.segments[p]).index = ((M.segments[p]).p0, (M.segments[p]).p1) := by
  have h2 := (hB.segs p hp).2
  simp [Mesh.topo, Mesh.entityByIndex, h2, Mesh.segOf, hp]

theorem Built.topo_WF (hv : ValidInput nodes edges cells) : M.topo.WF := by
  have hnl := hB.points_length
  refine
    { edge_ne := ?_, edge_lt := ?_, edge_inj := ?_, cell_len := ?_, cell_nodes := ?_,
      cell_edges_len := ?_, cell_ori_len := ?_, cell_edges := ?_, cell_side := ?_, cell_ori := ?_ }
  · intro e he
    obtain ⟨p, hp, _, _, h⟩ := hB.segAt e he
    rw [h]
    exact hB.seg_ne _ (List.getElem_mem hp)
  · intro e he
    obtain ⟨p, hp, _, _, h⟩ := hB.segAt e he
    rw [h]
    have := hB.seg_lt _ (List.getElem_mem hp)
    rw [← hnl] at this
    exact this
  · intro e he f hf h
    obtain ⟨p, hp, _, hpe, h1⟩ := hB.segAt e he
    obtain ⟨q, hq, _, hqe, h2⟩ := hB.segAt f hf
    rw [h1, h2] at h
    have := hB.seg_inj p hp q hq h
    subst this
    rw [← hpe, ← hqe]
  · intro c hc
    have hc' : c < cells.length := by rw [← hB.numCells']; exact hc
    rw [(hB.cell_eq c hc').1]
    exact hv.cell_len _ (List.getElem_mem hc')
  · intro c hc v hvv
    have hc' : c < cells.length := by rw [← hB.numCells']; exact hc
    rw [(hB.cell_eq c hc').1] at hvv
    have := hv.cell_lt _ (List.getElem_mem hc') v hvv
    rw [← hnl] at this
    exact this
  · intro c hc
    have hc' : c < cells.length := by rw [← hB.numCells']; exact hc
    obtain ⟨h1, h2, h3, _⟩ := hB.cell_eq c hc'
    rw [h1, h2]
  · intro c hc
    have hc' : c < cells.length := by rw [← hB.numCells']; exact hc
    obtain ⟨h1, h2, h3, _⟩ := hB.cell_eq c hc'
    rw [h1, h3]
  · intro c hc e he
    have hc' : c < cells.length := by rw [← hB.numCells']; exact hc
    obtain ⟨h1, h2, h3, h4⟩ := hB.cell_eq c hc'
    obtain ⟨j, hj, rfl⟩ := List.getElem_of_mem he
    obtain ⟨q, hq, h5, _⟩ := h4 j (by omega)
    rw [List.getElem?_eq_getElem hj] at h5
    simp only [Option.some.injEq] at h5
    rw [h5]
    exact (hB.segs q hq).1
  · intro c hc j hj
    have hc' : c < cells.length := by rw [← hB.numCells']; exact hc
    obtain ⟨h1, h2, h3, h4⟩ := hB.cell_eq c hc'
    rw [h1] at hj ⊢
    obtain ⟨q, hq, h5, h6, _⟩ := h4 j hj
    rw [List.getD_eq_getElem?_getD, h5, Option.getD_some, hB.edge_of_seg q hq]
    exact h6
  · intro c hc j hj
    have hc' : c < cells.length := by rw [← hB.numCells']; exact hc
    obtain ⟨h1, h2, h3, h4⟩ := hB.cell_eq c hc'
    rw [h1] at hj ⊢
    obtain ⟨q, hq, h5, h6, h7⟩ := h4 j hj
    rw [show (M.topo.cell c).edges.getD j 0 = (M.segments[q]).index by
        rw [List.getD_eq_getElem?_getD, h5, Option.getD_some],
      show (M.topo.cell c).ori.getD j false = _ by
        rw [List.getD_eq_getElem?_getD, h7, Option.getD_some],
      hB.edge_of_seg q hq, decide_eq_true_eq]
    have hne := hv.cell_ne _ (List.getElem_mem hc') j hj
    have e1 : (side cells[c].nodes j).1 = cells[c].nodes.getD j 0 := rfl
    rw [← e1]
    rcases h6 with h6 | h6
    · rw [h6]
      simp [Prod.ext_iff] at h6 ⊢
      exact h6.1
    · rw [h6]
      simp only [Prod.ext_iff, Prod.fst_swap, Prod.snd_swap] at h6 ⊢
      rw [h6.1]
      constructor
      · intro h; exact absurd h.symm hne
      · intro h; exact h.1

end
end Verif
