import Verif.Lemmas.MeshTopo
import Verif.Spec.Refinement

/-! Every mesh returned by the mesh factory is valid. -/

namespace Verif
variable {G : Type} {ops : GeoOps G} {nodes : List (Option G)} {edges : List (EdgeIn G)}
  {cells : List (CellIn G)} {M : Mesh G}

theorem Built.cellRef (hB : Built ops nodes edges cells M) (i : ℕ) (hi : i < cells.length) :
    M.cellRef i = cellRefEl cells[i].nodes ∧ (cells[i].nodes.length = 3 ∨ cells[i].nodes.length = 4) := by
  obtain ⟨p, cell, ref, h1, _, _, _, _, hc, h3, h4⟩ := hB.cellAt i hi
  have hn := hc.numNodes
  rcases hc.ref_cell with rfl | rfl
  · obtain ⟨q, rfl⟩ := h3 rfl
    have hl : cells[i].nodes.length = 3 := by rw [← hn]; rfl
    exact ⟨by simp [Mesh.cellRef, h1, cellRefEl, hl], Or.inl hl⟩
  · obtain ⟨q, rfl⟩ := h4 rfl
    have hl : cells[i].nodes.length = 4 := by rw [← hn]; rfl
    exact ⟨by simp [Mesh.cellRef, h1, cellRefEl, hl], Or.inr hl⟩

theorem Built.valid (hB : Built ops nodes edges cells M) (hv : ValidInput nodes edges cells) : M.Valid := by
  refine ⟨hB.topo_WF hv, ?_⟩
  intro c hc
  rw [hB.numCells'] at hc
  rw [(hB.cellRef c hc).1, (hB.cell_eq c hc).1]

theorem buildMesh_valid (chk : Bool) (hs : ∀ x ∈ nodes, x.isSome = true)
    (h : buildMesh ops nodes edges cells chk = some M) : M.Valid := by
  rcases buildMesh_spec ops nodes edges cells chk hs with ⟨⟨hv, _⟩, N, h1, h2⟩ | ⟨_, h1⟩
  · rw [h] at h1; cases h1
    exact h2.valid hv
  · rw [h] at h1; cases h1

end Verif
