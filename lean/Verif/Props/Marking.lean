import Verif.Lemmas.Marking2
import Verif.Lemmas.MeshValid

/-!
# C28, C29: the marking loop of `RefineMarked`

The theorems hold for every order in which the cells of the mesh are visited.
-/

namespace Verif
variable {G : Type}

/-- **C28**, termination: on a level which has not been refined yet, for every order of visiting the
cells, the loop of `RefineMarked` passes all assertions and stops after at most `numEdges + 1` passes. -/
theorem C28_terminates (L : Level G) (hL : L.Fresh) (order : List ℕ)
    (ho : ∀ c ∈ order, c < L.mesh.topo.numCells) :
    ∃ s0, markInit L = some s0 ∧ ∀ fuel ≥ L.mesh.topo.numEdges + 1,
      ∃ s, markLoop L.mesh L.refEdges order fuel s0 = some s := by
  obtain ⟨s0, h0, ok0, _⟩ := markInit_spec L hL
  refine ⟨s0, h0, fun fuel hf => ?_⟩
  obtain ⟨s, h, _⟩ := markLoop_spec hL.valid hL.refEdges order ho fuel s0 ok0 (by omega)
  exact ⟨s, h⟩

/-- **C28**: the edges split by `RefineMarked` are exactly the edges in the least set which contains the
marked edges and, with any side of a triangle, the refinement edge of the triangle; all other edges are
copied. -/
theorem C28_closure (L : Level G) (hL : L.Fresh) (order : List ℕ)
    (ho : ∀ c, c ∈ order ↔ c < L.mesh.topo.numCells) (s0 s : MarkState) (h0 : markInit L = some s0)
    (fuel : ℕ) (hf : fuel ≥ L.mesh.topo.numEdges + 1)
    (h : markLoop L.mesh L.refEdges order fuel s0 = some s) :
    s.edgePat.length = L.mesh.topo.numEdges ∧
    ∀ e < L.mesh.topo.numEdges,
      (s.edgePat[e]? = some .split ↔
        InClosure L.mesh.topo L.refEdges (fun f => L.marked[f]? = some true) e) ∧
      (s.edgePat[e]? = some .split ∨ s.edgePat[e]? = some .copy) := by
  obtain ⟨s0', h0', ok0, hm⟩ := markInit_spec L hL
  rw [h0] at h0'
  cases h0'
  obtain ⟨s', h', ok, hmono, hleast, hdec⟩ := markLoop_spec hL.valid hL.refEdges order
    (fun c hc => (ho c).1 hc) fuel s0 ok0 (by omega)
  rw [h] at h'
  cases h'
  refine ⟨ok.len1, fun e he => ⟨⟨?_, ?_⟩, ?_⟩⟩
  · intro hs S hA hS
    exact hleast S (fun f hf => hA f ((hm f).1 hf)) hS e hs
  · intro hcl
    apply hcl (SplitIn s.edgePat)
    · intro f hf
      exact hmono f ((hm f).2 hf)
    · exact decided_closed hL.valid _ _ (fun c hc => hdec c ((ho c).2 hc))
  · have hlt : e < s.edgePat.length := by rw [ok.len1]; exact he
    rw [List.getElem?_eq_getElem hlt]
    rcases ok.pats _ (List.getElem_mem hlt) with h | h <;> simp [h]

/-- **C28**, order independence: for two orders of visiting the cells the same edges are split, and every
cell gets the same pattern, the same child cells and the same interior edges. -/
theorem C28_order_independent (L : Level G) (hL : L.Fresh) (order order' : List ℕ)
    (ho : ∀ c, c ∈ order ↔ c < L.mesh.topo.numCells) (ho' : ∀ c, c ∈ order' ↔ c < L.mesh.topo.numCells)
    (s0 s s' : MarkState) (h0 : markInit L = some s0) (fuel fuel' : ℕ)
    (hf : fuel ≥ L.mesh.topo.numEdges + 1) (hf' : fuel' ≥ L.mesh.topo.numEdges + 1)
    (h : markLoop L.mesh L.refEdges order fuel s0 = some s)
    (h' : markLoop L.mesh L.refEdges order' fuel' s0 = some s') :
    s.edgePat = s'.edgePat ∧
    ∀ c < L.mesh.topo.numCells, ∃ ref pat a pat' a', L.mesh.cellRef c = some ref ∧
      s.cellPat[c]? = some (pat, a) ∧ s'.cellPat[c]? = some (pat', a') ∧ pat = pat' ∧
      cellChildren ref pat a = cellChildren ref pat' a' := by
  have hE : s.edgePat = s'.edgePat := by
    obtain ⟨l1, c1⟩ := C28_closure L hL order ho s0 s h0 fuel hf h
    obtain ⟨l2, c2⟩ := C28_closure L hL order' ho' s0 s' h0 fuel' hf' h'
    apply List.ext_getElem? 
    intro e
    by_cases he : e < L.mesh.topo.numEdges
    · obtain ⟨a1, b1⟩ := c1 e he
      obtain ⟨a2, b2⟩ := c2 e he
      have hiff := a1.trans a2.symm
      rcases b1 with b1 | b1
      · rw [b1, hiff.1 b1]
      · rcases b2 with b2 | b2
        · rw [b2, hiff.2 b2]
        · rw [b1, b2]
    · rw [List.getElem?_eq_none (by omega), List.getElem?_eq_none (by omega)]
  refine ⟨hE, fun c hc => ?_⟩
  obtain ⟨s0', h0', ok0, hm⟩ := markInit_spec L hL
  rw [h0] at h0'
  cases h0'
  obtain ⟨t, ht, _, _, _, hdec⟩ := markLoop_spec hL.valid hL.refEdges order
    (fun c hc => (ho c).1 hc) fuel s0 ok0 (by omega)
  rw [h] at ht
  cases ht
  obtain ⟨t', ht', _, _, _, hdec'⟩ := markLoop_spec hL.valid hL.refEdges order'
    (fun c hc => (ho' c).1 hc) fuel' s0 ok0 (by omega)
  rw [h'] at ht'
  cases ht'
  exact decided_children hL.valid (fun e => by rw [hE]) hc (hdec c ((ho c).2 hc)) (hdec' c ((ho' c).2 hc))

/-- **C29** for `RefineMarked`: every cell gets a pattern and an anchor with which it can be refined, and
the pattern puts a vertex of a child on the midpoint of a side iff the edge on that side is split. -/
theorem C29_marked (L : Level G) (hL : L.Fresh) (order : List ℕ)
    (ho : ∀ c, c ∈ order ↔ c < L.mesh.topo.numCells) (s0 s : MarkState) (h0 : markInit L = some s0)
    (fuel : ℕ) (hf : fuel ≥ L.mesh.topo.numEdges + 1)
    (h : markLoop L.mesh L.refEdges order fuel s0 = some s) (c : ℕ) (hc : c < L.mesh.topo.numCells) :
    ∃ ref pat anchor p, L.mesh.cellRef c = some ref ∧ ref.numNodes = (L.mesh.topo.cell c).edges.length ∧
      s.cellPat[c]? = some (pat, anchor) ∧ Pattern.make ref pat anchor = some p ∧ p.Refines ∧
      ∀ k < (L.mesh.topo.cell c).edges.length,
        (p.SplitsSide k ↔ s.edgePat[(L.mesh.topo.cell c).edges.getD k 0]? = some .split) := by
  obtain ⟨s0', h0', ok0, hm⟩ := markInit_spec L hL
  rw [h0] at h0'
  cases h0'
  obtain ⟨t, ht, _, _, _, hdec⟩ := markLoop_spec hL.valid hL.refEdges order
    (fun c hc => (ho c).1 hc) fuel s0 ok0 (by omega)
  rw [h] at ht
  cases ht
  exact decided_pattern hL.valid hc (hdec c ((ho c).2 hc))

private theorem regular_table : ∀ ref ∈ [RefEl.tria, RefEl.quad], ∀ pat ∈ [RefPat.regular, RefPat.barycentric],
    patOk ref pat none [true, true, true, true] = true := by decide +kernel

/-- **C29** for `RefineRegular`, which splits all edges: the patterns `rp_regular` and `rp_barycentric`
split all sides of triangles and quadrilaterals. -/
theorem C29_regular (ref : RefEl) (hr : ref = .tria ∨ ref = .quad) (pat : RefPat)
    (hp : pat = .regular ∨ pat = .barycentric) :
    ∃ p, Pattern.make ref pat none = some p ∧ p.Refines ∧ ∀ k < ref.numNodes, p.SplitsSide k := by
  have h := regular_table ref (by rcases hr with rfl | rfl <;> decide) pat (by rcases hp with rfl | rfl <;> decide)
  obtain ⟨p, h1, h2, h3⟩ := patOk_spec h
  refine ⟨p, h1, h2, fun k hk => (h3 k hk).2 ?_⟩
  have : k = 0 ∨ k = 1 ∨ k = 2 ∨ k = 3 := by
    rcases hr with rfl | rfl
    · have : k < 3 := hk
      omega
    · have : k < 4 := hk
      omega
  rcases this with rfl | rfl | rfl | rfl <;> rfl

/-! ### A concrete case -/

/-- A row of three triangles and a quadrilateral. -/
def rowCells : List (CellIn Unit) :=
  [⟨[0, 1, 2], none⟩, ⟨[1, 3, 2], none⟩, ⟨[3, 4, 2], none⟩, ⟨[4, 3, 5, 6], none⟩]

def unitOps : GeoOps Unit := ⟨fun _ _ _ => (), fun _ _ => (), fun _ _ _ => (), fun _ _ _ _ => ()⟩

/-- The mesh of the row of cells: 7 nodes, 10 edges. -/
def rowMesh : Mesh Unit :=
  (buildMesh unitOps (List.replicate 7 (some ())) [] rowCells true).getD ⟨[], [], [], [], [], [], []⟩

/-- The level created for the row of cells, with given marked edges. -/
def rowLevel (marked : List Bool) : Level Unit :=
  { mesh := rowMesh, pointCI := List.replicate 7 {}, edgeCI := List.replicate 10 {},
    cellCI := List.replicate 4 {}, parents0 := [], parents1 := [], parents2 := [], marked := marked,
    refEdges := [some 1, some 1, some 1, none] }

theorem rowMesh_build : buildMesh unitOps (List.replicate 7 (some ())) [] rowCells true = some rowMesh := by
  have hb : (buildMesh unitOps (List.replicate 7 (some ())) [] rowCells true).isSome = true := by decide +kernel
  obtain ⟨M, hM⟩ := Option.isSome_iff_exists.1 hb
  unfold rowMesh
  rw [hM]; rfl

theorem rowMesh_counts : rowMesh.topo.numNodes = 7 ∧ rowMesh.topo.numEdges = 10 ∧ rowMesh.topo.numCells = 4 ∧
    ∀ c ∈ List.range 4, (rowMesh.topo.cell c).nodes.length = 3 → c < 3 := by
  decide +kernel

theorem rowLevel_fresh (marked : List Bool) (h : marked.length = 10) : (rowLevel marked).Fresh := by
  obtain ⟨h1, h2, h3, h4⟩ := rowMesh_counts
  refine ⟨buildMesh_valid true (by simp) rowMesh_build, ?_, ?_, ?_, ?_, ?_, ?_⟩
  · exact congrArg (fun n => List.replicate n ({} : PointCI)) h1.symm
  · exact congrArg (fun n => List.replicate n ({} : EdgeCI)) h2.symm
  · exact congrArg (fun n => List.replicate n ({} : CellCI)) h3.symm
  · exact h.trans h2.symm
  · exact h3.symm
  · intro c hc h
    have hc' : c < 4 := by rw [← h3]; exact hc
    have h5 := h4 c (by simpa using hc') h
    refine ⟨1, by decide, ?_⟩
    have : c = 0 ∨ c = 1 ∨ c = 2 := by omega
    rcases this with rfl | rfl | rfl <;> rfl

/-- Outcome of the marking loop: split edges and patterns. -/
def rowResult (marked : List Bool) (order : List ℕ) : Option (List RefPat × List RefPat) :=
  (markInit (rowLevel marked)).bind fun s0 =>
  (markLoop rowMesh (rowLevel marked).refEdges order 11 s0).map fun s => (s.edgePat, s.cellPat.map (·.1))

/-- The level meets the hypotheses of C28 and C29 for every set of marked edges; marking the edge 0 only
makes the loop split three more edges, in whichever order the cells are visited. -/
example : (rowLevel [true, false, false, false, false, false, false, false, false, false]).Fresh ∧
    rowResult [true, false, false, false, false, false, false, false, false, false] [0, 1, 2, 3] =
      rowResult [true, false, false, false, false, false, false, false, false, false] [3, 1, 0, 2] ∧
    (rowResult [true, false, false, false, false, false, false, false, false, false] [0, 1, 2, 3]).map
      (fun r => r.1.count .split) = some 4 := by
  refine ⟨rowLevel_fresh _ rfl, ?_⟩
  decide +kernel

end Verif
