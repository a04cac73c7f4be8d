import Verif.Lemmas.Ipdg
import Verif.Props.DofHandler
import Verif.Props.DataSet
import Verif.Props.EllBvp

/-!
# Lemmas: the dof handler with one dof for every node and every edge
-/

namespace Verif.Ipdg
open Verif Geo

theorem psum_one (n : ℕ) : psum (fun _ => 1) n = n := by
  induction n with
  | zero => rfl
  | succ n ih => rw [psum_succ, ih]

theorem psum_nil (n : ℕ) : psum (fun _ => 0) n = 0 := by
  induction n with
  | zero => rfl
  | succ n ih => rw [psum_succ, ih]

/-- The answers of a dof handler with one dof for every node and `s` dofs (0 or 1) for every edge. -/
structure NodeEdgeDofs (T : Topo) (h : DofHandler) (s : ℕ) : Prop where
  numDofs : h.numDofs = T.numNodes + s * T.numEdges
  node : ∀ v < T.numNodes, h.globalDofIndices (2, v) = some [v]
  cell : ∀ c < T.numCells, h.globalDofIndices (0, c) =
    some ((T.cell c).nodes ++ if s = 0 then [] else (T.cell c).edges.map fun e => T.numNodes + e)
  entNode : ∀ v < T.numNodes, h.entity v = some (2, v)
  entEdge : s = 1 → ∀ e < T.numEdges, h.entity (T.numNodes + e) = some (1, e)

theorem nodeEdgeDofs {T : Topo} (hT : T.WF) {s : ℕ} (hs : s = 0 ∨ s = 1) {chk : Bool} {h : DofHandler}
    (hh : uniformDofHandler T ⟨1, s, 0, 0⟩ chk = some h) : NodeEdgeDofs T h s := by
  obtain ⟨h', h1, hI⟩ := uniform_is T hT ⟨1, s, 0, 0⟩ chk
  rw [hh] at h1
  obtain rfl := Option.some.inj h1
  have c2 : ∀ v < T.numNodes, ucnt T ⟨1, s, 0, 0⟩ (2, v) = 1 := fun v hv => by
    simp [ucnt, refEl_node T hv, UniformLayout.interior]
  have c1 : ∀ e < T.numEdges, ucnt T ⟨1, s, 0, 0⟩ (1, e) = s := fun v hv => by
    simp [ucnt, refEl_edge T hv, UniformLayout.interior]
  have hcr : ∀ c < T.numCells, T.refEl (0, c) = some .tria ∨ T.refEl (0, c) = some .quad := fun c hc => by
    rcases hT.cell_len c hc with h | h <;> simp [Topo.refEl, Topo.num, hc, h]
  have c0 : ∀ c < T.numCells, ucnt T ⟨1, s, 0, 0⟩ (0, c) = 0 := fun c hc => by
    rcases hcr c hc with h | h <;> simp [ucnt, h, UniformLayout.interior]
  have ps : ∀ n, psum (fun _ => s) n = s * n := fun n => by
    rcases hs with rfl | rfl
    · rw [psum_nil, zero_mul]
    · rw [psum_one, one_mul]
  have p2 : ∀ n ≤ T.numNodes, psum (fun v => ucnt T ⟨1, s, 0, 0⟩ (2, v)) n = n := fun n hn => by
    rw [psum_congr _ (fun _ => 1) n (fun i hi => c2 i (by omega)), psum_one]
  have p1 : ∀ n ≤ T.numEdges, psum (fun v => ucnt T ⟨1, s, 0, 0⟩ (1, v)) n = s * n := fun n hn => by
    rw [psum_congr _ (fun _ => s) n (fun i hi => c1 i (by omega)), ps]
  have p0 : psum (fun v => ucnt T ⟨1, s, 0, 0⟩ (0, v)) T.numCells = 0 := by
    rw [psum_congr _ (fun _ => 0) _ (fun i hi => c0 i hi), psum_nil]
  have i2 : ∀ v < T.numNodes, Num.intr T (ucnt T ⟨1, s, 0, 0⟩) (2, v) = [v] := fun v hv => by
    simp [Num.intr, Num.start, Num.base, c2 v hv, p2 v hv.le]
  have i1 : ∀ e < T.numEdges, Num.intr T (ucnt T ⟨1, s, 0, 0⟩) (1, e) = if s = 0 then [] else [T.numNodes + e] := fun e he => by
    rcases hs with rfl | rfl
    · simp [Num.intr, c1 e he]
    · simp [Num.intr, Num.start, Num.base, c1 e he, p2 _ le_rfl, p1 e he.le]
  have i0 : ∀ c < T.numCells, Num.intr T (ucnt T ⟨1, s, 0, 0⟩) (0, c) = [] := fun c hc => by
    simp [Num.intr, c0 c hc]
  have hent := hI.entityInverts hT
  have hn : h.numDofs = T.numNodes + s * T.numEdges := by
    rw [hI.numDofs, Num.total, Num.base, p2 _ le_rfl, p1 _ le_rfl, p0, add_zero]
  have hown : ∀ e, T.refEl e ≠ none → h.own e = Num.intr T (ucnt T ⟨1, s, 0, 0⟩) e := fun e he => by
    simp [DofHandler.own, hI.interior e he]
  refine ⟨hn, ?_, ?_, ?_, ?_⟩
  · intro v hv
    rw [hI.global (2, v) (by rw [refEl_node T hv]; simp)]
    simp [Num.glob, i2 v hv]
  · intro c hc
    rw [hI.global (0, c) (by rcases hcr c hc with h | h <;> simp [h])]
    simp only [Num.glob, i0 c hc, List.append_nil]
    congr 2
    · have : ∀ l : List ℕ, (∀ v ∈ l, v < T.numNodes) → l.flatMap (fun v => Num.intr T (ucnt T ⟨1, s, 0, 0⟩) (2, v)) = l := by
        intro l hl
        induction l with
        | nil => rfl
        | cons a l ih =>
          rw [List.flatMap_cons, i2 a (hl a (by simp)), ih fun v hv => hl v (by simp [hv])]
          rfl
      exact this _ (hT.cell_nodes c hc)
    · have hlen : (T.cell c).ori.length = (T.cell c).edges.length := by
        rw [hT.cell_ori_len c hc, hT.cell_edges_len c hc]
      have : ∀ (l : List ℕ) (o : List Bool), o.length = l.length → (∀ v ∈ l, v < T.numEdges) →
          (l.zip o).flatMap (Num.edgePart T (ucnt T ⟨1, s, 0, 0⟩) chk) =
            if s = 0 then [] else l.map fun e => T.numNodes + e := by
        intro l
        induction l with
        | nil => intro o _ _; simp
        | cons a l ih =>
          intro o ho hl
          match o, ho with
          | b :: o, ho =>
            rw [List.zip_cons_cons, List.flatMap_cons, ih o (by simpa using ho) fun v hv => hl v (by simp [hv])]
            have : Num.edgePart T (ucnt T ⟨1, s, 0, 0⟩) chk (a, b) = if s = 0 then [] else [T.numNodes + a] := by
              unfold Num.edgePart
              simp only [i1 a (hl a (by simp))]
              split <;> split <;> simp
            rw [this]
            split <;> simp
      exact this _ _ hlen (hT.cell_edges c hc)
  · intro v hv
    obtain ⟨e, h1, -, -, h4⟩ := hent.1 v (by rw [hn]; omega)
    rw [h1, h4 (2, v) ⟨le_rfl, hv⟩]
    rw [hown _ (by rw [refEl_node T hv]; simp), i2 v hv]
    simp
  · rintro rfl e he
    obtain ⟨f, h1, -, -, h4⟩ := hent.1 (T.numNodes + e) (by rw [hn]; omega)
    rw [h1, h4 (1, e) ⟨one_le_two, he⟩]
    rw [hown _ (by rw [refEl_edge T he]; simp), i1 e he]
    simp

theorem corner_eq {T : Topo} {c : ℕ} (h : (T.cell c).nodes.length = 3) :
    (T.cell c).nodes = [corner T c 0, corner T c 1, corner T c 2] := by
  match hn : (T.cell c).nodes, h with
  | [a, b, d], _ => simp [corner, hn]

theorem sideOf_eq {T : Topo} {c : ℕ} (h : (T.cell c).edges.length = 3) :
    (T.cell c).edges = [sideOf T c 0, sideOf T c 1, sideOf T c 2] := by
  match hn : (T.cell c).edges, h with
  | [a, b, d], _ => simp [sideOf, hn]

variable {T : Topo} {geo : Ent → Option (Geo ℝ 2)} {pos : ℕ → Vec ℝ 2}

theorem TriaMesh.edges_len (hM : TriaMesh T geo pos) {c : ℕ} (hc : c < T.numCells) : (T.cell c).edges.length = 3 := by
  rw [hM.wf.cell_edges_len c hc, hM.tria c hc]

theorem TriaMesh.corner_lt (hM : TriaMesh T geo pos) {c : ℕ} (hc : c < T.numCells) (k : Fin 3) : corner T c k < T.numNodes := by
  refine hM.wf.cell_nodes c hc _ ?_
  rw [corner_eq (hM.tria c hc)]
  fin_cases k <;> simp

theorem TriaMesh.side_lt (hM : TriaMesh T geo pos) {c : ℕ} (hc : c < T.numCells) (k : Fin 3) : sideOf T c k < T.numEdges := by
  refine hM.wf.cell_edges c hc _ ?_
  rw [sideOf_eq (hM.edges_len hc)]
  fin_cases k <;> simp

/-- The end points of side `k`. -/
theorem TriaMesh.side_ends (hM : TriaMesh T geo pos) {c : ℕ} (hc : c < T.numCells) (k : Fin 3) :
    SamePair (T.edge (sideOf T c k)) (corner T c k, corner T c (k + 1)) := by
  have h := hM.wf.cell_side c hc k (by rw [hM.tria c hc]; exact k.2)
  have : side (T.cell c).nodes k = (corner T c k, corner T c (k + 1)) := by
    rw [corner_eq (hM.tria c hc)]
    fin_cases k <;> simp [side]
  rw [← this]
  exact h

end Verif.Ipdg
