import Verif.Lemmas.IpdgFlow1
import Verif.Model.IpdgFlow

/-!
# Lemmas: dof handlers for the nodes and edges on the boundary
-/

namespace Verif.Ipdg
open Verif Geo Finset

/-- Number of flagged indices below `i`. -/
def bdRank (flag : ℕ → Bool) (i : ℕ) : ℕ := psum (fun j => if flag j then 1 else 0) i

section rank
variable (flag : ℕ → Bool)

theorem bdRank_succ (i : ℕ) : bdRank flag (i + 1) = bdRank flag i + if flag i then 1 else 0 := psum_succ _ _

theorem bdRank_lt {i n : ℕ} (hi : i < n) (hf : flag i = true) : bdRank flag i < bdRank flag n := by
  have h1 := bdRank_succ flag i
  rw [if_pos hf] at h1
  have h2 : bdRank flag (i + 1) ≤ bdRank flag n := psum_mono _ hi
  omega

theorem bdRank_inj {i j : ℕ} (hi : flag i = true) (hj : flag j = true) (h : bdRank flag i = bdRank flag j) : i = j := by
  rcases lt_trichotomy i j with h' | h' | h'
  · have := bdRank_lt flag h' hi; omega
  · exact h'
  · have := bdRank_lt flag h' hj; omega

theorem bdRank_sum (F : ℕ → ℝ) (n : ℕ) : ∑ d ∈ range (bdRank flag n), F d = ∑ i ∈ (range n).filter (fun i => flag i = true), F (bdRank flag i) := by
  induction n with
  | zero => rfl
  | succ n ih =>
    rw [bdRank_succ, Finset.range_add_one, Finset.filter_insert]
    by_cases hf : flag n = true
    · rw [if_pos hf, if_pos hf, Finset.sum_range_succ, ih, Finset.sum_insert (by simp), add_comm]
    · rw [if_neg hf, if_neg hf, add_zero, ih]

theorem bdRank_surj {d n : ℕ} (hd : d < bdRank flag n) : ∃ i < n, flag i = true ∧ bdRank flag i = d := by
  induction n with
  | zero => cases hd
  | succ n ih =>
    rw [bdRank_succ] at hd
    by_cases h : d < bdRank flag n
    · obtain ⟨i, a, b⟩ := ih h
      exact ⟨i, by omega, b⟩
    · split at hd
      · exact ⟨n, by omega, by assumption, by omega⟩
      · omega

theorem bdRank_card (n : ℕ) : bdRank flag n = ((range n).filter (fun i => flag i = true)).card := by
  induction n with
  | zero => rfl
  | succ n ih =>
    rw [bdRank_succ, Finset.range_add_one, Finset.filter_insert]
    by_cases hf : flag n = true
    · rw [if_pos hf, if_pos hf, Finset.card_insert_of_notMem (by simp), ih]
    · rw [if_neg hf, if_neg hf, add_zero, ih]

end rank

/-- The flags of the entities of codimension `k`, as the dof handlers see them. -/
def flagOf (m : MeshObj) (boundary : AllDS Bool) (k i : ℕ) : Bool := decide (boundary.read ⟨m.id, (k, i)⟩ = some true)

variable {m : MeshObj} {boundary : AllDS Bool}

theorem flaggedCount_eq (k i : ℕ) : flaggedCount m boundary k (k, i) = if flagOf m boundary k i then 1 else 0 := by
  simp [flaggedCount, flagOf]

theorem flaggedCount_ne {k k' : ℕ} (h : k' ≠ k) (i : ℕ) : flaggedCount m boundary k (k', i) = 0 := by
  simp [flaggedCount, h]

theorem flatMap_flag (flag : ℕ → Bool) (F : ℕ → ℕ) (l : List ℕ) :
    (l.flatMap fun v => if flag v then [F v] else []) = (l.filter flag).map F := by
  induction l with
  | nil => rfl
  | cons a l ih =>
    rw [List.flatMap_cons, ih]
    by_cases h : flag a = true
    · rw [if_pos h, List.filter_cons_of_pos h]; rfl
    · rw [if_neg h, List.filter_cons_of_neg h]; rfl

/-- Answers of the dof handler for the nodes on the boundary. -/
theorem nodeDofs_spec (hT : m.topo.WF) : ∃ h, dynamicDofHandler m.topo (flaggedCount m boundary 2) = some h ∧
    h.numDofs = bdRank (flagOf m boundary 2) m.topo.numNodes ∧
    (∀ c < m.topo.numCells, h.globalDofIndices (0, c) =
      some (((m.topo.cell c).nodes.filter (flagOf m boundary 2)).map (bdRank (flagOf m boundary 2)))) ∧
    ∀ v < m.topo.numNodes, flagOf m boundary 2 v = true → h.entity (bdRank (flagOf m boundary 2) v) = some (2, v) := by
  set T := m.topo
  set fl := flagOf m boundary 2
  obtain ⟨h, h1, hI⟩ := dynamic_is T hT (flaggedCount m boundary 2)
  have p2 : ∀ n, psum (fun v => flaggedCount m boundary 2 (2, v)) n = bdRank fl n := fun n => by
    unfold bdRank
    congr 1
    funext v
    exact flaggedCount_eq 2 v
  have p1 : ∀ n, psum (fun v => flaggedCount m boundary 2 (1, v)) n = 0 := fun n => by
    simp only [flaggedCount_ne (m := m) (boundary := boundary) (k := 2) (k' := 1) (by decide)]
    exact psum_nil n
  have p0 : ∀ n, psum (fun v => flaggedCount m boundary 2 (0, v)) n = 0 := fun n => by
    simp only [flaggedCount_ne (m := m) (boundary := boundary) (k := 2) (k' := 0) (by decide)]
    exact psum_nil n
  have i2 : ∀ v, Num.intr T (flaggedCount m boundary 2) (2, v) = if fl v then [bdRank fl v] else [] := fun v => by
    unfold Num.intr Num.start Num.base
    simp only [p2, zero_add]
    rw [flaggedCount_eq]
    by_cases hv : fl v = true
    · rw [if_pos hv, if_pos hv]; rfl
    · rw [if_neg hv, if_neg hv]; rfl
  have i1 : ∀ e, Num.intr T (flaggedCount m boundary 2) (1, e) = [] := fun e => by
    simp [Num.intr, flaggedCount_ne]
  have i0 : ∀ e, Num.intr T (flaggedCount m boundary 2) (0, e) = [] := fun e => by
    simp [Num.intr, flaggedCount_ne]
  have hn : h.numDofs = bdRank fl T.numNodes := by
    rw [hI.numDofs, Num.total, Num.base, p2, p1, p0, add_zero, add_zero]
  refine ⟨h, h1, hn, fun c hc => ?_, fun v hv hf => ?_⟩
  · rw [hI.global (0, c) (by rcases hT.cell_len c hc with h | h <;> simp [Topo.refEl, Topo.num, hc, h])]
    simp only [Num.glob, i0, i2, List.append_nil]
    rw [flatMap_flag]
    have : ∀ l : List (ℕ × Bool), l.flatMap (Num.edgePart T (flaggedCount m boundary 2) true) = [] := by
      intro l
      induction l with
      | nil => rfl
      | cons a l ih => rw [List.flatMap_cons, ih]; unfold Num.edgePart; simp [i1]
    rw [this, List.append_nil]
  · have hent := hI.entityInverts hT
    obtain ⟨e, a1, -, -, a4⟩ := hent.1 (bdRank fl v) (by rw [hn]; exact bdRank_lt fl hv hf)
    rw [a1, a4 (2, v) ⟨le_rfl, hv⟩]
    have : h.own (2, v) = Num.intr T (flaggedCount m boundary 2) (2, v) := by
      simp [DofHandler.own, hI.interior (2, v) (by rw [refEl_node T hv]; simp)]
    rw [this, i2, if_pos hf]
    simp

/-- Answers of the dof handler for the edges on the boundary. -/
theorem edgeDofs_spec (hT : m.topo.WF) : ∃ h, dynamicDofHandler m.topo (flaggedCount m boundary 1) = some h ∧
    h.numDofs = bdRank (flagOf m boundary 1) m.topo.numEdges ∧
    (∀ c < m.topo.numCells, h.globalDofIndices (0, c) =
      some (((m.topo.cell c).edges.filter (flagOf m boundary 1)).map (bdRank (flagOf m boundary 1)))) ∧
    ∀ e < m.topo.numEdges, flagOf m boundary 1 e = true → h.globalDofIndices (1, e) = some [bdRank (flagOf m boundary 1) e] := by
  set T := m.topo
  set fl := flagOf m boundary 1
  obtain ⟨h, h1, hI⟩ := dynamic_is T hT (flaggedCount m boundary 1)
  have p1 : ∀ n, psum (fun v => flaggedCount m boundary 1 (1, v)) n = bdRank fl n := fun n => by
    unfold bdRank
    congr 1
    funext v
    exact flaggedCount_eq 1 v
  have p2 : ∀ n, psum (fun v => flaggedCount m boundary 1 (2, v)) n = 0 := fun n => by
    simp only [flaggedCount_ne (m := m) (boundary := boundary) (k := 1) (k' := 2) (by decide)]
    exact psum_nil n
  have p0 : ∀ n, psum (fun v => flaggedCount m boundary 1 (0, v)) n = 0 := fun n => by
    simp only [flaggedCount_ne (m := m) (boundary := boundary) (k := 1) (k' := 0) (by decide)]
    exact psum_nil n
  have i1 : ∀ v, Num.intr T (flaggedCount m boundary 1) (1, v) = if fl v then [bdRank fl v] else [] := fun v => by
    unfold Num.intr Num.start Num.base
    simp only [p1, p2, zero_add]
    rw [flaggedCount_eq]
    by_cases hv : fl v = true
    · rw [if_pos hv, if_pos hv]; rfl
    · rw [if_neg hv, if_neg hv]; rfl
  have i2 : ∀ e, Num.intr T (flaggedCount m boundary 1) (2, e) = [] := fun e => by
    simp [Num.intr, flaggedCount_ne]
  have i0 : ∀ e, Num.intr T (flaggedCount m boundary 1) (0, e) = [] := fun e => by
    simp [Num.intr, flaggedCount_ne]
  have hn : h.numDofs = bdRank fl T.numEdges := by
    rw [hI.numDofs, Num.total, Num.base, p2, p1, p0, add_zero, zero_add]
  refine ⟨h, h1, hn, fun c hc => ?_, fun e he hf => ?_⟩
  · rw [hI.global (0, c) (by rcases hT.cell_len c hc with h | h <;> simp [Topo.refEl, Topo.num, hc, h])]
    have hnil : ∀ l : List ℕ, (l.flatMap fun _ => ([] : List ℕ)) = [] := fun l => by induction l <;> simp_all
    simp only [Num.glob, i0, i2, List.append_nil, hnil, List.nil_append]
    have hlen : (T.cell c).ori.length = (T.cell c).edges.length := by
      rw [hT.cell_ori_len c hc, hT.cell_edges_len c hc]
    have hp : ∀ p, Num.edgePart T (flaggedCount m boundary 1) true p = if fl p.1 then [bdRank fl p.1] else [] := by
      intro p
      unfold Num.edgePart
      simp only [i1]
      split <;> split <;> simp
    have : ∀ (l : List ℕ) (o : List Bool), o.length = l.length →
        (l.zip o).flatMap (Num.edgePart T (flaggedCount m boundary 1) true) = l.flatMap fun e => if fl e then [bdRank fl e] else [] := by
      intro l
      induction l with
      | nil => intro o _; simp
      | cons a l ih =>
        intro o ho
        match o, ho with
        | b :: o, ho => rw [List.zip_cons_cons, List.flatMap_cons, ih o (by simpa using ho), hp, List.flatMap_cons]
    rw [this _ _ hlen, flatMap_flag]
  · rw [hI.global (1, e) (by rw [refEl_edge T he]; simp)]
    simp only [Num.glob, i2, i1, if_pos hf, List.nil_append]

end Verif.Ipdg
