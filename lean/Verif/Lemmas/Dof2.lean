import Verif.Lemmas.Dof1

/-!
# The uniform handler realises the abstract numbering
-/

namespace Verif
open Num

def ucnt (T : Topo) (l : UniformLayout) (e : Ent) : ℕ := ((T.refEl e).map l.interior).getD 0

theorem refEl_node (T : Topo) {v : ℕ} (h : v < T.numNodes) : T.refEl (2, v) = some .point := by
  simp [Topo.refEl, Topo.num, h]

theorem refEl_edge (T : Topo) {v : ℕ} (h : v < T.numEdges) : T.refEl (1, v) = some .segment := by
  simp [Topo.refEl, Topo.num, h]

theorem refEl_cell {T : Topo} (hT : T.WF) {c : ℕ} (h : c < T.numCells) :
    ∃ r : RefEl, T.refEl (0, c) = some r ∧ r.dimension = 2 ∧
      r.numSubEntities 1 = some (T.cell c).nodes.length ∧ r.numNodes = (T.cell c).nodes.length := by
  rcases hT.cell_len c h with h1 | h1
  · exact ⟨.tria, by simp [Topo.refEl, Topo.num, h, h1], rfl, by rw [h1]; rfl, by rw [h1]; rfl⟩
  · exact ⟨.quad, by simp [Topo.refEl, Topo.num, h, h1], rfl, by rw [h1]; rfl, by rw [h1]; rfl⟩

theorem refEl_ne_none {T : Topo} {e : Ent} (h : T.refEl e ≠ none) :
    (e.1 = 2 ∧ e.2 < T.numNodes) ∨ (e.1 = 1 ∧ e.2 < T.numEdges) ∨ (e.1 = 0 ∧ e.2 < T.numCells) := by
  obtain ⟨k, i⟩ := e
  unfold Topo.refEl at h
  by_cases h1 : i < T.num k
  · match k, h1 with
    | 0, h1 => exact Or.inr (Or.inr ⟨rfl, h1⟩)
    | 1, h1 => exact Or.inr (Or.inl ⟨rfl, h1⟩)
    | 2, h1 => exact Or.inl ⟨rfl, h1⟩
    | k + 3, h1 => simp [Topo.num] at h1
  · simp [h1] at h

theorem ucnt_node (T : Topo) (l : UniformLayout) {v : ℕ} (h : v < T.numNodes) :
    ucnt T l (2, v) = l.point := by simp [ucnt, refEl_node T h, UniformLayout.interior]

theorem ucnt_edge (T : Topo) (l : UniformLayout) {v : ℕ} (h : v < T.numEdges) :
    ucnt T l (1, v) = l.segment := by simp [ucnt, refEl_edge T h, UniformLayout.interior]

theorem mul_block {v k n : ℕ} (h : v < k) : v * n + n ≤ k * n := by
  have : (v + 1) * n ≤ k * n := Nat.mul_le_mul_right _ h
  rw [Nat.add_mul] at this; omega

namespace UniformFE

structure NInv (T : Topo) (l : UniformLayout) (k : ℕ) (s : NumState) : Prop where
  len : s.arr.length = T.numNodes * l.nNode
  read : ∀ v < k, readBlock s.arr (v * l.nNode) l.nNode = some (intr T (ucnt T l) (2, v))
  ents : s.ents = entsOf (ucnt T l) 2 k
  next : s.next = psum (fun v => ucnt T l (2, v)) k

theorem nodes_spec (T : Topo) (l : UniformLayout) :
    ∃ s2, (List.range T.numNodes).foldlM (nodeStep l)
      ⟨List.replicate (T.numNodes * l.nNode) 0, [], 0⟩ = some s2 ∧ NInv T l T.numNodes s2 := by
  apply foldlM_range_inv _ (NInv T l)
  · exact ⟨by simp, by simp, rfl, rfl⟩
  · intro k s hk hs
    have hb := mul_block (n := l.nNode) hk
    obtain ⟨arr', h1, h2, h3, h4⟩ := writeBlock_spec s.arr (List.range' s.next l.point) (k * l.nNode)
      (by rw [hs.len]; simpa [UniformLayout.nNode] using hb)
    refine ⟨_, by unfold nodeStep; rw [h1]; rfl, ?_⟩
    refine ⟨by rw [← hs.len]; exact h2, ?_, ?_, ?_⟩
    · intro v hv
      rcases Nat.lt_or_ge v k with hv' | hv'
      · rw [h4 _ _ (Or.inl (mul_block hv')), hs.read v hv']
      · have : v = k := by omega
        subst this
        rw [List.length_range'] at h3
        rw [intr, ucnt_node T l hk]
        simp only [start, base, Nat.zero_add, ← hs.next]
        exact h3
    · simp only [hs.ents, entsOf_succ, ucnt_node T l hk]
    · simp only [hs.next, psum_succ, ucnt_node T l hk]

structure EInv (T : Topo) (l : UniformLayout) (k : ℕ) (s : NumState) : Prop where
  len : s.arr.length = T.numEdges * l.nEdge
  read : ∀ v < k, readBlock s.arr (v * l.nEdge) l.nEdge = some (glob T (ucnt T l) true (1, v))
  ents : s.ents = entsOf (ucnt T l) 2 T.numNodes ++ entsOf (ucnt T l) 1 k
  next : s.next = base T (ucnt T l) 1 + psum (fun v => ucnt T l (1, v)) k

theorem edges_spec (T : Topo) (hT : T.WF) (l : UniformLayout) (s2 : NumState) (h2 : NInv T l T.numNodes s2) :
    ∃ s1, (List.range T.numEdges).foldlM (edgeStep T l s2.arr)
      ⟨List.replicate (T.numEdges * l.nEdge) 0, s2.ents, s2.next⟩ = some s1 ∧
      EInv T l T.numEdges s1 := by
  apply foldlM_range_inv _ (EInv T l)
  · exact ⟨by simp, by simp, by simp [h2.ents, entsOf], by simp [h2.next, base]⟩
  · intro k s hk hs
    obtain ⟨ha, hb⟩ := hT.edge_lt k hk
    have hb := mul_block (n := l.nEdge) hk
    obtain ⟨arr', h5, h6, h7, h8⟩ := writeBlock_spec s.arr (glob T (ucnt T l) true (1, k)) (k * l.nEdge)
      (by
        rw [hs.len]
        simp only [glob, List.length_append, intr_length, ucnt_node T l (hT.edge_lt k hk).1,
          ucnt_node T l (hT.edge_lt k hk).2, ucnt_edge T l hk]
        simp only [UniformLayout.nEdge] at hb ⊢
        omega)
    have hg : glob T (ucnt T l) true (1, k) = intr T (ucnt T l) (2, (T.edge k).1) ++
        intr T (ucnt T l) (2, (T.edge k).2) ++ List.range' s.next l.segment := by
      simp only [glob, intr, ucnt_edge T l hk, hs.next, start]
    have hlen : (glob T (ucnt T l) true (1, k)).length = l.nEdge := by
      simp only [glob, List.length_append, intr_length, ucnt_node T l (hT.edge_lt k hk).1,
          ucnt_node T l (hT.edge_lt k hk).2, ucnt_edge T l hk, UniformLayout.nEdge]
      omega
    rw [hlen] at h7 h8
    refine ⟨⟨arr', s.ents ++ List.replicate l.segment (1, k), s.next + l.segment⟩, ?_, ?_⟩
    · unfold edgeStep
      rw [h2.read _ ha, h2.read _ (hT.edge_lt k hk).2]
      simp only [Option.bind_some]
      rw [← hg, h5]
      rfl
    refine ⟨by rw [← hs.len]; exact h6, ?_, ?_, ?_⟩
    · intro v hv
      rcases Nat.lt_or_ge v k with hv' | hv'
      · rw [h8 _ _ (Or.inl (mul_block hv')), hs.read v hv']
      · have : v = k := by omega
        subst this
        exact h7
    · simp only [hs.ents, entsOf_succ, ucnt_edge T l hk, List.append_assoc]
    · simp only [hs.next, psum_succ, ucnt_edge T l hk, Nat.add_assoc]

theorem read_edge_int (T : Topo) (hT : T.WF) (l : UniformLayout) (s1 : NumState) (h1 : EInv T l T.numEdges s1)
    (e : ℕ) (he : e < T.numEdges) :
    readBlock s1.arr (e * l.nEdge + (l.nEdge - l.segment)) l.segment = some (intr T (ucnt T l) (1, e)) := by
  have h := h1.read e he
  have hl : l.nEdge - l.segment + l.segment ≤ l.nEdge := by unfold UniformLayout.nEdge; omega
  rw [readBlock_sub _ _ _ _ _ _ h hl]
  congr 1
  have hh : (intr T (ucnt T l) (2, (T.edge e).1) ++ intr T (ucnt T l) (2, (T.edge e).2)).length =
      l.nEdge - l.segment := by
    simp only [List.length_append, intr_length, ucnt_node T l (hT.edge_lt e he).1,
          ucnt_node T l (hT.edge_lt e he).2, UniformLayout.nEdge]
    omega
  simp only [glob]
  rw [← hh, List.drop_left']
  · rw [List.take_of_length_le]; simp [ucnt_edge T l he]
  · rfl

theorem zip_map_range {α β γ : Type} (a : List α) (b : List β) (n : ℕ) (ha : a.length = n) (hb : b.length = n)
    (f : α × β → γ) (g : ℕ → γ) (h : ∀ j x y, a[j]? = some x → b[j]? = some y → f (x, y) = g j) :
    (a.zip b).map f = (List.range n).map g := by
  apply List.ext_getElem?
  intro i
  by_cases hi : i < n
  · have h1 : a[i]? = some a[i] := List.getElem?_eq_getElem _
    have h2 : b[i]? = some b[i] := List.getElem?_eq_getElem _
    have h3 : (a.zip b)[i]? = some (a[i], b[i]) := by
      rw [List.getElem?_zip_eq_some]; exact ⟨h1, h2⟩
    rw [List.getElem?_map, h3, List.getElem?_map, List.getElem?_range hi]
    simp [h i _ _ h1 h2]
  · rw [List.getElem?_eq_none (by simp; omega), List.getElem?_eq_none (by simp; omega)]

theorem cellEdges_spec (T : Topo) (hT : T.WF) (l : UniformLayout) (chk : Bool) (s1 : NumState)
    (h1 : EInv T l T.numEdges s1) (c : ℕ) (hc : c < T.numCells) :
    (List.range (T.cell c).nodes.length).mapM (cellEdge T l chk s1.arr c) =
      some (((T.cell c).edges.zip (T.cell c).ori).map (edgePart T (ucnt T l) chk)) := by
  have he := hT.cell_edges_len c hc
  have ho := hT.cell_ori_len c hc
  let g : ℕ → List ℕ := fun j => edgePart T (ucnt T l) chk
    (((T.cell c).edges)[j]?.getD 0, ((T.cell c).ori)[j]?.getD false)
  rw [mapM_some _ g]
  · congr 1
    symm
    apply zip_map_range _ _ _ he ho
    intro j x y hx hy
    simp only [g, hx, hy, Option.getD_some]
  · intro j hj
    simp only [List.mem_range] at hj
    have h3 : (T.cell c).edges[j]? = some ((T.cell c).edges[j]) := List.getElem?_eq_getElem _
    have h4 : (T.cell c).ori[j]? = some ((T.cell c).ori[j]) := List.getElem?_eq_getElem _
    unfold cellEdge
    simp only [g, h3, h4, Option.bind_some, Option.getD_some]
    rw [read_edge_int T hT l s1 h1 _ (hT.cell_edges c hc _ (List.getElem_mem _))]
    simp [edgePart]

theorem length_flatMap_const {α : Type} (L : List α) (f : α → List ℕ) (n : ℕ) (h : ∀ x ∈ L, (f x).length = n) :
    (L.flatMap f).length = L.length * n := by
  induction L with
  | nil => simp
  | cons a L ih =>
    rw [List.flatMap_cons, List.length_append, h a (by simp), ih (fun x hx => h x (by simp [hx])),
      List.length_cons, Nat.add_mul]; omega

theorem glob_cell_length (T : Topo) (hT : T.WF) (l : UniformLayout) (chk : Bool) (c : ℕ) (hc : c < T.numCells)
    (r : RefEl) (hr : T.refEl (0, c) = some r) :
    (glob T (ucnt T l) chk (0, c)).length = l.covered r := by
  have e1 : ((T.cell c).nodes.flatMap (fun v => intr T (ucnt T l) (2, v))).length =
      (T.cell c).nodes.length * l.point := by
    apply length_flatMap_const
    intro v hv
    rw [intr_length, ucnt_node T l (hT.cell_nodes c hc v hv)]
  have e2 : (((T.cell c).edges.zip (T.cell c).ori).flatMap (edgePart T (ucnt T l) chk)).length =
      (T.cell c).nodes.length * l.segment := by
    rw [length_flatMap_const _ _ l.segment]
    · rw [List.length_zip, hT.cell_edges_len c hc, hT.cell_ori_len c hc, Nat.min_self]
    · intro p hp
      have := hT.cell_edges c hc p.1 (List.of_mem_zip hp).1
      unfold edgePart
      split_ifs <;> simp [ucnt_edge T l this]
  simp only [glob, List.length_append, e1, e2, intr_length]
  have e3 : ucnt T l (0, c) = l.interior r := by simp [ucnt, hr]
  rw [e3]
  unfold Topo.refEl at hr
  simp only [Topo.num, hc, if_true] at hr
  rcases hT.cell_len c hc with h | h
  · simp [h] at hr
    subst hr
    simp only [h, UniformLayout.interior, UniformLayout.covered, UniformLayout.nTria]
  · simp [h] at hr
    subst hr
    simp only [h, UniformLayout.interior, UniformLayout.covered, UniformLayout.nQuad]

theorem covered_le (l : UniformLayout) (r : RefEl) (hr : r.dimension = 2) : l.covered r ≤ l.nCell := by
  cases r <;> simp [RefEl.dimension] at hr <;> simp only [UniformLayout.covered, UniformLayout.nCell] <;> omega

structure CInv (T : Topo) (l : UniformLayout) (chk : Bool) (k : ℕ) (s : NumState) : Prop where
  len : s.arr.length = T.numCells * l.nCell
  read : ∀ v < k, readBlock s.arr (v * l.nCell) (glob T (ucnt T l) chk (0, v)).length =
    some (glob T (ucnt T l) chk (0, v))
  ents : s.ents = entsOf (ucnt T l) 2 T.numNodes ++ entsOf (ucnt T l) 1 T.numEdges ++ entsOf (ucnt T l) 0 k
  next : s.next = base T (ucnt T l) 0 + psum (fun v => ucnt T l (0, v)) k

theorem cells_spec (T : Topo) (hT : T.WF) (l : UniformLayout) (chk : Bool) (s2 s1 : NumState)
    (h2 : NInv T l T.numNodes s2) (h1 : EInv T l T.numEdges s1) :
    ∃ s0, (List.range T.numCells).foldlM (cellStep T l chk s2.arr s1.arr)
      ⟨List.replicate (T.numCells * l.nCell) 0, s1.ents, s1.next⟩ = some s0 ∧
      CInv T l chk T.numCells s0 := by
  apply foldlM_range_inv _ (CInv T l chk)
  · refine ⟨by simp, by simp, by simp [h1.ents, entsOf], by simp [h1.next, base]⟩
  · intro k s hk hs
    obtain ⟨r, hr, hdim, hsub, _⟩ := refEl_cell hT hk
    have hlen := glob_cell_length T hT l chk k hk r hr
    have hcov := covered_le l r hdim
    have hb := mul_block (n := l.nCell) hk
    have hcnt : ucnt T l (0, k) = l.interior r := by simp [ucnt, hr]
    obtain ⟨arr', h5, h6, h7, h8⟩ := writeBlock_spec s.arr (glob T (ucnt T l) chk (0, k)) (k * l.nCell)
      (by rw [hs.len]; omega)
    have hg : glob T (ucnt T l) chk (0, k) =
        ((T.cell k).nodes.map (fun v => intr T (ucnt T l) (2, v))).flatten ++
        (((T.cell k).edges.zip (T.cell k).ori).map (edgePart T (ucnt T l) chk)).flatten ++
        List.range' s.next (l.interior r) := by
      simp only [glob, List.flatMap_def, hs.next]
      rw [← hcnt]
      rfl
    refine ⟨⟨arr', s.ents ++ List.replicate (l.interior r) (0, k), s.next + l.interior r⟩, ?_, ?_⟩
    · unfold cellStep
      rw [mapM_some _ (fun v => intr T (ucnt T l) (2, v))
        (T.cell k).nodes (fun v hv => h2.read v (hT.cell_nodes k hk v hv)), hr]
      simp only [Option.bind_some, hsub]
      rw [cellEdges_spec T hT l chk s1 h1 k hk]
      simp only [Option.bind_some]
      rw [← hg, h5]
      rfl
    refine ⟨by rw [← hs.len]; exact h6, ?_, ?_, ?_⟩
    · intro v hv
      rcases Nat.lt_or_ge v k with hv' | hv'
      · obtain ⟨r', hr', hdim', _⟩ := refEl_cell hT (Nat.lt_trans hv' hk)
        have h9 := glob_cell_length T hT l chk v (Nat.lt_trans hv' hk) r' hr'
        have h10 := covered_le l r' hdim'
        have h11 := mul_block (n := l.nCell) hv'
        rw [h8 _ _ (Or.inl (by omega)), hs.read v hv']
      · have : v = k := by omega
        subst this
        exact h7
    · simp only [hs.ents, entsOf_succ, hcnt, List.append_assoc]
    · simp only [hs.next, psum_succ, hcnt, Nat.add_assoc]

end UniformFE

open UniformFE in
theorem uniform_is (T : Topo) (hT : T.WF) (l : UniformLayout) (chk : Bool) :
    ∃ h, uniformDofHandler T l chk = some h ∧ Num.Is T (ucnt T l) chk h := by
  obtain ⟨s2, e2, h2⟩ := nodes_spec T l
  obtain ⟨s1, e1, h1⟩ := edges_spec T hT l s2 h2
  obtain ⟨s0, e0, h0⟩ := cells_spec T hT l chk s2 s1 h2 h1
  refine ⟨Data.handler T l ⟨s2.arr, s1.arr, s0.arr, s0.ents, s0.next⟩, ?_, ?_⟩
  · unfold uniformDofHandler UniformFE.init
    rw [e2]
    simp only [Option.bind_some]
    rw [e1]
    simp only [Option.bind_some]
    rw [e0]
    rfl
  have hglob : ∀ e, T.refEl e ≠ none →
      ∃ r, T.refEl e = some r ∧ e.2 < T.num e.1 ∧ 2 - r.dimension = e.1 ∧
        l.covered r = (glob T (ucnt T l) chk e).length ∧
      readBlock (Data.dofs ⟨s2.arr, s1.arr, s0.arr, s0.ents, s0.next⟩ e.1) (l.stride e.1 * e.2)
        (l.covered r) = some (glob T (ucnt T l) chk e) := by
    rintro ⟨k, i⟩ he
    rcases refEl_ne_none he with ⟨rfl, hi⟩ | ⟨rfl, hi⟩ | ⟨rfl, hi⟩
    · refine ⟨_, refEl_node T hi, hi, rfl, by simp [glob, ucnt_node T l hi, UniformLayout.covered, UniformLayout.nNode], ?_⟩
      have := h2.read i hi
      simp only [UniformLayout.stride, UniformLayout.covered, Data.dofs]
      rw [Nat.mul_comm]
      exact this
    · have := h1.read i hi
      refine ⟨_, refEl_edge T hi, hi, rfl, ?_, ?_⟩
      · rw [readBlock_iff] at this
        exact this.2.1.symm
      · simp only [UniformLayout.stride, UniformLayout.covered, Data.dofs]
        rw [Nat.mul_comm]
        exact this
    · obtain ⟨r, hr, hdim, _⟩ := refEl_cell hT hi
      have := h0.read i hi
      rw [glob_cell_length T hT l chk i hi r hr] at this
      refine ⟨r, hr, hi, by simp [hdim], (glob_cell_length T hT l chk i hi r hr).symm, ?_⟩
      simp only [UniformLayout.stride, Data.dofs]
      rw [Nat.mul_comm]
      exact this
  have hsuffix : ∀ e, T.refEl e ≠ none → ∃ p, glob T (ucnt T l) chk e = p ++ intr T (ucnt T l) e := by
    rintro ⟨k, i⟩ he
    rcases refEl_ne_none he with ⟨rfl, hi⟩ | ⟨rfl, hi⟩ | ⟨rfl, hi⟩
    · exact ⟨[], rfl⟩
    · exact ⟨_, rfl⟩
    · exact ⟨_, rfl⟩
  constructor
  · exact h0.next
  · intro e he
    obtain ⟨r, hr, _, _, hc, _⟩ := hglob e he
    simp only [Data.handler, hr, Option.map_some, hc]
  · intro e he
    obtain ⟨r, hr, _, _, hc, _⟩ := hglob e he
    simp only [Data.handler, ucnt, hr, Option.map_some, Option.getD_some]
  · intro e he
    obtain ⟨r, hr, hi, hd, hc, hread⟩ := hglob e he
    simp only [Data.handler, hr, Option.bind_some, hd, hi, if_true, hread]
  · intro e he
    obtain ⟨r, hr, hi, hd, hc, hread⟩ := hglob e he
    obtain ⟨p, hp⟩ := hsuffix e he
    have hcnt : (intr T (ucnt T l) e).length = l.interior r := by simp [ucnt, hr]
    have hle : l.covered r = p.length + l.interior r := by
      rw [hc, hp, List.length_append, hcnt]
    simp only [Data.handler, hr, Option.bind_some, hd, hi, if_true]
    rw [readBlock_sub _ _ _ _ _ _ hread (by omega)]
    congr 1
    rw [hp, List.drop_left' (by omega), List.take_of_length_le (by omega)]
  · intro d
    simp only [Data.handler, h0.ents]
    rfl

end Verif
