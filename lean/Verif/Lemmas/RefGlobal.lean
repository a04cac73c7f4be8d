import Verif.Lemmas.RefLocal

/-! The refined mesh with symbolic nodes. -/

namespace Verif

theorem samePair_iff (p q : ℕ × ℕ) : SamePair p q ↔ s(p.1, p.2) = s(q.1, q.2) := by
  unfold SamePair
  rw [Sym2.eq_iff]
  obtain ⟨a, b⟩ := p
  obtain ⟨c, d⟩ := q
  simp

theorem mem_legal_v {n : ℕ} {fl : List Bool} {c : Bool} {i : ℕ} : .v i ∈ legal n fl c ↔ i < n := by
  cases c <;> simp [legal]

theorem mem_legal_m {n : ℕ} {fl : List Bool} {c : Bool} {i : ℕ} :
    .m i ∈ legal n fl c ↔ i < n ∧ fl.getD i false = true := by
  cases c <;> simp [legal]

theorem mem_legal_ctr {n : ℕ} {fl : List Bool} {c : Bool} : .ctr ∈ legal n fl c ↔ c = true := by
  cases c <;> simp [legal]

/-- Sides of a polygon with distinct nodes are distinct. -/
theorem side_inj (l : List ℕ) (hn : l.Nodup) (hl : l.length = 3 ∨ l.length = 4) (i j : ℕ) (hi : i < l.length)
    (hj : j < l.length) (h : SamePair (side l i) (side l j)) : i = j := by
  rcases hl with hl | hl
  · match l, hl with
    | [a, b, c], _ =>
      simp at hn hi hj
      have : i = 0 ∨ i = 1 ∨ i = 2 := by omega
      have : j = 0 ∨ j = 1 ∨ j = 2 := by omega
      rcases ‹i = 0 ∨ _› with rfl | rfl | rfl <;> rcases ‹j = 0 ∨ _› with rfl | rfl | rfl <;>
        simp [side, SamePair] at h ⊢ <;> omega
  · match l, hl with
    | [a, b, c, d], _ =>
      simp at hn hi hj
      have : i = 0 ∨ i = 1 ∨ i = 2 ∨ i = 3 := by omega
      have : j = 0 ∨ j = 1 ∨ j = 2 ∨ j = 3 := by omega
      rcases ‹i = 0 ∨ _› with rfl | rfl | rfl | rfl <;> rcases ‹j = 0 ∨ _› with rfl | rfl | rfl | rfl <;>
        simp [side, SamePair] at h ⊢ <;> omega

theorem nodup_getD_inj (l : List ℕ) (hn : l.Nodup) (i j : ℕ) (hi : i < l.length) (hj : j < l.length)
    (h : l.getD i 0 = l.getD j 0) : i = j := by
  rw [List.getD_eq_getElem _ _ hi, List.getD_eq_getElem _ _ hj] at h
  exact (hn.getElem_inj_iff).1 h

theorem getD_mem (l : List ℕ) (i : ℕ) (hi : i < l.length) : l.getD i 0 ∈ l := by
  rw [List.getD_eq_getElem _ _ hi]; exact List.getElem_mem _

theorem exists_getD (l : List ℕ) (a : ℕ) (h : a ∈ l) : ∃ i < l.length, l.getD i 0 = a := by
  obtain ⟨i, hi, rfl⟩ := List.getElem_of_mem h
  exact ⟨i, hi, List.getD_eq_getElem _ _ hi⟩

/-- How a mesh is to be refined: split edges; children, interior edges and interior nodes of the cells. -/
structure Plan where
  sp : ℕ → Bool
  polys : ℕ → List (List LNode)
  ints : ℕ → List (LNode × LNode)
  ctr : ℕ → Bool

/-- The patterns of all cells are compatible with the split edges. -/
def Plan.Ok (P : Plan) (T : Topo) : Prop :=
  ∀ c < T.numCells, LocalC (T.cell c).nodes.length ((T.cell c).edges.map P.sp) (P.polys c) (P.ints c) (P.ctr c)

/-- Symbolic nodes of the refined mesh: copies, midpoints of edges, interior nodes of cells. -/
inductive FNode
  | vert (v : ℕ) | mid (e : ℕ) | ctr (c : ℕ)
  deriving DecidableEq

def locF (T : Topo) (c : ℕ) : LNode → FNode
  | .v i => .vert ((T.cell c).nodes.getD i 0)
  | .m i => .mid ((T.cell c).edges.getD i 0)
  | .ctr => .ctr c

/-- Nodes of the refined mesh. -/
def Plan.ValidNode (P : Plan) (T : Topo) : FNode → Prop
  | .vert v => v < T.numNodes
  | .mid e => e < T.numEdges ∧ P.sp e = true
  | .ctr c => c < T.numCells ∧ P.ctr c = true

def Plan.subPairs (P : Plan) (T : Topo) (e : ℕ) : List (FNode × FNode) :=
  if P.sp e then [(.vert (T.edge e).1, .mid e), (.mid e, .vert (T.edge e).2)]
  else [(.vert (T.edge e).1, .vert (T.edge e).2)]

def Plan.intPairs (P : Plan) (T : Topo) (c : ℕ) : List (FNode × FNode) :=
  (P.ints c).map fun x => (locF T c x.1, locF T c x.2)

def Plan.fineEdges (P : Plan) (T : Topo) : List (FNode × FNode) :=
  (List.range T.numEdges).flatMap (P.subPairs T) ++ (List.range T.numCells).flatMap (P.intPairs T)

def Plan.fineCells (P : Plan) (T : Topo) : List (List FNode) :=
  (List.range T.numCells).flatMap fun c => (P.polys c).map fun Q => Q.map (locF T c)

/-- Forgetting the direction of pairs. -/
def toS {α : Type} (l : List (α × α)) : List (Sym2 α) := l.map fun x => s(x.1, x.2)

variable {T : Topo} (hT : T.Conforming)
include hT

theorem edges_nodup (c : ℕ) (hc : c < T.numCells) : (T.cell c).edges.Nodup := by
  rw [List.nodup_iff_injective_getElem]
  intro ⟨i, hi⟩ ⟨j, hj⟩ h
  simp only at h
  have hl := hT.wf.cell_edges_len c hc
  have h1 := hT.wf.cell_side c hc i (by omega)
  have h2 := hT.wf.cell_side c hc j (by omega)
  rw [List.getD_eq_getElem _ _ hi, h] at h1
  rw [List.getD_eq_getElem _ _ hj] at h2
  have h3 : SamePair (side (T.cell c).nodes i) (side (T.cell c).nodes j) := by
    rw [samePair_iff] at h1 h2 ⊢
    rw [← h1, h2]
  have := side_inj _ (hT.nodup c hc) (hT.wf.cell_len c hc) i j (by omega) (by omega) h3
  simpa using this

theorem edge_end_mem (c : ℕ) (hc : c < T.numCells) (e : ℕ) (he : e ∈ (T.cell c).edges) :
    (T.edge e).1 ∈ (T.cell c).nodes ∧ (T.edge e).2 ∈ (T.cell c).nodes := by
  obtain ⟨i, hi, rfl⟩ := exists_getD _ _ he
  have hl := hT.wf.cell_edges_len c hc
  have h1 := hT.wf.cell_side c hc i (by omega)
  have ha : (side (T.cell c).nodes i).1 ∈ (T.cell c).nodes := getD_mem _ _ (by omega)
  have hb : (side (T.cell c).nodes i).2 ∈ (T.cell c).nodes := getD_mem _ _ (Nat.mod_lt _ (by omega))
  rcases h1 with h1 | h1
  · rw [h1]; exact ⟨ha, hb⟩
  · rw [h1]; exact ⟨hb, ha⟩

theorem share_edge (c d : ℕ) (hc : c < T.numCells) (hd : d < T.numCells) (hcd : c ≠ d) (e : ℕ)
    (h1 : e ∈ (T.cell c).edges) (h2 : e ∈ (T.cell d).edges) (w : ℕ) (hw1 : w ∈ (T.cell c).nodes)
    (hw2 : w ∈ (T.cell d).nodes) : w = (T.edge e).1 ∨ w = (T.edge e).2 := by
  have he := hT.wf.cell_edges c hc e h1
  obtain ⟨a1, b1⟩ := edge_end_mem hT c hc e h1
  obtain ⟨a2, b2⟩ := edge_end_mem hT d hd e h2
  exact (hT.share c hc d hd hcd _ _ (hT.wf.edge_ne e he) a1 b1 a2 b2).2 w hw1 hw2

theorem share_edge_unique (c d : ℕ) (hc : c < T.numCells) (hd : d < T.numCells) (hcd : c ≠ d) (e f : ℕ)
    (h1 : e ∈ (T.cell c).edges) (h2 : e ∈ (T.cell d).edges) (h3 : f ∈ (T.cell c).edges)
    (h4 : f ∈ (T.cell d).edges) : e = f := by
  have he := hT.wf.cell_edges c hc e h1
  have hf := hT.wf.cell_edges c hc f h3
  obtain ⟨a1, b1⟩ := edge_end_mem hT c hc f h3
  obtain ⟨a2, b2⟩ := edge_end_mem hT d hd f h4
  have ha := share_edge hT c d hc hd hcd e h1 h2 _ a1 a2
  have hb := share_edge hT c d hc hd hcd e h1 h2 _ b1 b2
  have hne := hT.wf.edge_ne f hf
  apply hT.wf.edge_inj e he f hf
  rw [samePair_iff, Sym2.eq_iff]
  rcases ha with ha | ha <;> rcases hb with hb | hb
  · exact absurd (ha.trans hb.symm) hne
  · exact Or.inl ⟨ha.symm, hb.symm⟩
  · exact Or.inr ⟨hb.symm, ha.symm⟩
  · exact absurd (ha.trans hb.symm) hne

/-- A vertex which is an end of the edge on side `i` is one of the two local vertices of the side. -/
theorem on_side_of_end (c : ℕ) (hc : c < T.numCells) (i k : ℕ) (hi : i < (T.cell c).nodes.length)
    (hk : k < (T.cell c).nodes.length)
    (h : (T.cell c).nodes.getD k 0 = (T.edge ((T.cell c).edges.getD i 0)).1 ∨
      (T.cell c).nodes.getD k 0 = (T.edge ((T.cell c).edges.getD i 0)).2) :
    LNode.v k ∈ onSide (T.cell c).nodes.length i := by
  have h1 := hT.wf.cell_side c hc i hi
  have hlt : (i + 1) % (T.cell c).nodes.length < (T.cell c).nodes.length := Nat.mod_lt _ (by omega)
  have h2 : (T.cell c).nodes.getD k 0 = (side (T.cell c).nodes i).1 ∨
      (T.cell c).nodes.getD k 0 = (side (T.cell c).nodes i).2 := by
    rcases h1 with h1 | h1
    · rw [h1] at h; exact h
    · rw [h1] at h; exact h.symm
  rcases h2 with h2 | h2
  · rw [nodup_getD_inj _ (hT.nodup c hc) k i hk hi h2]; simp [onSide]
  · rw [nodup_getD_inj _ (hT.nodup c hc) k _ hk hlt h2]; simp [onSide]

omit hT in
theorem m_on_side (n i : ℕ) : LNode.m i ∈ onSide n i := by simp [onSide]

variable {P : Plan}

/-- Legal local nodes of a cell. -/
abbrev Leg (T : Topo) (P : Plan) (c : ℕ) (x : LNode) : Prop :=
  x ∈ legal (T.cell c).nodes.length ((T.cell c).edges.map P.sp) (P.ctr c)

theorem locF_inj (c : ℕ) (hc : c < T.numCells) (x y : LNode) (hx : Leg T P c x) (hy : Leg T P c y)
    (h : locF T c x = locF T c y) : x = y := by
  have hl := hT.wf.cell_edges_len c hc
  cases x <;> cases y <;> simp only [locF, FNode.vert.injEq, FNode.mid.injEq, reduceCtorEq] at h
  · rw [nodup_getD_inj _ (hT.nodup c hc) _ _ (mem_legal_v.1 hx) (mem_legal_v.1 hy) h]
  · rw [nodup_getD_inj _ (edges_nodup hT c hc) _ _ (by rw [hl]; exact (mem_legal_m.1 hx).1)
      (by rw [hl]; exact (mem_legal_m.1 hy).1) h]
  · rfl

theorem locF_valid (c : ℕ) (hc : c < T.numCells) (x : LNode) (hx : Leg T P c x) :
    P.ValidNode T (locF T c x) := by
  have hl := hT.wf.cell_edges_len c hc
  cases x with
  | v i => exact hT.wf.cell_nodes c hc _ (getD_mem _ _ (mem_legal_v.1 hx))
  | m i =>
    obtain ⟨h1, h2⟩ := mem_legal_m.1 hx
    have h3 : i < (T.cell c).edges.length := by omega
    refine ⟨hT.wf.cell_edges c hc _ (getD_mem _ _ h3), ?_⟩
    rw [List.getD_eq_getElem _ _ (by simpa using h3)] at h2
    rw [List.getD_eq_getElem _ _ h3]
    simpa using h2
  | ctr => exact ⟨hc, mem_legal_ctr.1 hx⟩

/-- Two symbolic nodes common to two different cells lie on a common edge. -/
theorem pair_common (c d : ℕ) (hc : c < T.numCells) (hd : d < T.numCells) (hcd : c ≠ d) (x y x' y' : LNode)
    (hx : Leg T P c x) (hy : Leg T P c y) (hx' : Leg T P d x') (hy' : Leg T P d y')
    (h1 : locF T c x = locF T d x') (h2 : locF T c y = locF T d y') (hne : locF T c x ≠ locF T c y) :
    ∃ i < (T.cell c).nodes.length, ∃ j < (T.cell d).nodes.length,
      (T.cell c).edges.getD i 0 = (T.cell d).edges.getD j 0 ∧
      x ∈ onSide (T.cell c).nodes.length i ∧ y ∈ onSide (T.cell c).nodes.length i ∧
      x' ∈ onSide (T.cell d).nodes.length j ∧ y' ∈ onSide (T.cell d).nodes.length j := by
  have hlc := hT.wf.cell_edges_len c hc
  have hld := hT.wf.cell_edges_len d hd
  -- a vertex and a midpoint
  have vm : ∀ k k' i j, k < (T.cell c).nodes.length → k' < (T.cell d).nodes.length →
      i < (T.cell c).nodes.length → j < (T.cell d).nodes.length →
      (T.cell c).nodes.getD k 0 = (T.cell d).nodes.getD k' 0 →
      (T.cell c).edges.getD i 0 = (T.cell d).edges.getD j 0 →
      LNode.v k ∈ onSide (T.cell c).nodes.length i ∧ LNode.v k' ∈ onSide (T.cell d).nodes.length j := by
    intro k k' i j hk hk' hi hj hv he
    have m1 : (T.cell c).edges.getD i 0 ∈ (T.cell c).edges := getD_mem _ _ (by omega)
    have m2 : (T.cell c).edges.getD i 0 ∈ (T.cell d).edges := by rw [he]; exact getD_mem _ _ (by omega)
    have n1 : (T.cell c).nodes.getD k 0 ∈ (T.cell c).nodes := getD_mem _ _ hk
    have n2 : (T.cell c).nodes.getD k 0 ∈ (T.cell d).nodes := by rw [hv]; exact getD_mem _ _ hk'
    have := share_edge hT c d hc hd hcd _ m1 m2 _ n1 n2
    refine ⟨on_side_of_end hT c hc i k hi hk this, on_side_of_end hT d hd j k' hj hk' ?_⟩
    rw [← hv, ← he]; exact this
  cases x <;> cases x' <;> simp only [locF, FNode.vert.injEq, FNode.mid.injEq, FNode.ctr.injEq, reduceCtorEq] at h1
  · rename_i k k'
    cases y <;> cases y' <;>
      simp only [locF, FNode.vert.injEq, FNode.mid.injEq, FNode.ctr.injEq, reduceCtorEq] at h2
    · rename_i l l'
      have hk := mem_legal_v.1 hx
      have hk' := mem_legal_v.1 hx'
      have hl := mem_legal_v.1 hy
      have hl' := mem_legal_v.1 hy'
      have hne' : (T.cell c).nodes.getD k 0 ≠ (T.cell c).nodes.getD l 0 := fun h => hne (by simp only [locF, h])
      obtain ⟨⟨e, e1, e2, e3⟩, _⟩ := hT.share c hc d hd hcd _ _ hne' (getD_mem _ _ hk) (getD_mem _ _ hl)
        (by rw [h1]; exact getD_mem _ _ hk') (by rw [h2]; exact getD_mem _ _ hl')
      obtain ⟨i, hi, hi'⟩ := exists_getD _ _ e1
      obtain ⟨j, hj, hj'⟩ := exists_getD _ _ e2
      rw [hlc] at hi
      rw [hld] at hj
      have hee := hi'.trans hj'.symm
      obtain ⟨o1, o1'⟩ := vm k k' i j hk hk' hi hj h1 hee
      obtain ⟨o2, o2'⟩ := vm l l' i j hl hl' hi hj h2 hee
      exact ⟨i, hi, j, hj, hee, o1, o2, o1', o2'⟩
    · rename_i i j
      have hi := (mem_legal_m.1 hy).1
      have hj := (mem_legal_m.1 hy').1
      obtain ⟨o1, o1'⟩ := vm k k' i j (mem_legal_v.1 hx) (mem_legal_v.1 hx') hi hj h1 h2
      exact ⟨i, hi, j, hj, h2, o1, m_on_side _ _, o1', m_on_side _ _⟩
    · exact absurd h2 hcd
  · rename_i i j
    have hi := (mem_legal_m.1 hx).1
    have hj := (mem_legal_m.1 hx').1
    cases y <;> cases y' <;>
      simp only [locF, FNode.vert.injEq, FNode.mid.injEq, FNode.ctr.injEq, reduceCtorEq] at h2
    · rename_i k k'
      obtain ⟨o1, o1'⟩ := vm k k' i j (mem_legal_v.1 hy) (mem_legal_v.1 hy') hi hj h2 h1
      exact ⟨i, hi, j, hj, h1, m_on_side _ _, o1, m_on_side _ _, o1'⟩
    · rename_i k k'
      exfalso
      apply hne
      have hk := (mem_legal_m.1 hy).1
      have hk' := (mem_legal_m.1 hy').1
      have := share_edge_unique hT c d hc hd hcd ((T.cell c).edges.getD i 0) ((T.cell c).edges.getD k 0)
        (getD_mem _ _ (by omega)) (by rw [h1]; exact getD_mem _ _ (by omega))
        (getD_mem _ _ (by omega)) (by rw [h2]; exact getD_mem _ _ (by omega))
      simp only [locF, this]
    · exact absurd h2 hcd
  · exact absurd h1 hcd

/-! ### Edges of the refined mesh -/

theorem subs_loc (c : ℕ) (hc : c < T.numCells) (i : ℕ) (hi : i < (T.cell c).nodes.length) :
    ((subs (T.cell c).nodes.length ((T.cell c).edges.map P.sp) i).map (Sym2.map (locF T c))).Perm
      (toS (P.subPairs T ((T.cell c).edges.getD i 0))) := by
  have hl := hT.wf.cell_edges_len c hc
  have h1 := hT.wf.cell_side c hc i hi
  have hf : ((T.cell c).edges.map P.sp).getD i false = P.sp ((T.cell c).edges.getD i 0) := by
    rw [List.getD_eq_getElem _ _ (by simp; omega), List.getD_eq_getElem _ _ (by omega)]; simp
  unfold subs Plan.subPairs
  rw [hf]
  cases hs : P.sp ((T.cell c).edges.getD i 0) with
  | false =>
    rcases h1 with h1 | h1
    · simp only [toS, locF, h1, side, Prod.swap]
      simp [locF]
    · simp only [toS, locF, h1, side, Prod.swap]
      simp [locF, Sym2.eq_swap]
  | true =>
    rcases h1 with h1 | h1
    · simp only [toS, locF, h1, side, Prod.swap]
      simp [locF]
    · simp only [toS, locF, h1, side, Prod.swap]
      simp only [if_true, List.map_cons, List.map_nil, Sym2.map_mk, locF]
      rw [Sym2.eq_swap (a := FNode.mid _), Sym2.eq_swap (a := FNode.vert ((T.cell c).nodes.getD i 0))]
      exact List.Perm.swap _ _ _

variable (hP : P.Ok T)
include hP

theorem cell_sides (c : ℕ) (hc : c < T.numCells) :
    (((P.polys c).flatMap sidesOf).map (Sym2.map (locF T c))).Perm
      ((T.cell c).edges.flatMap (fun e => toS (P.subPairs T e)) ++
        (toS (P.intPairs T c) ++ toS (P.intPairs T c))) := by
  have hL := hP c hc
  have hperm : ((P.polys c).flatMap sidesOf).Perm ((List.range (T.cell c).nodes.length).flatMap
      (subs (T.cell c).nodes.length ((T.cell c).edges.map P.sp)) ++ (intsS (P.ints c) ++ intsS (P.ints c))) := by
    rw [List.perm_iff_count]
    intro x
    by_cases hx : x ∈ (P.polys c).flatMap sidesOf ++ ((List.range (T.cell c).nodes.length).flatMap
      (subs (T.cell c).nodes.length ((T.cell c).edges.map P.sp)) ++ (intsS (P.ints c) ++ intsS (P.ints c)))
    · exact hL.sidesOk x hx
    · rw [List.mem_append, not_or] at hx
      rw [List.count_eq_zero_of_not_mem hx.1, List.count_eq_zero_of_not_mem hx.2]
  have h2 := hperm.map (Sym2.map (locF T c))
  refine h2.trans ?_
  rw [List.map_append, List.map_append]
  have hi : (intsS (P.ints c)).map (Sym2.map (locF T c)) = toS (P.intPairs T c) := by
    simp [intsS, toS, Plan.intPairs, Function.comp_def]
  rw [hi]
  apply List.Perm.append_right
  rw [List.map_flatMap]
  have he : (T.cell c).edges.flatMap (fun e => toS (P.subPairs T e)) =
      (List.range (T.cell c).nodes.length).flatMap
        (fun i => toS (P.subPairs T ((T.cell c).edges.getD i 0))) := by
    rw [← hT.wf.cell_edges_len c hc]
    conv_lhs => rw [show (T.cell c).edges = (List.range (T.cell c).edges.length).map
      (fun i => (T.cell c).edges.getD i 0) from by
        apply List.ext_getElem (by simp)
        intro i h1 h2
        simp [h1]]
    rw [List.flatMap_map]
  rw [he]
  apply List.Perm.flatMap_left
  intro i hi
  exact subs_loc hT c hc i (by simpa using hi)

/-- The sides of all fine cells. -/
theorem fine_sides : ((P.fineCells T).flatMap sidesOf).Perm
    (((List.range T.numCells).flatMap fun c => (T.cell c).edges).flatMap (fun e => toS (P.subPairs T e)) ++
      ((List.range T.numCells).flatMap (fun c => toS (P.intPairs T c)) ++
       (List.range T.numCells).flatMap (fun c => toS (P.intPairs T c)))) := by
  have h1 : (P.fineCells T).flatMap sidesOf = (List.range T.numCells).flatMap
      (fun c => ((P.polys c).flatMap sidesOf).map (Sym2.map (locF T c))) := by
    unfold Plan.fineCells
    rw [List.flatMap_assoc]
    congr 1
    funext c
    rw [List.flatMap_map, List.map_flatMap]
    congr 1
    funext Q
    rw [sidesOf_map]
  rw [h1]
  have h2 : ((List.range T.numCells).flatMap
      (fun c => ((P.polys c).flatMap sidesOf).map (Sym2.map (locF T c)))).Perm
      ((List.range T.numCells).flatMap fun c => (T.cell c).edges.flatMap (fun e => toS (P.subPairs T e)) ++
        (toS (P.intPairs T c) ++ toS (P.intPairs T c))) := by
    apply List.Perm.flatMap_left
    intro c hc
    exact cell_sides hT hP c (by simpa using hc)
  refine h2.trans ?_
  refine (List.flatMap_append_perm _ _ _).symm.trans ?_
  rw [List.flatMap_assoc]
  apply List.Perm.append_left
  exact (List.flatMap_append_perm _ _ _).symm

theorem int_legal (c : ℕ) (hc : c < T.numCells) (x : LNode × LNode) (hx : x ∈ P.ints c) :
    Leg T P c x.1 ∧ Leg T P c x.2 ∧ locF T c x.1 ≠ locF T c x.2 := by
  obtain ⟨h1, h2, h3, _⟩ := (hP c hc).intsOk x hx
  exact ⟨h1, h2, fun h => h3 (locF_inj hT c hc _ _ h1 h2 h)⟩

theorem map_sym_inj (c : ℕ) (hc : c < T.numCells) (x y : LNode × LNode)
    (hx : Leg T P c x.1 ∧ Leg T P c x.2) (hy : Leg T P c y.1 ∧ Leg T P c y.2)
    (h : s(locF T c x.1, locF T c x.2) = s(locF T c y.1, locF T c y.2)) : s(x.1, x.2) = s(y.1, y.2) := by
  rw [Sym2.eq_iff] at h ⊢
  rcases h with ⟨h1, h2⟩ | ⟨h1, h2⟩
  · exact Or.inl ⟨locF_inj hT c hc _ _ hx.1 hy.1 h1, locF_inj hT c hc _ _ hx.2 hy.2 h2⟩
  · exact Or.inr ⟨locF_inj hT c hc _ _ hx.1 hy.2 h1, locF_inj hT c hc _ _ hx.2 hy.1 h2⟩

theorem ints_nodup (c : ℕ) (hc : c < T.numCells) : (toS (P.intPairs T c)).Nodup := by
  have hn := (hP c hc).intsNodup
  have : toS (P.intPairs T c) = (P.ints c).map fun x => s(locF T c x.1, locF T c x.2) := by
    simp [toS, Plan.intPairs, Function.comp_def]
  rw [this]
  unfold IntsNodup intsS at hn
  have hn' : (P.ints c).Nodup := List.Nodup.of_map _ hn
  rw [List.nodup_map_iff_inj_on hn'] at hn ⊢
  intro x hx y hy h
  obtain ⟨a1, a2, _⟩ := int_legal hT hP c hc x hx
  obtain ⟨b1, b2, _⟩ := int_legal hT hP c hc y hy
  exact hn x hx y hy (map_sym_inj hT hP c hc x y ⟨a1, a2⟩ ⟨b1, b2⟩ h)

omit hT hP in
theorem mem_toS_int {c : ℕ} {z : Sym2 FNode} (h : z ∈ toS (P.intPairs T c)) :
    ∃ x ∈ P.ints c, z = s(locF T c x.1, locF T c x.2) := by
  simp only [toS, Plan.intPairs, List.mem_map] at h
  obtain ⟨_, ⟨x, hx, rfl⟩, rfl⟩ := h
  exact ⟨x, hx, rfl⟩

theorem ints_disjoint (c d : ℕ) (hc : c < T.numCells) (hd : d < T.numCells) (hcd : c ≠ d) :
    List.Disjoint (toS (P.intPairs T c)) (toS (P.intPairs T d)) := by
  intro z h1 h2
  obtain ⟨x, hx, rfl⟩ := mem_toS_int h1
  obtain ⟨y, hy, h⟩ := mem_toS_int h2
  obtain ⟨a1, a2, a3⟩ := int_legal hT hP c hc x hx
  obtain ⟨b1, b2, b3⟩ := int_legal hT hP d hd y hy
  have hoff := ((hP c hc).intsOk x hx).2.2.2.2
  rw [Sym2.eq_iff] at h
  rcases h with ⟨e1, e2⟩ | ⟨e1, e2⟩
  · obtain ⟨i, hi, j, hj, _, o1, o2, _⟩ := pair_common hT c d hc hd hcd _ _ _ _ a1 a2 b1 b2 e1 e2 a3
    exact hoff i (by simpa using hi) ⟨o1, o2⟩
  · obtain ⟨i, hi, j, hj, _, o1, o2, _⟩ := pair_common hT c d hc hd hcd _ _ _ _ a1 a2 b2 b1 e1 e2 a3
    exact hoff i (by simpa using hi) ⟨o1, o2⟩

omit hP in
theorem subs_nodup (e : ℕ) (he : e < T.numEdges) : (toS (P.subPairs T e)).Nodup := by
  have := hT.wf.edge_ne e he
  unfold toS Plan.subPairs
  split
  · simp [Sym2.eq_iff, this]
  · simp

omit hP in
theorem subs_disjoint (e f : ℕ) (he : e < T.numEdges) (hf : f < T.numEdges) (hef : e ≠ f) :
    List.Disjoint (toS (P.subPairs T e)) (toS (P.subPairs T f)) := by
  have hinj := hT.wf.edge_inj e he f hf
  rw [samePair_iff, Sym2.eq_iff] at hinj
  intro z h1 h2
  unfold toS Plan.subPairs at h1 h2
  cases h3 : P.sp e <;> cases h4 : P.sp f <;> simp [h3, h4] at h1 h2
  · subst h1
    simp only [Sym2.eq_iff, FNode.vert.injEq] at h2
    exact hef (hinj h2)
  · subst h1
    simp [Sym2.eq_iff] at h2
  · subst h2
    simp [Sym2.eq_iff] at h1
  · rcases h1 with rfl | rfl <;> simp [Sym2.eq_iff, hef] at h2

theorem subs_ints_disjoint (e c : ℕ) (he : e < T.numEdges) (hc : c < T.numCells) :
    List.Disjoint (toS (P.subPairs T e)) (toS (P.intPairs T c)) := by
  intro z h1 h2
  obtain ⟨x, hx, rfl⟩ := mem_toS_int h2
  obtain ⟨a1, a2, a3, a4, hoff⟩ := (hP c hc).intsOk x hx
  have hl := hT.wf.cell_edges_len c hc
  have key : ∀ k i, k < (T.cell c).nodes.length → i < (T.cell c).nodes.length →
      (T.cell c).edges.getD i 0 = e →
      ((T.cell c).nodes.getD k 0 = (T.edge e).1 ∨ (T.cell c).nodes.getD k 0 = (T.edge e).2) →
      LNode.v k ∈ onSide (T.cell c).nodes.length i := by
    intro k i hk hi hie h
    apply on_side_of_end hT c hc i k hi hk
    rw [hie]; exact h
  obtain ⟨x1, x2⟩ := x
  simp only at a1 a2 a3 a4 hoff h1
  unfold toS Plan.subPairs at h1
  cases h3 : P.sp e with
  | false =>
    cases x1 <;> cases x2 <;> simp [h3, locF, Sym2.eq_iff] at h1
    exact a4 ⟨rfl, rfl⟩
  | true =>
    simp only [h3, if_true, List.map_cons, List.map_nil, List.mem_cons, List.not_mem_nil, or_false] at h1
    cases x1 <;> cases x2 <;>
      simp only [locF, Sym2.eq_iff, FNode.vert.injEq, FNode.mid.injEq, reduceCtorEq, false_and, and_false,
        or_false, false_or] at h1
    · rename_i k i
      have hi := (mem_legal_m.1 a2).1
      exact hoff i (by simpa using hi) ⟨key k i (mem_legal_v.1 a1) hi (by tauto) (by tauto), m_on_side _ _⟩
    · rename_i i k
      have hi := (mem_legal_m.1 a1).1
      exact hoff i (by simpa using hi) ⟨m_on_side _ _, key k i (mem_legal_v.1 a2) hi (by tauto) (by tauto)⟩

/-- No two registered edges have the same ends. -/
theorem fineEdges_nodup : (toS (P.fineEdges T)).Nodup := by
  have h : toS (P.fineEdges T) = (List.range T.numEdges).flatMap (fun e => toS (P.subPairs T e)) ++
      (List.range T.numCells).flatMap (fun c => toS (P.intPairs T c)) := by
    simp [toS, Plan.fineEdges, List.map_flatMap]
  rw [h, List.nodup_append', List.nodup_flatMap, List.nodup_flatMap]
  refine ⟨⟨?_, ?_⟩, ⟨?_, ?_⟩, ?_⟩
  · intro e he; exact subs_nodup hT e (by simpa using he)
  · apply List.Nodup.pairwise_of_forall_ne List.nodup_range
    intro e he f hf hef
    exact subs_disjoint hT e f (by simpa using he) (by simpa using hf) hef
  · intro c hc; exact ints_nodup hT hP c (by simpa using hc)
  · apply List.Nodup.pairwise_of_forall_ne List.nodup_range
    intro e he f hf hef
    exact ints_disjoint hT hP e f (by simpa using he) (by simpa using hf) hef
  · intro z h1 h2
    rw [List.mem_flatMap] at h1 h2
    obtain ⟨e, he, h1⟩ := h1
    obtain ⟨c, hc, h2⟩ := h2
    exact subs_ints_disjoint hT hP e c (by simpa using he) (by simpa using hc) h1 h2

end Verif
