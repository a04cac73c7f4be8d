import Verif.Lemmas.Dof5

/-!
# Properties C09 - C15: dof handlers

The theorems hold on every consistent mesh topology `T` (`Topo.WF`); every mesh produced by the mesh
factory is of this kind by `C16_wellFormed`.  The predicates about handlers are those of
`Verif/Spec/DofHandler.lean`, which mention only the methods of the interface `DofHandler`.
-/

namespace Verif

/-! ### Sample mesh: a triangle and a quadrilateral sharing an edge which they traverse in opposite
directions -/

/-- Nodes 0..4, triangle 0-1-2, quadrilateral 2-1-3-4. -/
def sampleTopo : Topo where
  numNodes := 5
  numEdges := 6
  numCells := 2
  edge e := ([(0, 1), (1, 2), (2, 0), (1, 3), (4, 3), (4, 2)] : List (ℕ × ℕ)).getD e (0, 0)
  cell c := ([⟨[0, 1, 2], [0, 1, 2], [true, true, true]⟩,
    ⟨[2, 1, 3, 4], [1, 3, 4, 5], [false, true, false, true]⟩] : List TCell).getD c ⟨[], [], []⟩

theorem sampleTopo_WF : sampleTopo.WF := by
  constructor <;> decide

/-! ### C09 -/

/-- Construction succeeds, all methods answer on all entities, every entity has the number of interior
dofs prescribed for its type, and the interior dofs of all entities partition `0..NumDofs()-1`. -/
theorem C09_uniform (T : Topo) (hT : T.WF) (l : UniformLayout) (chk : Bool) :
    ∃ h, uniformDofHandler T l chk = some h ∧ h.Answers T ∧ h.Partitions T ∧
      (∀ e r, T.IsEnt e → T.refEl e = some r → (h.own e).length = l.interior r) := by
  obtain ⟨h, h1, h2⟩ := uniform_is T hT l chk
  refine ⟨h, h1, h2.answers hT, h2.partitions hT, ?_⟩
  intro e r he hr
  rw [h2.own_length hT he]
  simp [ucnt, hr]

private theorem sum_count (T : Topo) (hT : T.WF) (l : UniformLayout) :
    T.totalDofs (ucnt T l) = T.numNodes * l.point + T.numEdges * l.segment +
      ((List.range T.numCells).countP fun c => (T.cell c).nodes.length = 3) * l.tria +
      ((List.range T.numCells).countP fun c => (T.cell c).nodes.length = 4) * l.quad := by
  have e2 : ∀ n ≤ T.numNodes, ((List.range n).map fun v => ucnt T l (2, v)).sum = n * l.point := by
    intro n hn
    induction n with
    | zero => simp
    | succ n ih =>
      rw [List.range_succ, List.map_append, List.sum_append, ih (by omega), Nat.add_mul]
      simp [ucnt_node T l hn]
  have e1 : ∀ n ≤ T.numEdges, ((List.range n).map fun v => ucnt T l (1, v)).sum = n * l.segment := by
    intro n hn
    induction n with
    | zero => simp
    | succ n ih =>
      rw [List.range_succ, List.map_append, List.sum_append, ih (by omega), Nat.add_mul]
      simp [ucnt_edge T l hn]
  have e0 : ∀ n ≤ T.numCells, ((List.range n).map fun v => ucnt T l (0, v)).sum =
      ((List.range n).countP fun c => (T.cell c).nodes.length = 3) * l.tria +
      ((List.range n).countP fun c => (T.cell c).nodes.length = 4) * l.quad := by
    intro n hn
    induction n with
    | zero => simp
    | succ n ih =>
      rw [List.range_succ, List.map_append, List.sum_append, ih (by omega), List.countP_append,
        List.countP_append]
      rcases hT.cell_len n hn with h | h
      · have : ucnt T l (0, n) = l.tria := by
          simp [ucnt, Topo.refEl, Topo.num, h, UniformLayout.interior, (by omega : n < T.numCells)]
        simp [this, h, Nat.add_mul]
        omega
      · have : ucnt T l (0, n) = l.quad := by
          simp [ucnt, Topo.refEl, Topo.num, h, UniformLayout.interior, (by omega : n < T.numCells)]
        simp [this, h, Nat.add_mul]
        omega
  unfold Topo.totalDofs
  rw [e2 _ (Nat.le_refl _), e1 _ (Nat.le_refl _), e0 _ (Nat.le_refl _)]
  omega

/-- `NumDofs()` is the number of nodes, edges, triangles and quadrilaterals weighted by the prescribed
numbers of dofs. -/
theorem C09_numDofs (T : Topo) (hT : T.WF) (l : UniformLayout) (chk : Bool) (h : DofHandler)
    (hh : uniformDofHandler T l chk = some h) :
    h.numDofs = T.numNodes * l.point + T.numEdges * l.segment +
      ((List.range T.numCells).countP fun c => (T.cell c).nodes.length = 3) * l.tria +
      ((List.range T.numCells).countP fun c => (T.cell c).nodes.length = 4) * l.quad := by
  obtain ⟨h', h1, h2⟩ := uniform_is T hT l chk
  rw [hh] at h1
  cases h1
  rw [h2.numDofs, ← sum_count T hT l]
  rfl

/-- The same for the dynamic handler. -/
theorem C09_dynamic (T : Topo) (hT : T.WF) (cnt : Ent → ℕ) :
    ∃ h, dynamicDofHandler T cnt = some h ∧ h.Answers T ∧ h.Partitions T ∧
      (∀ e, T.IsEnt e → (h.own e).length = cnt e) ∧ h.numDofs = T.totalDofs cnt := by
  obtain ⟨h, h1, h2⟩ := dynamic_is T hT cnt
  refine ⟨h, h1, h2.answers hT, h2.partitions hT, fun e he => h2.own_length hT he, h2.numDofs⟩

example : ∃ h, uniformDofHandler sampleTopo ⟨1, 2, 1, 4⟩ true = some h ∧ h.numDofs = 22 := by
  refine ⟨_, rfl, by decide⟩

/-! ### C10 -/

/-- Numbering by codimension and index, consecutive per entity: uniform handler. -/
theorem C10_uniform (T : Topo) (hT : T.WF) (l : UniformLayout) (chk : Bool) (h : DofHandler)
    (hh : uniformDofHandler T l chk = some h) : h.Ordered T := by
  obtain ⟨h', h1, h2⟩ := uniform_is T hT l chk
  rw [hh] at h1
  cases h1
  exact h2.ordered hT

/-- Numbering by codimension and index, consecutive per entity: dynamic handler. -/
theorem C10_dynamic (T : Topo) (hT : T.WF) (cnt : Ent → ℕ) (h : DofHandler)
    (hh : dynamicDofHandler T cnt = some h) : h.Ordered T := by
  obtain ⟨h', h1, h2⟩ := dynamic_is T hT cnt
  rw [hh] at h1
  cases h1
  exact h2.ordered hT

example : ∃ h, uniformDofHandler sampleTopo ⟨1, 2, 1, 4⟩ true = some h ∧
    h.own (2, 3) = [3] ∧ h.own (1, 1) = [7, 8] ∧ h.own (0, 1) = [18, 19, 20, 21] := by
  refine ⟨_, rfl, by decide, by decide, by decide⟩

/-! ### C11 -/

private theorem laidOut_of_is {T : Topo} {cnt : Ent → ℕ} {h : DofHandler} (hI : Num.Is T cnt true h)
    (hT : T.WF) : h.LaidOut T := by
  refine ⟨fun v hv => hI.node_part hT hv, fun e he => hI.edge_part hT he, fun c hc => ?_⟩
  have := hI.cell_part hT hc
  simpa using this

/-- Layout of `GlobalDofIndices`, distinct entries below `NumDofs()`: uniform handler. -/
theorem C11_uniform (T : Topo) (hT : T.WF) (l : UniformLayout) (h : DofHandler)
    (hh : uniformDofHandler T l true = some h) : h.Answers T ∧ h.LaidOut T ∧ h.DistinctInRange T := by
  obtain ⟨h', h1, h2⟩ := uniform_is T hT l true
  rw [hh] at h1
  cases h1
  exact ⟨h2.answers hT, laidOut_of_is h2 hT, h2.distinctInRange hT⟩

/-- Without the orientation check edges are never reversed. -/
theorem C11_uniform_unoriented (T : Topo) (hT : T.WF) (l : UniformLayout) (h : DofHandler)
    (hh : uniformDofHandler T l false = some h) :
    h.Answers T ∧ h.LaidOutUnoriented T ∧ h.DistinctInRange T := by
  obtain ⟨h', h1, h2⟩ := uniform_is T hT l false
  rw [hh] at h1
  cases h1
  refine ⟨h2.answers hT, ⟨fun v hv => h2.node_part hT hv, fun e he => h2.edge_part hT he, fun c hc => ?_⟩,
    h2.distinctInRange hT⟩
  rw [h2.cell_part hT hc]
  congr 2
  have : ((T.cell c).edges.zip (T.cell c).ori).map Prod.fst = (T.cell c).edges :=
    List.map_fst_zip (by rw [hT.cell_edges_len c hc, hT.cell_ori_len c hc])
  conv_rhs => rw [← this]
  rw [List.flatMap_map]
  simp

/-- Layout of `GlobalDofIndices`, distinct entries below `NumDofs()`: dynamic handler. -/
theorem C11_dynamic (T : Topo) (hT : T.WF) (cnt : Ent → ℕ) (h : DofHandler)
    (hh : dynamicDofHandler T cnt = some h) : h.Answers T ∧ h.LaidOut T ∧ h.DistinctInRange T := by
  obtain ⟨h', h1, h2⟩ := dynamic_is T hT cnt
  rw [hh] at h1
  cases h1
  exact ⟨h2.answers hT, laidOut_of_is h2 hT, h2.distinctInRange hT⟩

example : ∃ h, uniformDofHandler sampleTopo ⟨1, 2, 1, 4⟩ true = some h ∧
    h.all (0, 1) = [2, 1, 3, 4, 8, 7, 11, 12, 14, 13, 15, 16, 18, 19, 20, 21] ∧
    (sampleTopo.cell 1).nodes.Nodup := by
  refine ⟨_, rfl, by decide, by decide⟩

/-! ### C12 -/

private theorem agree_of_is {T : Topo} {cnt : Ent → ℕ} {h : DofHandler} (hI : Num.Is T cnt true h)
    (hT : T.WF) : h.AgreeOnEdges T ∧ ∀ c < T.numCells, ∀ j < (T.cell c).edges.length,
      h.edgeWalk T c j = h.own (1, (T.cell c).edges.getD j 0) := by
  have key : ∀ c < T.numCells, ∀ j < (T.cell c).edges.length,
      h.edgeWalk T c j = h.own (1, (T.cell c).edges.getD j 0) := by
    intro c hc j hj
    unfold DofHandler.edgeWalk
    rw [hI.edgeSection hT hc hj]
    cases (T.cell c).ori.getD j false <;> simp
  refine ⟨?_, key⟩
  intro c hc c' hc' j hj j' hj' heq
  rw [key c hc j hj, key c' hc' j' hj', heq]

/-- Cells sharing an edge agree on its dofs, walked in the direction of the edge, and these are the
interior dofs of the edge: uniform handler. -/
theorem C12_uniform (T : Topo) (hT : T.WF) (l : UniformLayout) (h : DofHandler)
    (hh : uniformDofHandler T l true = some h) :
    h.AgreeOnEdges T ∧ ∀ c < T.numCells, ∀ j < (T.cell c).edges.length,
      h.edgeWalk T c j = h.own (1, (T.cell c).edges.getD j 0) := by
  obtain ⟨h', h1, h2⟩ := uniform_is T hT l true
  rw [hh] at h1
  cases h1
  exact agree_of_is h2 hT

/-- Cells sharing an edge agree on its dofs: dynamic handler. -/
theorem C12_dynamic (T : Topo) (hT : T.WF) (cnt : Ent → ℕ) (h : DofHandler)
    (hh : dynamicDofHandler T cnt = some h) :
    h.AgreeOnEdges T ∧ ∀ c < T.numCells, ∀ j < (T.cell c).edges.length,
      h.edgeWalk T c j = h.own (1, (T.cell c).edges.getD j 0) := by
  obtain ⟨h', h1, h2⟩ := dynamic_is T hT cnt
  rw [hh] at h1
  cases h1
  exact agree_of_is h2 hT

example : ∃ h, uniformDofHandler sampleTopo ⟨1, 2, 1, 4⟩ true = some h ∧
    h.edgeSection sampleTopo 0 1 = [7, 8] ∧ h.edgeSection sampleTopo 1 0 = [8, 7] ∧
    h.edgeWalk sampleTopo 1 0 = h.edgeWalk sampleTopo 0 1 := by
  refine ⟨_, rfl, by decide, by decide, by decide⟩

/-- If the handler is told not to look at orientations, agreement fails. -/
theorem C12_unoriented_disagrees : ∃ (T : Topo) (_ : T.WF) (l : UniformLayout) (h : DofHandler),
    uniformDofHandler T l false = some h ∧ ¬ h.AgreeOnEdges T := by
  refine ⟨sampleTopo, sampleTopo_WF, ⟨1, 2, 1, 4⟩, _, rfl, ?_⟩
  intro h
  exact absurd (h 0 (by decide) 1 (by decide) 1 (by decide) 0 (by decide) (by decide)) (by decide)

/-! ### C13 -/

/-- `Entity(d)` inverts `InteriorGlobalDofIndices`: uniform handler. -/
theorem C13_uniform (T : Topo) (hT : T.WF) (l : UniformLayout) (chk : Bool) (h : DofHandler)
    (hh : uniformDofHandler T l chk = some h) : h.EntityInverts T := by
  obtain ⟨h', h1, h2⟩ := uniform_is T hT l chk
  rw [hh] at h1
  cases h1
  exact h2.entityInverts hT

/-- `Entity(d)` inverts `InteriorGlobalDofIndices`: dynamic handler. -/
theorem C13_dynamic (T : Topo) (hT : T.WF) (cnt : Ent → ℕ) (h : DofHandler)
    (hh : dynamicDofHandler T cnt = some h) : h.EntityInverts T := by
  obtain ⟨h', h1, h2⟩ := dynamic_is T hT cnt
  rw [hh] at h1
  cases h1
  exact h2.entityInverts hT

example : ∃ h, dynamicDofHandler sampleTopo (fun e => e.2 + 1) = some h ∧ h.numDofs = 39 ∧
    h.entity 38 = some (0, 1) ∧ h.own (1, 2) = [18, 19, 20] := by
  refine ⟨_, rfl, by decide, by decide, by decide⟩

/-! ### C14 -/

/-- The dynamic handler with counts depending only on the type of the entity coincides with the uniform
handler, in every method. -/
theorem C14_dynamic_eq_uniform (T : Topo) (hT : T.WF) (l : UniformLayout) (cnt : Ent → ℕ)
    (hcnt : ∀ e r, T.refEl e = some r → cnt e = l.interior r) :
    ∃ h h', uniformDofHandler T l true = some h ∧ dynamicDofHandler T cnt = some h' ∧
      h'.numDofs = h.numDofs ∧ (∀ d, h'.entity d = h.entity d) ∧
      ∀ e, T.IsEnt e → h'.globalDofIndices e = h.globalDofIndices e ∧
        h'.interiorGlobalDofIndices e = h.interiorGlobalDofIndices e ∧
        h'.numLocalDofs e = h.numLocalDofs e ∧ h'.numInteriorDofs e = h.numInteriorDofs e := by
  obtain ⟨h, h1, h2⟩ := uniform_is T hT l true
  obtain ⟨h', h3, h4⟩ := dynamic_is T hT cnt
  have hc : ∀ e, T.IsEnt e → cnt e = ucnt T l e := by
    intro e he
    obtain ⟨r, hr⟩ := Option.ne_none_iff_exists'.1 ((IsEnt_iff hT e).1 he)
    rw [hcnt e r hr]
    simp [ucnt, hr]
  refine ⟨h, h', h1, h3, ?_, ?_, ?_⟩
  · rw [h2.numDofs, h4.numDofs, Num.total_congr hc]
  · intro d; rw [h2.entity, h4.entity, Num.ents_congr hc]
  · intro e he
    have hr := (IsEnt_iff hT e).1 he
    refine ⟨?_, ?_, ?_, ?_⟩
    · rw [h2.global e hr, h4.global e hr, Num.glob_congr hT hc true he]
    · rw [h2.interior e hr, h4.interior e hr, Num.intr_congr hc he]
    · rw [h2.numLocal e hr, h4.numLocal e hr, Num.glob_congr hT hc true he]
    · rw [h2.numInterior e hr, h4.numInterior e hr, hc e he]

example : ∃ cnt : Ent → ℕ, ∀ e r, sampleTopo.refEl e = some r →
    cnt e = (⟨1, 2, 1, 4⟩ : UniformLayout).interior r :=
  ⟨ucnt sampleTopo ⟨1, 2, 1, 4⟩, fun e r h => by simp [ucnt, h]⟩

/-! ### C15 -/

open ProductFE in
/-- The product dof handler can be constructed for every non-empty list of layouts; component `i` is
the uniform handler for layout `i`, and offsets are sums of the numbers of dofs of the components
before. -/
theorem C15_construct (T : Topo) (hT : T.WF) (ls : List UniformLayout) :
    (ls ≠ [] ↔ (ProductFE.init T ls).isSome = true) ∧
    ∀ D, ProductFE.init T ls = some D →
      D.comps.length = ls.length ∧
      (∀ (i : ℕ) (l : UniformLayout), ls[i]? = some l →
        ∃ h, D.comps[i]? = some h ∧ uniformDofHandler T l true = some h) ∧
      (∀ i ≤ ls.length, D.offset i = some ((D.comps.take i).map DofHandler.numDofs).sum) ∧
      (D.handler T).numDofs = (D.comps.map DofHandler.numDofs).sum := by
  have hp : ∀ (hs : List DofHandler) (i : ℕ), i ≤ hs.length → poff hs i = ((hs.take i).map DofHandler.numDofs).sum := by
    intro hs i
    induction i with
    | zero => intro _; simp [poff]
    | succ i ih =>
      intro hi
      rw [poff_succ (h := hs[i]) (List.getElem?_eq_getElem hi), ih (by omega), List.take_add_one,
        List.getElem?_eq_getElem hi, List.map_append, List.sum_append]
      rfl
  constructor
  · constructor
    · intro h
      obtain ⟨D, hD, _⟩ := init_spec T hT ls h
      rw [hD]; rfl
    · rintro h rfl
      simp [ProductFE.init] at h
  · intro D hD
    have hne : ls ≠ [] := by
      rintro rfl
      simp [ProductFE.init] at hD
    obtain ⟨D', hD', hI⟩ := init_spec T hT ls hne
    rw [hD] at hD'
    cases hD'
    refine ⟨hI.len, ?_, ?_, ?_⟩
    · intro i l hi
      obtain ⟨h, h1, h2, _⟩ := hI.comp i l hi
      exact ⟨h, h1, h2⟩
    · intro i hi
      unfold Data.offset
      rw [hI.offs i (by rw [hI.len]; exact hi), hp _ _ (by rw [hI.len]; exact hi)]
    · rw [hI.numDofs, hp _ _ (Nat.le_refl _), List.take_length]

open ProductFE in
/-- Every global index belongs to exactly one component, which is what `Component` returns. -/
theorem C15_component (T : Topo) (hT : T.WF) (ls : List UniformLayout) (D : ProductFE.Data)
    (hD : ProductFE.init T ls = some D) (d : ℕ) (hd : d < (D.handler T).numDofs) :
    ∃ i h o, D.component d = some i ∧ D.comps[i]? = some h ∧ D.offset i = some o ∧ o ≤ d ∧ d - o < h.numDofs ∧
      ∀ (j : ℕ) (g : DofHandler) (p : ℕ), D.comps[j]? = some g → D.offset j = some p → p ≤ d → d - p < g.numDofs → j = i := by
  have hne : ls ≠ [] := by
    rintro rfl
    simp [ProductFE.init] at hD
  obtain ⟨D', hD', hI⟩ := init_spec T hT ls hne
  rw [hD] at hD'
  cases hD'
  obtain ⟨i, h, hi, h1, h2, h3⟩ := hI.exists_comp hd
  refine ⟨i, h, poff D.comps i, hI.component_eq h1 h2 h3, h1, hI.offs i (by omega), h2, by omega, ?_⟩
  intro j g p hj hp h4 h5
  have hjl : j < D.comps.length := (List.getElem?_eq_some_iff.1 hj).1
  unfold Data.offset at hp
  rw [hI.offs j (by omega)] at hp
  cases hp
  exact hI.comp_unique hj h1 h4 (by omega) h2 h3

open ProductFE in
/-- `GlobalDofIndices` and `InteriorGlobalDofIndices` are the concatenations of the shifted lists of
the components, and `LocalStartIndex` is the position where the part of a component starts. -/
theorem C15_indices (T : Topo) (hT : T.WF) (ls : List UniformLayout) (D : ProductFE.Data)
    (hD : ProductFE.init T ls = some D) (e : Ent) (he : T.IsEnt e) :
    (D.handler T).globalDofIndices e = some ((List.range ls.length).flatMap fun i =>
      ((D.comps[i]?).elim [] (DofHandler.all · e)).map (· + ((D.comps.take i).map DofHandler.numDofs).sum)) ∧
    (D.handler T).interiorGlobalDofIndices e = some ((List.range ls.length).flatMap fun i =>
      ((D.comps[i]?).elim [] (DofHandler.own · e)).map (· + ((D.comps.take i).map DofHandler.numDofs).sum)) ∧
    ∀ i ≤ ls.length, D.localStartIndex e i =
      some ((List.range i).map fun j => ((D.comps[j]?).elim [] (DofHandler.all · e)).length).sum := by
  have hne : ls ≠ [] := by
    rintro rfl
    simp [ProductFE.init] at hD
  obtain ⟨D', hD', hI⟩ := init_spec T hT ls hne
  rw [hD] at hD'
  cases hD'
  obtain ⟨_, hc⟩ := C15_construct T hT ls
  obtain ⟨_, _, hoff, _⟩ := hc D hD
  have hoff' : ∀ i < ls.length, poff D.comps i = ((D.comps.take i).map DofHandler.numDofs).sum := by
    intro i hi
    have := hoff i (by omega)
    unfold Data.offset at this
    rw [hI.offs i (by rw [hI.len]; omega)] at this
    exact Option.some.inj this
  have hr := (IsEnt_iff hT e).1 he
  refine ⟨?_, ?_, ?_⟩
  · simp only [Data.handler]
    rw [hI.dofs e hr, hI.len]
    congr 1
    apply List.flatMap_congr
    intro i hi
    rw [hoff' i (List.mem_range.1 hi)]
    cases D.comps[i]? <;> rfl
  · simp only [Data.handler]
    rw [hI.internal e hr, hI.len]
    congr 1
    apply List.flatMap_congr
    intro i hi
    rw [hoff' i (List.mem_range.1 hi)]
    cases D.comps[i]? <;> rfl
  · intro i hi
    unfold Data.localStartIndex
    induction i with
    | zero => rfl
    | succ i ih =>
      obtain ⟨l, h, _, h1, _, h2⟩ := hI.compAt (i := i) (by rw [hI.len]; omega)
      rw [List.range_succ, List.foldlM_append, ih (by omega)]
      simp [h1, (h2.answers hT e he).2.2.2]

open ProductFE in
/-- The product handler again partitions its range, and `Entity` inverts it. -/
theorem C15_partition_entity (T : Topo) (hT : T.WF) (ls : List UniformLayout) (D : ProductFE.Data)
    (hD : ProductFE.init T ls = some D) :
    (∀ d < (D.handler T).numDofs, ∃! e, T.IsEnt e ∧ d ∈ (D.handler T).own e) ∧
    (D.handler T).EntityInverts T := by
  have hne : ls ≠ [] := by
    rintro rfl
    simp [ProductFE.init] at hD
  obtain ⟨D', hD', hI⟩ := init_spec T hT ls hne
  rw [hD] at hD'
  cases hD'
  have key : (D.handler T).EntityInverts T := by
    constructor
    · intro d hd
      obtain ⟨i, h, hi, h1, h2, h3⟩ := hI.exists_comp hd
      obtain ⟨l, h', _, h1', _, hIs⟩ := hI.compAt hi
      rw [h1] at h1'
      cases h1'
      obtain ⟨e, he1, he2, he3, he4⟩ := (hIs.entityInverts hT).1 (d - poff D.comps i) (by omega)
      refine ⟨e, ?_, he2, ?_, ?_⟩
      · simp only [Data.handler, hI.component_eq h1 h2 h3, Option.bind_some, hI.offs i (by omega), h1, he1]
      · rw [hI.mem_own hT he2]
        exact ⟨i, h, h1, h2, he3⟩
      · intro f hf hdf
        rw [hI.mem_own hT hf] at hdf
        obtain ⟨j, g, hj, hj1, hj2⟩ := hdf
        obtain ⟨l', g', _, hj', _, hIs'⟩ := hI.compAt (List.getElem?_eq_some_iff.1 hj).1
        rw [hj] at hj'
        cases hj'
        have hlt := (hIs'.partitions hT).1 f hf _ hj2
        have hji : j = i := hI.comp_unique hj h1 hj1 (by omega) h2 h3
        subst hji
        rw [h1] at hj
        cases hj
        exact he4 f hf hj2
    · intro d hd
      simp only [Data.handler]
      have : D.component d = none := by
        unfold Data.component
        rw [hI.offs _ (Nat.le_refl _)]
        rw [hI.numDofs] at hd
        simp [hd]
      rw [this]
      rfl
  refine ⟨?_, key⟩
  intro d hd
  obtain ⟨e, _, h2, h3, h4⟩ := key.1 d hd
  exact ⟨e, ⟨h2, h3⟩, fun f hf => h4 f hf.1 hf.2⟩

example : ∃ D, ProductFE.init sampleTopo [⟨1, 0, 0, 0⟩, ⟨0, 1, 1, 4⟩] = some D ∧
    (D.handler sampleTopo).numDofs = 16 ∧ D.component 5 = some 1 ∧
    (D.handler sampleTopo).globalDofIndices (0, 1) = some [2, 1, 3, 4, 6, 8, 9, 10, 12, 13, 14, 15] := by
  refine ⟨_, rfl, by decide, by decide, by decide⟩

end Verif
