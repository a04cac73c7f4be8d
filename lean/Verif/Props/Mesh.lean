import Verif.Lemmas.MeshTopo

/-!
# Properties C16 - C19: meshes built by the factory

All statements are about a mesh `M` obtained from `Build()` after an arbitrary history of calls of
`AddPoint` and `AddEntity` on a fresh factory, and use only what the interface of `lf::mesh::Mesh`
shows (`M.topo`, `M.index`, `M.entityByIndex`, `M.numEntities`).
-/

namespace Verif
variable {G : Type}

/-! ### Helper lemmas -/

private theorem addEntity_cases (f f' : Factory G) (ref : RefEl) (nodes : List ℕ) (geo : Option G) (i : ℕ)
    (h : f.addEntity ref nodes geo = some (f', i)) :
    (ref = .segment ∧ ∃ a b, nodes = [a, b] ∧ f' = { f with edges := f.edges ++ [⟨a, b, geo⟩] } ∧
      i = f.edges.length) ∨
    (ref ≠ .segment ∧ f' = { f with elements := f.elements ++ [⟨nodes, geo⟩] } ∧
      i = f.elements.length) := by
  unfold Factory.addEntity at h
  split_ifs at h with h1 h2
  match ref, nodes, h with
  | .segment, [a, b], h =>
    simp only [Option.some.injEq, Prod.mk.injEq] at h
    left
    exact ⟨rfl, a, b, rfl, h.1.symm, by rw [← h.2]; simp⟩
  | .tria, nodes, h =>
    right
    simp only at h
    split_ifs at h
    simp only [Option.some.injEq, Prod.mk.injEq] at h
    exact ⟨by simp, h.1.symm, by rw [← h.2]; simp⟩
  | .quad, nodes, h =>
    right
    simp only at h
    split_ifs at h
    simp only [Option.some.injEq, Prod.mk.injEq] at h
    exact ⟨by simp, h.1.symm, by rw [← h.2]; simp⟩
  | .point, nodes, h => simp [RefEl.dimension] at h1

private theorem run_prefix (f f' : Factory G) (hist : List (FactoryCall G)) (rets : List ℕ)
    (h : f.run hist = some (f', rets)) :
    f.nodes <+: f'.nodes ∧ f.edges <+: f'.edges ∧ f.elements <+: f'.elements := by
  induction hist generalizing f rets with
  | nil => cases h; exact ⟨List.prefix_refl _, List.prefix_refl _, List.prefix_refl _⟩
  | cons c cs ih =>
    cases c with
    | point g =>
      obtain ⟨⟨f1, r1⟩, h1, h2⟩ := Option.bind_eq_some_iff.1 h
      cases h2
      obtain ⟨h3, h4, h5⟩ := ih _ _ h1
      exact ⟨(List.prefix_append _ _).trans h3, h4, h5⟩
    | entity ref nodes geo =>
      obtain ⟨⟨f1, i⟩, h1, h2⟩ := Option.bind_eq_some_iff.1 h
      obtain ⟨⟨f2, r2⟩, h3, h4⟩ := Option.bind_eq_some_iff.1 h2
      cases h4
      obtain ⟨h5, h6, h7⟩ := ih _ _ h3
      rcases addEntity_cases f f1 ref nodes geo i h1 with ⟨_, a, b, _, rfl, _⟩ | ⟨_, rfl, _⟩
      · exact ⟨h5, (List.prefix_append _ _).trans h6, h7⟩
      · exact ⟨h5, h6, (List.prefix_append _ _).trans h7⟩

private theorem run_nodes_some (f f' : Factory G) (hist : List (FactoryCall G)) (rets : List ℕ)
    (hf : ∀ x ∈ f.nodes, x.isSome = true) (h : f.run hist = some (f', rets)) :
    ∀ x ∈ f'.nodes, x.isSome = true := by
  induction hist generalizing f rets with
  | nil => cases h; exact hf
  | cons c cs ih =>
    cases c with
    | point g =>
      obtain ⟨⟨f1, r1⟩, h1, h2⟩ := Option.bind_eq_some_iff.1 h
      cases h2
      refine ih _ _ ?_ h1
      intro x hx
      simp only [Factory.addPoint, List.mem_append, List.mem_singleton] at hx
      rcases hx with hx | rfl
      · exact hf x hx
      · rfl
    | entity ref nodes geo =>
      obtain ⟨⟨f1, i⟩, h1, h2⟩ := Option.bind_eq_some_iff.1 h
      obtain ⟨⟨f2, r2⟩, h3, h4⟩ := Option.bind_eq_some_iff.1 h2
      cases h4
      refine ih _ _ ?_ h3
      rcases addEntity_cases f f1 ref nodes geo i h1 with ⟨_, a, b, _, rfl, _⟩ | ⟨_, rfl, _⟩ <;> exact hf

private theorem run_ret (f f' : Factory G) (hist : List (FactoryCall G)) (rets : List ℕ)
    (h : f.run hist = some (f', rets)) :
    rets.length = hist.length ∧
    ∀ k i : ℕ, rets[k]? = some i →
      (∀ g : G, hist[k]? = some (FactoryCall.point g) → f'.nodes[i]? = some (some g)) ∧
      (∀ (ref : RefEl) (nodes : List ℕ) (geo : Option G), hist[k]? = some (FactoryCall.entity ref nodes geo) →
        (ref = .segment → ∃ a b, nodes = [a, b] ∧ f'.edges[i]? = some (⟨a, b, geo⟩ : EdgeIn G)) ∧
        (ref ≠ .segment → f'.elements[i]? = some (⟨nodes, geo⟩ : CellIn G))) := by
  induction hist generalizing f rets with
  | nil => cases h; simp
  | cons c cs ih =>
    have pre : ∀ {α : Type} {l l' : List α} {i : ℕ} {x : α}, l <+: l' → l[i]? = some x → l'[i]? = some x := by
      intro α l l' i x hp hx
      obtain ⟨t, rfl⟩ := hp
      rw [List.getElem?_append_left (List.getElem?_eq_some_iff.1 hx).1]
      exact hx
    cases c with
    | point g =>
      obtain ⟨⟨f1, r1⟩, h1, h2⟩ := Option.bind_eq_some_iff.1 h
      cases h2
      obtain ⟨hl, hr⟩ := ih _ _ h1
      refine ⟨by simp [hl], ?_⟩
      intro k i hk
      cases k with
      | zero =>
        simp only [List.getElem?_cons_zero, Option.some.injEq] at hk
        subst hk
        refine ⟨?_, by simp⟩
        intro g' hg'
        simp only [List.getElem?_cons_zero, Option.some.injEq, FactoryCall.point.injEq] at hg'
        subst hg'
        exact pre (run_prefix _ _ _ _ h1).1 (by simp [Factory.addPoint])
      | succ k => simpa using hr k i (by simpa using hk)
    | entity ref nodes geo =>
      obtain ⟨⟨f1, j⟩, h1, h2⟩ := Option.bind_eq_some_iff.1 h
      obtain ⟨⟨f2, r2⟩, h3, h4⟩ := Option.bind_eq_some_iff.1 h2
      cases h4
      obtain ⟨hl, hr⟩ := ih _ _ h3
      refine ⟨by simp [hl], ?_⟩
      intro k i hk
      cases k with
      | zero =>
        simp only [List.getElem?_cons_zero, Option.some.injEq] at hk
        subst hk
        refine ⟨by simp, ?_⟩
        intro ref' nodes' geo' hg'
        simp only [List.getElem?_cons_zero, Option.some.injEq, FactoryCall.entity.injEq] at hg'
        obtain ⟨rfl, rfl, rfl⟩ := hg'
        rcases addEntity_cases f f1 ref nodes geo j h1 with ⟨hr, a, b, hn, rfl, rfl⟩ | ⟨hr, rfl, rfl⟩
        · refine ⟨fun _ => ⟨a, b, hn, ?_⟩, fun h => absurd hr h⟩
          exact pre (run_prefix _ _ _ _ h3).2.1 (by simp)
        · refine ⟨fun h => absurd h hr, fun _ => ?_⟩
          exact pre (run_prefix _ _ _ _ h3).2.2 (by simp)
      | succ k => simpa using hr k i (by simpa using hk)

private theorem run_edges (f f' : Factory G) (hist : List (FactoryCall G)) (rets : List ℕ)
    (h : f.run hist = some (f', rets)) (e : EdgeIn G) (he : e ∈ f'.edges) :
    e ∈ f.edges ∨ FactoryCall.entity .segment [e.p0, e.p1] e.geo ∈ hist := by
  induction hist generalizing f rets with
  | nil => cases h; exact Or.inl he
  | cons c cs ih =>
    cases c with
    | point g =>
      obtain ⟨⟨f1, r1⟩, h1, h2⟩ := Option.bind_eq_some_iff.1 h
      cases h2
      rcases ih _ _ h1 with h | h
      · exact Or.inl h
      · exact Or.inr (by simp [h])
    | entity ref nodes geo =>
      obtain ⟨⟨f1, j⟩, h1, h2⟩ := Option.bind_eq_some_iff.1 h
      obtain ⟨⟨f2, r2⟩, h3, h4⟩ := Option.bind_eq_some_iff.1 h2
      cases h4
      rcases ih _ _ h3 with h | h
      · rcases addEntity_cases f f1 ref nodes geo j h1 with ⟨hr, a, b, hn, rfl, rfl⟩ | ⟨hr, rfl, rfl⟩
        · rcases List.mem_append.1 h with h | h
          · exact Or.inl h
          · simp only [List.mem_singleton] at h
            subst h
            right
            simp [hr, hn]
        · exact Or.inl h
      · exact Or.inr (by simp [h])

private theorem build_built (ops : GeoOps G) (chk : Bool) (hist : List (FactoryCall G)) (f f' : Factory G)
    (rets : List ℕ) (M : Mesh G) (hrun : Factory.run {} hist = some (f, rets))
    (hb : f.build ops chk = some (M, f')) :
    ValidInput f.nodes f.edges f.elements ∧ Built ops f.nodes f.edges f.elements M ∧ f' = {} := by
  have hs := run_nodes_some {} f hist rets (by simp) hrun
  unfold Factory.build at hb
  rcases buildMesh_spec ops f.nodes f.edges f.elements chk hs with ⟨hv, M', e, hB⟩ | ⟨_, e⟩
  · rw [e] at hb
    cases hb
    exact ⟨hv.1, hB, rfl⟩
  · rw [e] at hb
    cases hb

/-! ### The properties -/

/-- **C16**, when a mesh is produced: `Build()` succeeds exactly for admissible input (all supplied edges
have a geometry, two distinct existing end nodes and are pairwise different; all cells are triangles or
quadrilaterals with existing nodes, consecutive ones different; with completeness check: every supplied
edge is a side of a cell and every node belongs to a cell). -/
theorem C16_build_succeeds_iff (ops : GeoOps G) (chk : Bool) (hist : List (FactoryCall G))
    (f : Factory G) (rets : List ℕ) (hrun : Factory.run {} hist = some (f, rets)) :
    (f.build ops chk).isSome = true ↔
      ValidInput f.nodes f.edges f.elements ∧
        (chk = true → CompleteInput f.nodes.length f.edges f.elements) := by
  have hs := run_nodes_some {} f hist rets (by simp) hrun
  unfold Factory.build
  rcases buildMesh_spec ops f.nodes f.edges f.elements chk hs with ⟨hv, M', e, hB⟩ | ⟨hv, e⟩
  · rw [e]; exact ⟨fun _ => hv, fun _ => rfl⟩
  · rw [e]; simpa using hv

/-- **C16**: in the built mesh, every side of every cell is represented by exactly one edge, which is the
cell's sub-entity at that side; no two edges have the same end nodes; every edge was passed to
`AddEntity` or is a side of a cell. -/
theorem C16_edges_exactly_once (ops : GeoOps G) (chk : Bool) (hist : List (FactoryCall G))
    (f f' : Factory G) (rets : List ℕ) (M : Mesh G) (hrun : Factory.run {} hist = some (f, rets))
    (hb : f.build ops chk = some (M, f')) :
    (∀ c < M.topo.numCells, ∀ j < (M.topo.cell c).nodes.length, ∃ e < M.topo.numEdges,
      (M.topo.cell c).edges[j]? = some e ∧
      SamePair (M.topo.edge e) (side (M.topo.cell c).nodes j) ∧
      ∀ e' < M.topo.numEdges, SamePair (M.topo.edge e') (side (M.topo.cell c).nodes j) → e' = e) ∧
    (∀ e < M.topo.numEdges, ∀ e' < M.topo.numEdges, SamePair (M.topo.edge e) (M.topo.edge e') → e = e') ∧
    (∀ e < M.topo.numEdges,
      (∃ geo, .entity .segment [(M.topo.edge e).1, (M.topo.edge e).2] geo ∈ hist) ∨
      (∃ c < M.topo.numCells, ∃ j < (M.topo.cell c).nodes.length,
        SamePair (M.topo.edge e) (side (M.topo.cell c).nodes j))) := by
  obtain ⟨hv, hB, _⟩ := build_built ops chk hist f f' rets M hrun hb
  have hW := hB.topo_WF hv
  refine ⟨?_, hW.edge_inj, ?_⟩
  · intro c hc j hj
    have hl := hW.cell_edges_len c hc
    have hje : j < (M.topo.cell c).edges.length := by omega
    have hside := hW.cell_side c hc j hj
    have hget : (M.topo.cell c).edges.getD j 0 = (M.topo.cell c).edges[j] := by simp [hje]
    rw [hget] at hside
    have hlt := hW.cell_edges c hc _ (List.getElem_mem hje)
    refine ⟨_, hlt, List.getElem?_eq_getElem hje, hside, ?_⟩
    intro e' he' h
    exact hW.edge_inj e' he' _ hlt (samePair_trans h (samePair_comm.1 hside))
  · intro e he
    obtain ⟨p, hp, _, hpe, hpp⟩ := hB.segAt e he
    by_cases hlt : e < f.edges.length
    · left
      subst hpe
      have h1 := hB.seg_supplied _ (List.getElem_mem hp) hlt
      refine ⟨f.edges[(M.segments[p]).index].geo, ?_⟩
      rcases run_edges {} f hist rets hrun _ (List.getElem_mem hlt) with h | h
      · simp at h
      · rw [hpp, h1.1]; exact h
    · right
      obtain ⟨⟨c, hc, j, hj, hsp⟩, _⟩ := hB.seg_new _ (List.getElem_mem hp) (by omega)
      obtain ⟨k, hk, rfl⟩ := List.getElem_of_mem hc
      refine ⟨k, by rw [hB.numCells']; exact hk, j, ?_, ?_⟩
      · rw [(hB.cell_eq k hk).1]; exact hj
      · rw [hpp, (hB.cell_eq k hk).1]; exact hsp

/-- **C17**: the index returned by a call of `AddPoint` / `AddEntity` is the index, in the built mesh, of
the node, edge or cell added by that call. -/
theorem C17_returned_indices (ops : GeoOps G) (chk : Bool) (hist : List (FactoryCall G))
    (f f' : Factory G) (rets : List ℕ) (M : Mesh G) (hrun : Factory.run {} hist = some (f, rets))
    (hb : f.build ops chk = some (M, f')) :
    rets.length = hist.length ∧
    ∀ k i : ℕ, rets[k]? = some i →
      (∀ g : G, hist[k]? = some (FactoryCall.point g) → M.entityByIndex 2 i = some (.pt i) ∧ M.points[i]? = some g) ∧
      (∀ (nodes : List ℕ) (geo : Option G), hist[k]? = some (FactoryCall.entity .segment nodes geo) →
        i < M.topo.numEdges ∧ nodes = [(M.topo.edge i).1, (M.topo.edge i).2] ∧
        ((M.entityByIndex 1 i).bind M.segOf).map (·.geo) = geo) ∧
      (∀ (ref : RefEl) (nodes : List ℕ) (geo : Option G), ref ≠ .segment → hist[k]? = some (FactoryCall.entity ref nodes geo) →
        i < M.topo.numCells ∧ (M.topo.cell i).nodes = nodes) := by
  obtain ⟨hv, hB, _⟩ := build_built ops chk hist f f' rets M hrun hb
  obtain ⟨hl, hr⟩ := run_ret {} f hist rets hrun
  refine ⟨hl, ?_⟩
  intro k i hk
  obtain ⟨h1, h2⟩ := hr k i hk
  refine ⟨?_, ?_, ?_⟩
  · intro g hg
    have hn := h1 g hg
    rw [← hB.points, List.getElem?_map] at hn
    cases hp : M.points[i]? with
    | none => simp [hp] at hn
    | some g' =>
      simp only [hp, Option.map_some, Option.some.injEq] at hn
      subst hn
      refine ⟨?_, rfl⟩
      have := hB.ptr2 i (List.getElem?_eq_some_iff.1 hp).1
      simp [Mesh.entityByIndex, this]
  · intro nodes geo hg
    obtain ⟨a, b, rfl, he⟩ := (h2 .segment nodes geo hg).1 rfl
    obtain ⟨hlt, hee⟩ := List.getElem?_eq_some_iff.1 he
    have hlt2 : i < M.segments.length := by have := hB.seg_count; omega
    obtain ⟨p, hp, h3, h4, h5⟩ := hB.segAt i hlt2
    subst h4
    have h6 := hB.seg_supplied _ (List.getElem_mem hp) hlt
    rw [hee] at h6
    refine ⟨hlt2, ?_, ?_⟩
    · rw [h5]
      simp only [Prod.mk.injEq] at h6
      rw [h6.1.1, h6.1.2]
    · rw [h3]
      simp only [Option.bind_some, Mesh.segOf, List.getElem?_eq_getElem hp, Option.map_some]
      exact h6.2.symm
  · intro ref nodes geo hne hg
    have he := (h2 ref nodes geo hg).2 hne
    obtain ⟨hlt, hee⟩ := List.getElem?_eq_some_iff.1 he
    refine ⟨by rw [hB.numCells']; exact hlt, ?_⟩
    rw [(hB.cell_eq i hlt).1, hee]

/-- **C17**: nothing else gets an index: nodes and cells of the built mesh are exactly those added, the
edges added come first, and the indices of the remaining edges (sides of cells) follow without gaps; the
factory is empty after `Build()`. -/
theorem C17_numbers (ops : GeoOps G) (chk : Bool) (hist : List (FactoryCall G))
    (f f' : Factory G) (rets : List ℕ) (M : Mesh G) (hrun : Factory.run {} hist = some (f, rets))
    (hb : f.build ops chk = some (M, f')) :
    M.topo.numNodes = f.nodes.length ∧ M.topo.numCells = f.elements.length ∧
    f.edges.length ≤ M.topo.numEdges ∧
    (∀ e, f.edges.length ≤ e → e < M.topo.numEdges → ∃ c < M.topo.numCells,
      ∃ j < (M.topo.cell c).nodes.length, SamePair (M.topo.edge e) (side (M.topo.cell c).nodes j)) ∧
    f' = {} := by
  obtain ⟨hv, hB, hf'⟩ := build_built ops chk hist f f' rets M hrun hb
  refine ⟨hB.points_length, hB.numCells', hB.seg_count, ?_, hf'⟩
  intro e hle he
  obtain ⟨p, hp, _, hpe, hpp⟩ := hB.segAt e he
  obtain ⟨⟨c, hc, j, hj, hsp⟩, _⟩ := hB.seg_new _ (List.getElem_mem hp) (by omega)
  obtain ⟨k, hk, rfl⟩ := List.getElem_of_mem hc
  refine ⟨k, by rw [hB.numCells']; exact hk, j, ?_, ?_⟩
  · rw [(hB.cell_eq k hk).1]; exact hj
  · rw [hpp, (hB.cell_eq k hk).1]; exact hsp

/-- **C18**: the relative orientation of side `j` is positive iff the edge runs from local node `j` to the
next local node, negative iff it runs in the opposite direction; there is no third possibility. -/
theorem C18_orientation (ops : GeoOps G) (chk : Bool) (hist : List (FactoryCall G))
    (f f' : Factory G) (rets : List ℕ) (M : Mesh G) (hrun : Factory.run {} hist = some (f, rets))
    (hb : f.build ops chk = some (M, f')) (c j e : ℕ) (o : Bool) (hc : c < M.topo.numCells)
    (he : (M.topo.cell c).edges[j]? = some e) (ho : (M.topo.cell c).ori[j]? = some o) :
    (o = true ↔ M.topo.edge e = side (M.topo.cell c).nodes j) ∧
    (o = false ↔ M.topo.edge e = (side (M.topo.cell c).nodes j).swap) ∧
    (M.topo.edge e = side (M.topo.cell c).nodes j ∨
      M.topo.edge e = (side (M.topo.cell c).nodes j).swap) := by
  obtain ⟨hv, hB, _⟩ := build_built ops chk hist f f' rets M hrun hb
  have hW := hB.topo_WF hv
  have hl := hW.cell_edges_len c hc
  have hj : j < (M.topo.cell c).nodes.length := by
    have := (List.getElem?_eq_some_iff.1 he).1; omega
  have h1 := hW.cell_side c hc j hj
  have h2 := hW.cell_ori c hc j hj
  have he' : (M.topo.cell c).edges.getD j 0 = e := by rw [List.getD_eq_getElem?_getD, he]; rfl
  have ho' : (M.topo.cell c).ori.getD j false = o := by rw [List.getD_eq_getElem?_getD, ho]; rfl
  rw [he'] at h1 h2
  rw [ho'] at h2
  have helt : e < M.topo.numEdges := hW.cell_edges c hc e (List.mem_of_getElem? he)
  have hne := hW.edge_ne e helt
  have hexcl : ¬ (M.topo.edge e = side (M.topo.cell c).nodes j ∧
      M.topo.edge e = (side (M.topo.cell c).nodes j).swap) := by
    rintro ⟨h3, h4⟩
    apply hne
    rw [h3] at h4
    have := congrArg Prod.fst h4
    simp only [Prod.fst_swap] at this
    rw [h3]; exact this
  refine ⟨h2, ?_, h1⟩
  constructor
  · intro ho2
    rcases h1 with h | h
    · rw [h2.2 h] at ho2; simp at ho2
    · exact h
  · intro h
    cases ho3 : o with
    | false => rfl
    | true => exact absurd ⟨h2.1 ho3, h⟩ hexcl

/-- **C18**: every cell reports as many relative orientations and edges as it has nodes. -/
theorem C18_lengths (ops : GeoOps G) (chk : Bool) (hist : List (FactoryCall G))
    (f f' : Factory G) (rets : List ℕ) (M : Mesh G) (hrun : Factory.run {} hist = some (f, rets))
    (hb : f.build ops chk = some (M, f')) (c : ℕ) (hc : c < M.topo.numCells) :
    (M.topo.cell c).ori.length = (M.topo.cell c).nodes.length ∧
    (M.topo.cell c).edges.length = (M.topo.cell c).nodes.length := by
  obtain ⟨hv, hB, _⟩ := build_built ops chk hist f f' rets M hrun hb
  have hW := hB.topo_WF hv
  exact ⟨hW.cell_ori_len c hc, hW.cell_edges_len c hc⟩

/-- **C19**: indices of a codimension are exactly `0 … NumEntities(codim)-1`, and `EntityByIndex` returns
an entity of this codimension whose index is the given one. -/
theorem C19_entityByIndex (ops : GeoOps G) (chk : Bool) (hist : List (FactoryCall G))
    (f f' : Factory G) (rets : List ℕ) (M : Mesh G) (hrun : Factory.run {} hist = some (f, rets))
    (hb : f.build ops chk = some (M, f')) (codim n : ℕ) (hn : M.numEntities codim = some n)
    (i : ℕ) (hi : i < n) :
    ∃ p, M.entityByIndex codim i = some p ∧ M.IsEntity p ∧ Mesh.codim p = codim ∧ M.index p = some i := by
  obtain ⟨hv, hB, _⟩ := build_built ops chk hist f f' rets M hrun hb
  match codim, hn with
  | 0, hn =>
    simp only [Mesh.numEntities, Option.some.injEq] at hn
    rw [hB.numCells] at hn
    subst hn
    obtain ⟨p, _, _, h1, _, h2, h3, h4, _⟩ := hB.cellAt i hi
    exact ⟨p, h1, h2, h3, h4⟩
  | 1, hn =>
    simp only [Mesh.numEntities, Option.some.injEq] at hn
    subst hn
    obtain ⟨p, hp, h1, h2, _⟩ := hB.segAt i hi
    exact ⟨.seg p, h1, hp, rfl, by simp [Mesh.index, hp, h2]⟩
  | 2, hn =>
    simp only [Mesh.numEntities, Option.some.injEq] at hn
    subst hn
    have := hB.ptr2 i hi
    exact ⟨.pt i, by simp [Mesh.entityByIndex, this], hi, rfl, by simp [Mesh.index, hi]⟩
  | k + 3, hn => simp [Mesh.numEntities] at hn

/-- **C19**: `EntityByIndex(codim, Index(e))` is `e`, for every entity `e` of the mesh. -/
theorem C19_index (ops : GeoOps G) (chk : Bool) (hist : List (FactoryCall G))
    (f f' : Factory G) (rets : List ℕ) (M : Mesh G) (hrun : Factory.run {} hist = some (f, rets))
    (hb : f.build ops chk = some (M, f')) (p : EntPtr) (hp : M.IsEntity p) :
    ∃ i n, M.index p = some i ∧ M.numEntities (Mesh.codim p) = some n ∧ i < n ∧
      M.entityByIndex (Mesh.codim p) i = some p := by
  obtain ⟨hv, hB, _⟩ := build_built ops chk hist f f' rets M hrun hb
  cases p with
  | tria p =>
    obtain ⟨c, h1, _, h2⟩ := hB.trias p hp
    refine ⟨_, _, by simp only [Mesh.index, List.getElem?_eq_getElem (show p < M.trias.length from hp)]; rfl,
      rfl, ?_, ?_⟩
    · rw [hB.numCells]; exact (List.getElem?_eq_some_iff.1 h1).1
    · exact (congrArg Option.join h2).trans rfl
  | quad p =>
    obtain ⟨c, h1, _, h2⟩ := hB.quads p hp
    refine ⟨_, _, by simp only [Mesh.index, List.getElem?_eq_getElem (show p < M.quads.length from hp)]; rfl,
      rfl, ?_, ?_⟩
    · rw [hB.numCells]; exact (List.getElem?_eq_some_iff.1 h1).1
    · exact (congrArg Option.join h2).trans rfl
  | seg p =>
    obtain ⟨h1, h2⟩ := hB.segs p hp
    exact ⟨_, _, by simp only [Mesh.index, List.getElem?_eq_getElem (show p < M.segments.length from hp)]; rfl,
      rfl, h1, (congrArg Option.join h2).trans rfl⟩
  | pt p =>
    exact ⟨p, _, by simp only [Mesh.index, List.getElem?_eq_getElem (show p < M.points.length from hp)]; rfl,
      rfl, hp, (congrArg Option.join (hB.ptr2 p hp)).trans rfl⟩

/-- **C19**: numbers of entities by topological type add up to the numbers by codimension. -/
theorem C19_counts (M : Mesh G) :
    M.numEntities 0 = some (M.numEntitiesRef .tria + M.numEntitiesRef .quad) ∧
    M.numEntities 1 = some (M.numEntitiesRef .segment) ∧
    M.numEntities 2 = some (M.numEntitiesRef .point) := ⟨rfl, rfl, rfl⟩

/-- **C19**: the type of the `i`-th cell is the type passed to `AddEntity`: cells with three nodes are
triangles, cells with four nodes quadrilaterals. -/
theorem C19_cell_type (ops : GeoOps G) (chk : Bool) (hist : List (FactoryCall G))
    (f f' : Factory G) (rets : List ℕ) (M : Mesh G) (hrun : Factory.run {} hist = some (f, rets))
    (hb : f.build ops chk = some (M, f')) (i : ℕ) (hi : i < M.topo.numCells) :
    ((∃ q, M.entityByIndex 0 i = some (.tria q)) ↔ (M.topo.cell i).nodes.length = 3) ∧
    ((∃ q, M.entityByIndex 0 i = some (.quad q)) ↔ (M.topo.cell i).nodes.length = 4) := by
  obtain ⟨hv, hB, _⟩ := build_built ops chk hist f f' rets M hrun hb
  have hi' : i < f.elements.length := by rw [← hB.numCells']; exact hi
  obtain ⟨p, cell, ref, h1, _, _, _, _, hc, ht, hq⟩ := hB.cellAt i hi'
  rw [(hB.cell_eq i hi').1, ← hc.numNodes, h1]
  rcases hc.ref_cell with rfl | rfl
  · obtain ⟨q, rfl⟩ := ht rfl
    simp [RefEl.numNodes]
  · obtain ⟨q, rfl⟩ := hq rfl
    simp [RefEl.numNodes]

/-- **C16 - C19**: the topology of a built mesh is consistent (used for all properties of objects built on
top of a mesh). -/
theorem C16_wellFormed (ops : GeoOps G) (chk : Bool) (hist : List (FactoryCall G))
    (f f' : Factory G) (rets : List ℕ) (M : Mesh G) (hrun : Factory.run {} hist = some (f, rets))
    (hb : f.build ops chk = some (M, f')) : M.topo.WF := by
  obtain ⟨hv, hB, _⟩ := build_built ops chk hist f f' rets M hrun hb
  exact hB.topo_WF hv

/-! ### Geometry of entities -/

/-- **C56**: entities for which a geometry was supplied have exactly this geometry; an edge created
implicitly has the geometry of a side of an adjacent cell with geometry, and its end nodes are ordered
like those of this side; otherwise no adjacent cell has a geometry and the edge is the straight line
from its first to its second end node; cells without geometry are spanned by their nodes in local
order; the position of a node is the one supplied.  Missing for the full property: edges passed to
`AddEntity` without geometry, see `C56_edge_without_geometry_rejected`. -/
theorem C56_geometry_partial (ops : GeoOps G) (chk : Bool) (hist : List (FactoryCall G))
    (f f' : Factory G) (rets : List ℕ) (M : Mesh G) (hrun : Factory.run {} hist = some (f, rets))
    (hb : f.build ops chk = some (M, f')) :
    M.points.map some = f.nodes ∧
    (∀ (e : ℕ) (s : Segment G), (M.entityByIndex 1 e).bind M.segOf = some s →
      (∀ i : EdgeIn G, f.edges[e]? = some i → i.geo = some s.geo) ∧
      (f.edges[e]? = none →
        (∃ c ∈ f.elements, ∃ j < c.nodes.length, ∃ cg, c.geo = some cg ∧ s.geo = ops.sub cg 1 j ∧
          (s.p0, s.p1) = side c.nodes j) ∨
        ((∀ c ∈ f.elements, ∀ j < c.nodes.length, SamePair (s.p0, s.p1) (side c.nodes j) → c.geo = none) ∧
          ∃ g0 g1, M.points[s.p0]? = some g0 ∧ M.points[s.p1]? = some g1 ∧ s.geo = ops.line g0 g1))) ∧
    (∀ (k : ℕ) (c : CellIn G), f.elements[k]? = some c → ∃ cell, (M.entityByIndex 0 k).bind M.cellOf = some cell ∧
      (∀ g, c.geo = some g → cell.geo = g) ∧
      (c.geo = none →
        (∃ x y z, c.nodes.map (fun v => M.points[v]?) = [some x, some y, some z] ∧
          cell.geo = ops.tria x y z) ∨
        (∃ x y z w, c.nodes.map (fun v => M.points[v]?) = [some x, some y, some z, some w] ∧
          cell.geo = ops.quad x y z w))) := by
  obtain ⟨hv, hB, _⟩ := build_built ops chk hist f f' rets M hrun hb
  refine ⟨hB.points, ?_, ?_⟩
  · intro e s hes
    have he : e < M.segments.length := by
      obtain ⟨p, h1, _⟩ := Option.bind_eq_some_iff.1 hes
      by_contra hc
      simp only [Mesh.entityByIndex] at h1
      rw [List.getElem?_eq_none (by rw [hB.len1]; omega)] at h1
      simp at h1
    obtain ⟨p, hp, h1, h2, _⟩ := hB.segAt e he
    have hs : s = M.segments[p] := by
      rw [h1] at hes
      simp only [Option.bind_some, Mesh.segOf, List.getElem?_eq_getElem hp, Option.some.injEq] at hes
      exact hes.symm
    subst hs
    subst h2
    constructor
    · intro i hi
      obtain ⟨hlt, rfl⟩ := List.getElem?_eq_some_iff.1 hi
      exact (hB.seg_supplied _ (List.getElem_mem hp) hlt).2
    · intro hnone
      rw [List.getElem?_eq_none_iff] at hnone
      exact (hB.seg_new _ (List.getElem_mem hp) hnone).2
  · intro k c hk
    obtain ⟨hlt, rfl⟩ := List.getElem?_eq_some_iff.1 hk
    obtain ⟨p, cell, ref, h1, h2, _, _, _, hc, _⟩ := hB.cellAt k hlt
    refine ⟨cell, by rw [h1]; exact h2, ?_, ?_⟩
    · intro g hg
      have := hc.geo
      simp only [cellGeo, hg] at this
      exact this
    · intro hg
      have := hc.geo
      simp only [cellGeo, hg] at this
      exact this

/-- **C56**, the part that fails: contrary to the documentation of `AddEntity`, an edge added without
geometry does not inherit one; `Build()` fails for every such history. -/
theorem C56_edge_without_geometry_rejected (ops : GeoOps G) (chk : Bool) (hist : List (FactoryCall G))
    (f : Factory G) (rets : List ℕ) (hrun : Factory.run {} hist = some (f, rets))
    (nodes : List ℕ) (h : .entity .segment nodes none ∈ hist) : f.build ops chk = none := by
  have h1 := C16_build_succeeds_iff ops chk hist f rets hrun
  cases hb : f.build ops chk with
  | none => rfl
  | some r =>
    exfalso
    rw [hb] at h1
    have hv := (h1.1 rfl).1
    obtain ⟨k, hk, hkh⟩ := List.getElem_of_mem h
    obtain ⟨hl, hr⟩ := run_ret {} f hist rets hrun
    have hk' : k < rets.length := by omega
    obtain ⟨_, h3⟩ := hr k rets[k] (List.getElem?_eq_getElem hk')
    obtain ⟨a, b, _, he⟩ := (h3 .segment nodes none (by rw [List.getElem?_eq_getElem hk, hkh])).1 rfl
    have := hv.edge_geo _ (List.mem_of_getElem? he)
    simp at this

/-! ### A concrete case -/

/-- Two triangles and a quadrilateral, one edge supplied (against the direction of the cell sides). -/
def sampleHist : List (FactoryCall ℕ) :=
  [.point 10, .point 11, .point 12, .point 13, .point 14, .point 15,
   .entity .segment [2, 0] (some 7),
   .entity .tria [0, 1, 2] none, .entity .tria [0, 2, 3] (some 8), .entity .quad [3, 2, 4, 5] none]

def sampleOps : GeoOps ℕ :=
  ⟨fun g _ i => 100 * g + i, fun a b => a * b, fun a b c => a * b * c, fun a b c d => a * b * c * d⟩

/-- The sample history meets the hypotheses: the factory accepts it and `Build()` succeeds, with eight
edges. -/
example : ∃ f rets M f', Factory.run {} sampleHist = some (f, rets) ∧
    f.build sampleOps true = some (M, f') ∧ M.topo.numEdges = 8 ∧ M.topo.numCells = 3 ∧
    rets = [0, 1, 2, 3, 4, 5, 0, 0, 1, 2] ∧ M.topo.edge 0 = (2, 0) ∧
    (M.topo.cell 1).edges[0]? = some 0 ∧ (M.topo.cell 1).ori[0]? = some false := by
  refine ⟨_, _, _, _, rfl, rfl, ?_⟩
  decide +kernel

end Verif
