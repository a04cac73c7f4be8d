import Verif.Lemmas.MeshChecks3
import Verif.Lemmas.MeshChecks5
import Verif.Lemmas.MeshChecks8

/-!
# C111: the sanity checks of meshes and the test meshes
-/

namespace Verif
open MC TestMesh

/-! ### The numbering of entities -/

/-- **C111**: `checkEntityIndexing` accepts a mesh exactly if the entities of every codimension are numbered without gaps
and without duplicates and `EntityByIndex` inverts `Index`. -/
theorem C111_indexing_iff {G : Type} (M : Mesh G) : M.checkEntityIndexing = some true ↔ M.WellIndexed := indexing_iff M

/-- **C111**: and it accepts all meshes built by the mesh factory. -/
theorem C111_indexing {G : Type} {ops : GeoOps G} {chk : Bool} {hist : List (FactoryCall G)} {M : Mesh G}
    (h : M.FromFactory ops chk hist) : M.WellIndexed ∧ M.checkEntityIndexing = some true :=
  ⟨wellIndexed h, (indexing_iff M).2 (wellIndexed h)⟩

/-! ### The topology of entities -/

/-- **C111**: for a mesh built by the mesh factory, `checkRelCodim` accepts all entities, and `checkLocalTopology` accepts
all entities except for cells in which a node occurs twice. -/
theorem C111_topology {G : Type} {ops : GeoOps G} {chk : Bool} {hist : List (FactoryCall G)} {M : Mesh G}
    (h : M.FromFactory ops chk hist) (codim : ℕ) (hcd : codim ≤ 2) (i : ℕ) (e : EntPtr)
    (he : M.entityByIndex codim i = some e) :
    M.checkRelCodim e = some true ∧
    (codim ≠ 0 → M.checkLocalTopology e = some true) ∧
    (codim = 0 → M.checkLocalTopology e = some (decide (M.topo.cell i).nodes.Nodup)) := by
  obtain ⟨n, hn⟩ : ∃ n, M.numEntities codim = some n := by interval_cases codim <;> exact ⟨_, rfl⟩
  have hi : i < n := by
    obtain ⟨f, rets, hr, hv, hB, -⟩ := built_of h
    by_contra hi
    have l0 := hB.len0.trans hB.numCells.symm
    have l1 := hB.len1
    have l2 := hB.len2
    interval_cases codim <;> simp only [Mesh.numEntities, Option.some.injEq] at hn <;> subst hn <;>
      simp only [Mesh.entityByIndex] at he
    · rw [List.getElem?_eq_none (by omega)] at he; simp at he
    · rw [List.getElem?_eq_none (by omega)] at he; simp at he
    · rw [List.getElem?_eq_none (by omega)] at he; simp at he
  obtain ⟨es, b1, b2, b3⟩ := entities_of h codim hcd
  rw [hn, Option.some.injEq] at b2
  obtain ⟨c1, c2, c3, c4⟩ := b3 i (b2 ▸ hi)
  rw [he] at c1
  cases c1
  interval_cases codim
  · simp only [Mesh.numEntities, Option.some.injEq] at hn
    have := localTopology_cell h i (by simp only [Mesh.topo]; omega) _ he
    exact ⟨this.1, by simp, fun _ => this.2⟩
  · cases hes : es[i] with
    | seg p =>
      rw [hes] at c2
      exact ⟨(localTopology_seg h p c2).1, fun _ => (localTopology_seg h p c2).2, by simp⟩
    | _ => rw [hes] at c3; simp [Mesh.codim] at c3
  · cases hes : es[i] with
    | pt p => exact ⟨(localTopology_pt p).1, fun _ => (localTopology_pt p).2, by simp⟩
    | _ => rw [hes] at c3; simp [Mesh.codim] at c3

/-! ### Completeness -/

/-- **C111**: `checkMeshCompleteness` accepts a mesh from the mesh factory exactly if every edge belongs to a cell and every
node is an end of an edge.  For a mesh without edges the behaviour is undefined. -/
theorem C111_complete_iff {G : Type} {ops : GeoOps G} {chk : Bool} {hist : List (FactoryCall G)} {M : Mesh G}
    (h : M.FromFactory ops chk hist) :
    (M.topo.numEdges = 0 → M.checkMeshCompleteness = none) ∧
    (M.topo.numEdges ≠ 0 → ∃ b, M.checkMeshCompleteness = some b ∧ (b = true ↔
      (∀ e < M.topo.numEdges, ∃ c < M.topo.numCells, e ∈ (M.topo.cell c).edges) ∧
      ∀ v < M.topo.numNodes, ∃ e < M.topo.numEdges, v = (M.topo.edge e).1 ∨ v = (M.topo.edge e).2)) := completeness h

/-- **C111**: it accepts all meshes with an edge which the factory has built with its own check. -/
theorem C111_complete {G : Type} {ops : GeoOps G} {hist : List (FactoryCall G)} {M : Mesh G}
    (h : M.FromFactory ops true hist) (h0 : M.topo.numEdges ≠ 0) : M.checkMeshCompleteness = some true :=
  completeness_chk h h0

/-! ### Geometry -/

/-- **C111**: `checkGeometryOrientation` accepts all entities of a mesh exactly if all edges and cells have their corners at
the positions of their nodes, which is the case exactly if all geometries passed to the mesh factory have. -/
theorem C111_orientation {K : Type} [Field K] [LinearOrder K] [IsStrictOrderedRing K] {w : ℕ} {chk : Bool}
    {hist : List (FactoryCall (Geo K w))} {M : Mesh (Geo K w)} (h : M.FromFactory geoBuild chk hist)
    (hw : WellTyped hist) :
    (∀ codim ≤ 2, ∃ es, M.entities codim = some es ∧ ∀ e ∈ es, ∃ b, M.checkGeometryOrientation e = some b) ∧
    ((∀ codim ≤ 2, ∀ i e, M.entityByIndex codim i = some e → M.checkGeometryOrientation e = some true) ↔
      M.CornersAtNodes) ∧
    (M.CornersAtNodes ↔ Matching hist) :=
  ⟨(orientation h hw).1, (orientation h hw).2, corners_iff h hw⟩

open Classical in
/-- **C111** (partial): the list returned by `isWatertightMesh` contains an edge once for each end point which is too far
away from the position of the node, ordered by the indices of the edges, and nothing else; the second argument has no effect.
What is missing: cells are not reported, see `C111_watertight_not`. -/
theorem C111_watertight_partial {w : ℕ} {chk : Bool} {hist : List (FactoryCall (Geo ℝ w))} {M : Mesh (Geo ℝ w)}
    (h : M.FromFactory geoBuild chk hist) (hw : WellTyped hist) (verticesOnly : Bool) :
    M.isWatertightMesh verticesOnly = some ((List.range M.topo.numEdges).flatMap fun e =>
      ((List.range 2).filter fun j => M.WrongEnd e j).map fun _ => (.segment, e)) := watertight h hw verticesOnly

/-- **C111**: the list is empty if all geometries passed to the mesh factory have their corners at the nodes. -/
theorem C111_watertight_matching {w : ℕ} {chk : Bool} {hist : List (FactoryCall (Geo ℝ w))} {M : Mesh (Geo ℝ w)}
    (h : M.FromFactory geoBuild chk hist) (hw : WellTyped hist) (hm : Matching hist) (verticesOnly : Bool) :
    M.isWatertightMesh verticesOnly = some [] := by
  classical
  rw [watertight h hw, Option.some.injEq, List.flatMap_eq_nil_iff]
  intro e he
  rw [List.map_eq_nil_iff, List.filter_eq_nil_iff]
  intro j hj
  simpa using not_wrong h hw e (List.mem_range.1 he) (((corners_iff h hw).2 hm).edges e (List.mem_range.1 he)) j
    (List.mem_range.1 hj)

/-! ### The test meshes -/

/-- The conclusions for a test mesh. -/
private theorem test_all {sel : ℤ} {scale : ℝ} {fits : Prop} (hs : scale ≠ 0) (h4 : sel ≠ 4)
    (ht : TableOk sel scale (nodeTable sel) (cellTable sel) fits) (hne : 0 < (cellTable sel).length) :
    ∃ M : Mesh (Geo ℝ 2), generate sel scale = some (some M) ∧ M.topo.WF ∧
      M.topo.numNodes = (nodeTable sel).length ∧
      (∀ v p, (nodeTable sel)[v]? = some p → M.nodePos v = some ![scale * p.1, scale * p.2]) ∧
      M.topo.numCells = (cellTable sel).length ∧
      (∀ c n, (cellTable sel)[c]? = some n → (M.topo.cell c).nodes = n) ∧
      M.checkEntityIndexing = some true ∧ M.checkMeshCompleteness = some true ∧
      (∀ codim ≤ 2, ∀ i e, M.entityByIndex codim i = some e →
        M.checkLocalTopology e = some true ∧ M.checkRelCodim e = some true) ∧
      ((∀ codim ≤ 2, ∀ i e, M.entityByIndex codim i = some e → M.checkGeometryOrientation e = some true) ↔ fits) := by
  obtain ⟨h1, cells, h2, h3, h5, h6⟩ := ht
  rw [← h3] at h1
  obtain ⟨f, r, M, f', a1, a2, a3, a4, a5, a6, a7⟩ := test_build scale hs _ cells h1 h5
  have hF : M.FromFactory geoBuild true _ := ⟨f, r, f', a1, a2⟩
  have hw := wellTyped_test scale _ cells h5
  have hwf := C16_wellFormed geoBuild true _ f f' r M a1 a2
  have hlen : cells.length = (cellTable sel).length := by rw [← h3, List.length_map]
  have hcell : ∀ c n, (cellTable sel)[c]? = some n → (M.topo.cell c).nodes = n := by
    intro c n hn
    rw [← h3, List.getElem?_map] at hn
    obtain ⟨x, hx, rfl⟩ := Option.map_eq_some_iff.1 hn
    obtain ⟨hc, rfl⟩ := List.getElem?_eq_some_iff.1 hx
    exact a7 c hc
  have hnd : ∀ c < M.topo.numCells, (M.topo.cell c).nodes.Nodup := by
    intro c hc
    rw [a7 c (by omega)]
    simp only [topoOk, Bool.and_eq_true, List.all_eq_true, decide_eq_true_eq] at h1
    exact (h1.1 _ (List.mem_map.2 ⟨_, List.getElem_mem (by omega), rfl⟩)).1.2
  have hedge : M.topo.numEdges ≠ 0 := by
    intro h0
    have l := hwf.cell_len 0 (by omega)
    have l' := hwf.cell_edges_len 0 (by omega)
    have hm : (M.topo.cell 0).edges[0]'(by omega) ∈ (M.topo.cell 0).edges := List.getElem_mem _
    have := hwf.cell_edges 0 (by omega) _ hm
    omega
  refine ⟨M, ?_, hwf, a4, ?_, by omega, hcell, (C111_indexing hF).2, completeness_chk hF hedge, ?_, ?_⟩
  · unfold generate
    rw [if_neg h4, h2, Option.bind_some, a1, Option.bind_some]
    simp only
    rw [a2, Option.bind_some, a3]
    rfl
  · intro v p hp
    obtain ⟨hv, rfl⟩ := List.getElem?_eq_some_iff.1 hp
    rw [a5 v hv]
    simp only [pt, List.getD_eq_getElem?_getD, List.getElem?_eq_getElem hv, Option.getD_some]
    congr 1
    ext i
    fin_cases i <;> simp
  · intro codim hc i e he
    obtain ⟨b1, b2, b3⟩ := C111_topology hF codim hc i e he
    refine ⟨?_, b1⟩
    by_cases h0 : codim = 0
    · have hi : i < M.topo.numCells := by
        subst h0
        obtain ⟨f, rets, hr, hv, hB, -⟩ := built_of hF
        by_contra hi
        simp only [Mesh.entityByIndex] at he
        rw [List.getElem?_eq_none (by rw [hB.len0, ← hB.numCells']; omega)] at he
        simp at he
      rw [b3 h0, decide_eq_true (hnd i hi)]
    · exact b2 h0
  · rw [(orientation hF hw).2, corners_iff hF hw, matching_test, h6]

private theorem fits_congr {sel : ℤ} {scale : ℝ} {l : List (ℝ × ℝ)} {ns : List (List ℕ)} {p q : Prop}
    (h : TableOk sel scale l ns p) (hpq : p ↔ q) : TableOk sel scale l ns q := propext hpq ▸ h

/-- The tables. -/
private theorem tables (sel : ℤ) (hsel : sel ∈ [0, 1, 2, 3, 5, 6, 7, 8]) (scale : ℝ) (hs : scale ≠ 0) :
    TableOk sel scale (nodeTable sel) (cellTable sel) (sel ∈ [0, 1, 3, 7] ∨ scale = 1) ∧ 0 < (cellTable sel).length := by
  simp only [List.mem_cons, List.not_mem_nil, or_false] at hsel
  rcases hsel with rfl | rfl | rfl | rfl | rfl | rfl | rfl | rfl
  · exact ⟨fits_congr (show TableOk 0 scale (nodeTable 0) (cellTable 0) True from table0 scale) (by simp), by decide⟩
  · exact ⟨fits_congr (show TableOk 1 scale (nodeTable 1) (cellTable 1) True from table1 scale hs) (by simp), by decide⟩
  · exact ⟨fits_congr (show TableOk 2 scale (nodeTable 2) (cellTable 2) (scale = 1) from table2 scale) (by simp), by decide⟩
  · exact ⟨fits_congr (show TableOk 3 scale (nodeTable 3) (cellTable 3) True from table3 scale) (by simp), by decide⟩
  · exact ⟨fits_congr (show TableOk 5 scale (nodeTable 5) (cellTable 5) (scale = 1) from table5 scale) (by simp), by decide⟩
  · exact ⟨fits_congr (show TableOk 6 scale (nodeTable 6) (cellTable 6) (scale = 1) from table6 scale) (by simp), by decide⟩
  · exact ⟨fits_congr (show TableOk 7 scale (nodeTable 7) (cellTable 7) True from table7 scale) (by simp), by decide⟩
  · exact ⟨fits_congr (show TableOk 8 scale (nodeTable 8) (cellTable 8) (scale = 1) from table8 scale) (by simp), by decide⟩

/-- **C111**: for all scaling factors but zero, `GenerateHybrid2DTestMesh` returns for the selectors 0 to 3 and 5 to 8 a
consistent mesh with the nodes and cells of the tables, with scaled positions of the nodes.  It passes the checks of numbering,
completeness and topology. -/
theorem C111_test (selector : ℤ) (hsel : selector ∈ [0, 1, 2, 3, 5, 6, 7, 8]) (scale : ℝ) (hs : scale ≠ 0) :
    ∃ M : Mesh (Geo ℝ 2), generate selector scale = some (some M) ∧ M.topo.WF ∧
      M.topo.numNodes = (nodeTable selector).length ∧
      (∀ v p, (nodeTable selector)[v]? = some p → M.nodePos v = some ![scale * p.1, scale * p.2]) ∧
      M.topo.numCells = (cellTable selector).length ∧
      (∀ c n, (cellTable selector)[c]? = some n → (M.topo.cell c).nodes = n) ∧
      M.checkEntityIndexing = some true ∧ M.checkMeshCompleteness = some true ∧
      (∀ codim ≤ 2, ∀ i e, M.entityByIndex codim i = some e →
        M.checkLocalTopology e = some true ∧ M.checkRelCodim e = some true) := by
  obtain ⟨h1, h2⟩ := tables selector hsel scale hs
  obtain ⟨M, a1, a2, a3, a4, a5, a6, a7, a8, a9, -⟩ := test_all hs (by rintro rfl; simp at hsel) h1 h2
  exact ⟨M, a1, a2, a3, a4, a5, a6, a7, a8, a9⟩

/-- **C111** (partial): all entities of these meshes pass the check of the orientation for all selectors if the scaling factor
is 1, and for the selectors 0, 1, 3 and 7 with any scaling factor.  What is missing: the other selectors, for which the
check fails, see `C111_scale_not`. -/
theorem C111_scale_partial (selector : ℤ) (hsel : selector ∈ [0, 1, 2, 3, 5, 6, 7, 8]) (scale : ℝ) (hs : scale ≠ 0)
    (h : selector ∈ [0, 1, 3, 7] ∨ scale = 1) (M : Mesh (Geo ℝ 2)) (hM : generate selector scale = some (some M)) :
    ∀ codim ≤ 2, ∀ i e, M.entityByIndex codim i = some e → M.checkGeometryOrientation e = some true := by
  obtain ⟨h1, h2⟩ := tables selector hsel scale hs
  obtain ⟨M', a1, a2, a3, a4, a5, a6, a7, a8, a9, a10⟩ := test_all hs (by rintro rfl; simp at hsel) h1 h2
  rw [hM] at a1
  cases a1
  exact a10.2 h

/-- **C111**, violated: with the selectors 2, 5, 6 and 8 and any scaling factor different from 1 there is an entity whose
corners are not at the positions of its nodes. -/
theorem C111_scale_not (selector : ℤ) (hsel : selector ∈ [2, 5, 6, 8]) (scale : ℝ) (hs : scale ≠ 0) (h1 : scale ≠ 1) :
    ∃ M : Mesh (Geo ℝ 2), generate selector scale = some (some M) ∧
      ∃ codim ≤ 2, ∃ i e, M.entityByIndex codim i = some e ∧ M.checkGeometryOrientation e ≠ some true := by
  simp only [List.mem_cons, List.not_mem_nil, or_false] at hsel
  obtain ⟨t1, t2⟩ := tables selector (by rcases hsel with rfl | rfl | rfl | rfl <;> simp) scale hs
  obtain ⟨M, a1, a2, a3, a4, a5, a6, a7, a8, a9, a10⟩ :=
    test_all hs (by rcases hsel with rfl | rfl | rfl | rfl <;> simp) t1 t2
  refine ⟨M, a1, ?_⟩
  by_contra hall
  push Not at hall
  have := a10.1 hall
  rcases hsel with rfl | rfl | rfl | rfl <;> simp [h1] at this

/-- **C111**: with selector 4 and a positive scaling factor `s` the mesh consists of 18 triangles in the square from `(0, 0)` to
`(s, s)`, and its 16 nodes form an equidistant grid.  With other scaling factors a null pointer is returned. -/
theorem C111_test4 (scale : ℝ) :
    (0 < scale → ∃ M : Mesh (Geo ℝ 2), generate 4 scale = some (some M) ∧ M.topo.WF ∧
      M.topo.numNodes = 16 ∧ M.topo.numEdges = 33 ∧ M.topo.numCells = 18 ∧
      (∀ c < 18, (M.topo.cell c).nodes.length = 3 ∧ (M.topo.cell c).nodes.Nodup) ∧
      (∀ i ≤ 3, ∀ j ≤ 3, M.nodePos (i + j * 4) = some ![i * (scale / 3), j * (scale / 3)]) ∧
      (∀ i < 3, ∀ j < 3,
        (M.topo.cell (2 * (i * 3 + j))).nodes = [i + j * 4, (i + 1) + (j + 1) * 4, i + (j + 1) * 4] ∧
        (M.topo.cell (2 * (i * 3 + j) + 1)).nodes = [i + j * 4, (i + 1) + j * 4, (i + 1) + (j + 1) * 4])) ∧
    (scale ≤ 0 → generate 4 scale = some none) := by
  constructor
  · intro hs
    obtain ⟨M, h1, h2, h3, h4, h5, h6, h7, h8, h9, h10, h11⟩ := C23_tpTriag geoBuild true planeGeo
      ⟨(0 * scale, 0 * scale), (1 * scale, 1 * scale), 3, 3⟩ (by simp) (by simp) (by simpa using hs) (by simpa using hs)
    refine ⟨M, generate4 scale hs M h1, h2, h3, h5, h4, fun c hc => h7 c (by rw [h4]; exact hc), fun i hi j hj => ?_, h11⟩
    have := h10 i hi j hj
    simp only [planeGeo] at this
    unfold Mesh.nodePos
    rw [this]
    simp
  · intro hs
    unfold generate
    rw [if_pos rfl, C23_tpTriag_null geoBuild true planeGeo _ {} (Or.inr (Or.inr (Or.inl (by simpa using hs))))]
    rfl

/-- **C111**: other selectors are refused. -/
theorem C111_test_illegal (selector : ℤ) (h : selector < 0 ∨ 8 < selector) (scale : ℝ) : generate selector scale = none := by
  unfold generate
  rw [if_neg (by omega)]
  have : calls selector scale = none := by
    unfold calls
    split <;> first | omega | rfl
  rw [this]
  rfl

/-! ### Witnesses -/

/-- A triangle with nodes in `(0, 0)`, `(1, 0)`, `(0, 1)`, whose edges are given, but with a shape with other corners. -/
noncomputable def wrongShape : List (FactoryCall (Geo ℝ 2)) :=
  [.point (.point ![0, 0]), .point (.point ![1, 0]), .point (.point ![0, 1]),
    .entity .segment [0, 1] (some (.segO1 ![0, 0] ![1, 0])), .entity .segment [1, 2] (some (.segO1 ![1, 0] ![0, 1])),
    .entity .segment [2, 0] (some (.segO1 ![0, 1] ![0, 0])),
    .entity .tria [0, 1, 2] (some (.triaO1 ![0, 0] ![5, 0] ![0, 5]))]

private theorem wrongShape_run : ∃ r, Factory.run {} wrongShape = some
    (⟨[some (.point ![0, 0]), some (.point ![1, 0]), some (.point ![0, 1])],
      [⟨0, 1, some (.segO1 ![0, 0] ![1, 0])⟩, ⟨1, 2, some (.segO1 ![1, 0] ![0, 1])⟩, ⟨2, 0, some (.segO1 ![0, 1] ![0, 0])⟩],
      [⟨[0, 1, 2], some (.triaO1 ![0, 0] ![5, 0] ![0, 5])⟩]⟩, r) := ⟨_, rfl⟩

private theorem wrongShape_typed : WellTyped wrongShape := by
  constructor
  · intro g hg
    simp only [wrongShape, List.mem_cons, List.not_mem_nil, or_false, FactoryCall.point.injEq, reduceCtorEq] at hg
    rcases hg with rfl | rfl | rfl <;> exact ⟨_, rfl⟩
  · intro ref ns g hg
    simp only [wrongShape, List.mem_cons, List.not_mem_nil, or_false, FactoryCall.entity.injEq, reduceCtorEq, false_or,
      Option.some.injEq] at hg
    rcases hg with ⟨rfl, rfl, rfl⟩ | ⟨rfl, rfl, rfl⟩ | ⟨rfl, rfl, rfl⟩ | ⟨rfl, rfl, rfl⟩ <;> exact ⟨rfl, trivial⟩

private theorem wrongShape_positions : positions wrongShape = [![0, 0], ![1, 0], ![0, 1]] := rfl

/-- **C111**, violated: `isWatertightMesh` returns an empty list for a mesh in which a cell does not have its corners at the
positions of its nodes. -/
theorem C111_watertight_not : ∃ M : Mesh (Geo ℝ 2), M.FromFactory geoBuild true wrongShape ∧
    ¬ M.CornersAtNodes ∧ ∀ b, M.isWatertightMesh b = some [] := by
  obtain ⟨r, hr⟩ := wrongShape_run
  have hb := (C16_build_succeeds_iff geoBuild true _ _ r hr).2 ⟨by
    refine ⟨by simp, by simp, by simp, by simp, ?_, by simp, by simp, ?_⟩
    · simp [SamePair]
    · intro c hc j hj
      simp only [List.mem_cons, List.not_mem_nil, or_false] at hc
      subst hc
      simp only [List.length_cons, List.length_nil] at hj
      interval_cases j <;> decide, fun _ => by
    refine ⟨?_, ?_⟩
    · intro e he
      refine ⟨_, List.mem_cons_self, ?_⟩
      simp only [List.mem_cons, List.not_mem_nil, or_false] at he
      rcases he with rfl | rfl | rfl
      · exact ⟨0, by decide, by decide⟩
      · exact ⟨1, by decide, by decide⟩
      · exact ⟨2, by decide, by decide⟩
    · intro v hv
      refine ⟨_, List.mem_cons_self, ?_⟩
      simp only [List.length_cons, List.length_nil] at hv
      interval_cases v <;> simp⟩
  obtain ⟨⟨M, f'⟩, hb⟩ := Option.isSome_iff_exists.1 hb
  have hF : M.FromFactory geoBuild true wrongShape := ⟨_, r, f', hr, hb⟩
  have hw := wrongShape_typed
  refine ⟨M, hF, ?_, fun b => ?_⟩
  · rw [corners_iff hF hw]
    intro hm
    have := hm .tria [0, 1, 2] (.triaO1 ![0, 0] ![5, 0] ![0, 5]) (by simp [wrongShape])
    rw [wrongShape_positions] at this
    simp [Geo.HasCorners, Geo.kind, refNodeCoords, Geo.global] at this
  · classical
    rw [watertight hF hw, Option.some.injEq, List.flatMap_eq_nil_iff]
    intro e he
    rw [List.map_eq_nil_iff, List.filter_eq_nil_iff]
    intro j hj
    have he := List.mem_range.1 he
    refine not_wrong hF hw e he ?_ j (List.mem_range.1 hj) |> fun h => by simpa using h
    have hpos : M.nodePos = fun v => (positions wrongShape)[v]? := funext fun v => nodePos_eq hF hw v
    obtain ⟨f2, r2, q1, -, hB, -⟩ := built_of hF
    rw [hr] at q1
    cases q1
    obtain ⟨p, hp, p1, p2, p3⟩ := hB.segAt e he
    have hsup := hB.seg_supplied _ (List.getElem_mem hp)
    have hnew := hB.seg_new _ (List.getElem_mem hp)
    rw [p2] at hsup hnew
    have hE : M.edgeGeo e = some M.segments[p].geo := by
      simp [Mesh.edgeGeo, p1, Mesh.segOf, List.getElem?_eq_getElem hp]
    refine ⟨_, hE, ?_⟩
    rw [p3, hpos, wrongShape_positions]
    have he3 : e < 3 := by
      by_contra h3
      obtain ⟨⟨c, hc, k, hk, hsp⟩, -⟩ := hnew (by simpa using h3)
      simp only [List.mem_cons, List.not_mem_nil, or_false] at hc
      subst hc
      simp only [List.length_cons, List.length_nil] at hk
      have hk' : k < M.segments.length := lt_of_lt_of_le (by simpa using hk) hB.seg_count
      obtain ⟨q, hq, q1, q2, q3⟩ := hB.segAt k hk'
      have hs2 := (hB.seg_supplied _ (List.getElem_mem hq) (by rw [q2]; simpa using hk)).1
      have : p = q := hB.seg_inj p hp q hq (by
        rw [hs2]
        simp only [q2]
        interval_cases k <;> simpa [side] using hsp)
      subst this
      omega
    obtain ⟨s1, s2⟩ := hsup (by simpa using he3)
    interval_cases e <;> simp only [List.getElem_cons_zero, List.getElem_cons_succ, Option.some.injEq, Prod.mk.injEq] at s1 s2 <;>
      rw [s1.1, s1.2, ← s2] <;> simp [Geo.HasCorners, Geo.kind, refNodeCoords, Geo.global]

/-- A quadrilateral with a repeated node, with a shape of its own. -/
noncomputable def repeatedNode : List (FactoryCall (Geo ℝ 2)) :=
  [.point (.point ![0, 0]), .point (.point ![1, 0]), .point (.point ![0, 1]),
    .entity .quad [0, 1, 0, 2] (some (.quadO1 ![0, 0] ![1, 0] ![1, 1] ![0, 1]))]

/-- **C111**: the mesh factory accepts quadrilaterals in which a node occurs twice, and `checkLocalTopology` finds them. -/
theorem C111_topology_not : ∃ M : Mesh (Geo ℝ 2), M.FromFactory geoBuild true repeatedNode ∧
    ∃ e, M.entityByIndex 0 0 = some e ∧ M.checkLocalTopology e = some false := by
  have hr : ∃ r, Factory.run {} repeatedNode = some
      (⟨[some (.point ![0, 0]), some (.point ![1, 0]), some (.point ![0, 1])], [],
        [⟨[0, 1, 0, 2], some (.quadO1 ![0, 0] ![1, 0] ![1, 1] ![0, 1])⟩]⟩, r) := ⟨_, rfl⟩
  obtain ⟨r, hr⟩ := hr
  have hb := (C16_build_succeeds_iff geoBuild true _ _ r hr).2 ⟨by
    refine ⟨by simp, by simp, by simp, by simp, by simp, by simp, by simp, ?_⟩
    intro c hc j hj
    simp only [List.mem_cons, List.not_mem_nil, or_false] at hc
    subst hc
    simp only [List.length_cons, List.length_nil] at hj
    interval_cases j <;> decide, fun _ => by
    refine ⟨by simp, ?_⟩
    intro v hv
    refine ⟨_, List.mem_cons_self, ?_⟩
    simp only [List.length_cons, List.length_nil] at hv
    interval_cases v <;> simp⟩
  obtain ⟨⟨M, f'⟩, hb⟩ := Option.isSome_iff_exists.1 hb
  have hF : M.FromFactory geoBuild true repeatedNode := ⟨_, r, f', hr, hb⟩
  refine ⟨M, hF, ?_⟩
  obtain ⟨f2, r2, q1, -, hB, -⟩ := built_of hF
  rw [hr] at q1
  cases q1
  have hn : 0 < M.topo.numCells := by rw [hB.numCells']; simp
  obtain ⟨e, cell, a1, -⟩ := cell_of hF 0 hn
  refine ⟨e, a1, ?_⟩
  rw [(localTopology_cell hF 0 hn e a1).2, (hB.cell_eq 0 (by simp)).1]
  rfl

/-! ### Examples -/

/-- The hypotheses of the theorems about meshes from the mesh factory are met by all test meshes (`C111_test`), here by the
mesh with selector 6; its geometries match the nodes. -/
example : ∃ hist, ∃ M : Mesh (Geo ℝ 2), M.FromFactory geoBuild true hist ∧ WellTyped hist ∧ Matching hist ∧
    M.topo.numEdges ≠ 0 := by
  obtain ⟨h1, cells, h2, h3, h5, h6⟩ := table6 1
  rw [← h3] at h1
  obtain ⟨f, r, M, f', a1, a2, a3, a4, a5, a6, a7⟩ := test_build 1 one_ne_zero _ cells h1 h5
  refine ⟨_, M, ⟨f, r, f', a1, a2⟩, wellTyped_test 1 _ cells h5, (matching_test 1 _ cells).2 (h6.2 rfl), ?_⟩
  intro h0
  have hwf := C16_wellFormed geoBuild true _ f f' r M a1 a2
  have hl : cells.length = 4 := by simpa using congrArg List.length h3
  have l := hwf.cell_len 0 (by omega)
  have l' := hwf.cell_edges_len 0 (by omega)
  have hm : (M.topo.cell 0).edges[0]'(by omega) ∈ (M.topo.cell 0).edges := List.getElem_mem _
  have := hwf.cell_edges 0 (by omega) _ hm
  omega

/-- An edge which is not watertight: its shape ends in `(2, 0)`, the node is in `(1, 0)`. -/
example : ∃ M : Mesh (Geo ℝ 2), M.WrongEnd 0 1 := by
  refine ⟨⟨[.point ![0, 0], .point ![1, 0]], [⟨0, .segO1 ![0, 0] ![2, 0], 0, 1⟩], [], [], [], [some (.seg 0)],
    [some (.pt 0), some (.pt 1)]⟩, .segO1 ![0, 0] ![2, 0], ![2, 0], ![1, 0], 2, rfl, ?_, rfl, ?_, ?_⟩
  · simp [Geo.global]
  · have : Geo.dot ((![2, 0] : Vec ℝ 2) - ![0, 0]) (![2, 0] - ![0, 0]) = 2 ^ 2 := by
      simp [Geo.dot, Fin.sum_univ_two]; norm_num
    simp only [Geo.integrationElement, this, Real.sqrt_sq (by norm_num : (0 : ℝ) ≤ 2)]
  · simp only [Fin.sum_univ_two]
    norm_num

/-- `nodeTable` and `cellTable` are not empty, and the illegal selectors are refused. -/
example : (nodeTable 1).length = 15 ∧ (cellTable 1).length = 11 ∧ generate (-1) 1 = none ∧ generate 9 1 = none :=
  ⟨rfl, rfl, C111_test_illegal _ (Or.inl (by norm_num)) _, C111_test_illegal _ (Or.inr (by norm_num)) _⟩

/-- The mesh for selector 2 and scaling factor 2 is generated but does not pass the check of the orientation. -/
example : ∃ M : Mesh (Geo ℝ 2), generate 2 2 = some (some M) ∧
    ∃ codim ≤ 2, ∃ i e, M.entityByIndex codim i = some e ∧ M.checkGeometryOrientation e ≠ some true :=
  C111_scale_not 2 (by simp) 2 (by norm_num) (by norm_num)

end Verif
