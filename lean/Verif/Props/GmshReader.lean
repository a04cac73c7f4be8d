import Verif.Lemmas.GmshRead5

/-!
# Property C69: the mesh and the physical numbers obtained from a Gmsh file

`readV2 geo ops chk file = some r` says that reading the file does not fail an assertion; `r.mesh` is the mesh returned by
`mesh()` and `r.physNr e` is the result of `PhysicalEntityNr(e)`.  The functions on the right-hand sides
(`FileV2.nums`, `elementCorners`, `elementGeo`, `FileV2.physOf`, ...) are from `Verif.Spec.GmshReader`.
-/

namespace Verif
variable {P G : Type} {geo : GmshGeo P G} {ops : GeoOps G} {chk : Bool} {r : Reader G}

/-! ### Files of version 2 -/

section v2
variable {file : FileV2 P}

/-- The nodes of the mesh are the nodes of the file which are corners of a cell or an edge, in the order of the file. -/
theorem C69_v2_nodes (hnd : (file.nodes.map (·.1)).Nodup) (h : readV2 geo ops chk file = some r) :
    r.mesh.points.map some = (file.nodes.filter fun x => file.isMain x.1).map fun x => geo.point x.2 :=
  (readV2_done hnd h).points

/-- The cells of the mesh are the two-dimensional elements of the file, with the same corners and the same geometry. -/
theorem C69_v2_cells (hnd : (file.nodes.map (·.1)).Nodup) (h : readV2 geo ops chk file = some r) :
    (∀ e ∈ file.elements, e.type.dim = 2 → ∃ i < r.mesh.topo.numCells,
      elementCorners file.nums e.type e.nodes = some (r.mesh.topo.cell i).nodes ∧
      elementGeo geo file.nodes e.type e.nodes = ((r.mesh.entityByIndex 0 i).bind r.mesh.cellOf).map (·.geo)) ∧
    (∀ i < r.mesh.topo.numCells, ∃ e ∈ file.elements, e.type.dim = 2 ∧
      elementCorners file.nums e.type e.nodes = some (r.mesh.topo.cell i).nodes ∧
      elementGeo geo file.nodes e.type e.nodes = ((r.mesh.entityByIndex 0 i).bind r.mesh.cellOf).map (·.geo)) := by
  have hd := readV2_done hnd h
  constructor
  · intro e he hdim
    obtain ⟨k, hk⟩ := List.mem_iff_getElem?.mp he
    exact hd.cells (e, k) (List.mem_iff_getElem?.mpr ⟨k, by rw [List.getElem?_zipIdx, hk]; simp⟩) hdim
  · intro i hi
    obtain ⟨d, hd', h1, h2⟩ := hd.cellsOnly i hi
    exact ⟨d.1, (List.mem_zipIdx hd').2.2 ▸ List.getElem_mem _, h1, h2⟩

/-- Every one-dimensional element of the file is an edge of the mesh, with the same direction and the same geometry. -/
theorem C69_v2_edges (hnd : (file.nodes.map (·.1)).Nodup) (h : readV2 geo ops chk file = some r) :
    ∀ e ∈ file.elements, e.type.dim = 1 → ∃ i < r.mesh.topo.numEdges,
      elementCorners file.nums e.type e.nodes = some [(r.mesh.topo.edge i).1, (r.mesh.topo.edge i).2] ∧
      elementGeo geo file.nodes e.type e.nodes = ((r.mesh.entityByIndex 1 i).bind r.mesh.segOf).map (·.geo) := by
  have hd := readV2_done hnd h
  intro e he hdim
  obtain ⟨k, hk⟩ := List.mem_iff_getElem?.mp he
  exact hd.edges (e, k) (List.mem_iff_getElem?.mpr ⟨k, by rw [List.getElem?_zipIdx, hk]; simp⟩) hdim

/-- `PhysicalEntityNr` of a cell: the physical numbers of all elements with the same corners, in the order of the file. -/
theorem C69_v2_cell_numbers (hnd : (file.nodes.map (·.1)).Nodup) (h : readV2 geo ops chk file = some r) (i : ℕ)
    (hi : i < r.mesh.topo.numCells)
    (huniq : ∀ j < r.mesh.topo.numCells, (r.mesh.topo.cell j).nodes = (r.mesh.topo.cell i).nodes → j = i) :
    ∃ e, r.mesh.entityByIndex 0 i = some e ∧
      r.physNr e = some (file.physOf 2 fun ns => decide (ns = (r.mesh.topo.cell i).nodes)) := by
  have hd := readV2_done hnd h
  obtain ⟨e, he, hp⟩ := hd.index 0 _ i rfl hi
  exact ⟨e, he, by rw [hp, hd.phys0 i hi huniq, physOf_v2]⟩

/-- `PhysicalEntityNr` of an edge: the physical numbers of all elements with the same end points, in the order of the file. -/
theorem C69_v2_edge_numbers (hnd : (file.nodes.map (·.1)).Nodup) (h : readV2 geo ops chk file = some r) (i : ℕ)
    (hi : i < r.mesh.topo.numEdges) :
    ∃ e, r.mesh.entityByIndex 1 i = some e ∧
      r.physNr e = some (file.physOf 1 fun ns => decide (ns = [(r.mesh.topo.edge i).1, (r.mesh.topo.edge i).2] ∨
        ns = [(r.mesh.topo.edge i).2, (r.mesh.topo.edge i).1])) := by
  have hd := readV2_done hnd h
  obtain ⟨e, he, hp⟩ := hd.index 1 _ i rfl hi
  exact ⟨e, he, by rw [hp, hd.phys1 i hi, physOf_v2]⟩

/-- `PhysicalEntityNr` of a node: the physical numbers of all point elements at this node.  Missing: files in which a
point is repeated after a point with a greater index, for which the statement is false (`C69_v2_node_numbers_not`). -/
theorem C69_v2_node_numbers_partial (hnd : (file.nodes.map (·.1)).Nodup) (hrep : file.RepeatsOk)
    (h : readV2 geo ops chk file = some r) (i : ℕ) (hi : i < r.mesh.topo.numNodes) :
    ∃ e, r.mesh.entityByIndex 2 i = some e ∧ r.physNr e = some (file.physOf 0 fun ns => decide (ns = [i])) := by
  have hd := readV2_done hnd h
  obtain ⟨e, he, hp⟩ := hd.index 2 _ i rfl hi
  exact ⟨e, he, by rw [hp, hd.phys2 (repeatsOk_v2 hrep) i hi, physOf_v2]⟩

/-- A file without two-dimensional elements, or with a three-dimensional one, is rejected. -/
theorem C69_v2_dim (h : readV2 geo ops chk file = some r) :
    (∃ e ∈ file.elements, e.type.dim = 2) ∧ ∀ e ∈ file.elements, e.type.dim ≤ 2 := by
  unfold readV2 at h
  obtain ⟨main, hmain, _⟩ := Option.bind_eq_some_iff.mp h
  have := mainV2_spec hmain
  exact ⟨this.2.2, this.2.1⟩

end v2

/-! ### Files of version 4 -/

section v4
variable {file : FileV4 P}

theorem mem_elemsV4 {e : BlockV4 × List ℕ} : e ∈ file.elements ↔ ∃ k, ((e.1, k), e.2) ∈ elemsV4 file := by
  unfold FileV4.elements elemsV4
  simp only [List.mem_flatMap, List.mem_map, Prod.exists, Prod.ext_iff]
  constructor
  · rintro ⟨b, hb, ns, hns, h1, h2⟩
    obtain ⟨k, hk⟩ := List.mem_iff_getElem?.mp hb
    exact ⟨k, b, k, List.mem_iff_getElem?.mpr ⟨k, by rw [List.getElem?_zipIdx, hk]; simp⟩, ns, hns, ⟨h1, rfl⟩, h2⟩
  · rintro ⟨k, b, k', hb, ns, hns, ⟨h1, _⟩, h2⟩
    exact ⟨b, (List.mem_zipIdx hb).2.2 ▸ List.getElem_mem _, ns, hns, h1, h2⟩

/-- The nodes of the mesh are the nodes of the file which are corners of a cell, in the order of the file. -/
theorem C69_v4_nodes (hnd : (file.allNodes.map (·.1)).Nodup) (hent : ∀ d ≤ 2, ((file.entities d).map (·.1)).Nodup)
    (h : readV4 geo ops chk file = some r) :
    r.mesh.points.map some = (file.allNodes.filter fun x => file.isMain x.1).map fun x => geo.point x.2 :=
  (readV4_done hnd hent h).points

/-- The cells of the mesh are the two-dimensional elements of the file, with the same corners and the same geometry. -/
theorem C69_v4_cells (hnd : (file.allNodes.map (·.1)).Nodup) (hent : ∀ d ≤ 2, ((file.entities d).map (·.1)).Nodup)
    (h : readV4 geo ops chk file = some r) :
    (∀ e ∈ file.elements, e.1.type.dim = 2 → ∃ i < r.mesh.topo.numCells,
      elementCorners file.nums e.1.type e.2 = some (r.mesh.topo.cell i).nodes ∧
      elementGeo geo file.allNodes e.1.type e.2 = ((r.mesh.entityByIndex 0 i).bind r.mesh.cellOf).map (·.geo)) ∧
    (∀ i < r.mesh.topo.numCells, ∃ e ∈ file.elements, e.1.type.dim = 2 ∧
      elementCorners file.nums e.1.type e.2 = some (r.mesh.topo.cell i).nodes ∧
      elementGeo geo file.allNodes e.1.type e.2 = ((r.mesh.entityByIndex 0 i).bind r.mesh.cellOf).map (·.geo)) := by
  have hd := readV4_done hnd hent h
  constructor
  · intro e he hdim
    obtain ⟨k, hk⟩ := mem_elemsV4.mp he
    exact hd.cells _ hk hdim
  · intro i hi
    obtain ⟨d, hd', h1, h2⟩ := hd.cellsOnly i hi
    exact ⟨(d.1.1, d.2), mem_elemsV4.mpr ⟨d.1.2, hd'⟩, h1, h2⟩

/-- Every one-dimensional element of the file is an edge of the mesh, with the same direction and the same geometry. -/
theorem C69_v4_edges (hnd : (file.allNodes.map (·.1)).Nodup) (hent : ∀ d ≤ 2, ((file.entities d).map (·.1)).Nodup)
    (h : readV4 geo ops chk file = some r) :
    ∀ e ∈ file.elements, e.1.type.dim = 1 → ∃ i < r.mesh.topo.numEdges,
      elementCorners file.nums e.1.type e.2 = some [(r.mesh.topo.edge i).1, (r.mesh.topo.edge i).2] ∧
      elementGeo geo file.allNodes e.1.type e.2 = ((r.mesh.entityByIndex 1 i).bind r.mesh.segOf).map (·.geo) := by
  have hd := readV4_done hnd hent h
  intro e he hdim
  obtain ⟨k, hk⟩ := mem_elemsV4.mp he
  exact hd.edges _ hk hdim

/-- `PhysicalEntityNr` of a cell: the physical tags of the entities of all elements with the same corners. -/
theorem C69_v4_cell_numbers (hnd : (file.allNodes.map (·.1)).Nodup) (hent : ∀ d ≤ 2, ((file.entities d).map (·.1)).Nodup)
    (h : readV4 geo ops chk file = some r) (i : ℕ) (hi : i < r.mesh.topo.numCells)
    (huniq : ∀ j < r.mesh.topo.numCells, (r.mesh.topo.cell j).nodes = (r.mesh.topo.cell i).nodes → j = i) :
    ∃ e, r.mesh.entityByIndex 0 i = some e ∧
      r.physNr e = some (file.physOf 2 fun ns => decide (ns = (r.mesh.topo.cell i).nodes)) := by
  have hd := readV4_done hnd hent h
  obtain ⟨e, he, hp⟩ := hd.index 0 _ i rfl hi
  exact ⟨e, he, by rw [hp, hd.phys0 i hi huniq, physOf_v4]⟩

/-- `PhysicalEntityNr` of an edge: the physical tags of the entities of all elements with the same end points. -/
theorem C69_v4_edge_numbers (hnd : (file.allNodes.map (·.1)).Nodup) (hent : ∀ d ≤ 2, ((file.entities d).map (·.1)).Nodup)
    (h : readV4 geo ops chk file = some r) (i : ℕ) (hi : i < r.mesh.topo.numEdges) :
    ∃ e, r.mesh.entityByIndex 1 i = some e ∧
      r.physNr e = some (file.physOf 1 fun ns => decide (ns = [(r.mesh.topo.edge i).1, (r.mesh.topo.edge i).2] ∨
        ns = [(r.mesh.topo.edge i).2, (r.mesh.topo.edge i).1])) := by
  have hd := readV4_done hnd hent h
  obtain ⟨e, he, hp⟩ := hd.index 1 _ i rfl hi
  exact ⟨e, he, by rw [hp, hd.phys1 i hi, physOf_v4]⟩

/-- `PhysicalEntityNr` of a node: the physical tags of the entities of all point elements at this node.  Missing: blocks in
which a point is repeated after a point with a greater index. -/
theorem C69_v4_node_numbers_partial (hnd : (file.allNodes.map (·.1)).Nodup)
    (hent : ∀ d ≤ 2, ((file.entities d).map (·.1)).Nodup) (hrep : file.RepeatsOk)
    (h : readV4 geo ops chk file = some r) (i : ℕ) (hi : i < r.mesh.topo.numNodes) :
    ∃ e, r.mesh.entityByIndex 2 i = some e ∧ r.physNr e = some (file.physOf 0 fun ns => decide (ns = [i])) := by
  have hd := readV4_done hnd hent h
  obtain ⟨e, he, hp⟩ := hd.index 2 _ i rfl hi
  exact ⟨e, he, by rw [hp, hd.phys2 (repeatsOk_v4 hrep) i hi, physOf_v4]⟩

/-- A file without two-dimensional elements, or with a three-dimensional one, is rejected. -/
theorem C69_v4_dim (h : readV4 geo ops chk file = some r) :
    (∃ e ∈ file.elements, e.1.type.dim = 2) ∧ ∀ e ∈ file.elements, e.1.type.dim ≤ 2 := by
  unfold readV4 at h
  obtain ⟨main, hmain, _⟩ := Option.bind_eq_some_iff.mp h
  have := mainV4_spec hmain
  refine ⟨this.2.2, fun e he => ?_⟩
  obtain ⟨b, hb, he⟩ := List.mem_flatMap.mp he
  obtain ⟨ns, _, rfl⟩ := List.mem_map.mp he
  exact this.2.1 b hb

end v4

/-- Dimension and number of corners of all element types are those of the documentation of Gmsh. -/
theorem C69_types (t : GmshType) : (t.dim, t.corners) = gmshShape t := by
  cases t <;> rfl

/-- The class of the geometry object for an element is the one for its type, with the nodes in the order of the file; there is no
geometry for points, edges and triangles of order three and more, and solids.  A quadrilateral with nine nodes becomes one with eight. -/
theorem C69_geometry (geo : GmshGeo P G) (t : GmshType) (x : List P) :
    (t = .edge2 → geo.make t x = geo.segmentO1 x) ∧ (t = .edge3 → geo.make t x = geo.segmentO2 x) ∧
    (t = .tria3 → geo.make t x = geo.triaO1 x) ∧ (t = .tria6 → geo.make t x = geo.triaO2 x) ∧
    (t = .quad4 → geo.make t x = geo.quadO1 x) ∧ (t = .quad8 → geo.make t x = geo.quadO2 x) ∧
    (t = .quad9 → geo.make t x = geo.quadO2 (x.take 8)) ∧
    (t ∉ [.edge2, .edge3, .tria3, .tria6, .quad4, .quad8, .quad9] → geo.make t x = none) := by
  cases t <;> simp [GmshGeo.make]

/-- `IsPhysicalEntity(e, nr)` tells whether `PhysicalEntityNr(e)` contains `nr`. -/
theorem C69_isPhysical (e : EntPtr) (nr : ℕ) :
    (r.physNr e = none ↔ r.isPhysical e nr = none) ∧
    ∀ l, r.physNr e = some l → ∃ b, r.isPhysical e nr = some b ∧ (b = true ↔ nr ∈ l) := by
  constructor
  · unfold Reader.isPhysical
    cases r.physNr e <;> simp
  · intro l hl
    refine ⟨decide (nr ∈ l), ?_, by simp⟩
    unfold Reader.isPhysical
    rw [hl]
    rfl

/-! ### Examples -/

/-- Geometry objects of the examples: the coordinates of the nodes. -/
def listGeo : GmshGeo (ℤ × ℤ) (List (ℤ × ℤ)) where
  point x := some [x]
  segmentO1 l := if l.length = 2 then some l else none
  segmentO2 l := if l.length = 3 then some l else none
  triaO1 l := if l.length = 3 then some l else none
  triaO2 l := if l.length = 6 then some l else none
  quadO1 l := if l.length = 4 then some l else none
  quadO2 l := if l.length = 8 then some l else none

/-- Operations on geometry objects of the examples. -/
def listOps : GeoOps (List (ℤ × ℤ)) where
  sub g c i := if c = 2 then (g[i]?).toList else ((g ++ g.take 1)[i]?).toList ++ ((g ++ g.take 1)[i + 1]?).toList
  line a b := a ++ b
  tria a b c := a ++ b ++ c
  quad a b c d := a ++ b ++ c ++ d

/-- Two triangles, the first belonging to two physical groups, an edge and a point belonging to two groups and a node
which is not used. -/
def sampleV2 : FileV2 (ℤ × ℤ) where
  nodes := [(5, 0, 0), (9, 7, 7), (1, 1, 0), (7, 0, 1), (3, 1, 1)]
  elements := [⟨.point, 10, [5]⟩, ⟨.point, 12, [1]⟩, ⟨.point, 11, [1]⟩, ⟨.edge2, 20, [7, 5]⟩, ⟨.edge2, 21, [7, 5]⟩,
    ⟨.tria3, 30, [5, 1, 7]⟩, ⟨.tria3, 31, [5, 1, 7]⟩, ⟨.tria3, 30, [1, 3, 7]⟩]

theorem sampleV2_repeats : sampleV2.RepeatsOk := by
  intro l x y r h hx hy hxy
  have hlen : l.length ≤ 6 := by
    have := congrArg List.length h
    simp [sampleV2] at this
    omega
  rcases l with _ | ⟨a, _ | ⟨b, _ | ⟨c, l⟩⟩⟩
  · simp only [sampleV2, List.nil_append, List.cons.injEq] at h
    obtain ⟨rfl, rfl, _⟩ := h
    simp at hxy
  · simp only [sampleV2, List.cons_append, List.nil_append, List.cons.injEq] at h
    obtain ⟨rfl, rfl, rfl, _⟩ := h
    refine ⟨1, by decide, fun z hz _ j hj => ?_⟩
    have h5 : elementCorners sampleV2.nums .point [5] = some [0] := by decide
    have h1 : elementCorners sampleV2.nums .point [1] = some [1] := by decide
    simp only [List.cons_append, List.nil_append, List.map_cons, List.map_nil, List.mem_cons, List.not_mem_nil, or_false] at hz
    rcases hz with rfl | rfl
    · rw [h5] at hj
      simp only [Option.some.injEq, List.cons.injEq, and_true] at hj
      omega
    · rw [h1] at hj
      simp only [Option.some.injEq, List.cons.injEq, and_true] at hj
      omega
  · simp only [sampleV2, List.cons_append, List.nil_append, List.cons.injEq] at h
    obtain ⟨_, _, rfl, rfl, _⟩ := h
    simp at hy
  · exfalso
    simp only [sampleV2, List.cons_append, List.cons.injEq] at h
    have h2 : y ∈ l ++ x :: y :: r := by simp
    rw [← h.2.2.2] at h2
    simp only [List.mem_cons, List.not_mem_nil, or_false] at h2
    rcases h2 with rfl | rfl | rfl | rfl | rfl <;> simp at hy

example : (sampleV2.nodes.map (·.1)).Nodup ∧ sampleV2.RepeatsOk := ⟨by decide, sampleV2_repeats⟩

example : ∃ r, readV2 listGeo listOps true sampleV2 = some r ∧ r.mesh.topo.numNodes = 4 ∧ r.mesh.topo.numEdges = 5 ∧
    r.mesh.topo.numCells = 2 ∧ (r.mesh.entityByIndex 0 0).bind r.physNr = some [30, 31] ∧
    (r.mesh.entityByIndex 1 0).bind r.physNr = some [20, 21] ∧ (r.mesh.entityByIndex 2 1).bind r.physNr = some [12, 11] := by
  refine ⟨(readV2 listGeo listOps true sampleV2).get (by decide +kernel), by simp, ?_⟩
  decide +kernel

/-- A quadrilateral and a triangle of second order in two blocks. -/
def sampleV4 : FileV4 (ℤ × ℤ) where
  minTag := 3
  maxTag := 10
  nodeBlocks := [[(5, 0, 0), (9, 2, 0)], [(4, 2, 2), (7, 0, 2), (3, 4, 0)], [(6, 3, 0), (8, 3, 1), (10, 2, 1)]]
  blocks := [⟨0, 2, .point, [[5]]⟩, ⟨1, 1, .edge2, [[7, 5]]⟩, ⟨2, 1, .quad4, [[5, 9, 4, 7]]⟩, ⟨2, 2, .tria6, [[9, 3, 4, 6, 8, 10]]⟩]
  entities d := match d with
    | 0 => [(2, [40])]
    | 1 => [(1, [50, 51])]
    | _ => [(2, [61]), (1, [60, 62])]

theorem sampleV4_repeats : sampleV4.RepeatsOk := by
  intro pre b post h hb l x r hl
  have hmem : b ∈ sampleV4.blocks := by rw [h]; simp
  have hlen := congrArg List.length hl
  simp only [sampleV4, List.mem_cons, List.not_mem_nil, or_false] at hmem
  rcases hmem with rfl | rfl | rfl | rfl
  · simp at hlen
    omega
  all_goals simp at hb

example : (sampleV4.allNodes.map (·.1)).Nodup ∧ (∀ d ≤ 2, ((sampleV4.entities d).map (·.1)).Nodup) ∧ sampleV4.RepeatsOk :=
  ⟨by decide, by decide, sampleV4_repeats⟩

example : ∃ r, readV4 listGeo listOps true sampleV4 = some r ∧ r.mesh.topo.numNodes = 5 ∧ r.mesh.topo.numEdges = 6 ∧
    r.mesh.topo.numCells = 2 ∧ (r.mesh.entityByIndex 0 0).bind r.physNr = some [60, 62] ∧
    (r.mesh.entityByIndex 0 1).bind r.physNr = some [61] ∧
    (r.mesh.entityByIndex 1 0).bind r.physNr = some [50, 51] ∧ (r.mesh.entityByIndex 2 0).bind r.physNr = some [40] := by
  refine ⟨(readV4 listGeo listOps true sampleV4).get (by decide +kernel), by simp, ?_⟩
  decide +kernel

/-! ### What is not true -/

/-- A point belonging to the groups 2 and 3, listed after a point with a greater index. -/
def badPoints : FileV2 (ℤ × ℤ) where
  nodes := [(1, 0, 0), (2, 1, 0), (3, 0, 1)]
  elements := [⟨.point, 1, [2]⟩, ⟨.point, 2, [1]⟩, ⟨.point, 3, [1]⟩, ⟨.tria3, 4, [1, 2, 3]⟩]

/-- Without the condition on repeated points the numbers of nodes are wrong: the second number of a point is given to
another node. -/
theorem C69_v2_node_numbers_not : ∃ r, readV2 listGeo listOps true badPoints = some r ∧
    (badPoints.nodes.map (·.1)).Nodup ∧
    (r.mesh.entityByIndex 2 0).bind r.physNr = some [2] ∧ (badPoints.physOf 0 fun ns => decide (ns = [0])) = [2, 3] ∧
    (r.mesh.entityByIndex 2 1).bind r.physNr = some [1, 3] ∧ (badPoints.physOf 0 fun ns => decide (ns = [1])) = [1] := by
  refine ⟨(readV2 listGeo listOps true badPoints).get (by decide +kernel), by simp, ?_⟩
  decide +kernel

/-- A point which does not belong to the mesh and is listed twice: `back()` is called for an empty vector, while the file
is read if the point is listed once. -/
theorem C69_v2_point_undefined : readV2 listGeo listOps true
    ⟨[(1, 0, 0), (2, 1, 0), (3, 1, 1), (4, 0, 1)],
      [⟨.point, 1, [3]⟩, ⟨.point, 2, [3]⟩, ⟨.tria3, 4, [1, 2, 4]⟩]⟩ = none ∧
    (readV2 listGeo listOps true
    ⟨[(1, 0, 0), (2, 1, 0), (3, 1, 1), (4, 0, 1)],
      [⟨.point, 1, [3]⟩, ⟨.tria3, 4, [1, 2, 4]⟩]⟩).isSome = true := by
  constructor
  · rw [← Option.isNone_iff_eq_none]
    decide +kernel
  · decide +kernel

/-- A point with the greatest number, which does not belong to the mesh: the vector `gi2mi` is accessed outside of its range
(Gmsh counts nodes from one, the vector has as many entries as there are nodes). -/
theorem C69_v2_point_range : readV2 listGeo listOps true
    ⟨[(1, 0, 0), (2, 1, 0), (3, 0, 1), (4, 1, 1)],
      [⟨.point, 1, [4]⟩, ⟨.tria3, 4, [1, 2, 3]⟩]⟩ = none ∧
    (readV2 listGeo listOps true
    ⟨[(1, 0, 0), (2, 1, 0), (3, 0, 1), (4, 1, 1)], [⟨.tria3, 4, [1, 2, 3]⟩]⟩).isSome = true := by
  constructor
  · rw [← Option.isNone_iff_eq_none]
    decide +kernel
  · decide +kernel

/-- `PhysicalEntityNr` need not be sorted, contrary to its documentation. -/
theorem C69_sorted_not : ∃ file : FileV2 (ℤ × ℤ), ∃ r, readV2 listGeo listOps true file = some r ∧
    (r.mesh.entityByIndex 0 0).bind r.physNr = some [31, 30] := by
  let file : FileV2 (ℤ × ℤ) := ⟨[(1, 0, 0), (2, 1, 0), (3, 0, 1)],
    [⟨.tria3, 31, [1, 2, 3]⟩, ⟨.tria3, 30, [1, 2, 3]⟩]⟩
  refine ⟨file, (readV2 listGeo listOps true file).get (by decide +kernel), by simp, ?_⟩
  decide +kernel

/-- Elements with the same nodes which are not neighbours in the file become several cells: the condition that the corners
belong to one cell only is needed in `C69_v2_cell_numbers`. -/
theorem C69_cells_not : ∃ file : FileV2 (ℤ × ℤ), ∃ r, readV2 listGeo listOps true file = some r ∧
    (file.nodes.map (·.1)).Nodup ∧ r.mesh.topo.numCells = 3 ∧ (r.mesh.topo.cell 0).nodes = (r.mesh.topo.cell 2).nodes ∧
    (r.mesh.entityByIndex 0 0).bind r.physNr = some [1] ∧ (r.mesh.entityByIndex 0 2).bind r.physNr = some [3] := by
  let file : FileV2 (ℤ × ℤ) := ⟨[(1, 0, 0), (2, 1, 0), (3, 0, 1), (4, 1, 1)],
    [⟨.tria3, 1, [1, 2, 3]⟩, ⟨.tria3, 2, [2, 4, 3]⟩, ⟨.tria3, 3, [1, 2, 3]⟩]⟩
  refine ⟨file, (readV2 listGeo listOps true file).get (by decide +kernel), by simp, ?_⟩
  decide +kernel

/-- For files of version 2, a node which belongs to an edge but to no cell is inserted (if the factory does not check
completeness), contrary to the documentation of the class. -/
theorem C69_nodes_not : ∃ file : FileV2 (ℤ × ℤ), ∃ r, readV2 listGeo listOps false file = some r ∧
    r.mesh.topo.numNodes = 4 ∧ r.mesh.topo.numCells = 1 ∧ (r.mesh.topo.cell 0).nodes = [0, 1, 2] := by
  let file : FileV2 (ℤ × ℤ) := ⟨[(1, 0, 0), (2, 1, 0), (3, 0, 1), (4, 1, 1)],
    [⟨.edge2, 1, [2, 4]⟩, ⟨.tria3, 2, [1, 2, 3]⟩]⟩
  refine ⟨file, (readV2 listGeo listOps false file).get (by decide +kernel), by simp, ?_⟩
  decide +kernel

end Verif
