import Verif.Model.Mesh

/-!
# Specification vocabulary for meshes

`Topo` is what a user of the abstract interface `lf::mesh::Mesh` sees of the topology of a
two-dimensional hybrid mesh: entities of each codimension numbered from zero, the end nodes of every
edge, and the nodes, edges and relative orientations of every cell.
-/

namespace Verif

/-- Two pairs with the same (unordered) end points. -/
def SamePair (p q : ℕ × ℕ) : Prop := p = q ∨ p = q.swap

instance (p q : ℕ × ℕ) : Decidable (SamePair p q) := by unfold SamePair; infer_instance

/-- End nodes of local side `j` of a cell with the given nodes: from local node `j` to the cyclically
next one. -/
def side (nodes : List ℕ) (j : ℕ) : ℕ × ℕ :=
  (nodes.getD j 0, nodes.getD ((j + 1) % nodes.length) 0)

/-- Topological information about a cell. -/
structure TCell where
  nodes : List ℕ
  edges : List ℕ
  ori : List Bool

/-- Topology of a mesh. -/
structure Topo where
  numNodes : ℕ
  numEdges : ℕ
  numCells : ℕ
  edge : ℕ → ℕ × ℕ
  cell : ℕ → TCell

/-- A consistent mesh topology: every edge has two distinct end nodes, no two edges have the same end
nodes, cells are triangles or quadrilaterals, side `j` of a cell is the edge `edges[j]`, and the
relative orientation tells whether the directions of edge and side agree. -/
structure Topo.WF (T : Topo) : Prop where
  edge_ne : ∀ e < T.numEdges, (T.edge e).1 ≠ (T.edge e).2
  edge_lt : ∀ e < T.numEdges, (T.edge e).1 < T.numNodes ∧ (T.edge e).2 < T.numNodes
  edge_inj : ∀ e < T.numEdges, ∀ f < T.numEdges, SamePair (T.edge e) (T.edge f) → e = f
  cell_len : ∀ c < T.numCells, (T.cell c).nodes.length = 3 ∨ (T.cell c).nodes.length = 4
  cell_nodes : ∀ c < T.numCells, ∀ v ∈ (T.cell c).nodes, v < T.numNodes
  cell_edges_len : ∀ c < T.numCells, (T.cell c).edges.length = (T.cell c).nodes.length
  cell_ori_len : ∀ c < T.numCells, (T.cell c).ori.length = (T.cell c).nodes.length
  cell_edges : ∀ c < T.numCells, ∀ e ∈ (T.cell c).edges, e < T.numEdges
  cell_side : ∀ c < T.numCells, ∀ j < (T.cell c).nodes.length,
    SamePair (T.edge ((T.cell c).edges.getD j 0)) (side (T.cell c).nodes j)
  cell_ori : ∀ c < T.numCells, ∀ j < (T.cell c).nodes.length,
    ((T.cell c).ori.getD j false = true ↔
      T.edge ((T.cell c).edges.getD j 0) = side (T.cell c).nodes j)

/-- The topology of a constructed mesh, read off through `NumEntities`, `EntityByIndex`,
`SubEntities`, `Index` and `RelativeOrientations`. -/
def Mesh.topo {G : Type} (M : Mesh G) : Topo where
  numNodes := M.points.length
  numEdges := M.segments.length
  numCells := M.trias.length + M.quads.length
  edge i := match (M.entityByIndex 1 i).bind M.segOf with
    | some s => (s.p0, s.p1)
    | none => (0, 0)
  cell i := match (M.entityByIndex 0 i).bind M.cellOf with
    | some c => ⟨c.nodes, c.edges.map (fun p => ((M.index (.seg p)).getD 0)), c.ori⟩
    | none => ⟨[], [], []⟩

/-- Input accepted by the mesh constructor (all nodes with a position, as `AddPoint` ensures). -/
structure ValidInput {G : Type} (nodes : List (Option G)) (edges : List (EdgeIn G))
    (cells : List (CellIn G)) : Prop where
  nodes_some : ∀ g ∈ nodes, g.isSome = true
  edge_ne : ∀ e ∈ edges, e.p0 ≠ e.p1
  edge_lt : ∀ e ∈ edges, e.p0 < nodes.length ∧ e.p1 < nodes.length
  edge_geo : ∀ e ∈ edges, e.geo.isSome = true
  edge_distinct : edges.Pairwise (fun e f => ¬ SamePair (e.p0, e.p1) (f.p0, f.p1))
  cell_len : ∀ c ∈ cells, c.nodes.length = 3 ∨ c.nodes.length = 4
  cell_lt : ∀ c ∈ cells, ∀ v ∈ c.nodes, v < nodes.length
  cell_ne : ∀ c ∈ cells, ∀ j < c.nodes.length, (side c.nodes j).1 ≠ (side c.nodes j).2

/-- Every supplied edge is a side of some cell and every node is an end node of a side of a cell (what
the completeness check asks for). -/
def CompleteInput {G : Type} (numNodes : ℕ) (edges : List (EdgeIn G)) (cells : List (CellIn G)) : Prop :=
  (∀ e ∈ edges, ∃ c ∈ cells, ∃ j < c.nodes.length, SamePair (e.p0, e.p1) (side c.nodes j)) ∧
  (∀ v < numNodes, ∃ c ∈ cells, v ∈ c.nodes)

end Verif

namespace Verif

/-- A call of a method of the mesh factory which adds something. -/
inductive FactoryCall (G : Type)
  | point (g : G)
  | entity (ref : RefEl) (nodes : List ℕ) (geo : Option G)

/-- A history of factory calls starting from a factory `f`: final factory and returned indices;
`none` if an assertion fails. -/
def Factory.run {G : Type} (f : Factory G) : List (FactoryCall G) → Option (Factory G × List ℕ)
  | [] => some (f, [])
  | .point g :: cs =>
    (Factory.run (f.addPoint g).1 cs).bind fun r => some (r.1, (f.addPoint g).2 :: r.2)
  | .entity ref nodes geo :: cs =>
    (f.addEntity ref nodes geo).bind fun s =>
    (Factory.run s.1 cs).bind fun r => some (r.1, s.2 :: r.2)

end Verif
