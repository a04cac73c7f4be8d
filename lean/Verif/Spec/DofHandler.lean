import Verif.Model.DofHandler

/-!
# Specification of dof handlers, in terms of the interface `DofHandler` only
-/

namespace Verif

/-- `(codim, index)` denotes an entity of the mesh. -/
def Topo.IsEnt (T : Topo) (e : Ent) : Prop := e.1 ≤ 2 ∧ e.2 < T.num e.1

namespace DofHandler
variable (h : DofHandler)

/-- Interior dofs of an entity, as a list. -/
def own (e : Ent) : List ℕ := (h.interiorGlobalDofIndices e).getD []

/-- All dofs of an entity, as a list. -/
def all (e : Ent) : List ℕ := (h.globalDofIndices e).getD []

/-- All methods return for all entities of the mesh, and lengths are as announced. -/
def Answers (T : Topo) : Prop :=
  ∀ e, T.IsEnt e →
    h.interiorGlobalDofIndices e = some (h.own e) ∧ h.globalDofIndices e = some (h.all e) ∧
    h.numInteriorDofs e = some (h.own e).length ∧ h.numLocalDofs e = some (h.all e).length

/-- Every global index is an interior dof of exactly one entity at exactly one position, and there are
no other interior dofs. -/
def Partitions (T : Topo) : Prop :=
  (∀ e, T.IsEnt e → ∀ d ∈ h.own e, d < h.numDofs) ∧
  ∀ d < h.numDofs, ∃! p : Ent × ℕ, T.IsEnt p.1 ∧ (h.own p.1)[p.2]? = some d

/-- Nodes first, then edges, then cells; within a codimension ordered by index; consecutive numbers for
each entity. -/
def Ordered (T : Topo) : Prop :=
  (∀ e f, T.IsEnt e → T.IsEnt f → (f.1 < e.1 ∨ (e.1 = f.1 ∧ e.2 < f.2)) →
    ∀ d ∈ h.own e, ∀ d' ∈ h.own f, d < d') ∧
  ∀ e, T.IsEnt e → ∃ a, h.own e = List.range' a (h.own e).length

/-- The documented layout of `GlobalDofIndices`; edges which are traversed backwards by a cell
contribute their dofs in reversed order. -/
def LaidOut (T : Topo) : Prop :=
  (∀ v < T.numNodes, h.all (2, v) = h.own (2, v)) ∧
  (∀ e < T.numEdges, h.all (1, e) =
    h.own (2, (T.edge e).1) ++ h.own (2, (T.edge e).2) ++ h.own (1, e)) ∧
  (∀ c < T.numCells, h.all (0, c) =
    ((T.cell c).nodes.flatMap fun v => h.own (2, v)) ++
    (((T.cell c).edges.zip (T.cell c).ori).flatMap fun p =>
      if p.2 then h.own (1, p.1) else (h.own (1, p.1)).reverse) ++
    h.own (0, c))

/-- The same without attention to orientations (option `check_edge_orientation = false`). -/
def LaidOutUnoriented (T : Topo) : Prop :=
  (∀ v < T.numNodes, h.all (2, v) = h.own (2, v)) ∧
  (∀ e < T.numEdges, h.all (1, e) =
    h.own (2, (T.edge e).1) ++ h.own (2, (T.edge e).2) ++ h.own (1, e)) ∧
  (∀ c < T.numCells, h.all (0, c) =
    ((T.cell c).nodes.flatMap fun v => h.own (2, v)) ++
    ((T.cell c).edges.flatMap fun e => h.own (1, e)) ++ h.own (0, c))

/-- No repetitions in `GlobalDofIndices` (for cells with pairwise distinct vertices), and all indices
are below `NumDofs()`. -/
def DistinctInRange (T : Topo) : Prop :=
  ∀ e, T.IsEnt e → (∀ d ∈ h.all e, d < h.numDofs) ∧
    ((e.1 = 0 → (T.cell e.2).nodes.Nodup) → (h.all e).Nodup)

/-- The part of `GlobalDofIndices(cell)` which belongs to local edge `j`: it comes after the dofs of
all vertices and those of the preceding edges. -/
def edgeSection (T : Topo) (c j : ℕ) : List ℕ :=
  ((h.all (0, c)).drop
    ((((T.cell c).nodes.map fun v => (h.own (2, v)).length).sum) +
     (((T.cell c).edges.take j).map fun e => (h.own (1, e)).length).sum)).take
    (h.own (1, (T.cell c).edges.getD j 0)).length

/-- The same, walked in the direction of the edge. -/
def edgeWalk (T : Topo) (c j : ℕ) : List ℕ :=
  if (T.cell c).ori.getD j false then h.edgeSection T c j else (h.edgeSection T c j).reverse

/-- Cells sharing an edge see the same dofs along it. -/
def AgreeOnEdges (T : Topo) : Prop :=
  ∀ c < T.numCells, ∀ c' < T.numCells, ∀ j < (T.cell c).edges.length, ∀ j' < (T.cell c').edges.length,
    (T.cell c).edges.getD j 0 = (T.cell c').edges.getD j' 0 → h.edgeWalk T c j = h.edgeWalk T c' j'

/-- `Entity(d)` is the entity which owns `d`. -/
def EntityInverts (T : Topo) : Prop :=
  (∀ d < h.numDofs, ∃ e, h.entity d = some e ∧ T.IsEnt e ∧ d ∈ h.own e ∧
    ∀ f, T.IsEnt f → d ∈ h.own f → f = e) ∧
  ∀ d, h.numDofs ≤ d → h.entity d = none

end DofHandler

/-- Total number of dofs: sum over all entities. -/
def Topo.totalDofs (T : Topo) (cnt : Ent → ℕ) : ℕ :=
  (((List.range T.numNodes).map fun v => cnt (2, v)).sum +
   ((List.range T.numEdges).map fun e => cnt (1, e)).sum) +
   ((List.range T.numCells).map fun c => cnt (0, c)).sum

end Verif
