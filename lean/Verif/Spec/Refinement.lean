import Verif.Model.Refinement
import Verif.Spec.RefPattern
import Verif.Spec.Builders

/-!
# Specification vocabulary for refinement
-/

namespace Verif
variable {G : Type}

/-- A mesh with consistent topology, in which triangles have three and quadrilaterals four nodes. -/
structure Mesh.Valid (M : Mesh G) : Prop where
  wf : M.topo.WF
  ref : ∀ c < M.topo.numCells, M.cellRef c = cellRefEl (M.topo.cell c).nodes

/-- Every triangle has a refinement edge. -/
def RefEdgesOk (T : Topo) (re : List (Option ℕ)) : Prop :=
  re.length = T.numCells ∧
  ∀ c < T.numCells, (T.cell c).nodes.length = 3 → ∃ a < 3, re[c]? = some (some a)

/-- A set of edges which contains the refinement edge of every triangle that has a side in the set. -/
def MarkClosed (T : Topo) (re : List (Option ℕ)) (S : ℕ → Prop) : Prop :=
  ∀ c < T.numCells, (T.cell c).nodes.length = 3 → ∀ a, re[c]? = some (some a) →
    (∃ e ∈ (T.cell c).edges, S e) → S ((T.cell c).edges.getD a 0)

/-- `e` belongs to the least closed set of edges containing the set `A`. -/
def InClosure (T : Topo) (re : List (Option ℕ)) (A : ℕ → Prop) (e : ℕ) : Prop :=
  ∀ S : ℕ → Prop, (∀ f, A f → S f) → MarkClosed T re S → S e

/-- Corners of the reference elements in lattice coordinates. -/
def refCorner : RefEl → ℕ → List ℤ
  | .tria, 0 => [0, 0]
  | .tria, 1 => [6, 0]
  | .tria, 2 => [0, 6]
  | .quad, 0 => [0, 0]
  | .quad, 1 => [6, 0]
  | .quad, 2 => [6, 6]
  | .quad, 3 => [0, 6]
  | _, _ => []

/-- Midpoint of side `k` of a reference element: half the sum of its corners. -/
def refSideMid (ref : RefEl) (k : ℕ) : List ℤ :=
  (List.zipWith (· + ·) (refCorner ref k) (refCorner ref ((k + 1) % ref.numNodes))).map (· / 2)

/-- The pattern splits side `k`: the midpoint of the side is a vertex of a child cell. -/
def Pattern.SplitsSide (p : Pattern) (k : ℕ) : Prop :=
  ∃ polys, p.childPolygons 0 = some polys ∧ ∃ poly ∈ polys, refSideMid p.ref k ∈ poly

/-- A pattern with which a cell can be refined: admissible, and not `rp_nil`. -/
def Pattern.Refines (p : Pattern) : Prop := p.Admissible ∧ p.pat ≠ .nil

/-- A level which has not been refined yet: the bookkeeping arrays have the right sizes, no refinement
pattern is set, every triangle has a refinement edge.  The constructor of `MeshHierarchy` and every
refinement produce such a level (`C30`). -/
structure Level.Fresh (L : Level G) : Prop where
  valid : L.mesh.Valid
  points : L.pointCI = List.replicate L.mesh.topo.numNodes {}
  edges : L.edgeCI = List.replicate L.mesh.topo.numEdges {}
  cells : L.cellCI = List.replicate L.mesh.topo.numCells {}
  marked : L.marked.length = L.mesh.topo.numEdges
  refEdges : RefEdgesOk L.mesh.topo L.refEdges

/-- A conforming mesh: the nodes of a cell are distinct, two different cells have nothing, or a single
node, or a common edge with its two end nodes in common, and an edge is a side of at most two cells. -/
structure Topo.Conforming (T : Topo) : Prop where
  wf : T.WF
  nodup : ∀ c < T.numCells, (T.cell c).nodes.Nodup
  share : ∀ c < T.numCells, ∀ d < T.numCells, c ≠ d → ∀ a b, a ≠ b →
    a ∈ (T.cell c).nodes → b ∈ (T.cell c).nodes → a ∈ (T.cell d).nodes → b ∈ (T.cell d).nodes →
    (∃ e ∈ (T.cell c).edges, e ∈ (T.cell d).edges ∧ SamePair (T.edge e) (a, b)) ∧
    ∀ w ∈ (T.cell c).nodes, w ∈ (T.cell d).nodes → w = a ∨ w = b
  two : ∀ e < T.numEdges, T.incidence e ≤ 2

/-- Every edge and every node belongs to a cell. -/
def Topo.Complete (T : Topo) : Prop :=
  (∀ e < T.numEdges, ∃ c < T.numCells, e ∈ (T.cell c).edges) ∧
  (∀ v < T.numNodes, ∃ c < T.numCells, v ∈ (T.cell c).nodes)

/-- Type of the entity described by a polygon, by its number of vertices. -/
def polyKind (poly : List (List ℤ)) : RefEl :=
  match poly.length with
  | 1 => .point
  | 2 => .segment
  | 3 => .tria
  | _ => .quad

/-- What refinement needs from `ChildGeometry`: for the polygons prescribed by a pattern of matching
type it creates one geometry of the right type each. -/
def ChildOps.Lawful (cops : ChildOps G) : Prop :=
  ∀ (g : G) (p : Pattern) (codim : ℕ) (polys : List (List (List ℤ))), p.ref = cops.kind g →
    p.Reachable → p.Refines →
    p.childPolygons codim = some polys →
    ∃ l, cops.child g p codim = some l ∧ l.map cops.kind = polys.map polyKind

/-- Every entity of the mesh has a geometry of its own type. -/
structure Mesh.GeoOk (cops : ChildOps G) (M : Mesh G) : Prop where
  points : ∀ v < M.topo.numNodes, ∃ g, M.points[v]? = some g ∧ cops.kind g = .point
  edges : ∀ e < M.topo.numEdges, ∃ g, M.edgeGeo e = some g ∧ cops.kind g = .segment
  cells : ∀ c < M.topo.numCells, ∃ g, M.cellGeo c = some g ∧ M.cellRef c = some (cops.kind g)

/-- Lattice coordinates of the local nodes of a refined cell. -/
def latNode (ref : RefEl) : LNode → List ℤ
  | .v i => refCorner ref i
  | .m i => refSideMid ref i
  | .ctr => if ref = .tria then [2, 2] else [3, 3]

/-- A level in front of `PerformRefinement`, with patterns which fit together: every node is copied,
every edge is copied or split, and the pattern of a cell splits exactly the sides which are split edges. -/
structure Level.Planned (L : Level G) : Prop where
  valid : L.mesh.Valid
  points : L.pointCI = List.replicate L.mesh.topo.numNodes { pat := .copy }
  edges_len : L.edgeCI.length = L.mesh.topo.numEdges
  edges : ∀ ci ∈ L.edgeCI, ci = { pat := .split } ∨ ci = { pat := .copy }
  cells_len : L.cellCI.length = L.mesh.topo.numCells
  cells : ∀ c < L.mesh.topo.numCells, ∃ ref pat anchor p, L.mesh.cellRef c = some ref ∧
    L.cellCI[c]? = some { pat := pat, anchor := anchor } ∧
    Pattern.make ref pat anchor = some p ∧ p.Refines ∧
    ∀ k < (L.mesh.topo.cell c).edges.length,
      (p.SplitsSide k ↔ L.edgeCI[(L.mesh.topo.cell c).edges.getD k 0]? = some { pat := .split })
  refEdges : RefEdgesOk L.mesh.topo L.refEdges

/-- Children of co-dimension `codim` of an entity as recorded in the child information. -/
def Level.children (L : Level G) (codim : ℕ) (par : Ent) : List ℕ :=
  match par.1, codim with
  | 0, 0 => (L.cellCI[par.2]?).elim [] (·.childCells)
  | 0, 1 => (L.cellCI[par.2]?).elim [] (·.childEdges)
  | 0, 2 => (L.cellCI[par.2]?).elim [] (·.childPoints)
  | 1, 1 => (L.edgeCI[par.2]?).elim [] (·.childEdges)
  | 1, 2 => (L.edgeCI[par.2]?).elim [] (·.childPoints)
  | 2, 2 => (L.pointCI[par.2]?).elim [] (·.child.toList)
  | _, _ => []

/-- Parent information on the entities of a level. -/
def Level.parents (L : Level G) : ℕ → List ParentInfo
  | 0 => L.parents0
  | 1 => L.parents1
  | _ => L.parents2

/-- Parent information of the fine level `N` and child information of the coarse level `L` agree. -/
def ParentsAgree (L N : Level G) : Prop :=
  ∀ codim ≤ 2, (N.parents codim).length = N.mesh.topo.num codim ∧
    (∀ i < N.mesh.topo.num codim, ∃ info par j, (N.parents codim)[i]? = some info ∧
      info.parent = some par ∧ info.childNumber = some j ∧
      par.1 ≤ codim ∧ par.2 < L.mesh.topo.num par.1 ∧ (L.children codim par)[j]? = some i) ∧
    (∀ par j i, (L.children codim par)[j]? = some i → i < N.mesh.topo.num codim ∧
      ∃ info, (N.parents codim)[i]? = some info ∧ info.parent = some par ∧ info.childNumber = some j)

/-- Number of triangles. -/
def Topo.numTria (T : Topo) : ℕ := (List.range T.numCells).countP fun c => decide ((T.cell c).nodes.length = 3)

/-- Number of quadrilaterals. -/
def Topo.numQuad (T : Topo) : ℕ := (List.range T.numCells).countP fun c => decide ((T.cell c).nodes.length = 4)

/-- Geometry of an entity. -/
def Mesh.geo (M : Mesh G) : ℕ → ℕ → Option G
  | 0, i => M.cellGeo i
  | 1, i => M.edgeGeo i
  | _, i => M.points[i]?

/-- Pattern used for refining an entity of a level. -/
def Level.pattern (L : Level G) (par : Ent) : Option Pattern :=
  match par.1 with
  | 0 => (L.mesh.cellRef par.2).bind fun ref => (L.cellCI[par.2]?).bind fun ci => Pattern.make ref ci.pat ci.anchor
  | 1 => (L.edgeCI[par.2]?).bind fun ci => Pattern.make .segment ci.pat none
  | _ => (L.pointCI[par.2]?).bind fun ci => Pattern.make .point ci.pat none

end Verif

namespace Verif
variable {G : Type}

/-- A call of a method of `MeshHierarchy` which changes the hierarchy. -/
inductive HOp
  | regular (pat : RefPat)
  | mark (marker : ℕ → Bool)
  | refineMarked

/-- `RefineRegular` accepts the patterns `rp_regular` and `rp_barycentric` only. -/
def HOp.Legal : HOp → Prop
  | .regular pat => pat = .regular ∨ pat = .barycentric
  | _ => True

/-- Execute a call. -/
def Hierarchy.call (ops : GeoOps G) (cops : ChildOps G) (chk : Bool) (H : Hierarchy G) : HOp → Option (Hierarchy G)
  | .regular pat => H.refineRegular ops cops chk pat
  | .mark marker => H.markEdges marker
  | .refineMarked => H.refineMarked ops cops chk

/-- The hierarchy for the mesh `M` after a sequence of calls. -/
def Hierarchy.run (ops : GeoOps G) (cops : ChildOps G) (chk : Bool) (M : Mesh G) (hist : List HOp) :
    Option (Hierarchy G) :=
  (Hierarchy.make cops M {}).bind fun H => hist.foldlM (fun H op => H.call ops cops chk op) H

/-- What is required of the coarsest mesh: it is conforming, its entities have geometries of the right
type, and, if the mesh factory has been told to check for completeness, all its nodes and edges belong to
cells. -/
structure Mesh.Coarse (cops : ChildOps G) (chk : Bool) (M : Mesh G) : Prop where
  valid : M.Valid
  conforming : M.topo.Conforming
  geoOk : M.GeoOk cops
  complete : chk = true → M.topo.Complete

end Verif

namespace Verif
variable {G : Type}

/-- Geometry of the entities of the fine level `N` and relative geometry recorded for them: the geometry
of child `j` is element `j` of what `ChildGeometry` creates for the parent and its refinement pattern, the
recorded vertices are polygon `j` of `ChildPolygons` of the same pattern. -/
def ChildrenOk (cops : ChildOps G) (L N : Level G) : Prop :=
  ∀ codim ≤ 2, ∀ i < N.mesh.topo.num codim, ∃ info par j g p polys poly gs h,
    (N.parents codim)[i]? = some info ∧ info.parent = some par ∧ info.childNumber = some j ∧
    L.mesh.geo par.1 par.2 = some g ∧ L.pattern par = some p ∧ p.Refines ∧ p.ref = cops.kind g ∧ par.1 ≤ codim ∧
    p.childPolygons (codim - par.1) = some polys ∧ polys[j]? = some poly ∧ info.rel = some poly ∧
    cops.child g p (codim - par.1) = some gs ∧ gs[j]? = some h ∧ N.mesh.geo codim i = some h

end Verif
