import Verif.Model.RefPattern
import Verif.Model.DofHandler
import Mathlib.Data.Rat.Defs

/-!
# Model of `lf::refinement::MeshHierarchy`

A failing `LF_VERIFY_MSG` / `LF_ASSERT_MSG` and any out-of-range access is `none`.  `idx_nil` is `none`.
The loops `for (e : mesh.Entities(codim))` visit the entities in the order of their indices
(/repo/lib/lf/mesh/hybrid2d/mesh.cc:20-24, the pointer arrays are sorted by index), so that writing to
position `mesh.Index(*e)` of a vector is modelled by appending.  Logging is not modelled.
-/

namespace Verif

/-- The operations of `lf::geometry::Geometry` used by `MeshHierarchy`: `RefEl()`,
`ChildGeometry(ref_pat, codim)`, and for edges `IntegrationElement` at the midpoint.
Finite `double`s are rational numbers. -/
structure ChildOps (G : Type) where
  kind : G → RefEl
  child : G → Pattern → ℕ → Option (List G)
  len : G → ℚ

/-- `PointChildInfo`; /repo/lib/lf/refinement/mesh_hierarchy.h:26-33. -/
structure PointCI where
  pat : RefPat := .nil
  child : Option ℕ := none

/-- `EdgeChildInfo`; /repo/lib/lf/refinement/mesh_hierarchy.h:49-57. -/
structure EdgeCI where
  pat : RefPat := .nil
  childEdges : List ℕ := []
  childPoints : List ℕ := []

/-- `CellChildInfo`; /repo/lib/lf/refinement/mesh_hierarchy.h:72-79. -/
structure CellCI where
  pat : RefPat := .nil
  anchor : Option ℕ := none
  childCells : List ℕ := []
  childEdges : List ℕ := []
  childPoints : List ℕ := []

/-- `ParentInfo`; /repo/lib/lf/refinement/mesh_hierarchy.h:87-98.  `parent_ptr` and `parent_index` are
always set together: codimension and index of the parent entity.  `rel` are the vertices of
`rel_ref_geo_` in lattice coordinates of the parent. -/
structure ParentInfo where
  parent : Option Ent := none
  childNumber : Option ℕ := none
  rel : Option (List (List ℤ)) := none

/-- What a `MeshHierarchy` stores for one level; /repo/lib/lf/refinement/mesh_hierarchy.h:421-436. -/
structure Level (G : Type) where
  mesh : Mesh G
  pointCI : List PointCI
  edgeCI : List EdgeCI
  cellCI : List CellCI
  parents0 : List ParentInfo
  parents1 : List ParentInfo
  parents2 : List ParentInfo
  marked : List Bool
  refEdges : List (Option ℕ)

/-- `MeshHierarchy`; /repo/lib/lf/refinement/mesh_hierarchy.h:421-436.  The levels are listed from the
finest to the coarsest (`.back()` is the head of the list). -/
structure Hierarchy (G : Type) where
  levels : List (Level G)
  factory : Factory G

/-- A loop over the elements of a list which changes a state and collects one result per element. -/
def mapAcc {σ ι β : Type} (f : σ → ι → Option (σ × β)) : σ → List ι → Option (σ × List β)
  | s, [] => some (s, [])
  | s, i :: l => (f s i).bind fun r => (mapAcc f r.1 l).bind fun q => some (q.1, r.2 :: q.2)

section
variable {G : Type}

/-- `RefEl()` of the cell with index `i`. -/
def Mesh.cellRef (M : Mesh G) (i : ℕ) : Option RefEl :=
  match M.entityByIndex 0 i with
  | some (.tria _) => some .tria
  | some (.quad _) => some .quad
  | _ => none

/-- `Geometry()` of the cell with index `i`. -/
def Mesh.cellGeo (M : Mesh G) (i : ℕ) : Option G := ((M.entityByIndex 0 i).bind M.cellOf).map (·.geo)

/-- `Geometry()` of the edge with index `i`. -/
def Mesh.edgeGeo (M : Mesh G) (i : ℕ) : Option G := ((M.entityByIndex 1 i).bind M.segOf).map (·.geo)

/-! ## Marking -/

/-- `MarkEdges(marker)`; /repo/lib/lf/refinement/mesh_hierarchy.h:454-467. -/
def Level.markEdges (L : Level G) (marker : ℕ → Bool) : Option (Level G) :=
  if L.marked.length = L.mesh.topo.numEdges then
    some { L with marked := (List.range L.mesh.topo.numEdges).map marker } else none

/-- Variables of `RefineMarked`: patterns of the edges, patterns and anchors of the cells, and the flag
`refinement_complete`; /repo/lib/lf/refinement/mesh_hierarchy.cc:116-160. -/
structure MarkState where
  edgePat : List RefPat
  cellPat : List (RefPat × Option ℕ)
  complete : Bool

/-- Pattern of a triangle by the split status of its edges (starting with the refinement edge), and
whether the refinement edge has to be split in addition;
/repo/lib/lf/refinement/mesh_hierarchy.cc:219-278. -/
def triaDecide (s0 s1 s2 : Bool) : RefPat × Bool :=
  match s0, s1, s2 with
  | false, false, false => (.copy, false)
  | true, false, false => (.bisect, false)
  | true, true, false => (.trisect, false)
  | false, true, false => (.trisect, true)
  | true, false, true => (.trisectLeft, false)
  | false, false, true => (.trisectLeft, true)
  | true, true, true => (.regular, false)
  | false, true, true => (.quadsect, true)

/-- Pattern and anchor of a quadrilateral by the split status of its edges; `old` is the anchor stored
before; /repo/lib/lf/refinement/mesh_hierarchy.cc:281-352. -/
def quadDecide (s : List Bool) (old : Option ℕ) : Option (RefPat × Option ℕ) :=
  match (List.range 4).filter fun k => s.getD k false with
  | [] => some (.copy, old)
  | [a] => some (.trisect, some a)
  | [a, b] =>
    if b - a = 2 then some (.bisect, some a)
    else if (a + 1) % 4 = b then some (.quadsect, some a)
    else if (b + 1) % 4 = a then some (.quadsect, some b)
    else none
  | [_, _, _] =>
    if !s.getD 0 false then some (.threeedge, some 2)
    else if !s.getD 1 false then some (.threeedge, some 3)
    else if !s.getD 2 false then some (.threeedge, some 0)
    else if !s.getD 3 false then some (.threeedge, some 1)
    else none
  | [_, _, _, _] => some (.regular, old)
  | _ => none

/-- `edge_split`; /repo/lib/lf/refinement/mesh_hierarchy.cc:184-193. -/
def splitFlags (edgePat : List RefPat) (edges : List ℕ) : Option (List Bool) :=
  edges.mapM fun e => (edgePat[e]?).map fun p => decide (p = .split)

/-- Treatment of one cell in the loop of `RefineMarked`;
/repo/lib/lf/refinement/mesh_hierarchy.cc:163-358. -/
def visitCell (M : Mesh G) (refEdges : List (Option ℕ)) (s : MarkState) (c : ℕ) : Option MarkState :=
  (splitFlags s.edgePat (M.topo.cell c).edges).bind fun fl =>
  (s.cellPat[c]?).bind fun old =>
  (M.cellRef c).bind fun ref =>
  match ref with
  | .tria =>
    (refEdges[c]?).join.bind fun a =>
    if a < 3 then
      let r := triaDecide (fl.getD a false) (fl.getD ((a + 1) % 3) false) (fl.getD ((a + 2) % 3) false)
      some { edgePat := if r.2 then s.edgePat.set ((M.topo.cell c).edges.getD a 0) .split else s.edgePat
             cellPat := s.cellPat.set c (r.1, some a)
             complete := s.complete && !r.2 }
    else none
  | .quad => (quadDecide fl old.2).bind fun r => some { s with cellPat := s.cellPat.set c r }
  | _ => none

/-- One execution of the body of the `do ... while` loop, for cells visited in the given order;
/repo/lib/lf/refinement/mesh_hierarchy.cc:160-359. -/
def markPass (M : Mesh G) (refEdges : List (Option ℕ)) (order : List ℕ) (s : MarkState) : Option MarkState :=
  order.foldlM (visitCell M refEdges) { s with complete := true }

/-- The `do ... while` loop.  `fuel` bounds the number of passes: `none` also stands for a loop which
needs more passes; /repo/lib/lf/refinement/mesh_hierarchy.cc:160-359. -/
def markLoop (M : Mesh G) (refEdges : List (Option ℕ)) (order : List ℕ) : ℕ → MarkState → Option MarkState
  | 0, _ => none
  | fuel + 1, s =>
    (markPass M refEdges order s).bind fun s' =>
      if s'.complete then some s' else markLoop M refEdges order fuel s'

/-- The initial patterns of `RefineMarked`; /repo/lib/lf/refinement/mesh_hierarchy.cc:124-154. -/
def markInit (L : Level G) : Option MarkState :=
  if L.pointCI.length = L.mesh.topo.numNodes ∧ L.edgeCI.length = L.mesh.topo.numEdges ∧
      L.cellCI.length = L.mesh.topo.numCells then
    if L.edgeCI.all fun ci => decide (ci.pat = .nil) then
      ((List.range L.mesh.topo.numEdges).mapM fun e =>
        (L.marked[e]?).map fun b => if b then RefPat.split else RefPat.copy).bind fun ep =>
      some ⟨ep, L.cellCI.map fun ci => (ci.pat, ci.anchor), true⟩
    else none
  else none

/-! ## Creation of the refined mesh -/

/-- Nodes of a refined cell in local numbering: vertex, midpoint of an edge, interior node. -/
inductive LNode
  | v (i : ℕ) | m (i : ℕ) | ctr
  deriving DecidableEq, Repr

open LNode in
/-- Child cells and interior edges of a refined triangle (`child_cell_nodes`, `child_edge_nodes`);
/repo/lib/lf/refinement/mesh_hierarchy.cc:608-909. -/
def triaChildren (pat : RefPat) (anchor : Option ℕ) : Option (List (List LNode) × List (LNode × LNode)) :=
  match pat with
  | .copy => some ([[v 0, v 1, v 2]], [])
  | .bisect => anchor.map fun a =>
    let k := fun i => (i + a) % 3
    ([[v (k 0), m (k 0), v (k 2)], [v (k 1), m (k 0), v (k 2)]], [(m (k 0), v (k 2))])
  | .trisect => anchor.map fun a =>
    let k := fun i => (i + a) % 3
    ([[v (k 0), m (k 0), v (k 2)], [v (k 1), m (k 0), m (k 1)], [v (k 2), m (k 0), m (k 1)]],
     [(m (k 0), v (k 2)), (m (k 0), m (k 1))])
  | .trisectLeft => anchor.map fun a =>
    let k := fun i => (i + a) % 3
    ([[v (k 0), m (k 0), m (k 2)], [v (k 1), m (k 0), v (k 2)], [v (k 2), m (k 0), m (k 2)]],
     [(m (k 0), v (k 2)), (m (k 0), m (k 2))])
  | .quadsect => anchor.map fun a =>
    let k := fun i => (i + a) % 3
    ([[v (k 0), m (k 0), m (k 2)], [v (k 1), m (k 0), m (k 1)], [v (k 2), m (k 0), m (k 1)],
      [v (k 2), m (k 0), m (k 2)]],
     [(m (k 0), v (k 2)), (m (k 0), m (k 2)), (m (k 0), m (k 1))])
  | .barycentric => some
    ([[v 0, m 0, ctr], [v 1, m 0, ctr], [v 1, m 1, ctr], [v 2, m 1, ctr], [v 2, m 2, ctr], [v 0, m 2, ctr]],
     [(v 0, ctr), (v 1, ctr), (v 2, ctr), (m 0, ctr), (m 1, ctr), (m 2, ctr)])
  | .regular => some
    ([[v 0, m 0, m 2], [v 1, m 0, m 1], [v 2, m 2, m 1], [m 0, m 1, m 2]],
     [(m 0, m 2), (m 0, m 1), (m 2, m 1)])
  | _ => none

open LNode in
/-- Child cells and interior edges of a refined quadrilateral;
/repo/lib/lf/refinement/mesh_hierarchy.cc:910-1160. -/
def quadChildren (pat : RefPat) (anchor : Option ℕ) : Option (List (List LNode) × List (LNode × LNode)) :=
  match pat with
  | .copy => some ([[v 0, v 1, v 2, v 3]], [])
  | .trisect => anchor.map fun a =>
    let k := fun i => (i + a) % 4
    ([[m (k 0), v (k 2), v (k 3)], [m (k 0), v (k 0), v (k 3)], [m (k 0), v (k 1), v (k 2)]],
     [(m (k 0), v (k 2)), (m (k 0), v (k 3))])
  | .quadsect => anchor.map fun a =>
    let k := fun i => (i + a) % 4
    ([[v (k 0), v (k 3), m (k 0)], [v (k 1), m (k 1), m (k 0)], [v (k 2), v (k 3), m (k 1)],
      [m (k 0), m (k 1), v (k 3)]],
     [(v (k 3), m (k 0)), (m (k 1), m (k 0)), (v (k 3), m (k 1))])
  | .bisect | .split => anchor.map fun a =>
    let k := fun i => (i + a) % 4
    ([[v (k 0), m (k 0), m (k 2), v (k 3)], [v (k 1), v (k 2), m (k 2), m (k 0)]],
     [(m (k 0), m (k 2))])
  | .threeedge => anchor.map fun a =>
    let k := fun i => (i + a) % 4
    ([[v (k 2), v (k 3), m (k 3), m (k 1)], [v (k 0), m (k 0), m (k 3)], [v (k 1), m (k 0), m (k 1)],
      [m (k 0), m (k 1), m (k 3)]],
     [(m (k 3), m (k 1)), (m (k 0), m (k 3)), (m (k 0), m (k 1))])
  | .regular | .barycentric => some
    ([[v 0, m 0, ctr, m 3], [v 1, m 1, ctr, m 0], [v 2, m 1, ctr, m 2], [v 3, m 2, ctr, m 3]],
     [(m 0, ctr), (m 1, ctr), (m 2, ctr), (m 3, ctr)])
  | _ => none

/-- Case distinction on the type of cell; /repo/lib/lf/refinement/mesh_hierarchy.cc:608, 910, 1161. -/
def cellChildren (ref : RefEl) (pat : RefPat) (anchor : Option ℕ) :
    Option (List (List LNode) × List (LNode × LNode)) :=
  match ref with
  | .tria => triaChildren pat anchor
  | .quad => quadChildren pat anchor
  | _ => none

/-- Patterns which create a node in the interior of the cell;
/repo/lib/lf/refinement/mesh_hierarchy.cc:773-788, 1087-1100. -/
def hasCenter (ref : RefEl) (pat : RefPat) : Bool :=
  match ref, pat with
  | .tria, .barycentric => true
  | .quad, .barycentric => true
  | .quad, .regular => true
  | _, _ => false

/-- Index in the fine mesh of a local node: `vertex_child_idx[i]`, `edge_midpoint_idx[i]`,
`center_fine_idx`; `none` is `idx_nil` (rejected by `checkValidIndex` or by `AddEntity`). -/
def resolve (verts : List ℕ) (mids : List (Option ℕ)) (ctr : Option ℕ) : LNode → Option ℕ
  | .v i => verts[i]?
  | .m i => (mids[i]?).join
  | .ctr => ctr

/-- Copy of a node; /repo/lib/lf/refinement/mesh_hierarchy.cc:393-411. -/
def refinePoint (cops : ChildOps G) (M : Mesh G) (f : Factory G) (x : PointCI × ℕ) :
    Option (Factory G × PointCI) :=
  if x.1.pat = .nil then some (f, x.1)
  else
    (M.points[x.2]?).bind fun g =>
    (Pattern.make .point .copy none).bind fun rp =>
    (cops.child g rp 0).bind fun gs =>
    match gs with
    | [h] => some ((f.addPoint h).1, { x.1 with child := some (f.addPoint h).2 })
    | _ => none

/-- Copy or splitting of an edge; /repo/lib/lf/refinement/mesh_hierarchy.cc:423-513. -/
def refineEdge (cops : ChildOps G) (M : Mesh G) (pci : List PointCI) (f : Factory G) (x : EdgeCI × ℕ) :
    Option (Factory G × EdgeCI) :=
  (pci[(M.topo.edge x.2).1]?).bind fun c0 => c0.child.bind fun p0 =>
  (pci[(M.topo.edge x.2).2]?).bind fun c1 => c1.child.bind fun p1 =>
  (M.edgeGeo x.2).bind fun g =>
  (Pattern.make .segment x.1.pat none).bind fun rp =>
  match x.1.pat with
  | .copy =>
    (cops.child g rp 0).bind fun gs =>
    match gs with
    | [h] =>
      (f.addEntity .segment [p0, p1] (some h)).bind fun r =>
      some (r.1, { x.1 with childEdges := x.1.childEdges ++ [r.2] })
    | _ => none
  | .split =>
    (cops.child g rp 1).bind fun gs1 =>
    match gs1 with
    | [h] =>
      let mid := (f.addPoint h).2
      (cops.child g rp 0).bind fun gs0 =>
      match gs0 with
      | [h0, h1] =>
        ((f.addPoint h).1.addEntity .segment [p0, mid] (some h0)).bind fun r0 =>
        (r0.1.addEntity .segment [mid, p1] (some h1)).bind fun r1 =>
        some (r1.1, { x.1 with childPoints := x.1.childPoints ++ [mid]
                               childEdges := x.1.childEdges ++ [r0.2] ++ [r1.2] })
      | _ => none
    | _ => none
  | _ => none

/-- `vertex_child_idx`; /repo/lib/lf/refinement/mesh_hierarchy.cc:570-578. -/
def vertexChildren (pci : List PointCI) (nodes : List ℕ) : Option (List ℕ) :=
  nodes.mapM fun n => (pci[n]?).bind fun ci => if ci.pat = .copy then ci.child else none

/-- `edge_midpoint_idx`; /repo/lib/lf/refinement/mesh_hierarchy.cc:581-591. -/
def midpointChildren (eci : List EdgeCI) (edges : List ℕ) : Option (List (Option ℕ)) :=
  edges.mapM fun e => (eci[e]?).bind fun ci =>
    match ci.childPoints with
    | [] => some none
    | p :: _ => if ci.pat = .split then some (some p) else none

/-- Creation of the interior node; /repo/lib/lf/refinement/mesh_hierarchy.cc:773-788, 1087-1100. -/
def addCenter (cops : ChildOps G) (g : G) (rp : Pattern) (f : Factory G) :
    Option (Factory G × Option ℕ) :=
  if hasCenter rp.ref rp.pat then
    (cops.child g rp 2).bind fun gs =>
    match gs with
    | [h] => some ((f.addPoint h).1, some (f.addPoint h).2)
    | _ => none
  else some (f, none)

/-- Registration of the interior edges; /repo/lib/lf/refinement/mesh_hierarchy.cc:1172-1183. -/
def addChildEdge (gs : List G) (f : Factory G) (x : (ℕ × ℕ) × ℕ) : Option (Factory G × ℕ) :=
  (gs[x.2]?).bind fun g => f.addEntity .segment [x.1.1, x.1.2] (some g)

/-- Registration of the child cells; /repo/lib/lf/refinement/mesh_hierarchy.cc:1193-1224. -/
def addChildCell (gs : List G) (f : Factory G) (x : List ℕ × ℕ) : Option (Factory G × ℕ) :=
  (gs[x.2]?).bind fun g =>
  if x.1.length = 3 then f.addEntity .tria x.1 (some g)
  else if x.1.length = 4 then f.addEntity .quad x.1 (some g)
  else none

/-- Refinement of a cell; /repo/lib/lf/refinement/mesh_hierarchy.cc:525-1226. -/
def refineCell (cops : ChildOps G) (M : Mesh G) (pci : List PointCI) (eci : List EdgeCI) (f : Factory G)
    (x : CellCI × ℕ) : Option (Factory G × CellCI) :=
  (M.cellRef x.2).bind fun ref =>
  (M.cellGeo x.2).bind fun g =>
  (Pattern.make ref x.1.pat x.1.anchor).bind fun rp =>
  (vertexChildren pci (M.topo.cell x.2).nodes).bind fun verts =>
  (midpointChildren eci (M.topo.cell x.2).edges).bind fun mids =>
  (cellChildren ref x.1.pat x.1.anchor).bind fun ch =>
  (addCenter cops g rp f).bind fun fc =>
  (ch.1.mapM fun (nodes : List LNode) => nodes.mapM (resolve verts mids fc.2)).bind fun cellNodes =>
  (ch.2.mapM fun (e : LNode × LNode) => (resolve verts mids fc.2 e.1).bind fun a =>
    (resolve verts mids fc.2 e.2).bind fun b => some (a, b)).bind fun edgeNodes =>
  (cops.child g rp 1).bind fun egs =>
  if rp.numChildren 1 = some edgeNodes.length then
    (mapAcc (addChildEdge egs) fc.1 edgeNodes.zipIdx).bind fun fe =>
    (cops.child g rp 0).bind fun cgs =>
    if rp.numChildren 0 = some cellNodes.length then
      (mapAcc (addChildCell cgs) fe.1 cellNodes.zipIdx).bind fun fcs =>
      some (fcs.1, { x.1 with
        childCells := x.1.childCells ++ fcs.2
        childEdges := x.1.childEdges ++ fe.2
        childPoints := x.1.childPoints ++ fc.2.toList })
    else none
  else none

/-! ## Parent information -/

/-- Storing parent information; /repo/lib/lf/refinement/mesh_hierarchy.cc:1284-1370. -/
def writeParents (arr : List ParentInfo) (ws : List (ℕ × ParentInfo)) : Option (List ParentInfo) :=
  ws.foldlM (fun arr w => if w.1 < arr.length then some (arr.set w.1 w.2) else none) arr

/-- Children `idx` of the parent entity `par`, numbered consecutively. -/
def childWrites (par : Ent) (idx : List ℕ) : List (ℕ × ParentInfo) :=
  idx.zipIdx.map fun x => (x.1, { parent := some par, childNumber := some x.2 })

/-- All information stored for fine nodes; /repo/lib/lf/refinement/mesh_hierarchy.cc:1284-1295,
1318-1326, 1361-1369. -/
def nodeWrites (pci : List PointCI) (eci : List EdgeCI) (cci : List CellCI) : List (ℕ × ParentInfo) :=
  (pci.zipIdx.flatMap fun x => childWrites (2, x.2) x.1.child.toList) ++
  (eci.zipIdx.flatMap fun x => childWrites (1, x.2) x.1.childPoints) ++
  (cci.zipIdx.flatMap fun x => childWrites (0, x.2) x.1.childPoints)

/-- All information stored for fine edges; /repo/lib/lf/refinement/mesh_hierarchy.cc:1307-1315,
1350-1358. -/
def edgeWrites (eci : List EdgeCI) (cci : List CellCI) : List (ℕ × ParentInfo) :=
  (eci.zipIdx.flatMap fun x => childWrites (1, x.2) x.1.childEdges) ++
  (cci.zipIdx.flatMap fun x => childWrites (0, x.2) x.1.childEdges)

/-- All information stored for fine cells; /repo/lib/lf/refinement/mesh_hierarchy.cc:1339-1347. -/
def cellWrites (cci : List CellCI) : List (ℕ × ParentInfo) :=
  cci.zipIdx.flatMap fun x => childWrites (0, x.2) x.1.childCells

/-! ## Refinement edges -/

/-- `LongestEdge`; /repo/lib/lf/refinement/mesh_hierarchy.cc:1839-1858. -/
def longestEdge (cops : ChildOps G) (M : Mesh G) (c : ℕ) : Option ℕ :=
  ((M.topo.cell c).edges.zipIdx.foldlM (fun (s : ℚ × ℕ) x =>
    (M.edgeGeo x.1).bind fun g => if s.1 < cops.len g then some (cops.len g, x.2) else some s)
    ((0 : ℚ), 0)).bind fun s => some s.2

/-- Refinement edge of child `k` of a triangle with refinement edge `par`; `longest` is the outcome of
`LongestEdge` for the child; /repo/lib/lf/refinement/mesh_hierarchy.cc:1421-1582. -/
def childRefEdge (pat : RefPat) (k : ℕ) (par longest : Option ℕ) : Option (Option ℕ) :=
  match pat with
  | .copy => some par
  | .bisect => if k < 2 then some (some 2) else none
  | .trisect =>
    match k with
    | 0 => some (some 2)
    | 1 => some (some 1)
    | 2 => some (some 0)
    | _ => none
  | .trisectLeft =>
    match k with
    | 0 => some (some 2)
    | 1 => some (some 2)
    | 2 => some (some 0)
    | _ => none
  | .quadsect =>
    match k with
    | 0 => some (some 2)
    | 1 => some (some 0)
    | 2 => some (some 0)
    | 3 => some (some 0)
    | _ => none
  | .regular =>
    match par, k with
    | some 0, 0 => some (some 0)
    | some 0, 1 => some (some 0)
    | some 0, 2 => some (some 1)
    | some 0, 3 => some (some 1)
    | some 1, 0 => some (some 1)
    | some 1, 1 => some (some 2)
    | some 1, 2 => some (some 2)
    | some 1, 3 => some (some 2)
    | some 2, 0 => some (some 2)
    | some 2, 1 => some (some 1)
    | some 2, 2 => some (some 0)
    | some 2, 3 => some (some 0)
    | _, _ => none
  | .barycentric => longest.map some
  | _ => none

/-- Refinement edge of the fine cell `i`; /repo/lib/lf/refinement/mesh_hierarchy.cc:1388-1597. -/
def fineRefEdge (cops : ChildOps G) (M F : Mesh G) (cci : List CellCI) (refEdges : List (Option ℕ))
    (parents : List ParentInfo) (i : ℕ) : Option (Option ℕ) :=
  (F.cellRef i).bind fun ref =>
  if ref = .tria then
    (parents[i]?).bind fun pi => pi.parent.bind fun par =>
    (M.cellRef par.2).bind fun pref =>
    if pref = .tria then
      pi.childNumber.bind fun k => (cci[par.2]?).bind fun ci =>
      if ci.childCells[k]? = some i then
        (refEdges[par.2]?).bind fun r => childRefEdge ci.pat k r (longestEdge cops F i)
      else none
    else if pref = .quad then (longestEdge cops F i).map some
    else none
  else some none

/-! ## Relative geometries -/

/-- Vertices of the child in the reference element of its parent, with the checks of
`initGeometryInParent`; `codim` and `i` belong to the child;
/repo/lib/lf/refinement/mesh_hierarchy.cc:1636-1835. -/
def relGeo (M F : Mesh G) (eci : List EdgeCI) (cci : List CellCI) (codim i : ℕ) (pi : ParentInfo) :
    Option ParentInfo :=
  pi.childNumber.bind fun k => pi.parent.bind fun par =>
  if pi.rel.isSome ∨ codim < par.1 then none
  else match par.1 with
    | 0 =>
      (M.cellRef par.2).bind fun ref => (cci[par.2]?).bind fun ci =>
      (Pattern.make ref ci.pat ci.anchor).bind fun rp =>
      (rp.childPolygons codim).bind fun polys => (polys[k]?).bind fun poly =>
      match codim with
      | 0 =>
        if ci.childCells[k]? = some i ∧
            ((poly.length = 3 ∧ F.cellRef i = some .tria) ∨ (poly.length = 4 ∧ F.cellRef i = some .quad)) then
          some { pi with rel := some poly } else none
      | 1 => if ci.childEdges[k]? = some i ∧ poly.length = 2 then some { pi with rel := some poly } else none
      | 2 => if ci.childPoints[k]? = some i ∧ poly.length = 1 then some { pi with rel := some poly } else none
      | _ => none
    | 1 =>
      (eci[par.2]?).bind fun ci =>
      (Pattern.make .segment ci.pat none).bind fun rp =>
      (rp.childPolygons (codim - 1)).bind fun polys => (polys[k]?).bind fun poly =>
      match codim with
      | 1 => if ci.childEdges[k]? = some i ∧ poly.length = 2 then some { pi with rel := some poly } else none
      | 2 => if ci.childPoints[k]? = some i ∧ poly.length = 1 then some { pi with rel := some poly } else none
      | _ => none
    | 2 => some { pi with rel := some [[]] }
    | _ => none

/-! ## Refinement -/

/-- What the loops of `PerformRefinement()` over the entities of the coarse mesh have produced. -/
structure Registered (G : Type) where
  factory : Factory G
  pointCI : List PointCI
  edgeCI : List EdgeCI
  cellCI : List CellCI

/-- First part of `PerformRefinement()`: registration of the child entities of all nodes, edges and cells
with the mesh factory, and the lists of children;
/repo/lib/lf/refinement/mesh_hierarchy.cc:368-1229. -/
def registerChildren (cops : ChildOps G) (L : Level G) (f : Factory G) : Option (Registered G) :=
  (mapAcc (refinePoint cops L.mesh) f L.pointCI.zipIdx).bind fun rp =>
  (mapAcc (refineEdge cops L.mesh rp.2) rp.1 L.edgeCI.zipIdx).bind fun re =>
  if L.cellCI.length = L.mesh.topo.numCells then
    (mapAcc (refineCell cops L.mesh rp.2 re.2) re.1 L.cellCI.zipIdx).bind fun rc =>
    some ⟨rc.1, rp.2, re.2, rc.2⟩
  else none

/-- `PerformRefinement()` followed by `initGeometryInParent()` for the finest level `L`, in which the
refinement patterns have been set: the completed level, the new level and the mesh factory;
/repo/lib/lf/refinement/mesh_hierarchy.cc:368-1599, 1605-1837. -/
def performRefinement (ops : GeoOps G) (cops : ChildOps G) (chk : Bool) (L : Level G) (f : Factory G) :
    Option (Level G × Level G × Factory G) :=
  (registerChildren cops L f).bind fun reg =>
  (reg.factory.build ops chk).bind fun b =>
  let F := b.1
  (writeParents (List.replicate F.topo.numNodes {}) (nodeWrites reg.pointCI reg.edgeCI reg.cellCI)).bind fun w2 =>
  (writeParents (List.replicate F.topo.numEdges {}) (edgeWrites reg.edgeCI reg.cellCI)).bind fun w1 =>
  (writeParents (List.replicate F.topo.numCells {}) (cellWrites reg.cellCI)).bind fun w0 =>
  ((List.range F.topo.numCells).mapM (fineRefEdge cops L.mesh F reg.cellCI L.refEdges w0)).bind fun re' =>
  (w0.zipIdx.mapM fun x => relGeo L.mesh F reg.edgeCI reg.cellCI 0 x.2 x.1).bind fun p0 =>
  (w1.zipIdx.mapM fun x => relGeo L.mesh F reg.edgeCI reg.cellCI 1 x.2 x.1).bind fun p1 =>
  (w2.zipIdx.mapM fun x => relGeo L.mesh F reg.edgeCI reg.cellCI 2 x.2 x.1).bind fun p2 =>
  some ({ L with pointCI := reg.pointCI, edgeCI := reg.edgeCI, cellCI := reg.cellCI },
    { mesh := F
      pointCI := List.replicate F.topo.numNodes {}
      edgeCI := List.replicate F.topo.numEdges {}
      cellCI := List.replicate F.topo.numCells {}
      parents0 := p0
      parents1 := p1
      parents2 := p2
      marked := List.replicate F.topo.numEdges false
      refEdges := re' }, b.2)

/-- Setting the refinement patterns in front of `PerformRefinement`. -/
def Level.withPatterns (L : Level G) (ep : List RefPat) (cp : List (RefPat × Option ℕ)) : Level G :=
  { L with
    pointCI := L.pointCI.map fun ci => { ci with pat := .copy }
    edgeCI := List.zipWith (fun ci p => { ci with pat := p }) L.edgeCI ep
    cellCI := List.zipWith (fun ci p => { ci with pat := p.1, anchor := p.2 }) L.cellCI cp }

/-- `RefineMarked()` for the finest level; /repo/lib/lf/refinement/mesh_hierarchy.cc:116-365.  The loop
needs at most `numEdges + 1` passes (theorem `C28_terminates`). -/
def Level.refineMarked (ops : GeoOps G) (cops : ChildOps G) (chk : Bool) (L : Level G) (f : Factory G) :
    Option (Level G × Level G × Factory G) :=
  (markInit L).bind fun s =>
  (markLoop L.mesh L.refEdges (List.range L.mesh.topo.numCells) (L.mesh.topo.numEdges + 1) s).bind fun s =>
  performRefinement ops cops chk (L.withPatterns s.edgePat s.cellPat) f

/-- `RefineRegular(ref_pat)` for the finest level; /repo/lib/lf/refinement/mesh_hierarchy.cc:72-113. -/
def Level.refineRegular (ops : GeoOps G) (cops : ChildOps G) (chk : Bool) (pat : RefPat) (L : Level G)
    (f : Factory G) : Option (Level G × Level G × Factory G) :=
  if pat = .regular ∨ pat = .barycentric then
    if L.pointCI.length = L.mesh.topo.numNodes ∧ L.edgeCI.length = L.mesh.topo.numEdges ∧
        L.cellCI.length = L.mesh.topo.numCells then
      performRefinement ops cops chk
        (L.withPatterns (L.edgeCI.map fun _ => .split) (L.cellCI.map fun ci => (pat, ci.anchor))) f
    else none
  else none

/-- The constructor; /repo/lib/lf/refinement/mesh_hierarchy.cc:34-70. -/
def Hierarchy.make (cops : ChildOps G) (M : Mesh G) (f : Factory G) : Option (Hierarchy G) :=
  ((List.range M.topo.numCells).mapM fun c =>
    if M.cellRef c = some .tria then (longestEdge cops M c).map some else some none).bind fun re =>
  some ⟨[{ mesh := M
           pointCI := List.replicate M.topo.numNodes {}
           edgeCI := List.replicate M.topo.numEdges {}
           cellCI := List.replicate M.topo.numCells {}
           parents0 := List.replicate M.topo.numCells {}
           parents1 := List.replicate M.topo.numEdges {}
           parents2 := List.replicate M.topo.numNodes {}
           marked := List.replicate M.topo.numEdges false
           refEdges := re }], f⟩

/-- Replacing the finest level by the completed one and adding a new level. -/
def Hierarchy.extend (r : Option (Level G × Level G × Factory G)) (rest : List (Level G)) :
    Option (Hierarchy G) :=
  r.bind fun r => some ⟨r.2.1 :: r.1 :: rest, r.2.2⟩

/-- Method `RefineRegular`. -/
def Hierarchy.refineRegular (ops : GeoOps G) (cops : ChildOps G) (chk : Bool) (H : Hierarchy G) (pat : RefPat) :
    Option (Hierarchy G) :=
  match H.levels with
  | [] => none
  | L :: rest => Hierarchy.extend (L.refineRegular ops cops chk pat H.factory) rest

/-- Method `RefineMarked`. -/
def Hierarchy.refineMarked (ops : GeoOps G) (cops : ChildOps G) (chk : Bool) (H : Hierarchy G) :
    Option (Hierarchy G) :=
  match H.levels with
  | [] => none
  | L :: rest => Hierarchy.extend (L.refineMarked ops cops chk H.factory) rest

/-- Method `MarkEdges`. -/
def Hierarchy.markEdges (H : Hierarchy G) (marker : ℕ → Bool) : Option (Hierarchy G) :=
  match H.levels with
  | [] => none
  | L :: rest => (L.markEdges marker).bind fun L' => some { H with levels := L' :: rest }

/-- `getMesh(level)`; /repo/lib/lf/refinement/mesh_hierarchy.h:151-156. -/
def Hierarchy.getMesh (H : Hierarchy G) (level : ℕ) : Option (Mesh G) :=
  (H.levels.reverse[level]?).map (·.mesh)

end
end Verif
