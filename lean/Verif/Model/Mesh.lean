import Verif.Model.RefEl
import Mathlib.Data.List.Basic
import Mathlib.Order.Basic

/-!
# Model of the construction of a `lf::mesh::hybrid2d::Mesh`

Geometry objects are values of an arbitrary type `G`, and the operations of `lf::geometry::Geometry`
the constructor uses are given by `GeoOps G`.  Pointers to nodes, edges and cells are modelled by
positions in the arrays `points_`, `segments_`, `trias_`, `quads_`.  A failing `LF_VERIFY_MSG` or
`LF_ASSERT_MSG`, and any out-of-range access, is `none`.  Logging is not modelled.
-/

namespace Verif

/-- The operations on geometry objects used by the mesh constructor: `SubGeometry(codim, i)` and the
construction of straight edges and of affine / bilinear cells from point geometries;
/repo/lib/lf/mesh/hybrid2d/mesh.cc:359, 396-398, 541-551, 680-704, 728-751. -/
structure GeoOps (G : Type) where
  sub : G → ℕ → ℕ → G
  line : G → G → G
  tria : G → G → G → G
  quad : G → G → G → G → G

/-- Sort key of `EndpointIndexPair`: the two indices in increasing order;
/repo/lib/lf/mesh/hybrid2d/mesh.cc:134-143. -/
def edgeKey (p0 p1 : ℕ) : ℕ × ℕ := if p1 > p0 then (p0, p1) else (p1, p0)

/-- `operator<` of `EndpointIndexPair`; /repo/lib/lf/mesh/hybrid2d/mesh.cc:149-153. -/
def keyLt (k l : ℕ × ℕ) : Bool :=
  if k.1 = l.1 then decide (k.2 < l.2) else decide (k.1 < l.1)

/-- An entry of the auxiliary map: the key (`EndpointIndexPair`) and `EdgeData`;
/repo/lib/lf/mesh/hybrid2d/mesh.cc:182-217.  `gidx = none` models the index -1. -/
structure EdgeRec (G : Type) where
  p0 : ℕ
  p1 : ℕ
  geo : Option G
  adj : List (ℕ × ℕ)
  gidx : Option ℕ
  reversed : Bool

def EdgeRec.key {G : Type} (r : EdgeRec G) : ℕ × ℕ := edgeKey r.p0 r.p1

/-- `std::map<EndpointIndexPair, EdgeData>`: a list sorted by key;
/repo/lib/lf/mesh/hybrid2d/mesh.cc:220. -/
abbrev EdgeMap (G : Type) := List (EdgeRec G)

namespace EdgeMap
variable {G : Type}

/-- `std::map::find`. -/
def find (m : EdgeMap G) (k : ℕ × ℕ) : Option (EdgeRec G) :=
  List.find? (fun r => !keyLt r.key k && !keyLt k r.key) m

/-- `std::map::insert`: no effect if the key is present already (second component `false`). -/
def insert (r : EdgeRec G) : EdgeMap G → EdgeMap G × Bool
  | [] => ([r], true)
  | s :: m =>
    if keyLt r.key s.key then (r :: s :: m, true)
    else if keyLt s.key r.key then
      let res := insert r m
      (s :: res.1, res.2)
    else (s :: m, false)

/-- Modification of the value stored under a key (through the iterator returned by `find`). -/
def update (m : EdgeMap G) (k : ℕ × ℕ) (f : EdgeRec G → EdgeRec G) : EdgeMap G :=
  m.map (fun r => if !keyLt r.key k && !keyLt k r.key then f r else r)

end EdgeMap

/-- An element of the `edges` argument: end nodes and (possibly missing) geometry. -/
structure EdgeIn (G : Type) where
  p0 : ℕ
  p1 : ℕ
  geo : Option G

/-- An element of the `cells` argument.  Simplification: the array of four node indices whose last
component is `idx_nil` for a triangle is a list of length three or four. -/
structure CellIn (G : Type) where
  nodes : List ℕ
  geo : Option G

/-- Cell type; /repo/lib/lf/mesh/hybrid2d/mesh.cc:320-330.  Other lengths are not representable in C++. -/
def cellRefEl (nodes : List ℕ) : Option RefEl :=
  if nodes.length = 3 then some .tria else if nodes.length = 4 then some .quad else none

section Build
variable {G : Type}

/-- Give node `v` a geometry if it has none; /repo/lib/lf/mesh/hybrid2d/mesh.cc:250-258, 353-361. -/
def supplyNode (nodes : List (Option G)) (v : ℕ) (g : G) : List (Option G) :=
  match nodes[v]? with
  | some none => nodes.set v (some g)
  | _ => nodes

/-- Loop body of step I (registration of supplied edges);
/repo/lib/lf/mesh/hybrid2d/mesh.cc:240-274.  State: node geometries, edge map, edge counter.
A supplied edge without geometry is rejected by the assertion in line 262 (if an end node lacks a
geometry, too, the null pointer is dereferenced before). -/
def registerEdge (ops : GeoOps G) (s : List (Option G) × EdgeMap G × ℕ) (e : EdgeIn G) :
    Option (List (Option G) × EdgeMap G × ℕ) :=
  if e.p0 = e.p1 then none
  else if e.p0 < s.1.length ∧ e.p1 < s.1.length then
    match e.geo with
    | none => none
    | some g =>
      let nodes := supplyNode (supplyNode s.1 e.p0 (ops.sub g 1 0)) e.p1 (ops.sub g 1 1)
      let res := EdgeMap.insert ⟨e.p0, e.p1, some g, [], some s.2.2, false⟩ s.2.1
      if res.2 then some (nodes, res.1, s.2.2 + 1) else none
  else none

/-- Update of the data of an edge which is in the map already;
/repo/lib/lf/mesh/hybrid2d/mesh.cc:410-430. -/
def noteSide (ops : GeoOps G) (cellGeo : Option G) (ci j a b : ℕ) (r : EdgeRec G) : EdgeRec G :=
  match r.geo, cellGeo with
  | none, some g =>
    { r with
      adj := r.adj ++ [(ci, j)]
      geo := some (ops.sub g 1 j)
      reversed := if !(decide (a = r.p0) && decide (b = r.p1)) then true else r.reversed }
  | _, _ => { r with adj := r.adj ++ [(ci, j)] }

/-- Treatment of one side of a cell in step II; /repo/lib/lf/mesh/hybrid2d/mesh.cc:372-431.
`a`, `b` are the global node indices of the endpoints of local side `j` of cell `ci`. -/
def visitSide (ops : GeoOps G) (cellGeo : Option G) (ci : ℕ) (m : EdgeMap G) (j a b : ℕ) :
    Option (EdgeMap G) :=
  if a = b then none
  else
    match m.find (edgeKey a b) with
    | none =>
      let res := EdgeMap.insert ⟨a, b, cellGeo.map (fun g => ops.sub g 1 j), [(ci, j)], none, false⟩ m
      if res.2 then some res.1 else none
    | some _ => some (m.update (edgeKey a b) (noteSide ops cellGeo ci j a b))

/-- Loop over the sides of a cell; /repo/lib/lf/mesh/hybrid2d/mesh.cc:371-432. -/
def visitSides (ops : GeoOps G) (c : CellIn G) (ref : RefEl) (ci : ℕ) (m : EdgeMap G) :
    Option (EdgeMap G) :=
  (ref.numSubEntities 1).bind fun n =>
    (List.range n).foldlM (fun m j =>
      (ref.subSubEntity2SubEntity 1 j 1 0).bind fun l0 =>
      (ref.subSubEntity2SubEntity 1 j 1 1).bind fun l1 =>
      (c.nodes[l0]?).bind fun a => (c.nodes[l1]?).bind fun b =>
        visitSide ops c.geo ci m j a b) m

/-- Loop body of step II for one cell; /repo/lib/lf/mesh/hybrid2d/mesh.cc:311-437.
State: node geometries, edge map, cell counter. -/
def scanCell (ops : GeoOps G) (s : List (Option G) × EdgeMap G × ℕ) (c : CellIn G) :
    Option (List (Option G) × EdgeMap G × ℕ) :=
  (cellRefEl c.nodes).bind fun ref =>
    if c.nodes.all (fun v => decide (v < s.1.length)) then
      let nodes := match c.geo with
        | some g => c.nodes.zipIdx.foldl (fun ns vj => supplyNode ns vj.1 (ops.sub g 2 vj.2)) s.1
        | none => s.1
      (visitSides ops c ref s.2.2 s.2.1).bind fun m => some (nodes, m, s.2.2 + 1)
    else none

/-- Creation of the nodes: every node needs a geometry; /repo/lib/lf/mesh/hybrid2d/mesh.cc:485-501. -/
def buildPoints : List (Option G) → Option (List G)
  | [] => some []
  | none :: _ => none
  | some g :: ns => (buildPoints ns).bind fun gs => some (g :: gs)

/-- A `Segment` entity; endpoints are positions in `points_`; /repo/lib/lf/mesh/hybrid2d/segment.h. -/
structure Segment (G : Type) where
  index : ℕ
  geo : G
  p0 : ℕ
  p1 : ℕ

/-- A `Triangle` or `Quadrilateral` entity; nodes and edges are positions in `points_`, `segments_`;
`ori` = `true` means positive relative orientation. -/
structure Cell (G : Type) where
  index : ℕ
  geo : G
  nodes : List ℕ
  edges : List ℕ
  ori : List Bool

/-- Creation of the edge entities in the order of the map, counter `k` = next free index;
/repo/lib/lf/mesh/hybrid2d/mesh.cc:523-584. -/
def buildSegments (ops : GeoOps G) (pts : List G) : EdgeMap G → ℕ → Option (List (Segment G) × ℕ)
  | [], k => some ([], k)
  | r :: m, k =>
    let p0 := if r.reversed then r.p1 else r.p0
    let p1 := if r.reversed then r.p0 else r.p1
    (pts[p0]?).bind fun g0 => (pts[p1]?).bind fun g1 =>
      let g := match r.geo with | some g => g | none => ops.line g0 g1
      let idx := match r.gidx with | some i => i | none => k
      let k' := match r.gidx with | some _ => k | none => k + 1
      (buildSegments ops pts m k').bind fun res => some (⟨idx, g, p0, p1⟩ :: res.1, res.2)

/-- Completeness check; /repo/lib/lf/mesh/hybrid2d/mesh.cc:565-575, 586-593. -/
def complete (numNodes : ℕ) (m : EdgeMap G) : Bool :=
  m.all (fun r => !r.adj.isEmpty) &&
  (List.range numNodes).all (fun v => m.any (fun r => decide (r.p0 = v) || decide (r.p1 = v)))

/-- Table `edge_indices`: position in `segments_` of local side `j` of cell `c`;
/repo/lib/lf/mesh/hybrid2d/mesh.cc:602-619.  The arrays are value-initialised with zeros. -/
def edgeIndices (numCells : ℕ) (m : EdgeMap G) : Option (List (List ℕ)) :=
  m.zipIdx.foldlM (fun tab rp =>
    rp.1.adj.foldlM (fun tab a =>
      if a.1 < numCells ∧ a.2 < 4 then
        some (tab.modify a.1 (fun row => row.set a.2 rp.2)) else none) tab)
    (List.replicate numCells (List.replicate 4 0))

/-- The constructor of `Triangle` / `Quadrilateral`: consistency check and orientations;
/repo/lib/lf/mesh/hybrid2d/triangle.cc:16-79, /repo/lib/lf/mesh/hybrid2d/quad.cc:15-82.
Simplification: the type checks on geometry objects are not modelled. -/
def mkCell (segs : List (Segment G)) (ref : RefEl) (index : ℕ) (geo : G) (nodes edges : List ℕ) :
    Option (Cell G) :=
  ((List.range ref.numNodes).mapM fun j =>
    (edges[j]?).bind fun e => (segs[e]?).bind fun s =>
    (ref.subSubEntity2SubEntity 1 j 1 0).bind fun l0 =>
    (ref.subSubEntity2SubEntity 1 j 1 1).bind fun l1 =>
    (nodes[l0]?).bind fun a => (nodes[l1]?).bind fun b => (nodes[j]?).bind fun v =>
      if (s.p0 = a ∨ s.p0 = b) ∧ (s.p1 = a ∨ s.p1 = b) then some (decide (s.p0 = v)) else none).bind
  fun ori => some ⟨index, geo, nodes, edges, ori⟩

/-- Geometry of a cell: the supplied one, otherwise affine triangle or bilinear quadrilateral spanned by
the nodes; /repo/lib/lf/mesh/hybrid2d/mesh.cc:680-704, 728-751. -/
def chooseCellGeo (ops : GeoOps G) (pts : List G) (c : CellIn G) : Option G :=
  match c.geo with
  | some g => some g
  | none =>
    match c.nodes.filterMap (fun v => pts[v]?) with
    | [x, y, z] => some (ops.tria x y z)
    | [x, y, z, w] => some (ops.quad x y z w)
    | _ => none

/-- Creation of one cell entity; /repo/lib/lf/mesh/hybrid2d/mesh.cc:633-758. -/
def buildCell (ops : GeoOps G) (pts : List G) (segs : List (Segment G)) (tab : List (List ℕ))
    (ci : ℕ) (c : CellIn G) : Option (RefEl × Cell G) :=
  (cellRefEl c.nodes).bind fun ref =>
  (tab[ci]?).bind fun row =>
    let edges := row.take ref.numNodes
    if c.nodes.all (fun v => decide (v < pts.length)) ∧ edges.all (fun e => decide (e < segs.length)) then
      (chooseCellGeo ops pts c).bind fun g => (mkCell segs ref ci g c.nodes edges).bind fun cell => some (ref, cell)
    else none

/-- Pointers to entities: positions in the arrays of the mesh object. -/
inductive EntPtr
  | tria (pos : ℕ) | quad (pos : ℕ) | seg (pos : ℕ) | pt (pos : ℕ)
  deriving DecidableEq, Repr

/-- Store pointers at the positions given by the indices; /repo/lib/lf/mesh/hybrid2d/mesh.cc:764-808.
`unique` selects the variant with the assertion that no index occurs twice (cells). -/
def storePtrs (unique : Bool) (mk : ℕ → EntPtr) (idx : List ℕ) (arr : List (Option EntPtr)) :
    Option (List (Option EntPtr)) :=
  idx.zipIdx.foldlM (fun arr ip =>
    match arr[ip.1]? with
    | none => none
    | some old => if unique && old.isSome then none else some (arr.set ip.1 (some (mk ip.2)))) arr

/-- `hybrid2d::Mesh`; /repo/lib/lf/mesh/hybrid2d/mesh.h. -/
structure Mesh (G : Type) where
  points : List G
  segments : List (Segment G)
  trias : List (Cell G)
  quads : List (Cell G)
  ptrs0 : List (Option EntPtr)
  ptrs1 : List (Option EntPtr)
  ptrs2 : List (Option EntPtr)

/-- The constructor of `hybrid2d::Mesh`; /repo/lib/lf/mesh/hybrid2d/mesh.cc:178-810. -/
def buildMesh (ops : GeoOps G) (nodes : List (Option G)) (edges : List (EdgeIn G))
    (cells : List (CellIn G)) (checkCompleteness : Bool) : Option (Mesh G) :=
  (edges.foldlM (registerEdge ops) (nodes, [], 0)).bind fun s1 =>
  (cells.foldlM (scanCell ops) (s1.1, s1.2.1, 0)).bind fun s2 =>
  let m := s2.2.1
  (buildPoints s2.1).bind fun pts =>
  (buildSegments ops pts m s1.2.2).bind fun sk =>
  let segs := sk.1
  if checkCompleteness && !complete pts.length m then none
  else if sk.2 ≠ m.length then none
  else
    (edgeIndices cells.length m).bind fun tab =>
    (cells.zipIdx.mapM (fun ci => buildCell ops pts segs tab ci.2 ci.1)).bind fun cs =>
    let trias := cs.filterMap (fun rc => if rc.1 = .tria then some rc.2 else none)
    let quads := cs.filterMap (fun rc => if rc.1 = .quad then some rc.2 else none)
    (storePtrs true .tria (trias.map (·.index))
      (List.replicate (trias.length + quads.length) none)).bind fun p0 =>
    (storePtrs true .quad (quads.map (·.index)) p0).bind fun ptrs0 =>
    (storePtrs false .pt (List.range pts.length) (List.replicate pts.length none)).bind fun ptrs2 =>
    (storePtrs false .seg (segs.map (·.index)) (List.replicate segs.length none)).bind fun ptrs1 =>
    some ⟨pts, segs, trias, quads, ptrs0, ptrs1, ptrs2⟩

end Build

namespace Mesh
variable {G : Type}

/-- `NumEntities(codim)`; /repo/lib/lf/mesh/hybrid2d/mesh.cc:49-60. -/
def numEntities (M : Mesh G) (codim : ℕ) : Option ℕ :=
  match codim with
  | 0 => some (M.trias.length + M.quads.length)
  | 1 => some M.segments.length
  | 2 => some M.points.length
  | _ => none

/-- `NumEntities(RefEl)`; /repo/lib/lf/mesh/hybrid2d/mesh.cc:62-82. -/
def numEntitiesRef (M : Mesh G) : RefEl → ℕ
  | .point => M.points.length
  | .segment => M.segments.length
  | .tria => M.trias.length
  | .quad => M.quads.length

/-- `Index(e)`; /repo/lib/lf/mesh/hybrid2d/mesh.cc:84-104.  A point's index is its position. -/
def index (M : Mesh G) : EntPtr → Option ℕ
  | .tria p => (M.trias[p]?).map (·.index)
  | .quad p => (M.quads[p]?).map (·.index)
  | .seg p => (M.segments[p]?).map (·.index)
  | .pt p => (M.points[p]?).map (fun _ => p)

/-- `EntityByIndex(codim, index)`; /repo/lib/lf/mesh/hybrid2d/mesh.cc:106-111. -/
def entityByIndex (M : Mesh G) (codim i : ℕ) : Option EntPtr :=
  match codim with
  | 0 => (M.ptrs0[i]?).join
  | 1 => (M.ptrs1[i]?).join
  | 2 => (M.ptrs2[i]?).join
  | _ => none

/-- The entity object a cell pointer points to. -/
def cellOf (M : Mesh G) : EntPtr → Option (Cell G)
  | .tria p => M.trias[p]?
  | .quad p => M.quads[p]?
  | _ => none

/-- The entity object an edge pointer points to. -/
def segOf (M : Mesh G) : EntPtr → Option (Segment G)
  | .seg p => M.segments[p]?
  | _ => none

/-- Codimension of the entity behind a pointer. -/
def codim : EntPtr → ℕ
  | .tria _ => 0 | .quad _ => 0 | .seg _ => 1 | .pt _ => 2

/-- Pointers to all entities of the mesh. -/
def IsEntity (M : Mesh G) : EntPtr → Prop
  | .tria p => p < M.trias.length
  | .quad p => p < M.quads.length
  | .seg p => p < M.segments.length
  | .pt p => p < M.points.length

/-- `Contains(e)` by codimension: membership in the arrays of this mesh;
/repo/lib/lf/mesh/hybrid2d/mesh.cc:113-126.  Simplification: address comparison is modelled by the
position being inside of the array. -/
def contains (M : Mesh G) : EntPtr → Bool
  | .tria p => decide (p < M.trias.length)
  | .quad p => decide (p < M.quads.length)
  | .seg p => decide (p < M.segments.length)
  | .pt p => decide (p < M.points.length)

end Mesh

/-! ## The mesh factory -/

/-- State of `MeshFactory`; /repo/lib/lf/mesh/hybrid2d/mesh_factory.h. -/
structure Factory (G : Type) where
  nodes : List (Option G) := []
  edges : List (EdgeIn G) := []
  elements : List (CellIn G) := []

namespace Factory
variable {G : Type}

/-- `AddPoint`; /repo/lib/lf/mesh/hybrid2d/mesh_factory.cc:18-43. -/
def addPoint (f : Factory G) (g : G) : Factory G × ℕ :=
  let nodes := f.nodes ++ [some g]
  ({ f with nodes := nodes }, nodes.length - 1)

/-- `AddEntity`; /repo/lib/lf/mesh/hybrid2d/mesh_factory.cc:45-103. -/
def addEntity (f : Factory G) (ref : RefEl) (nodes : List ℕ) (geo : Option G) :
    Option (Factory G × ℕ) :=
  if ref.dimension = 0 then none
  else if nodes.all (fun v => decide (v < f.nodes.length)) then
    match ref, nodes with
    | .segment, [a, b] =>
      let edges := f.edges ++ [(⟨a, b, geo⟩ : EdgeIn G)]
      some ({ f with edges := edges }, edges.length - 1)
    | .segment, _ => none
    | ref, nodes =>
      if nodes.length = ref.numNodes then
        let elements := f.elements ++ [(⟨nodes, geo⟩ : CellIn G)]
        some ({ f with elements := elements }, elements.length - 1)
      else none
  else none

/-- `Build()`: construct the mesh, clear the lists;
/repo/lib/lf/mesh/hybrid2d/mesh_factory.cc:105-125. -/
def build (ops : GeoOps G) (checkCompleteness : Bool) (f : Factory G) : Option (Mesh G × Factory G) :=
  (buildMesh ops f.nodes f.edges f.elements checkCompleteness).bind fun M => some (M, {})

end Factory
end Verif
