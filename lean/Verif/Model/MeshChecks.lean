import Verif.Model.Transfer
import Verif.Model.Quad
import Verif.Model.GeoCheck
import Verif.Model.Builders
import Verif.Spec.Mesh

/-!
# Model of the sanity checks for meshes and of the test meshes in `lf::mesh::test_utils`

A failed `EXPECT_...` of a check is recorded and the check goes on, as with googletest: the result is `some false`.
Undefined behaviour and failing assertions are `none`.
-/

namespace Verif

/-- `RefEl()` of an entity. -/
def EntPtr.refEl : EntPtr → RefEl
  | .tria _ => .tria | .quad _ => .quad | .seg _ => .segment | .pt _ => .point

namespace Mesh
variable {G : Type}

/-- `Entities(codim)`; /repo/lib/lf/mesh/hybrid2d/mesh.cc:20-25.  Simplification: a null pointer in the array, which the
callers would dereference, is excluded here already. -/
def entities (M : Mesh G) (codim : ℕ) : Option (List EntPtr) :=
  match codim with
  | 0 => M.ptrs0.mapM id
  | 1 => M.ptrs1.mapM id
  | 2 => M.ptrs2.mapM id
  | _ => none

/-- `SubEntities(rel_codim)`; /repo/lib/lf/mesh/hybrid2d/point.h:68-72, segment.cc:14-25, triangle.cc:81-93,
quad.cc:84-99. -/
def subEntities (M : Mesh G) (e : EntPtr) (codim : ℕ) : Option (List EntPtr) :=
  match e, codim with
  | .pt _, 0 => some [e]
  | .seg _, 0 => some [e]
  | .seg p, 1 => (M.segments[p]?).map fun s => [.pt s.p0, .pt s.p1]
  | .tria _, 0 => some [e]
  | .tria p, 1 => (M.trias[p]?).map fun c => c.edges.map .seg
  | .tria p, 2 => (M.trias[p]?).map fun c => c.nodes.map .pt
  | .quad _, 0 => some [e]
  | .quad p, 1 => (M.quads[p]?).map fun c => c.edges.map .seg
  | .quad p, 2 => (M.quads[p]?).map fun c => c.nodes.map .pt
  | _, _ => none

/-- `Geometry()` of an entity. -/
def geometry (M : Mesh G) : EntPtr → Option G
  | .tria p => (M.trias[p]?).map (·.geo)
  | .quad p => (M.quads[p]?).map (·.geo)
  | .seg p => (M.segments[p]?).map (·.geo)
  | .pt p => M.points[p]?

/-! ### `checkEntityIndexing` -/

/-- The loop over the entities of a codimension: whether all expectations hold, and the array `idx_use`;
/repo/lib/lf/mesh/test_utils/check_entity_indexing.cc:16-35.  The counter of an index which is out of range is
accessed, too. -/
def countIndices (M : Mesh G) (codim n : ℕ) (es : List EntPtr) : Option (Bool × List ℕ) :=
  es.foldlM (fun s e => (M.index e).bind fun i =>
    if i < n then
      (match M.entityByIndex codim i with
        | none => some false
        | some e' => (M.index e').map fun i' => decide (i = i')).bind fun ok =>
      some (s.1 && ok, s.2.modify i (· + 1))
    else none) (true, List.replicate n 0)

/-- `checkEntityIndexing(mesh)`; /repo/lib/lf/mesh/test_utils/check_entity_indexing.cc:8-45. -/
def checkEntityIndexing (M : Mesh G) : Option Bool :=
  (List.range 3).foldlM (fun ok codim =>
    (M.numEntities codim).bind fun n => (M.entities codim).bind fun es =>
    (M.countIndices codim n es).bind fun r =>
    some (ok && r.1 && (List.range n).all fun i => decide (r.2[i]? = some 1))) true

/-! ### `checkLocalTopology` and `checkRelCodim` -/

/-- `checkLocalTopology(e)`; /repo/lib/lf/mesh/test_utils/check_local_topology.cc:6-55. -/
def checkLocalTopology (M : Mesh G) (e : EntPtr) : Option Bool :=
  let dimension := e.refEl.dimension
  ((List.range dimension).map (· + 1)).foldlM (fun ok subCodim =>
    (e.refEl.numSubEntities subCodim).bind fun num => (M.subEntities e subCodim).bind fun subs =>
    (subs.foldlM (fun ok sub =>
      let subDim := sub.refEl.dimension
      ((List.range subDim).map (· + 1)).foldlM (fun ok subSubCodim =>
        (M.subEntities sub subSubCodim).bind fun subSubs =>
        subSubs.foldlM (fun ok x =>
          (M.subEntities e (subCodim + subSubCodim)).bind fun all =>
          some (ok && decide (all.count x = 1))) ok)
        (ok && decide (subDim = dimension - subCodim))) ok).bind fun ok =>
    some (ok && decide (num = subs.length))) true

/-- `checkRelCodim(e)`; /repo/lib/lf/mesh/test_utils/check_local_topology.cc:58-82. -/
def checkRelCodim (M : Mesh G) (e : EntPtr) : Option Bool :=
  let dimension := e.refEl.dimension
  ((List.range dimension).map (· + 1)).foldlM (fun ok subCodim =>
    (M.subEntities e subCodim).bind fun subs => (e.refEl.numSubEntities subCodim).bind fun num =>
    (List.range num).foldlM (fun ok i =>
      (subs[i]?).bind fun sub => some (ok && decide (subCodim = dimension - sub.refEl.dimension))) ok) true

/-! ### `checkMeshCompleteness` -/

/-- The array `entity_link_cnt`; /repo/lib/lf/mesh/test_utils/check_mesh_completeness.cc:21-44. -/
def linkCounts (M : Mesh G) (n : ℕ) (es : List EntPtr) : Option (List ℕ) :=
  es.foldlM (fun cnt e => (M.subEntities e 1).bind fun subs =>
    subs.foldlM (fun cnt sub => (M.index sub).bind fun i =>
      if i < n then some (cnt.modify i (· + 1)) else none) cnt) (List.replicate n 0)

/-- `checkMeshCompleteness(mesh)`; /repo/lib/lf/mesh/test_utils/check_mesh_completeness.cc:13-78.  For an empty array
`*std::max_element(begin, end)` in lines 52-53 dereferences the end iterator. -/
def checkMeshCompleteness (M : Mesh G) : Option Bool :=
  (List.range 2).foldlM (fun status codim =>
    (M.numEntities (codim + 1)).bind fun n => (M.entities codim).bind fun es =>
    (M.linkCounts n es).bind fun cnt =>
    if cnt = [] then none else some (status && cnt.all fun i => decide (i ≠ 0))) true

/-! ### Checks of the geometry -/

section
variable {K : Type} [Field K] [LinearOrder K] {w : ℕ}

/-- `checkGeometryOrientation(e)`; /repo/lib/lf/mesh/test_utils/check_geometry_orientation.cc:6-18. -/
def checkGeometryOrientation (M : Mesh (Geo K w)) (e : EntPtr) : Option Bool :=
  (List.range e.refEl.numNodes).foldlM (fun ok i =>
    ((refNodeCoords e.refEl)[i]?).bind fun x => (M.geometry e).bind fun g => (g.global x).bind fun a =>
    (M.subEntities e e.refEl.dimension).bind fun subs => (subs[i]?).bind fun v => (M.geometry v).bind fun gv =>
    (gv.global []).bind fun b => some (ok && decide (∀ j, a j = b j))) true

end

section
variable {w : ℕ}

/-- The body of the loop over the entities of a codimension; /repo/lib/lf/mesh/test_utils/check_mesh_completeness.cc:
99-120. -/
noncomputable def watertightStep (M : Mesh (Geo ℝ w)) (codimPt : ℕ) (ret : List (RefEl × ℕ)) (e : EntPtr) :
    Option (List (RefEl × ℕ)) :=
  (M.geometry e).bind fun g => ((refNodeCoords e.refEl).mapM g.global).bind fun vertexCoords =>
  (((refNodeCoords e.refEl).mapM g.integrationElement).bind fun l => l[0]?).bind fun approxArea =>
  (M.subEntities e codimPt).bind fun subs =>
  (List.range e.refEl.numNodes).foldlM (fun ret j =>
    (subs[j]?).bind fun v => (M.geometry v).bind fun gv => (gv.global []).bind fun node =>
    (vertexCoords[j]?).bind fun x =>
    if Geo.dot (x - node) (x - node) > 1 / 10 ^ 8 * approxArea then
      (M.index e).map fun i => ret ++ [(e.refEl, i)]
    else some ret) ret

/-- `isWatertightMesh(mesh, vertices_only)`; /repo/lib/lf/mesh/test_utils/check_mesh_completeness.cc:86-131.  `co_dim`
runs from 2 to 1.  The argument `vertices_only` has no effect (lines 123-128). -/
noncomputable def isWatertightMesh (M : Mesh (Geo ℝ w)) (_verticesOnly : Bool) : Option (List (RefEl × ℕ)) :=
  [2, 1].foldlM (fun ret codim => (M.entities codim).bind fun es =>
    es.foldlM (M.watertightStep (2 - codim)) ret) []

end
end Mesh

/-! ### The test meshes -/

namespace TestMesh

/-- `AddPoint(coord_t({x * scale, y * scale}))` for a list of coordinates. -/
noncomputable def points (scale : ℝ) (l : List (ℝ × ℝ)) : List (FactoryCall (Geo ℝ 2)) :=
  l.map fun p => .point (.point ![p.1 * scale, p.2 * scale])

/-- `AddEntity(kTria(), ..., nullptr)`. -/
def tria (a b c : ℕ) : FactoryCall (Geo ℝ 2) := .entity .tria [a, b, c] none

/-- `AddEntity(kQuad(), ..., nullptr)`. -/
def quad (a b c d : ℕ) : FactoryCall (Geo ℝ 2) := .entity .quad [a, b, c, d] none

/-- `AddEntity(kQuad(), ..., make_unique<Parallelogram>(quad_coord))`; the constructor checks the coordinates. -/
noncomputable def parg (nodes : List ℕ) (coord : List (Vec ℝ 2)) : Option (FactoryCall (Geo ℝ 2)) :=
  (Geo.newParallelogram coord).map fun g => .entity .quad nodes (some g)

/-- `AddEntity(kQuad(), ..., make_unique<QuadO1>(quad_coord))`. -/
noncomputable def bilin (nodes : List ℕ) (coord : List (Vec ℝ 2)) : Option (FactoryCall (Geo ℝ 2)) :=
  (Geo.newQuadO1 coord).map fun g => .entity .quad nodes (some g)

/-- `quad_coord(., n_pt) = node_coord[node[n_pt]]`. -/
noncomputable def coordsOf (table : List (ℝ × ℝ)) (nodes : List ℕ) : List (Vec ℝ 2) :=
  nodes.map fun v => ![(table.getD v 0).1, (table.getD v 0).2]

/-- The tables `node_coord`; /repo/lib/lf/mesh/test_utils/test_meshes.cc:241-249, 300-308, 369-374, 395-405. -/
noncomputable def nodeCoord5 : List (ℝ × ℝ) :=
  [(0, 0), (1, 0), (2, 0), (3, 0), (0, 1), (1, 1), (2, 1), (3, 1),
   (0, 2), (1, 2), (2, 2), (3, 2), (0, 3), (1, 3), (2, 3), (3, 3)]

@[inherit_doc nodeCoord5]
noncomputable def nodeCoord6 : List (ℝ × ℝ) :=
  [(0, 0), (1, 0), (2 / 10, 1), (5 / 10, 0), (6 / 10, 5 / 10), (1 / 10, 5 / 10), (15 / 100, 75 / 100),
   (4 / 10, 75 / 100)]

@[inherit_doc nodeCoord5]
noncomputable def nodeCoord7 : List (ℝ × ℝ) := [(0, 0), (1, 0), (1, 1), (0, 1), (5 / 10, 1)]

@[inherit_doc nodeCoord5]
noncomputable def nodeCoord8 : List (ℝ × ℝ) :=
  [(0, 0), (1, 0), (2, 0), (3, 0), (0, 2), (1, 2), (3, 2), (0, 3), (1, 3), (3, 3)]

/-- The calls of the mesh factory by `GenerateHybrid2DTestMesh(selector, scale)`, except for `selector = 4`;
/repo/lib/lf/mesh/test_utils/test_meshes.cc:25-223, 238-452.  In the cases 2, 5, 6 and 8 `quad_coord` is not multiplied
by `scale`. -/
noncomputable def calls (selector : ℤ) (scale : ℝ) : Option (List (FactoryCall (Geo ℝ 2))) :=
  match selector with
  | 0 => some (points scale [(3 / 2, 2), (1, 1), (2, 1), (0, 0), (3 / 2, 0), (3, 0), (3, 2), (3, 3), (0, 3), (0, 1)] ++
      [tria 0 8 9, tria 3 4 1, tria 4 2 1, tria 4 5 2, tria 5 6 2, quad 3 1 0 9, quad 2 6 7 0, tria 0 7 8, tria 0 1 2])
  | 1 =>
    (parg [0, 1, 10, 9] [scale • ![0, 0], scale • ![2, 0], scale • ![3, 1], scale • ![1, 1]]).bind fun c1 =>
    (parg [4, 12, 5, 6] [scale • ![0, 3], scale • ![2, 3], scale • ![2, 4], scale • ![0, 4]]).bind fun c6 =>
    (parg [14, 10, 11, 12] [scale • ![2, 2], scale • ![3, 1], scale • ![3, 2], scale • ![2, 3]]).bind fun c10 =>
    (parg [13, 9, 14, 12] [scale • ![1, 2], scale • ![1, 1], scale • ![2, 2], scale • ![2, 3]]).bind fun c11 =>
    some (points scale [(0, 0), (2, 0), (4, 0), (0, 2), (0, 3), (2, 4), (0, 4), (4, 4), (4, 2), (1, 1), (3, 1), (3, 2),
        (2, 3), (1, 2), (2, 2)] ++
      [c1, tria 1 2 10, quad 2 8 11 10, tria 11 8 7, quad 5 12 11 7, c6, quad 4 3 13 12, quad 3 0 9 13, tria 9 10 14,
        c10, c11])
  | 2 =>
    (parg [0, 1, 3, 2] [![0, 0], ![1, 0], ![1, 1], ![0, 1]]).bind fun c1 =>
    some (points scale [(0, 0), (1, 0), (0, 1), (1, 1), (3 / 2, 1 / 2)] ++ [c1, tria 1 3 4])
  | 3 => some (points scale [(0, 0), (3 / 2, 0), (3, 0), (1, 1), (2, 1), (3, 1), (0, 3 / 2), (2, 3 / 2), (1, 2), (3, 2),
        (0, 3), (3 / 2, 3), (3, 3)] ++
      [tria 0 1 3, tria 1 2 4, tria 0 3 6, tria 1 3 4, tria 4 2 5, tria 3 4 7, tria 4 5 7, tria 3 6 8, tria 7 8 3,
        tria 5 7 9, tria 6 8 10, tria 8 7 11, tria 7 9 12, tria 10 8 11, tria 7 12 11])
  | 5 =>
    ([[0, 1, 6, 5], [1, 2, 7, 6], [5, 6, 10, 9], [6, 7, 11, 10], [9, 10, 13, 12], [10, 11, 14, 13], [4, 5, 9, 8]].mapM
      fun n => parg n (coordsOf nodeCoord5 n)).bind fun q =>
    some (points scale nodeCoord5 ++ ([tria 0 4 5, tria 2 3 7, tria 8 9 12, tria 11 15 14] ++ q))
  | 6 =>
    ([[5, 4, 7, 6]].mapM fun n => bilin n (coordsOf nodeCoord6 n)).bind fun q =>
    ([[0, 3, 4, 5]].mapM fun n => parg n (coordsOf nodeCoord6 n)).bind fun p =>
    some (points scale nodeCoord6 ++ ([tria 3 1 4, tria 7 6 2] ++ q ++ p))
  | 7 => some (points scale nodeCoord7 ++ [tria 1 2 4, quad 0 1 4 3])
  | 8 =>
    ([[0, 1, 5, 4], [5, 6, 9, 8]].mapM fun n => parg n (coordsOf nodeCoord8 n)).bind fun p =>
    some (points scale nodeCoord8 ++ ([tria 1 2 5, tria 2 3 6, tria 5 2 6, tria 4 5 7, tria 5 8 7] ++ p))
  | _ => none

/-- The geometries created by `TPTriagMeshBuilder`; /repo/lib/lf/mesh/utils/tp_triag_mesh_builder.cc:51-170. -/
def planeGeo : BuilderGeo (ℝ × ℝ) (Geo ℝ 2) where
  point p := .point ![p.1, p.2]
  line p q := .segO1 ![p.1, p.2] ![q.1, q.2]
  tria p q r := .triaO1 ![p.1, p.2] ![q.1, q.2] ![r.1, r.2]
  quad p q r s := .quadO1 ![p.1, p.2] ![q.1, q.2] ![r.1, r.2] ![s.1, s.2]

/-- The degeneracy checks in the constructors of the cells, see `Geo.construct`.  Simplification: they are performed when
the mesh has been built. -/
noncomputable def checked (M : Mesh (Geo ℝ 2)) : Option (Mesh (Geo ℝ 2)) :=
  if (M.trias ++ M.quads).all fun c => c.geo.construct.isSome then some M else none

/-- `GenerateHybrid2DTestMesh(selector, scale)`; /repo/lib/lf/mesh/test_utils/test_meshes.cc:14-456.  `some none` is a
null pointer. -/
noncomputable def generate (selector : ℤ) (scale : ℝ) : Option (Option (Mesh (Geo ℝ 2))) :=
  if selector = 4 then
    (Builder.tpTriag geoBuild true planeGeo ⟨(0 * scale, 0 * scale), (1 * scale, 1 * scale), 3, 3⟩ {}).bind fun m =>
    match m with
    | none => some none
    | some M => (checked M).map some
  else
    (calls selector scale).bind fun hist => (Factory.run {} hist).bind fun r =>
    (r.1.build geoBuild true).bind fun m => (checked m.1).map some

end TestMesh
end Verif
