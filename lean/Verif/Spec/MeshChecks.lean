import Verif.Model.MeshChecks
import Verif.Spec.Refinement
import Verif.Spec.Geometry

/-!
# Specification vocabulary for the sanity checks of meshes
-/

namespace Verif

/-- The mesh is the result of a history of calls of the mesh factory and of `Build()`. -/
def Mesh.FromFactory {G : Type} (ops : GeoOps G) (chk : Bool) (hist : List (FactoryCall G)) (M : Mesh G) : Prop :=
  ∃ f rets f', Factory.run {} hist = some (f, rets) ∧ f.build ops chk = some (M, f')

/-- The entities of every codimension are numbered from zero without gaps, every index belongs to exactly one entity,
and `EntityByIndex` finds an entity with the given index. -/
def Mesh.WellIndexed {G : Type} (M : Mesh G) : Prop :=
  ∀ codim ≤ 2, ∃ es n, M.entities codim = some es ∧ M.numEntities codim = some n ∧
    (∀ i < n, (es.map M.index).count (some i) = 1) ∧
    ∀ e ∈ es, ∃ i < n, M.index e = some i ∧ ∃ e', M.entityByIndex codim i = some e' ∧ M.index e' = some i

section
variable {K : Type} [Field K] [LinearOrder K] {w : ℕ}

/-- The positions of the points added in a history of calls of the mesh factory. -/
def positions (hist : List (FactoryCall (Geo K w))) : List (Vec K w) :=
  hist.filterMap fun c => match c with
    | .point (.point x) => some x
    | _ => none

/-- All geometries passed to the mesh factory belong to entities of their type, and the corners of parallelograms are those
of a parallelogram. -/
def WellTyped (hist : List (FactoryCall (Geo K w))) : Prop :=
  (∀ g, .point g ∈ hist → ∃ x, g = .point x) ∧
  ∀ ref nodes g, .entity ref nodes (some g) ∈ hist → g.kind = ref ∧ g.Proper

/-- The images of the corners of the reference element under a parametrization are given points. -/
def Geo.HasCorners (g : Geo K w) (xs : List (Option (Vec K w))) : Prop := (refNodeCoords g.kind).map g.global = xs

/-- All geometries passed to the mesh factory have their corners at the positions of the nodes. -/
def Matching (hist : List (FactoryCall (Geo K w))) : Prop :=
  ∀ ref nodes g, .entity ref nodes (some g) ∈ hist → g.HasCorners (nodes.map fun v => (positions hist)[v]?)

/-- Position of a node of a mesh. -/
def Mesh.nodePos (M : Mesh (Geo K w)) (v : ℕ) : Option (Vec K w) :=
  match M.points[v]? with
  | some (.point x) => some x
  | _ => none

/-- Every edge and every cell of a mesh has its corners at the positions of its nodes. -/
structure Mesh.CornersAtNodes (M : Mesh (Geo K w)) : Prop where
  edges : ∀ e < M.topo.numEdges, ∃ g, M.edgeGeo e = some g ∧
    g.HasCorners [M.nodePos (M.topo.edge e).1, M.nodePos (M.topo.edge e).2]
  cells : ∀ c < M.topo.numCells, ∃ g, M.cellGeo c = some g ∧ g.HasCorners ((M.topo.cell c).nodes.map M.nodePos)

end

/-- The distance of end point `j` of an edge to the position of the node is larger than allowed by `isWatertightMesh`: its
square exceeds `1e-8` times the length of the edge (the length of its tangent vector in the first end point, for curved
edges). -/
def Mesh.WrongEnd {w : ℕ} (M : Mesh (Geo ℝ w)) (e j : ℕ) : Prop :=
  ∃ g x y t, M.edgeGeo e = some g ∧ g.global [(j : ℝ)] = some x ∧
    M.nodePos (if j = 0 then (M.topo.edge e).1 else (M.topo.edge e).2) = some y ∧
    g.integrationElement [0] = some t ∧ ∑ i, (x i - y i) ^ 2 > 1 / 10 ^ 8 * t

/-! ### The test meshes -/

namespace TestMesh

/-- Coordinates of the nodes of the test meshes with scaling factor 1. -/
noncomputable def nodeTable : ℤ → List (ℝ × ℝ)
  | 0 => [(3 / 2, 2), (1, 1), (2, 1), (0, 0), (3 / 2, 0), (3, 0), (3, 2), (3, 3), (0, 3), (0, 1)]
  | 1 => [(0, 0), (2, 0), (4, 0), (0, 2), (0, 3), (2, 4), (0, 4), (4, 4), (4, 2), (1, 1), (3, 1), (3, 2), (2, 3), (1, 2),
      (2, 2)]
  | 2 => [(0, 0), (1, 0), (0, 1), (1, 1), (3 / 2, 1 / 2)]
  | 3 => [(0, 0), (3 / 2, 0), (3, 0), (1, 1), (2, 1), (3, 1), (0, 3 / 2), (2, 3 / 2), (1, 2), (3, 2), (0, 3), (3 / 2, 3),
      (3, 3)]
  | 5 => [(0, 0), (1, 0), (2, 0), (3, 0), (0, 1), (1, 1), (2, 1), (3, 1), (0, 2), (1, 2), (2, 2), (3, 2), (0, 3), (1, 3),
      (2, 3), (3, 3)]
  | 6 => [(0, 0), (1, 0), (2 / 10, 1), (5 / 10, 0), (6 / 10, 5 / 10), (1 / 10, 5 / 10), (15 / 100, 75 / 100),
      (4 / 10, 75 / 100)]
  | 7 => [(0, 0), (1, 0), (1, 1), (0, 1), (5 / 10, 1)]
  | 8 => [(0, 0), (1, 0), (2, 0), (3, 0), (0, 2), (1, 2), (3, 2), (0, 3), (1, 3), (3, 3)]
  | _ => []

/-- Nodes of the cells of the test meshes. -/
def cellTable : ℤ → List (List ℕ)
  | 0 => [[0, 8, 9], [3, 4, 1], [4, 2, 1], [4, 5, 2], [5, 6, 2], [3, 1, 0, 9], [2, 6, 7, 0], [0, 7, 8], [0, 1, 2]]
  | 1 => [[0, 1, 10, 9], [1, 2, 10], [2, 8, 11, 10], [11, 8, 7], [5, 12, 11, 7], [4, 12, 5, 6], [4, 3, 13, 12],
      [3, 0, 9, 13], [9, 10, 14], [14, 10, 11, 12], [13, 9, 14, 12]]
  | 2 => [[0, 1, 3, 2], [1, 3, 4]]
  | 3 => [[0, 1, 3], [1, 2, 4], [0, 3, 6], [1, 3, 4], [4, 2, 5], [3, 4, 7], [4, 5, 7], [3, 6, 8], [7, 8, 3], [5, 7, 9],
      [6, 8, 10], [8, 7, 11], [7, 9, 12], [10, 8, 11], [7, 12, 11]]
  | 5 => [[0, 4, 5], [2, 3, 7], [8, 9, 12], [11, 15, 14], [0, 1, 6, 5], [1, 2, 7, 6], [5, 6, 10, 9], [6, 7, 11, 10],
      [9, 10, 13, 12], [10, 11, 14, 13], [4, 5, 9, 8]]
  | 6 => [[3, 1, 4], [7, 6, 2], [5, 4, 7, 6], [0, 3, 4, 5]]
  | 7 => [[1, 2, 4], [0, 1, 4, 3]]
  | 8 => [[1, 2, 5], [2, 3, 6], [5, 2, 6], [4, 5, 7], [5, 8, 7], [0, 1, 5, 4], [5, 6, 9, 8]]
  | _ => []

end TestMesh

end Verif
