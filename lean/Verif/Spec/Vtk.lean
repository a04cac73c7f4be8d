import Verif.Model.Vtk
import Verif.Spec.Interpolation

/-!
# Specification: nodes of VTK's Lagrange cells, geometries of a mesh
-/

namespace Verif
open Geo

/-- The numbers `1, …, n - 1`. -/
def mids (n : ℕ) : List ℕ := (List.range (n - 1)).map fun i => i + 1

/-- Nodes of VTK's Lagrange triangle of order `n`, in multiples of `1 / n`: the corners, the nodes inside of the edges from
corner 0 to 1, 1 to 2 and 2 to 0, then the nodes of the triangle of order `n - 3` in the interior, in the same order. -/
def vtkTria : ℕ → List (List ℕ)
  | 0 => [[0, 0]]
  | 1 => [[0, 0], [1, 0], [0, 1]]
  | 2 => [[0, 0], [2, 0], [0, 2], [1, 0], [1, 1], [0, 1]]
  | n + 3 => [[0, 0], [n + 3, 0], [0, n + 3]] ++ ((mids (n + 3)).map fun i => [i, 0]) ++
      ((mids (n + 3)).map fun i => [n + 3 - i, i]) ++ ((mids (n + 3)).map fun i => [0, n + 3 - i]) ++
      (vtkTria n).map fun p => p.map fun i => i + 1

/-- Nodes of VTK's Lagrange cells of order `n`, in multiples of `1 / n`. Curve: the end points, then the interior nodes.
Quadrilateral: the corners, the nodes inside of the edges 0-1, 1-2, 3-2, 0-3 (in these directions), then the interior nodes
row by row. -/
def vtkLattice (r : RefEl) (n : ℕ) : List (List ℕ) :=
  match r with
  | .point => [[]]
  | .segment => [[0], [n]] ++ (mids n).map fun i => [i]
  | .tria => vtkTria n
  | .quad => [[0, 0], [n, 0], [n, n], [0, n]] ++ ((mids n).map fun i => [i, 0]) ++ ((mids n).map fun i => [n, i]) ++
      ((mids n).map fun i => [i, n]) ++ ((mids n).map fun i => [0, i]) ++ (mids n).flatMap fun j => (mids n).map fun i => [i, j]

section
variable {K : Type} [Field K]

/-- Nodes of VTK's Lagrange cells of order `n` as points of the reference element. -/
def vtkNodes (r : RefEl) (n : ℕ) : List (List K) := (vtkLattice r n).map fun p => p.map fun i : ℕ => (i : K) / n

/-- Centroids of the reference elements. -/
def centroid : RefEl → List K
  | .point => []
  | .segment => [1 / 2]
  | .tria => [1 / 3, 1 / 3]
  | .quad => [1 / 2, 1 / 2]

variable [LinearOrder K] {w : ℕ} {V : Type}

/-- The end points of an edge are its nodes. -/
def Topo.MatchesEnds (T : Topo) (f : Ent → List K → V) : Prop :=
  ∀ e < T.numEdges, f (1, e) [0] = f (2, (T.edge e).1) [] ∧ f (1, e) [1] = f (2, (T.edge e).2) []

/-- The mesh function `u` can be evaluated on all entities; its values are those of `f`. -/
def Topo.EvaluatesAll (T : Topo) (u : MeshFn K V) (f : Ent → List K → V) : Prop :=
  ∀ e r, T.refEl e = some r → ∀ pts : List (List K), (∀ x ∈ pts, r.Contains x) → u e pts = some (pts.map (f e))

/-- The geometries of a mesh fit together: `pos e x` is the position of the point of entity `e` with local coordinates `x`;
on the sides of cells the geometries of cells and edges agree, and so do they at the nodes. -/
structure FitsTogether (T : Topo) (geo : Ent → Option (Geo K w)) (pos : Ent → List K → Vec K w) : Prop where
  geo : ∀ e r, T.refEl e = some r → ∃ g, geo e = some g ∧ ∀ x, r.Contains x → g.global x = some (pos e x)
  sides : T.SingleValued pos
  ends : T.MatchesEnds pos

/-- Geometries of a mesh with straight edges: `P v` is the position of node `v`. -/
def straightGeo (T : Topo) (P : ℕ → Vec K w) (e : Ent) : Option (Geo K w) :=
  match T.refEl e with
  | some .point => some (.point (P e.2))
  | some .segment => some (.segO1 (P (T.edge e.2).1) (P (T.edge e.2).2))
  | some .tria => match (T.cell e.2).nodes with
    | [a, b, c] => some (.triaO1 (P a) (P b) (P c))
    | _ => none
  | some .quad => match (T.cell e.2).nodes with
    | [a, b, c, d] => some (.quadO1 (P a) (P b) (P c) (P d))
    | _ => none
  | none => none

/-- A position as a point in space; missing coordinates are zero. -/
def inSpace (v : Vec K w) : Vec K 3 := fun i => if h : i.val < w then v ⟨i.val, h⟩ else 0

end

/-- Number of nodes of a Lagrange cell of order `n` in its interior. -/
def numInner (r : RefEl) (n : ℕ) : ℕ :=
  match r with
  | .point => 0
  | .segment => n - 1
  | .tria => (n - 1) * (n - 2) / 2
  | .quad => (n - 1) * (n - 1)

/-- Number of points of a grid of Lagrange cells of order `n` for the entities of codimension `codim` if neighbours share the
points on their common edge: nodes, points inside of the edges and points inside of the cells. -/
def vtkCount (T : Topo) (codim n : ℕ) : ℕ :=
  T.numNodes + T.numEdges * (n - 1) + if codim = 0 then
    ((List.range T.numCells).map fun c => match T.refEl (0, c) with | some r => numInner r n | none => 0).sum else 0

/-! ## Histories -/

/-- Calls of the methods of a writer after its construction. -/
inductive VtkCall (K : Type)
  | pointScalar (name : String) (ty : VtkScalar) (mf : MeshFn K K)
  | pointVector (name : String) (ty : VtkScalar) (mf : MeshFn K (List K))
  | pointDSScalar (name : String) (ty : VtkScalar) (mds : Ent → Option K) (undef : K)
  | pointDSVector (name : String) (ty : VtkScalar) (mds : Ent → Option (List K)) (undef : List K)
  | cellScalar (name : String) (ty : VtkScalar) (mf : MeshFn K K)
  | cellVector (name : String) (ty : VtkScalar) (mf : MeshFn K (List K))
  | cellDSScalar (name : String) (ty : VtkScalar) (mds : Ent → Option K) (undef : K)
  | cellDSVector (name : String) (ty : VtkScalar) (mds : Ent → Option (List K)) (undef : List K)
  | global (name : String) (ty : VtkScalar) (data : List K)
  | binary (b : Bool)

section
variable {K : Type} [Field K]

/-- A call; it may fail. -/
def VtkCall.run (W : VtkWriter K) : VtkCall K → Option (VtkWriter K)
  | .pointScalar name ty mf => W.writePointScalar name ty mf
  | .pointVector name ty mf => W.writePointVector name ty mf
  | .pointDSScalar name ty mds u => W.writePointDSScalar name ty mds u
  | .pointDSVector name ty mds u => W.writePointDSVector name ty mds u
  | .cellScalar name ty mf => W.writeCellScalar name ty mf
  | .cellVector name ty mf => W.writeCellVector name ty mf
  | .cellDSScalar name ty mds u => W.writeCellDSScalar name ty mds u
  | .cellDSVector name ty mds u => W.writeCellDSVector name ty mds u
  | .global name ty data => W.writeGlobal name ty data
  | .binary b => some (W.setBinary b)

/-- The writer after a sequence of calls; a call which throws has no effect. -/
def VtkWriter.after (W : VtkWriter K) (calls : List (VtkCall K)) : VtkWriter K :=
  calls.foldl (fun W c => (c.run W).getD W) W

end

/-- The types of cells of VTK for the reference elements. -/
def vtkTypeOf : RefEl → ℕ → VtkType
  | .segment, n => if n = 1 then .line else .lagrangeCurve
  | .tria, n => if n = 1 then .triangle else .lagrangeTriangle
  | _, n => if n = 1 then .quad else .lagrangeQuadrilateral

end Verif
