import Verif.Model.DataSet
import Verif.Model.MeshFunction
import Verif.Model.Quad

/-!
# Model of `lf::io::VtkWriter`

/repo/lib/lf/io/vtk_writer.h and vtk_writer.cc: construction of the unstructured grid from a mesh, attaching data, and the
checks before the file is written.  Meshes are two-dimensional (`dim_mesh = 2`).  `float` and `double` are an ordered field
`K`, casts between them are the identity.  Exceptions, failing assertions and out-of-range accesses are `none`.  An entry
`none` of a list of points or values has been allocated by `resize` but never been assigned to.
-/

namespace Verif
open Geo

/-- `VtkFile::CellType`, as far as used; /repo/lib/lf/io/vtk_writer.h:39-65. -/
inductive VtkType
  | line
  | triangle
  | quad
  | lagrangeCurve
  | lagrangeTriangle
  | lagrangeQuadrilateral
  deriving DecidableEq, Repr

/-- `NumAuxNodes`; /repo/lib/lf/io/vtk_writer.cc:463-476.  `order` is promoted to `int`; `order - 1` is used for
`order >= 1` only. -/
def numAuxNodes : RefEl → ℕ → ℕ
  | .point, _ => 1
  | .segment, n => n - 1
  | .tria, n => ((2 - 3 * (n : ℤ) + n * n) / 2).toNat
  | .quad, n => (n - 1) * (n - 1)

section
variable {K : Type} [Field K]

/-- `Eigen::VectorXd::LinSpaced(n, lo, hi)`. -/
def linSpaced (n : ℕ) (lo hi : K) : List K :=
  if n = 1 then [hi] else (List.range n).map fun i : ℕ => lo + (i : K) * ((hi - lo) / ((n : K) - 1))

/-- `AuxNodesSegment`; /repo/lib/lf/io/vtk_writer.cc:479-484. -/
def auxNodesSegment (n : ℕ) : Option (List (List K)) :=
  if n > 1 then some ((linSpaced (n - 1) (1 / (n : K)) (((n : K) - 1) / n)).map fun x => [x]) else none

/-- `result.block(0, start, 2, size) = cols`: assignment to columns of a matrix; Eigen asserts that the block lies in the
matrix and that the right-hand side has its size. -/
def setBlock {A : Type} (m : List (Option A)) (start size : ℕ) (cols : List A) : Option (List (Option A)) :=
  if cols.length = size ∧ start + size ≤ m.length then
    some (m.take start ++ cols.map some ++ m.drop (start + size)) else none

/-- `AuxNodesTria`; /repo/lib/lf/io/vtk_writer.cc:488-532.  A matrix is the list of its columns; columns which have not been
assigned to are `none`. -/
def auxNodesTria (n : ℕ) : Option (List (List K)) :=
  if h3 : n < 3 then some [] else
  let m0 : List (Option (List K)) := List.replicate (numAuxNodes .tria n) none
  if n = 3 then fromRows (numAuxNodes .tria n) [1 / 3] [1 / 3]
  else if n = 4 then fromRows (numAuxNodes .tria n) [1 / 4, 1 / 2, 1 / 4] [1 / 4, 1 / 4, 1 / 2]
  else
    (setBlock m0 0 1 [[1 / (n : K), 1 / n]]).bind fun m1 =>
    (setBlock m1 1 1 [[((n : K) - 2) / n, 1 / n]]).bind fun m2 =>
    (setBlock m2 2 1 [[1 / (n : K), ((n : K) - 2) / n]]).bind fun m3 =>
    (if n > 4 then
      (auxNodesSegment (n - 3)).bind fun seg =>
      (setBlock m3 3 (n - 4) (seg.map fun s =>
        [1 * s.getD 0 0 * ((n : K) - 3) / n + 1 / n, 0 * s.getD 0 0 * ((n : K) - 3) / n + 1 / n])).bind fun m4 =>
      (setBlock m4 (n - 1) (n - 4) (seg.map fun s =>
        [-1 * ((n : K) - 3) / n * s.getD 0 0 + ((n : K) - 2) / n, 1 * ((n : K) - 3) / n * s.getD 0 0 + 1 / n])).bind fun m5 =>
      setBlock m5 (2 * n - 5) (n - 4) (seg.map fun s =>
        [-0 * ((n : K) - 3) / n * s.getD 0 0 + 1 / n, -1 * ((n : K) - 3) / n * s.getD 0 0 + ((n : K) - 2) / n])
    else some m3).bind fun m6 =>
    (if n > 5 then
      (auxNodesTria (n - 3)).bind fun points =>
      setBlock m6 (3 * n - 9) points.length (points.map fun p =>
        [p.getD 0 0 * ((n : K) - 6) / n + 2 / n, p.getD 1 0 * ((n : K) - 6) / n + 2 / n])
    else some m6).bind fun m7 => m7.mapM id
termination_by n

/-- `AuxNodesQuad`; /repo/lib/lf/io/vtk_writer.cc:535-547. -/
def auxNodesQuad (n : ℕ) : Option (List (List K)) :=
  let l : List K := linSpaced (n - 1) (1 / (n : K)) (((n : K) - 1) / n)
  fromRows (numAuxNodes .quad n) (replicateRow l (n - 1)) (kron l (List.replicate (n - 1) 1))

/-- `aux_nodes_`; /repo/lib/lf/io/vtk_writer.cc:593-598. -/
def auxNodes (n : ℕ) : Option (RefEl → List (List K)) :=
  if n > 1 then
    (auxNodesSegment n).bind fun s => (auxNodesTria n).bind fun t => (auxNodesQuad n).map fun q =>
    fun r => match r with
      | .segment => s
      | .tria => t
      | .quad => q
      | .point => []
  else some fun _ => []

/-- World coordinates as a vector of three components; /repo/lib/lf/io/vtk_writer.cc:614-624 and 639-651.  For
`dim_world = 4`, which passes the assertion, the assignment of the columns fails. -/
def pad3 {w : ℕ} (v : Vec K w) : Option (Vec K 3) :=
  if 1 ≤ w ∧ w ≤ 3 then some fun i => if h : i.val < w then v ⟨i.val, h⟩ else 0 else none

end

/-! ## Grid -/

/-- `Mesh::NumEntities(ref_el)`; /repo/lib/lf/mesh/hybrid2d/mesh.cc:31-43. -/
def Topo.numRef (T : Topo) : RefEl → ℕ
  | .point => T.numNodes
  | .segment => T.numEdges
  | .tria => (List.range T.numCells).countP fun c => decide (T.refEl (0, c) = some .tria)
  | .quad => (List.range T.numCells).countP fun c => decide (T.refEl (0, c) = some .quad)

/-- Total number of points of the grid; /repo/lib/lf/io/vtk_writer.cc:601-608. -/
def vtkNumPoints (T : Topo) (codim order : ℕ) : ℕ :=
  [RefEl.segment, .tria, .quad].foldl (fun n r =>
    if r.dimension > 2 - codim then n else n + numAuxNodes r order * T.numRef r) T.numNodes

section
variable {K V : Type}

/-- Assignment of the values at the nodes of the mesh, the main points; /repo/lib/lf/io/vtk_writer.cc:612-627 with the
coordinates as values, and /repo/lib/lf/io/vtk_writer.h:861-863, 898-901 with the values of a mesh function. -/
def vtkMainPoints (T : Topo) (F : MeshFn K V) (pts : List (Option V)) : Option (List (Option V)) :=
  (T.entities 2).foldlM (fun pts e =>
    (F e [[]]).bind fun vals => (vals[0]?).bind fun v => setEntry pts e.2 (some v)) pts

/-- Assignment of consecutive entries; /repo/lib/lf/io/vtk_writer.cc:652-654, vtk_writer.h:873-875 and 911-914. -/
def vtkAssign (pts : List (Option V)) (start : ℕ) (vals : List V) : Option (List (Option V)) :=
  (List.range vals.length).foldlM (fun pts i => (vals[i]?).bind fun v => setEntry pts (start + i) (some v)) pts

/-- The codimensions from `dim_mesh - 1` down to `codim`; /repo/lib/lf/io/vtk_writer.cc:632-633, vtk_writer.h:865-866. -/
def vtkCodims (codim : ℕ) : List ℕ := (List.range (2 - codim)).map fun k => 1 - k

/-- State of the loop over auxiliary points: points, `aux_node_offset_`, `index_offset`. -/
structure VtkLoop (V : Type) where
  points : List (Option V)
  offset : ℕ → List ℕ
  next : ℕ

/-- Auxiliary points of an entity; /repo/lib/lf/io/vtk_writer.cc:634-658. -/
def vtkAuxEntity (T : Topo) (order : ℕ) (aux : RefEl → List (List K)) (F : MeshFn K V) (st : VtkLoop V) (e : Ent) :
    Option (VtkLoop V) :=
  (T.refEl e).bind fun r =>
  if r = .tria ∧ order < 3 then some st else
  (F e (aux r)).bind fun coords =>
  if coords.length = numAuxNodes r order then
    (vtkAssign st.points st.next coords).bind fun pts =>
    (setEntry (st.offset e.1) e.2 st.next).map fun l =>
      ⟨pts, fun cd => if cd = e.1 then l else st.offset cd, st.next + coords.length⟩
  else none

/-- Points of the grid; /repo/lib/lf/io/vtk_writer.cc:600-661.  `aux_node_offset_` is allocated in line 584, its entries are
zero (`std::vector`). -/
def vtkPoints (T : Topo) (codim order : ℕ) (aux : RefEl → List (List K)) (F : MeshFn K V) : Option (VtkLoop V) :=
  (vtkMainPoints T F (List.replicate (vtkNumPoints T codim order) none)).bind fun pts =>
  let st : VtkLoop V := ⟨pts, fun cd => List.replicate (T.num cd) 0, T.numNodes⟩
  if order > 1 then
    (vtkCodims codim).foldlM (fun st cd => (T.entities cd).foldlM (vtkAuxEntity T order aux F) st) st
  else some st

end

/-- `addSegmentNodes`; /repo/lib/lf/io/vtk_writer.cc:690-701.  `static_cast<int>(points_per_segment - 1)` is -1 if there are
no points. -/
def vtkSegmentNodes (offset1 : List ℕ) (pps s : ℕ) (invert : Bool) : Option (List ℕ) :=
  (offset1[s]?).map fun start =>
    if invert then (List.range pps).reverse.map fun i => start + i else (List.range pps).map fun i => start + i

/-- The calls of `addSegmentNodes` for the edges of a cell; `neg` tells for which relative orientation
(positive: `true`) the nodes are inverted; /repo/lib/lf/io/vtk_writer.cc:706-741. -/
def vtkCellSegments (offset1 : List ℕ) (pps : ℕ) (edges : List Ent) (ori : List Bool) (inv : List Bool) :
    Option (List ℕ) :=
  ((List.range inv.length).mapM fun j => (edges[j]?).bind fun s => (ori[j]?).bind fun o => (inv[j]?).bind fun i =>
    vtkSegmentNodes offset1 pps s.2 (o == i)).map List.flatten

/-- Nodes and type of a cell of the grid; /repo/lib/lf/io/vtk_writer.cc:678-781. -/
def vtkCell (T : Topo) (codim order : ℕ) (offset : ℕ → List ℕ) (e : Ent) : Option (List ℕ × VtkType) :=
  let pps := numAuxNodes .segment order
  (T.refEl e).bind fun r =>
  (T.subEntities e (2 - codim)).bind fun ps =>
  (match r with
    | .segment => vtkSegmentNodes (offset 1) pps e.2 false
    | .tria => (T.subEntities e 1).bind fun es =>
        vtkCellSegments (offset 1) pps es (T.cell e.2).ori [false, false, false]
    | .quad => (T.subEntities e 1).bind fun es =>
        vtkCellSegments (offset 1) pps es (T.cell e.2).ori [false, false, true, true]
    | .point => none).bind fun segs =>
  (if 2 - codim > 1 then
    ((offset 0)[e.2]?).map fun start => (List.range (numAuxNodes r order)).map fun i => start + i
  else some []).bind fun inner =>
  (if order = 1 then
    match r with
    | .segment => some VtkType.line
    | .tria => some .triangle
    | .quad => some .quad
    | .point => none
  else match r with
    | .segment => some .lagrangeCurve
    | .tria => some .lagrangeTriangle
    | .quad => some .lagrangeQuadrilateral
    | .point => none).map fun ty => (ps.map (fun p : Ent => p.2) ++ segs ++ inner, ty)

/-! ## The writer -/

/-- Types of scalar attribute data; /repo/lib/lf/io/vtk_writer.h:114-118. -/
inductive VtkScalar
  | char | uchar | short | ushort | int | uint | long | ulong | float | double
  deriving DecidableEq, Repr

/-- Attribute data, attached to points or cells: `ScalarData`, `VectorData`; /repo/lib/lf/io/vtk_writer.h:86-118. -/
inductive VtkData (K : Type)
  | scalar (ty : VtkScalar) (data : List (Option K))
  | vector (ty : VtkScalar) (data : List (Option (Vec K 3)))

/-- `data.size()`. -/
def VtkData.size {K : Type} : VtkData K → ℕ
  | .scalar _ d => d.length
  | .vector _ d => d.length

/-- `VtkWriter` with its `VtkFile`; /repo/lib/lf/io/vtk_writer.h:123-146 and 793-808. -/
structure VtkWriter (K : Type) where
  mesh : Topo
  codim : ℕ
  order : ℕ
  aux : RefEl → List (List K)
  offset : ℕ → List ℕ
  points : List (Option (Vec K 3))
  cells : List (List ℕ)
  types : List VtkType
  header : String
  binary : Bool
  fieldData : List (String × VtkScalar × List K)
  pointData : List (String × VtkData K)
  cellData : List (String × VtkData K)

section
variable {K : Type} [Field K] [LinearOrder K] {w : ℕ}

/-- World coordinates of points of an entity: `e->Geometry()->Global(…)`. -/
def vtkCoords (geo : Ent → Option (Geo K w)) : MeshFn K (Vec K 3) := fun e pts =>
  (geo e).bind fun g => pts.mapM fun x => (g.global x).bind pad3

/-- The constructor; /repo/lib/lf/io/vtk_writer.cc:578-782.  `geo e` is `e.Geometry()`.  The loop over the entities of
codimension `codim` assigns to the positions given by their indices, which are their positions in `Entities(codim)`. -/
def VtkWriter.make (T : Topo) (geo : Ent → Option (Geo K w)) (codim order : ℕ) : Option (VtkWriter K) :=
  if 0 < w ∧ w ≤ 4 ∧ codim < 2 ∧ 0 < order ∧ order ≤ 10 then
    (auxNodes order).bind fun aux =>
    (vtkPoints T codim order aux (vtkCoords geo)).bind fun st =>
    ((T.entities codim).mapM (vtkCell T codim order st.offset)).map fun cells =>
      { mesh := T, codim := codim, order := order, aux := aux, offset := st.offset, points := st.points,
        cells := cells.map fun c => c.1, types := cells.map fun c => c.2, header := "", binary := false,
        fieldData := [], pointData := [], cellData := [] }
  else none

/-! ## Attaching data -/

/-- `CheckAttributeSetName`; /repo/lib/lf/io/vtk_writer.h:977-993. -/
def checkName (names : List String) (name : String) : Bool := !names.contains name && !name.toList.contains ' '

/-- `PadWithZeros`; /repo/lib/lf/io/vtk_writer.h:995-1012. -/
def padWithZeros (v : List K) : Option (Vec K 3) :=
  match v with
  | [a, b] => some ![a, b, 0]
  | [a, b, c] => some ![a, b, c]
  | _ => none

namespace VtkWriter

/-- Values of a mesh function at the points of the grid; /repo/lib/lf/io/vtk_writer.h:855-877 and 892-916.  `conv` is the
identity or `PadWithZeros`. -/
def pointValues {V P : Type} (W : VtkWriter K) (mf : MeshFn K V) (conv : V → Option P) : Option (List (Option P)) :=
  (vtkMainPoints W.mesh (fun e pts => (mf e pts).bind fun vals => vals.mapM conv)
    (List.replicate W.points.length none)).bind fun pts =>
  (vtkCodims W.codim).foldlM (fun pts cd => (W.mesh.entities cd).foldlM (fun pts e =>
    (W.mesh.refEl e).bind fun r =>
    if W.order = 1 ∨ W.order = 2 ∧ r = .tria then some pts else
    (mf e (W.aux r)).bind fun vals => (vals.mapM conv).bind fun vals =>
    ((W.offset cd)[e.2]?).bind fun start => vtkAssign pts start vals) pts) pts

/-- `WritePointData(name, mesh_function)` for scalar values; /repo/lib/lf/io/vtk_writer.h:840-878. -/
def writePointScalar (W : VtkWriter K) (name : String) (ty : VtkScalar) (mf : MeshFn K K) : Option (VtkWriter K) :=
  if checkName (W.pointData.map fun d => d.1) name then
    (W.pointValues mf some).map fun d => { W with pointData := W.pointData ++ [(name, .scalar ty d)] }
  else none

/-- `WritePointData(name, mesh_function)` for vectors; /repo/lib/lf/io/vtk_writer.h:879-918. -/
def writePointVector (W : VtkWriter K) (name : String) (ty : VtkScalar) (mf : MeshFn K (List K)) : Option (VtkWriter K) :=
  if checkName (W.pointData.map fun d => d.1) name then
    (W.pointValues mf padWithZeros).map fun d => { W with pointData := W.pointData ++ [(name, .vector ty d)] }
  else none

/-- Values of a data set for the entities of a codimension, `undef` for entities on which it is not defined;
/repo/lib/lf/io/vtk_writer.cc:964-973, 987-1000, 1008-1017 and 1027-1040. -/
def dataSetValues {V P : Type} (W : VtkWriter K) (codim : ℕ) (mds : Ent → Option V) (undef : V) (conv : V → Option P) :
    Option (List (Option P)) :=
  (conv undef).bind fun u =>
  (W.mesh.entities codim).foldlM (fun d e =>
    match mds e with
    | some v => (conv v).bind fun p => setEntry d e.2 (some p)
    | none => setEntry d e.2 (some u)) (List.replicate (W.mesh.num codim) none)

/-- `WritePointData(name, mds, undefined_value)`, scalars; /repo/lib/lf/io/vtk_writer.cc:955-975. -/
def writePointDSScalar (W : VtkWriter K) (name : String) (ty : VtkScalar) (mds : Ent → Option K) (undef : K) :
    Option (VtkWriter K) :=
  if W.order = 1 then
    if checkName (W.pointData.map fun d => d.1) name then
      (W.dataSetValues 2 mds undef some).map fun d => { W with pointData := W.pointData ++ [(name, .scalar ty d)] }
    else none
  else none

/-- `WritePointData(name, mds, undefined_value)`, vectors; /repo/lib/lf/io/vtk_writer.cc:977-1002. -/
def writePointDSVector (W : VtkWriter K) (name : String) (ty : VtkScalar) (mds : Ent → Option (List K)) (undef : List K) :
    Option (VtkWriter K) :=
  if W.order = 1 then
    if checkName (W.pointData.map fun d => d.1) name then
      (W.dataSetValues 2 mds undef padWithZeros).map fun d => { W with pointData := W.pointData ++ [(name, .vector ty d)] }
    else none
  else none

/-- `WriteCellData(name, mds, undefined_value)`, scalars; /repo/lib/lf/io/vtk_writer.cc:1004-1019. -/
def writeCellDSScalar (W : VtkWriter K) (name : String) (ty : VtkScalar) (mds : Ent → Option K) (undef : K) :
    Option (VtkWriter K) :=
  if checkName (W.cellData.map fun d => d.1) name then
    (W.dataSetValues W.codim mds undef some).map fun d => { W with cellData := W.cellData ++ [(name, .scalar ty d)] }
  else none

/-- `WriteCellData(name, mds, undefined_value)`, vectors; /repo/lib/lf/io/vtk_writer.cc:1021-1042. -/
def writeCellDSVector (W : VtkWriter K) (name : String) (ty : VtkScalar) (mds : Ent → Option (List K)) (undef : List K) :
    Option (VtkWriter K) :=
  if checkName (W.cellData.map fun d => d.1) name then
    (W.dataSetValues W.codim mds undef padWithZeros).map fun d => { W with cellData := W.cellData ++ [(name, .vector ty d)] }
  else none

/-- Sum of the columns of `NodeCoords()` divided by `n`. -/
def meanCoords (r : RefEl) (n : K) : List K :=
  (List.range r.dimension).map fun i => ((refNodeCoords r : List (List K)).map fun p => p.getD i 0).sum / n

/-- `barycenters`; /repo/lib/lf/io/vtk_writer.h:935-942. -/
def barycenter : RefEl → List K
  | .point => []
  | .segment => meanCoords .segment 2
  | .tria => meanCoords .tria 3
  | .quad => meanCoords .tria 4

/-- Values of a mesh function for the cells of the grid; /repo/lib/lf/io/vtk_writer.h:958-966 and 969-975. -/
def cellValues {V P : Type} (W : VtkWriter K) (mf : MeshFn K V) (conv : V → Option P) : Option (List (Option P)) :=
  (W.mesh.entities W.codim).foldlM (fun d e =>
    (W.mesh.refEl e).bind fun r => (mf e [barycenter r]).bind fun vals => (vals[0]?).bind fun v =>
    (conv v).bind fun p => setEntry d e.2 (some p)) (List.replicate (W.mesh.num W.codim) none)

/-- `WriteCellData(name, mesh_function)` for scalar values; /repo/lib/lf/io/vtk_writer.h:927-976. -/
def writeCellScalar (W : VtkWriter K) (name : String) (ty : VtkScalar) (mf : MeshFn K K) : Option (VtkWriter K) :=
  if checkName (W.cellData.map fun d => d.1) name then
    (W.cellValues mf some).map fun d => { W with cellData := W.cellData ++ [(name, .scalar ty d)] }
  else none

/-- `WriteCellData(name, mesh_function)` for vectors; /repo/lib/lf/io/vtk_writer.h:927-968. -/
def writeCellVector (W : VtkWriter K) (name : String) (ty : VtkScalar) (mf : MeshFn K (List K)) : Option (VtkWriter K) :=
  if checkName (W.cellData.map fun d => d.1) name then
    (W.cellValues mf padWithZeros).map fun d => { W with cellData := W.cellData ++ [(name, .vector ty d)] }
  else none

/-- `WriteGlobalData`; /repo/lib/lf/io/vtk_writer.cc:940-953 and 1044-1051. -/
def writeGlobal (W : VtkWriter K) (name : String) (ty : VtkScalar) (data : List K) : Option (VtkWriter K) :=
  if checkName (W.fieldData.map fun d => d.1) name then
    some { W with fieldData := W.fieldData ++ [(name, ty, data)] }
  else none

/-- `setBinary`; /repo/lib/lf/io/vtk_writer.h:302-308. -/
def setBinary (W : VtkWriter K) (b : Bool) : VtkWriter K := { W with binary := b }

/-- `ValidateVtkFile` does not throw; /repo/lib/lf/io/vtk_writer.cc:425-460. -/
def validates (W : VtkWriter K) : Bool :=
  !W.header.toList.contains '\n' && decide (W.header.length ≤ 256) && decide (W.types.length = W.cells.length) &&
  (W.pointData.all fun d => decide (d.2.size = W.points.length)) &&
  W.cellData.all fun d => decide (d.2.size = W.cells.length)

end VtkWriter
end
end Verif
