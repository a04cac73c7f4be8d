import Verif.Model.Mesh
import Mathlib.Logic.Function.Basic

/-!
# Model of `lf::io::GmshReader` (from the parsed file to the mesh)

The model covers the two functions `InitGmshFile` for `dim_mesh = 2`, the dimension of the meshes of
`lf::mesh::hybrid2d`.  The parsers producing `GMshFileV4` and `GMshFileV2` are modelled in MshParser.lean and MshParser2.lean.  Coordinate vectors are values
of an arbitrary type `P`, geometry objects values of an arbitrary type `G`.  A failing `LF_VERIFY_MSG` / `LF_ASSERT_MSG`
and an access outside of a vector are `none`.  The indices `-1` are `none` inside of the vectors.  The tables of
physical names are modelled in `Verif.Model.GmshPhys`.
-/

namespace Verif

/-- `ElementType`; /repo/lib/lf/io/gmsh_file_v2.h:81-154, gmsh_file_v4.h:308-387.  `solid n` is the
three-dimensional type with number `n`. -/
inductive GmshType
  | point | edge2 | edge3 | edge4 | edge5 | edge6
  | tria3 | tria6 | tria9 | tria10 | tria12 | tria15 | tria15_5 | tria21
  | quad4 | quad8 | quad9 | solid (n : ℕ)
  deriving DecidableEq, Repr

namespace GmshType

/-- `RefElOf`; /repo/lib/lf/io/gmsh_file_v2.cc:263-310, gmsh_file_v4.cc:196-243. -/
def refEl : GmshType → Option RefEl
  | point => some .point
  | edge2 => some .segment
  | edge3 => some .segment
  | edge4 => some .segment
  | edge5 => some .segment
  | edge6 => some .segment
  | tria3 => some .tria
  | tria6 => some .tria
  | tria9 => some .tria
  | tria10 => some .tria
  | tria12 => some .tria
  | tria15 => some .tria
  | tria15_5 => some .tria
  | tria21 => some .tria
  | quad4 => some .quad
  | quad8 => some .quad
  | quad9 => some .quad
  | solid _ => none

/-- `DimOf`; /repo/lib/lf/io/gmsh_file_v2.cc:313-357, gmsh_file_v4.cc:246-290. -/
def dim : GmshType → ℕ
  | point => 0
  | edge2 => 1
  | edge3 => 1
  | edge4 => 1
  | edge5 => 1
  | edge6 => 1
  | solid _ => 3
  | _ => 2

end GmshType

/-- The constructors of geometry objects used by the reader: a point (with the assertion that the third coordinate is zero
if `DimWorld() = 2`), and `SegmentO1`, `SegmentO2`, `TriaO1`, `TriaO2`, `QuadO1`, `QuadO2` from the coordinates of the
nodes.  `none` is a failing assertion in the constructor. -/
structure GmshGeo (P G : Type) where
  point : P → Option G
  segmentO1 : List P → Option G
  segmentO2 : List P → Option G
  triaO1 : List P → Option G
  triaO2 : List P → Option G
  quadO1 : List P → Option G
  quadO2 : List P → Option G

/-- The `switch` on the element type; /repo/lib/lf/io/gmsh_reader.cc:254-291, 542-579. -/
def GmshGeo.make {P G : Type} (geo : GmshGeo P G) (t : GmshType) (coords : List P) : Option G :=
  match t with
  | .edge2 => geo.segmentO1 coords
  | .edge3 => geo.segmentO2 coords
  | .tria3 => geo.triaO1 coords
  | .tria6 => geo.triaO2 coords
  | .quad4 => geo.quadO1 coords
  | .quad8 => geo.quadO2 coords
  | .quad9 => geo.quadO2 (coords.take 8)
  | _ => none

/-- `std::vector::resize(n, x)` for `n` not less than the size. -/
def grow {α : Type} (n : ℕ) (x : α) (l : List α) : List α := l ++ List.replicate (n - l.length) x

/-- Mark a node as main node; /repo/lib/lf/io/gmsh_reader.cc:165-169, 396-399. -/
def markMain (main : List Bool) (n : ℕ) : List Bool :=
  (if main.length ≤ n then grow (n + 1) false main else main).set n true

/-- Mark the first `NumNodes()` nodes of an element as main nodes; /repo/lib/lf/io/gmsh_reader.cc:162-170, 391-401. -/
def markCorners (t : GmshType) (nodes : List ℕ) (main : List Bool) : Option (List Bool) :=
  t.refEl.bind fun ref =>
    (List.range ref.numNodes).foldlM (fun main i => (nodes[i]?).bind fun n => some (markMain main n)) main

section Insert
variable {P G : Type}

/-- State of the loop which inserts the elements.  `begin` holds type and nodes of the element with index `begin`, it is
`none` before the first element (where `begin = end`). -/
structure ReadState (G : Type) where
  begin : Option (GmshType × List ℕ)
  factory : Factory G
  mi2gi : ℕ → List (List ℕ)

/-- `back().push_back(p)`; `back()` of an empty vector is undefined. -/
def pushLast (l : List (List ℕ)) (p : ℕ) : Option (List (List ℕ)) :=
  match l.getLast? with
  | none => none
  | some g => some (l.dropLast ++ [g ++ [p]])

/-- Body of the loop over the elements; /repo/lib/lf/io/gmsh_reader.cc:217-301 (version 2), 500-590 (version 4).
`look n` is the entry of `gi2mi` for the node with number `n` and `coord n` are the coordinates of this node, found through
`gi2i`; `t` and `nodes` are type and nodes of the element, `p` is the number pushed into `mi2gi` (index of the element
or of its block).  In version 4 the types are not compared, because all elements of a block have the same type. -/
def insertElement (geo : GmshGeo P G) (look : ℕ → Option (Option ℕ)) (coord : ℕ → Option P) (s : ReadState G)
    (t : GmshType) (nodes : List ℕ) (p : ℕ) : Option (ReadState G) :=
  t.refEl.bind fun ref =>
    let codim := 2 - ref.dimension
    if s.begin = some (t, nodes) then
      (pushLast (s.mi2gi codim) p).bind fun l => some { s with mi2gi := Function.update s.mi2gi codim l }
    else if ref = .point then
      (nodes[0]?).bind fun n => (look n).bind fun mi =>
        match mi with
        | none => some { s with begin := some (t, nodes) }
        | some i =>
          let l := if (s.mi2gi 2).length ≤ i then grow (i + 1) [] (s.mi2gi 2) else s.mi2gi 2
          some { s with begin := some (t, nodes), mi2gi := Function.update s.mi2gi 2 (l.modify i (· ++ [p])) }
    else
      (nodes.mapM coord).bind fun coords => (geo.make t coords).bind fun g =>
      ((List.range ref.numNodes).mapM fun i => (nodes[i]?).bind fun n => (look n).bind fun mi => mi).bind fun ns =>
      (s.factory.addEntity ref ns (some g)).bind fun f =>
        some ⟨some (t, nodes), f.1, Function.update s.mi2gi codim (s.mi2gi codim ++ [[p]])⟩

/-- The numbers of the physical entities for the `n` mesh entities of a codimension, `tags p` are the physical
numbers belonging to an entry `p` of `mi2gi`; /repo/lib/lf/io/gmsh_reader.cc:311-328, 609-634. -/
def assignTags (mi2gi : List (List ℕ)) (tags : ℕ → Option (List ℕ)) (n : ℕ) : Option (List (List ℕ)) :=
  (List.range n).mapM fun i =>
    match mi2gi[i]? with
    | none => some []
    | some l => (l.mapM tags).bind fun ts => some ts.flatten

/-- The state of a `GmshReader`: the mesh and the data set with the physical numbers, by codimension and index. -/
structure Reader (G : Type) where
  mesh : Mesh G
  phys : ℕ → List (List ℕ)

/-- `PhysicalEntityNr(e)`; /repo/lib/lf/io/gmsh_reader.cc:114-117. -/
def Reader.physNr (r : Reader G) (e : EntPtr) : Option (List ℕ) :=
  (r.mesh.index e).bind fun i => (r.phys (Mesh.codim e))[i]?

/-- `IsPhysicalEntity(e, nr)`; /repo/lib/lf/io/gmsh_reader.cc:16-22. -/
def Reader.isPhysical (r : Reader G) (e : EntPtr) (nr : ℕ) : Option Bool :=
  (r.physNr e).bind fun l => some (decide (nr ∈ l))

/-- Steps 4 and 5 (version 2) and 4 to 6 (version 4): build the mesh, assign the physical numbers;
/repo/lib/lf/io/gmsh_reader.cc:303-328, 593-634.  `chk` is the flag `check_completeness` of the factory. -/
def finishRead (ops : GeoOps G) (chk : Bool) (tags : ℕ → ℕ → Option (List ℕ)) (s : ReadState G) : Option (Reader G) :=
  (s.factory.build ops chk).bind fun M =>
    (assignTags (s.mi2gi 0) (tags 0) (M.1.trias.length + M.1.quads.length)).bind fun p0 =>
    (assignTags (s.mi2gi 1) (tags 1) M.1.segments.length).bind fun p1 =>
    (assignTags (s.mi2gi 2) (tags 2) M.1.points.length).bind fun p2 =>
      some ⟨M.1, fun c => match c with | 0 => p0 | 1 => p1 | 2 => p2 | _ => []⟩

end Insert

/-! ## Version 2 -/

/-- `GMshFileV2::Element`; /repo/lib/lf/io/gmsh_file_v2.h:164-200.  Only the members used by the reader. -/
structure ElementV2 where
  type : GmshType
  phys : ℕ
  nodes : List ℕ
  deriving DecidableEq, Repr

/-- `GMshFileV2`; /repo/lib/lf/io/gmsh_file_v2.h:17-260.  Nodes are pairs of number and coordinates. -/
structure FileV2 (P : Type) where
  nodes : List (ℕ × P)
  elements : List ElementV2

section V2
variable {P G : Type}

/-- Step 1: the vector `is_main_node`; /repo/lib/lf/io/gmsh_reader.cc:136-179. -/
def mainV2 (file : FileV2 P) : Option (List Bool) :=
  (file.elements.foldlM (fun main e =>
    if e.type.dim ≤ 2 then
      if e.type ≠ .point then markCorners e.type e.nodes main else some main
    else none) (List.replicate file.nodes.length false)).bind fun main =>
  if file.elements.any (fun e => decide (e.type.dim = 2)) then some main else none

/-- Step 2, body of the loop over the nodes; /repo/lib/lf/io/gmsh_reader.cc:192-214.  State: `gi2mi`, `gi2i`, factory. -/
def insertNodeV2 (geo : GmshGeo P G) (main : List Bool) (s : List (Option ℕ) × List (Option ℕ) × Factory G)
    (ni : (ℕ × P) × ℕ) : Option (List (Option ℕ) × List (Option ℕ) × Factory G) :=
  let n := ni.1.1
  let gi2i := (if s.2.1.length ≤ n then grow (n + 1) none s.2.1 else s.2.1).set n (some ni.2)
  if main[n]? ≠ some true then some (s.1, gi2i, s.2.2)
  else (geo.point ni.1.2).bind fun g =>
    let f := s.2.2.addPoint g
    if n < s.1.length then some (s.1.set n (some f.2), gi2i, f.1) else none

/-- `InitGmshFile(const GMshFileV2&)`; /repo/lib/lf/io/gmsh_reader.cc:120-346, for a fresh factory. -/
def readV2 (geo : GmshGeo P G) (ops : GeoOps G) (chk : Bool) (file : FileV2 P) : Option (Reader G) :=
  (mainV2 file).bind fun main =>
  (file.nodes.zipIdx.foldlM (insertNodeV2 geo main)
    (List.replicate main.length none, List.replicate main.length none, {})).bind fun s =>
  (file.elements.zipIdx.foldlM (fun st ei =>
      insertElement geo (fun n => s.1[n]?) (fun n => ((s.2.1[n]?).join.bind fun i => file.nodes[i]?).map (·.2))
        st ei.1.type ei.1.nodes ei.2)
    (⟨none, s.2.2, fun _ => []⟩ : ReadState G)).bind fun st =>
  finishRead ops chk (fun _ i => (file.elements[i]?).map fun e => [e.phys]) st

end V2

/-! ## Version 4 -/

/-- `GMshFileV4::ElementBlock`; /repo/lib/lf/io/gmsh_file_v4.h:399-421, without the numbers of the elements. -/
structure BlockV4 where
  dim : ℕ
  entity : ℕ
  type : GmshType
  elements : List (List ℕ)
  deriving DecidableEq, Repr

/-- `GMshFileV4`; /repo/lib/lf/io/gmsh_file_v4.h.  `entities d` are the tags and physical tags of the entities of dimension
`d`, from `entities` or, if there is a partition, from `partitioned_entities`; /repo/lib/lf/io/gmsh_reader.cc:606-628.
Simplification: tags are not negative. -/
structure FileV4 (P : Type) where
  minTag : ℕ
  maxTag : ℕ
  nodeBlocks : List (List (ℕ × P))
  blocks : List BlockV4
  entities : ℕ → List (ℕ × List ℕ)

section V4
variable {P G : Type}

/-- Step 1: the vector `is_main_node`; /repo/lib/lf/io/gmsh_reader.cc:366-413.  A tag less than `min_node_tag` gives a
huge index after the subtraction of unsigned numbers, for which the vector cannot be resized. -/
def mainV4 (file : FileV4 P) : Option (List Bool) :=
  if file.maxTag + 1 < file.minTag then none
  else
    (file.blocks.foldlM (fun main b =>
      if b.dim ≤ 2 ∧ b.dim = b.type.dim then
        if b.dim = 2 then
          b.elements.foldlM (fun main nodes =>
            b.type.refEl.bind fun ref =>
              (List.range ref.numNodes).foldlM (fun main i => (nodes[i]?).bind fun n =>
                if n < file.minTag then none else some (markMain main (n - file.minTag))) main) main
        else some main
      else none) (List.replicate (file.maxTag + 1 - file.minTag) false)).bind fun main =>
    if file.blocks.any (fun b => decide (b.dim = 2 ∧ b.elements ≠ [])) then some main else none

/-- Step 2, body of the loops over the nodes; /repo/lib/lf/io/gmsh_reader.cc:430-456.  State: `gi2mi`, `gi2i`, factory. -/
def insertNodeV4 (geo : GmshGeo P G) (minTag : ℕ) (main : List Bool)
    (s : List (Option ℕ) × List (Option (ℕ × ℕ)) × Factory G) (n : ℕ) (x : P) (j k : ℕ) :
    Option (List (Option ℕ) × List (Option (ℕ × ℕ)) × Factory G) :=
  if n < minTag ∨ s.2.1.length ≤ n - minTag then none
  else
    let gi2i := s.2.1.set (n - minTag) (some (j, k))
    (main[n - minTag]?).bind fun isMain =>
    if !isMain then some (s.1, gi2i, s.2.2)
    else (geo.point x).bind fun g =>
      let f := s.2.2.addPoint g
      if n - minTag < s.1.length then some (s.1.set (n - minTag) (some f.2), gi2i, f.1) else none

/-- `makeMap`; /repo/lib/lf/io/gmsh_reader.cc:603-616. -/
def makeMap (entities : List (ℕ × List ℕ)) : List (List ℕ) :=
  entities.foldl (fun t e => t.set e.1 e.2) (List.replicate (entities.foldl (fun m e => max m e.1) 0 + 1) [])

/-- `InitGmshFile(const GMshFileV4&)`; /repo/lib/lf/io/gmsh_reader.cc:349-643, for a fresh factory. -/
def readV4 (geo : GmshGeo P G) (ops : GeoOps G) (chk : Bool) (file : FileV4 P) : Option (Reader G) :=
  (mainV4 file).bind fun main =>
  (file.nodeBlocks.zipIdx.foldlM (fun s (bj : List (ℕ × P) × ℕ) => bj.1.zipIdx.foldlM (fun s nk =>
      insertNodeV4 geo file.minTag main s nk.1.1 nk.1.2 bj.2 nk.2) s)
    (List.replicate main.length none, List.replicate main.length none, {})).bind fun s =>
  (file.blocks.zipIdx.foldlM (fun st (bi : BlockV4 × ℕ) =>
      bi.1.elements.foldlM (fun st nodes =>
        insertElement geo (fun n => if n < file.minTag then none else s.1[n - file.minTag]?)
          (fun n => if n < file.minTag then none else
            ((s.2.1[n - file.minTag]?).join.bind fun jk =>
              (file.nodeBlocks[jk.1]?).bind fun b => b[jk.2]?).map (·.2))
          st bi.1.type nodes bi.2) { st with begin := none })
    (⟨none, s.2.2, fun _ => []⟩ : ReadState G)).bind fun st =>
  finishRead ops chk (fun c i => (file.blocks[i]?).bind fun b => (makeMap (file.entities (2 - c)))[b.entity]?) st

end V4

end Verif
