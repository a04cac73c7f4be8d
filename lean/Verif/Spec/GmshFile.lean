import Verif.Spec.MshFormat2
import Verif.Spec.GmshValid
import Verif.Model.GmshPhys
import Mathlib.Data.Int.ModEq

/-!
# What a file in the MSH format says

The numbers of the element types are those of the documentation of Gmsh (section "Node ordering" and the description of the
file format).  Integers of a file which do not fit are taken modulo `2 ^ 32`.
-/

namespace Verif

open Msh

/-- Numbers of the element types of dimension at most two, and of the others. -/
def HasNumber (z : ℤ) (t : GmshType) : Prop :=
  (z, t) ∈ [((15 : ℤ), GmshType.point), (1, .edge2), (8, .edge3), (26, .edge4), (27, .edge5), (28, .edge6), (2, .tria3),
    (9, .tria6), (20, .tria9), (21, .tria10), (22, .tria12), (23, .tria15), (24, .tria15_5), (25, .tria21), (3, .quad4),
    (16, .quad8), (10, .quad9)] ∨ ∃ n ∈ [4, 5, 6, 7, 11, 12, 13, 14, 17, 18, 19, 29, 30, 31, 92, 93], z = (n : ℕ) ∧ t = .solid n

/-- The unsigned number with 32 bits for an integer. -/
def IsUnsigned (z : ℤ) (n : ℕ) : Prop := n < 2 ^ 32 ∧ (n : ℤ) ≡ z [ZMOD 2 ^ 32]

/-- The names of the physical groups. -/
def NamesMatch (l : List Msh.PhysName) (names : List (Verif.PhysName Txt)) : Prop :=
  List.Forall₂ (fun p q => q.name = p.name ∧ IsUnsigned p.tag q.number ∧ IsUnsigned p.dim q.dimension) l names

section
variable {R P : Type}

/-- Nodes and elements of a file of version 2.2. -/
structure Matches2 (pos : Msh.Vec R → P) (F : MshFile2 R) (file : FileV2 P) : Prop where
  nodes : file.nodes = F.nodes.map fun x => (x.1, pos x.2)
  elements : List.Forall₂ (fun e x => HasNumber e.type x.type ∧ IsUnsigned e.phys x.phys ∧ x.nodes = e.nodes) F.elems file.elements

/-- The entities of dimension `d` are those in the section Entities, or those in PartitionedEntities if there are partitions. -/
def EntitiesMatch (l : List (ℤ × List ℤ)) (es : List (ℕ × List ℕ)) : Prop :=
  List.Forall₂ (fun (a : ℤ × List ℤ) (b : ℕ × List ℕ) => a.1 = (b.1 : ℤ) ∧ a.1 < 2 ^ 31 ∧ List.Forall₂ IsUnsigned a.2 b.2) l es

/-- Nodes, elements and entities of a file of version 4.1.  Tags of entities are not negative. -/
structure Matches4 (pos : Msh.Vec R → P) (F : MshFile R) (file : FileV4 P) : Prop where
  minTag : file.minTag = F.nodes.minTag
  maxTag : file.maxTag = F.nodes.maxTag
  nodes : file.nodeBlocks = F.nodes.blocks.map fun b => b.nodes.map fun x => (x.1, pos x.2)
  blocks : List.Forall₂ (fun b x => b.dim = (x.dim : ℤ) ∧ b.dim < 2 ^ 31 ∧ b.tag = (x.entity : ℤ) ∧ b.tag < 2 ^ 31 ∧
    HasNumber b.type x.type ∧ x.elements = b.elems.map (·.2)) F.elems.blocks file.blocks
  points : F.parts.num = 0 → EntitiesMatch (F.ents.points.map fun e => (e.tag, e.phys)) (file.entities 0)
  curves : F.parts.num = 0 → EntitiesMatch (F.ents.curves.map fun e => (e.tag, e.phys)) (file.entities 1)
  surfaces : F.parts.num = 0 → EntitiesMatch (F.ents.surfaces.map fun e => (e.tag, e.phys)) (file.entities 2)
  partPoints : F.parts.num ≠ 0 → EntitiesMatch (F.parts.ents.points.map fun e => (e.tag, e.phys)) (file.entities 0)
  partCurves : F.parts.num ≠ 0 → EntitiesMatch (F.parts.ents.curves.map fun e => (e.tag, e.phys)) (file.entities 1)
  partSurfaces : F.parts.num ≠ 0 → EntitiesMatch (F.parts.ents.surfaces.map fun e => (e.tag, e.phys)) (file.entities 2)
  solids : ∀ d > 2, file.entities d = []

end

section
variable {P : Type}

/-- The string is a file of version 2.2, text or binary, with the given contents. -/
inductive IsFileV2 (dec : Msh.Vec ℚ → P) (bits : Msh.Vec ℕ → P) (s : Txt) (file : FileV2 P) (names : List (Verif.PhysName Txt)) : Prop
  | text (F : MshFile2 ℚ) (hs : (headText2 ⊙ fileRel2 nodesText2 elemsTextRel F ⊙ Blank) s) (hf : Matches2 dec F file)
      (hn : NamesMatch F.names names)
  | binary (big : Bool) (F : MshFile2 ℕ) (hs : (headBinary2 big ⊙ fileRel2 (nodesBinary big) (elemsBinary big) F ⊙ Blank) s)
      (hf : Matches2 bits F file) (hn : NamesMatch F.names names)

/-- The string is a file of version 4.1, text or binary, with the given contents; in binary files there are no comments. -/
inductive IsFileV4 (dec : Msh.Vec ℚ → P) (bits : Msh.Vec ℕ → P) (s : Txt) (file : FileV4 P) (names : List (Verif.PhysName Txt)) : Prop
  | text (F : MshFile ℚ) (hs : (headText ⊙ fileRel textFmt commentText F ⊙ Blank) s) (hf : Matches4 dec F file)
      (hn : NamesMatch F.names names)
  | binary (big : Bool) (F : MshFile ℕ) (hs : (headBinary big ⊙ fileRel (binFmt big) noComments F ⊙ Blank) s)
      (hf : Matches4 bits F file) (hn : NamesMatch F.names names)

/-! ### What the mesh must be -/

variable {G : Type}

/-- Mesh and physical numbers belong to a file of version 2: the nodes are the corners of cells and edges of the file in the order of
the file; the cells are the two-dimensional elements; the one-dimensional elements are edges; each node, edge or cell has the
physical numbers of the elements with the same corners. -/
structure ReadsV2 (geo : GmshGeo P G) (file : FileV2 P) (r : Reader G) : Prop where
  nodes : r.mesh.points.map some = (file.nodes.filter fun x => file.isMain x.1).map fun x => geo.point x.2
  cells : ∀ e ∈ file.elements, e.type.dim = 2 → ∃ i < r.mesh.topo.numCells,
    elementCorners file.nums e.type e.nodes = some (r.mesh.topo.cell i).nodes ∧
    elementGeo geo file.nodes e.type e.nodes = ((r.mesh.entityByIndex 0 i).bind r.mesh.cellOf).map (·.geo)
  onlyCells : ∀ i < r.mesh.topo.numCells, ∃ e ∈ file.elements, e.type.dim = 2 ∧
    elementCorners file.nums e.type e.nodes = some (r.mesh.topo.cell i).nodes ∧
    elementGeo geo file.nodes e.type e.nodes = ((r.mesh.entityByIndex 0 i).bind r.mesh.cellOf).map (·.geo)
  edges : ∀ e ∈ file.elements, e.type.dim = 1 → ∃ i < r.mesh.topo.numEdges,
    elementCorners file.nums e.type e.nodes = some [(r.mesh.topo.edge i).1, (r.mesh.topo.edge i).2] ∧
    elementGeo geo file.nodes e.type e.nodes = ((r.mesh.entityByIndex 1 i).bind r.mesh.segOf).map (·.geo)
  cellNumbers : ∀ i < r.mesh.topo.numCells,
    (∀ j < r.mesh.topo.numCells, (r.mesh.topo.cell j).nodes = (r.mesh.topo.cell i).nodes → j = i) →
    ∃ e, r.mesh.entityByIndex 0 i = some e ∧
      r.physNr e = some (file.physOf 2 fun ns => decide (ns = (r.mesh.topo.cell i).nodes))
  edgeNumbers : ∀ i < r.mesh.topo.numEdges, ∃ e, r.mesh.entityByIndex 1 i = some e ∧
    r.physNr e = some (file.physOf 1 fun ns => decide (SameEnds ns [(r.mesh.topo.edge i).1, (r.mesh.topo.edge i).2]))
  nodeNumbers : ∀ i < r.mesh.topo.numNodes, ∃ e, r.mesh.entityByIndex 2 i = some e ∧
    r.physNr e = some (file.physOf 0 fun ns => decide (ns = [i]))

/-- The same for files of version 4, in which the nodes of the mesh are the corners of cells. -/
structure ReadsV4 (geo : GmshGeo P G) (file : FileV4 P) (r : Reader G) : Prop where
  nodes : r.mesh.points.map some = (file.allNodes.filter fun x => file.isMain x.1).map fun x => geo.point x.2
  cells : ∀ e ∈ file.elements, e.1.type.dim = 2 → ∃ i < r.mesh.topo.numCells,
    elementCorners file.nums e.1.type e.2 = some (r.mesh.topo.cell i).nodes ∧
    elementGeo geo file.allNodes e.1.type e.2 = ((r.mesh.entityByIndex 0 i).bind r.mesh.cellOf).map (·.geo)
  onlyCells : ∀ i < r.mesh.topo.numCells, ∃ e ∈ file.elements, e.1.type.dim = 2 ∧
    elementCorners file.nums e.1.type e.2 = some (r.mesh.topo.cell i).nodes ∧
    elementGeo geo file.allNodes e.1.type e.2 = ((r.mesh.entityByIndex 0 i).bind r.mesh.cellOf).map (·.geo)
  edges : ∀ e ∈ file.elements, e.1.type.dim = 1 → ∃ i < r.mesh.topo.numEdges,
    elementCorners file.nums e.1.type e.2 = some [(r.mesh.topo.edge i).1, (r.mesh.topo.edge i).2] ∧
    elementGeo geo file.allNodes e.1.type e.2 = ((r.mesh.entityByIndex 1 i).bind r.mesh.segOf).map (·.geo)
  cellNumbers : ∀ i < r.mesh.topo.numCells,
    (∀ j < r.mesh.topo.numCells, (r.mesh.topo.cell j).nodes = (r.mesh.topo.cell i).nodes → j = i) →
    ∃ e, r.mesh.entityByIndex 0 i = some e ∧
      r.physNr e = some (file.physOf 2 fun ns => decide (ns = (r.mesh.topo.cell i).nodes))
  edgeNumbers : ∀ i < r.mesh.topo.numEdges, ∃ e, r.mesh.entityByIndex 1 i = some e ∧
    r.physNr e = some (file.physOf 1 fun ns => decide (SameEnds ns [(r.mesh.topo.edge i).1, (r.mesh.topo.edge i).2]))
  nodeNumbers : ∀ i < r.mesh.topo.numNodes, ∃ e, r.mesh.entityByIndex 2 i = some e ∧
    r.physNr e = some (file.physOf 0 fun ns => decide (ns = [i]))

end

end Verif
