import Verif.Model.GmshReader
import Verif.Model.GmshPhys
import Verif.Model.MshParser2
import Mathlib.Data.Char
import Mathlib.Data.List.Lex

/-!
# `lf::io::GmshReader` from the bytes of the file

Model of the constructor `GmshReader(factory, filename)`: the parsers (MshParser.lean, MshParser2.lean) followed by
`InitGmshFile` (GmshReader.lean) and the tables of the names (GmshPhys.lean).  The definitions of this file say which members
of the parsed file are used, with the conversions between integer types.  Not modelled: reading the file from disk.
-/

namespace Verif

open Msh

/-- The enumerator of `ElementType` with a number; /repo/lib/lf/io/gmsh_file_v2.h:75-141, gmsh_file_v4.h:317-387. -/
def GmshType.ofNumber : ℤ → GmshType
  | 1 => .edge2
  | 2 => .tria3
  | 3 => .quad4
  | 8 => .edge3
  | 9 => .tria6
  | 10 => .quad9
  | 15 => .point
  | 16 => .quad8
  | 20 => .tria9
  | 21 => .tria10
  | 22 => .tria12
  | 23 => .tria15
  | 24 => .tria15_5
  | 25 => .tria21
  | 26 => .edge4
  | 27 => .edge5
  | 28 => .edge6
  | n => .solid n.toNat

/-- Conversion of an `int` to `size_type`, which is `unsigned int`. -/
def toUnsigned (z : ℤ) : ℕ := (z % 4294967296).toNat

/-- Conversion of an `int` to `std::size_t`, on use as index of a vector. -/
def toIndex (z : ℤ) : ℕ := (z % 18446744073709551616).toNat

/-- The rows of the tables of physical names; /repo/lib/lf/io/gmsh_reader.cc:333-338, 630-635. -/
def physNames (l : List Msh.PhysName) : List (Verif.PhysName Txt) :=
  l.map fun p => ⟨p.name, toUnsigned p.tag, toUnsigned p.dim⟩

section
variable {R P : Type}

/-- The members of a `GMshFileV2` used by `InitGmshFile`; `pos` is the vector with the given coordinates; `PhysicalEntityNr`
is converted to `size_type` at /repo/lib/lf/io/gmsh_reader.cc:322. -/
def Msh.MshFile2.toV2 (pos : Msh.Vec R → P) (F : MshFile2 R) : FileV2 P where
  nodes := F.nodes.map fun x => (x.1, pos x.2)
  elements := F.elems.map fun e => ⟨.ofNumber e.type, toUnsigned e.phys, e.nodes⟩

/-- Tags and physical tags of the entities of dimension `d`, from `entities` or from `partitioned_entities`;
/repo/lib/lf/io/gmsh_reader.cc:579-597.  The entities of dimension three are not used. -/
def Msh.MshFile.entityList (F : MshFile R) (d : ℕ) : List (ℤ × List ℤ) :=
  if F.parts.num = 0 then
    match d with
    | 0 => F.ents.points.map fun e => (e.tag, e.phys)
    | 1 => F.ents.curves.map fun e => (e.tag, e.phys)
    | 2 => F.ents.surfaces.map fun e => (e.tag, e.phys)
    | _ => []
  else
    match d with
    | 0 => F.parts.ents.points.map fun e => (e.tag, e.phys)
    | 1 => F.parts.ents.curves.map fun e => (e.tag, e.phys)
    | 2 => F.parts.ents.surfaces.map fun e => (e.tag, e.phys)
    | _ => []

/-- The members of a `GMshFileV4` used by `InitGmshFile`.  `none`: the tag of an entity of dimension at most two is negative,
then `makeMap` writes outside of the vector; /repo/lib/lf/io/gmsh_reader.cc:565-577.  The dimension of a block is compared with
an unsigned number (line 381) and its entity tag is used as index (line 617), the physical tags are converted to `size_type`
(lines 618-619). -/
def Msh.MshFile.toV4 (pos : Msh.Vec R → P) (F : MshFile R) : Option (FileV4 P) :=
  if (List.range 3).all fun d => (F.entityList d).all fun e => decide (0 ≤ e.1) then
    some {
      minTag := F.nodes.minTag
      maxTag := F.nodes.maxTag
      nodeBlocks := F.nodes.blocks.map fun b => b.nodes.map fun x => (x.1, pos x.2)
      blocks := F.elems.blocks.map fun b => ⟨toUnsigned b.dim, toIndex b.tag, .ofNumber b.type, b.elems.map (·.2)⟩
      entities := fun d => (F.entityList d).map fun e => (toIndex e.1, e.2.map toUnsigned) }
  else none

end

/-- A `GmshReader`: mesh, physical numbers and the list from which the tables of names are made. -/
structure GmshObj (G : Type) where
  reader : Reader G
  names : List (Verif.PhysName Txt)

/-- `GmshReader(factory, filename)`; /repo/lib/lf/io/gmsh_reader.cc:24-32.  `s` is the content of the file, `dec` and `bits` are
the vectors of doubles with given decimal numbers or bits as components. -/
def gmshOpen {P G : Type} (geo : GmshGeo P G) (ops : GeoOps G) (chk : Bool) (dec : Msh.Vec ℚ → P) (bits : Msh.Vec ℕ → P) (s : Txt) :
    Option (GmshObj G) :=
  (readGmshFile s).bind fun c =>
    match c with
    | .v4 (.text F) => ((F.toV4 dec).bind (readV4 geo ops chk)).map fun r => ⟨r, physNames F.names⟩
    | .v4 (.binary F) => ((F.toV4 bits).bind (readV4 geo ops chk)).map fun r => ⟨r, physNames F.names⟩
    | .text2 F => (readV2 geo ops chk (F.toV2 dec)).map fun r => ⟨r, physNames F.names⟩
    | .binary2 F => (readV2 geo ops chk (F.toV2 bits)).map fun r => ⟨r, physNames F.names⟩

end Verif
