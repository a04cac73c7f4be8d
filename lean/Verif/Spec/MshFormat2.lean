import Verif.Spec.MshFormat
import Verif.Model.MshParser2

/-!
# The MSH file format, version 2.2

The format as described in the reference manual of gmsh, section "MSH file format version 2 (Legacy)".  The relations tell which
strings are representations of a value, see MshFormat.lean.  Only the data types are taken from the model.  In the sections
Nodes and Elements of text files the numbers of a line are separated by one blank.
-/

namespace Verif

namespace Msh

/-- The end of a line. -/
def lineEnd : Rel := fun s => s = ['\n'] ∨ s = ['\r', '\n']

/-- One blank. -/
def oneBlank : Rel := fun s => s = [' ']

/-- A word without white space in front of it. -/
def bare (w : Txt) : Rel := fun s => s = w

/-- A decimal number which fits into 32 bits. -/
def uintWord (n : ℕ) : Rel := fun s => n < 2 ^ 32 ∧ Decimal n s

/-- A decimal integer which fits into 32 bits. -/
def intWord (i : ℤ) : Rel := fun s =>
  -2 ^ 31 ≤ i ∧ i < 2 ^ 31 ∧ ∃ (σ : ℤ) (n : ℕ), i = σ * (n : ℤ) ∧ ∃ w d, Sign σ w ∧ Decimal n d ∧ s = w ++ d

/-- A decimal number with sign, fraction and exponent. -/
def realWord (x : ℚ) : Rel := fun s =>
  ∃ (σ : ℤ) (n : ℕ) (y : ℚ) (e : ℤ), x = σ * ((n : ℚ) + y) * 10 ^ e ∧
    ∃ v d fr ex, Sign σ v ∧ Decimal n d ∧ FracText y fr ∧ ExpText e ex ∧ s = v ++ d ++ fr ++ ex

/-- node-number x-coord y-coord z-coord -/
def nodeLine (n : ℕ × Vec ℚ) : Rel :=
  uintWord n.1 ⊙ oneBlank ⊙ realWord n.2.1 ⊙ oneBlank ⊙ realWord n.2.2.1 ⊙ oneBlank ⊙ realWord n.2.2.2 ⊙ lineEnd

/-- The tags of an element: the physical entity, the elementary entity, and possibly the number of partitions to which it
belongs and these partitions. -/
def Tags (e : Elem2) (tags : List ℤ) : Prop :=
  (tags = [e.phys, e.elementary] ∧ e.partitions = []) ∨
    tags = e.phys :: e.elementary :: (e.partitions.length : ℤ) :: e.partitions

/-- Numbers separated by one blank. -/
def numberList : List ℕ → Rel
  | [] => Rel.nil
  | a :: l => uintWord a ⊙ Rel.many (fun n => oneBlank ⊙ uintWord n) l

/-- elm-number elm-type number-of-tags < tag > ... node-number-list; at the end of the line there may be blanks.  The number of
nodes belongs to the type. -/
def elemLine (e : Elem2) : Rel := fun s =>
  (e.type, e.nodes.length) ∈ nodesOfType ∧ ∃ tags, Tags e tags ∧
    (intWord e.number ⊙ oneBlank ⊙ intWord e.type ⊙ oneBlank ⊙ intWord tags.length ⊙ oneBlank ⊙
      Rel.many (fun t => intWord t ⊙ oneBlank) tags ⊙ numberList e.nodes ⊙ (fun b => ∀ c ∈ b, c = ' ' ∨ c = '\t') ⊙ lineEnd) s

/-- Section Nodes of a text file. -/
def nodesText2 (l : List (ℕ × Vec ℚ)) : Rel :=
  token "$Nodes".toList ⊙ lineEnd ⊙ uintWord l.length ⊙ lineEnd ⊙ Rel.many nodeLine l ⊙ bare "$EndNodes".toList

/-- Section Elements of a text file. -/
def elemsTextRel (l : List Elem2) : Rel :=
  token "$Elements".toList ⊙ lineEnd ⊙ uintWord l.length ⊙ lineEnd ⊙ Rel.many elemLine l ⊙ bare "$EndElements".toList

/-- A 32 bit two's complement number. -/
def int4 (big : Bool) (i : ℤ) : Rel := fun s => -2 ^ 31 ≤ i ∧ i < 2 ^ 31 ∧ bytesOf big 4 (i % 2 ^ 32).toNat s

/-- A node of a binary file: number and coordinates (the bits of doubles). -/
def nodeBytes (big : Bool) (n : ℕ × Vec ℕ) : Rel :=
  bytesOf big 4 n.1 ⊙ bytesOf big 8 n.2.1 ⊙ bytesOf big 8 n.2.2.1 ⊙ bytesOf big 8 n.2.2.2

/-- Section Nodes of a binary file. -/
def nodesBinary (big : Bool) (l : List (ℕ × Vec ℕ)) : Rel :=
  token "$Nodes".toList ⊙ lineEnd ⊙ uintWord l.length ⊙ lineEnd ⊙ Rel.many (nodeBytes big) l ⊙ lineEnd ⊙ bare "$EndNodes".toList

/-- An element of a block with elements of type `ty` with `k` tags: number, tags, nodes. -/
def elemBytes (big : Bool) (ty : ℤ) (k : ℕ) (e : Elem2) : Rel := fun s =>
  e.type = ty ∧ (ty, e.nodes.length) ∈ nodesOfType ∧ ∃ tags, Tags e tags ∧ tags.length = k ∧
    (bytesOf big 4 e.number ⊙ Rel.many (int4 big) tags ⊙ Rel.many (bytesOf big 4) e.nodes) s

/-- A block: elm-type num-elm-follow num-tags, and the elements. -/
def blockBytes (big : Bool) (b : ℤ × ℕ × List Elem2) : Rel := fun s =>
  b.2.2 ≠ [] ∧
    (int4 big b.1 ⊙ int4 big b.2.2.length ⊙ int4 big b.2.1 ⊙ Rel.many (elemBytes big b.1 b.2.1) b.2.2) s

/-- Section Elements of a binary file. -/
def elemsBinary (big : Bool) (l : List Elem2) : Rel := fun s =>
  ∃ blocks : List (ℤ × ℕ × List Elem2), l = blocks.flatMap (fun b => b.2.2) ∧
    (token "$Elements".toList ⊙ lineEnd ⊙ uintWord l.length ⊙ lineEnd ⊙ Rel.many (blockBytes big) blocks ⊙ lineEnd ⊙
      bare "$EndElements".toList) s

/-- Section PhysicalNames. -/
def namesRel2 (l : List PhysName) : Rel :=
  token "$PhysicalNames".toList ⊙ intText l.length ⊙ Rel.many nameText l ⊙ token "$EndPhysicalNames".toList

/-- A number which fits into 32 bits, after some white space. -/
def uintText (n : ℕ) : Rel := fun s => n < 2 ^ 32 ∧ ∃ d, Decimal n d ∧ token d s

/-- dimension entity-tag master-entity-tag number-of-nodes, and the pairs of nodes. -/
def periodicText (p : Periodic2) : Rel :=
  intText p.dim ⊙ intText p.slave ⊙ intText p.master ⊙ uintText p.nodes.length ⊙
    Rel.many (fun n => uintText n.1 ⊙ uintText n.2) p.nodes

/-- Section Periodic. -/
def periodicRel (l : List Periodic2) : Rel :=
  token "$Periodic".toList ⊙ uintText l.length ⊙ Rel.many periodicText l ⊙ token "$EndPeriodic".toList

/-- A comment: a section with another name. -/
def comment2 : Rel := commentOf ["PhysicalNames".toList, "Nodes".toList, "Elements".toList, "Periodic".toList]

/-- The part of a file after the header. -/
def fileRel2 {R : Type} (nodes : List (ℕ × Vec R) → Rel) (elems : List Elem2 → Rel) (F : MshFile2 R) : Rel :=
  comment2.star ⊙ Rel.opt [] F.names (namesRel2 F.names ⊙ comment2.star) ⊙ nodes F.nodes ⊙ comment2.star ⊙ elems F.elems ⊙
    comment2.star ⊙ Rel.opt [] F.periodic (periodicRel F.periodic ⊙ comment2.star)

/-- The header of a text file: version, 0, size of a double. -/
def headText2 : Rel :=
  bare "$MeshFormat".toList ⊙ token "2.2".toList ⊙ token ['0'] ⊙ token ['8'] ⊙ token "$EndMeshFormat".toList

/-- The header of a binary file: version, 1, size of a double, a line end and the number one with four bytes. -/
def headBinary2 (big : Bool) : Rel :=
  bare "$MeshFormat".toList ⊙ token "2.2".toList ⊙ token ['1'] ⊙ token ['8'] ⊙ bare ['\n'] ⊙ bytesOf big 4 1 ⊙
    token "$EndMeshFormat".toList

end Msh

end Verif
