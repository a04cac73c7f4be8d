import Verif.Model.MshParser
import Mathlib.Data.Nat.Digits.Defs
import Mathlib.Data.List.FinRange

/-!
# The MSH file format, version 4.1

The format as described in the reference manual of gmsh, section "MSH file format", for files without parametric nodes.  A
relation `Rel` tells which strings are representations of a value; there are many strings for one value, because white space,
leading zeros, comments and absent sections are free.  Only the data types are taken from the model.
-/

namespace Verif

namespace Msh

/-- A set of strings. -/
def Rel : Type := Txt → Prop

/-- One after the other. -/
def Rel.seq (a b : Rel) : Rel := fun s => ∃ u v, s = u ++ v ∧ a u ∧ b v

@[inherit_doc] infixr:65 " ⊙ " => Rel.seq

/-- The empty string. -/
def Rel.nil : Rel := fun s => s = []

/-- The representations of the members of a list, one after the other. -/
def Rel.many {α : Type} (r : α → Rel) : List α → Rel
  | [] => Rel.nil
  | a :: l => r a ⊙ Rel.many r l

/-- A part which may be left out if it has the default value. -/
def Rel.opt {α : Type} (dflt a : α) (r : Rel) : Rel := fun s => (a = dflt ∧ s = []) ∨ r s

/-- Any number of members of a set of strings. -/
def Rel.star (r : Rel) : Rel := fun s => ∃ l : List Txt, (∀ t ∈ l, r t) ∧ s = l.flatten

/-- A way to write numbers, keywords and comments. -/
structure Fmt (R : Type) where
  int : ℤ → Rel
  size : ℕ → Rel
  real : R → Rel
  zero : Rel
  sixteen : Rel
  opening : Txt → Rel
  closing : Txt → Rel
  comment : Rel

/-- Number of nodes of the element types, from the comments in /repo/lib/lf/io/gmsh_file_v4.h:316-387. -/
def nodesOfType : List (ℤ × ℕ) :=
  [(1, 2), (2, 3), (3, 4), (4, 4), (5, 8), (6, 6), (7, 5), (8, 3), (9, 6), (10, 9), (11, 10), (12, 27), (13, 18), (14, 14),
    (15, 1), (16, 8), (17, 20), (18, 15), (19, 13), (20, 9), (21, 10), (22, 12), (23, 15), (24, 15), (25, 21), (26, 4),
    (27, 5), (28, 6), (29, 20), (30, 35), (31, 56), (92, 64), (93, 125)]

namespace Fmt
variable {R : Type} (f : Fmt R)

/-- Three coordinates. -/
def vec (v : Vec R) : Rel := f.real v.1 ⊙ f.real v.2.1 ⊙ f.real v.2.2

/-- The length of a list and its members. -/
def list {α : Type} (r : α → Rel) (l : List α) : Rel := f.size l.length ⊙ Rel.many r l

/-- pointTag X Y Z numPhysicalTags physicalTag ... -/
def point (e : PointEnt R) : Rel := f.int e.tag ⊙ f.vec e.coord ⊙ f.list f.int e.phys

/-- tag minX minY minZ maxX maxY maxZ numPhysicalTags physicalTag ... numBounding boundingTag ... -/
def entity (e : Ent R) : Rel := f.int e.tag ⊙ f.vec e.lo ⊙ f.vec e.hi ⊙ f.list f.int e.phys ⊙ f.list f.int e.bounding

/-- pointTag parentDim parentTag numPartitions partitionTag ... X Y Z numPhysicalTags physicalTag ... -/
def partPoint (e : PartPoint R) : Rel :=
  f.int e.tag ⊙ f.int e.parentDim ⊙ f.int e.parentTag ⊙ f.list f.int e.partitions ⊙ f.vec e.coord ⊙ f.list f.int e.phys

/-- The same with a bounding box and the tags of the bounding entities. -/
def partEntity (e : PartEnt R) : Rel :=
  f.int e.tag ⊙ f.int e.parentDim ⊙ f.int e.parentTag ⊙ f.list f.int e.partitions ⊙ f.vec e.lo ⊙ f.vec e.hi ⊙
    f.list f.int e.phys ⊙ f.list f.int e.bounding

/-- numPoints numCurves numSurfaces numVolumes, then the entities. -/
def ents {A B : Type} (a : A → Rel) (b : B → Rel) (e : Ents A B) : Rel :=
  f.size e.points.length ⊙ f.size e.curves.length ⊙ f.size e.surfaces.length ⊙ f.size e.volumes.length ⊙
    Rel.many a e.points ⊙ Rel.many b e.curves ⊙ Rel.many b e.surfaces ⊙ Rel.many b e.volumes

/-- A section with its keywords. -/
def sect (name : Txt) (r : Rel) : Rel := f.opening name ⊙ r ⊙ f.closing name

/-- Section Entities. -/
def entities (e : Ents (PointEnt R) (Ent R)) : Rel := f.sect "Entities".toList (f.ents f.point f.entity e)

/-- Section PartitionedEntities: numPartitions numGhostEntities ghostEntityTag partition ..., then the entities. -/
def parts (p : Parts R) : Rel :=
  f.sect "PartitionedEntities".toList
    (f.size p.num ⊙ f.list (fun g => f.int g.1 ⊙ f.int g.2) p.ghosts ⊙ f.ents f.partPoint f.partEntity p.ents)

/-- entityDim entityTag parametric numNodesInBlock, all tags, all coordinates. -/
def nodeBlock (b : NodeBlock R) : Rel := fun s =>
  b.parametric = false ∧
  (f.int b.dim ⊙ f.int b.tag ⊙ f.int 0 ⊙ f.size b.nodes.length ⊙ Rel.many (fun n => f.size n.1) b.nodes ⊙
    Rel.many (fun n => f.vec n.2) b.nodes) s

/-- Section Nodes: numEntityBlocks numNodes minNodeTag maxNodeTag, then the blocks. -/
def nodes (n : Nodes R) : Rel :=
  f.sect "Nodes".toList
    (f.size n.blocks.length ⊙ f.size n.num ⊙ f.size n.minTag ⊙ f.size n.maxTag ⊙ Rel.many f.nodeBlock n.blocks)

/-- entityDim entityTag elementType numElementsInBlock, then elementTag nodeTag ...; the number of nodes belongs to the
type. -/
def elemBlock (b : ElemBlock) : Rel := fun s =>
  (∀ e ∈ b.elems, (b.type, e.2.length) ∈ nodesOfType) ∧
  (f.int b.dim ⊙ f.int b.tag ⊙ f.int b.type ⊙ f.size b.elems.length ⊙
    Rel.many (fun e => f.size e.1 ⊙ Rel.many f.size e.2) b.elems) s

/-- Section Elements: numEntityBlocks numElements minElementTag maxElementTag, then the blocks. -/
def elems (e : Elems) : Rel :=
  f.sect "Elements".toList
    (f.size e.blocks.length ⊙ f.size e.num ⊙ f.size e.minTag ⊙ f.size e.maxTag ⊙ Rel.many f.elemBlock e.blocks)

/-- numAffine (0 or 16) and the entries of the matrix, row by row. -/
def transform : Option (Fin 4 → Fin 4 → R) → Rel
  | none => f.zero
  | some m => f.sixteen ⊙ Rel.many f.real ((List.finRange 4).flatMap fun i => (List.finRange 4).map (m i))

/-- entityDim entityTag entityTagMaster, the affine transformation, numCorrespondingNodes, the pairs of nodes. -/
def link (l : Link R) : Rel :=
  f.int l.dim ⊙ f.int l.slave ⊙ f.int l.master ⊙ f.transform l.affine ⊙ f.list (fun n => f.size n.1 ⊙ f.size n.2) l.nodes

/-- Section Periodic. -/
def links (l : List (Link R)) : Rel := f.sect "Periodic".toList (f.list f.link l)

/-- elementTag partitionTag numGhostPartitions ghostPartitionTag ... -/
def ghost (g : GhostElem) : Rel := f.size g.tag ⊙ f.int g.partition ⊙ f.list f.int g.ghosts

/-- Section GhostElements. -/
def ghosts (l : List GhostElem) : Rel := f.sect "GhostElements".toList (f.list f.ghost l)

end Fmt

/-! ## Text -/

/-- White space. -/
def Blank (s : Txt) : Prop := ∀ c ∈ s, c ∈ [' ', '\t', '\n', '\x0b', '\x0c', '\r']

/-- A word after some white space. -/
def token (w : Txt) : Rel := fun s => ∃ b, b ≠ [] ∧ Blank b ∧ s = b ++ w

/-- `d` is a sequence of decimal digits with value `n`. -/
def Decimal (n : ℕ) (d : Txt) : Prop :=
  d ≠ [] ∧ (∀ c ∈ d, '0' ≤ c ∧ c ≤ '9') ∧ Nat.ofDigits 10 (d.reverse.map fun c => c.toNat - 48) = n

/-- `w` is a sign, it stands for the factor `σ`. -/
def Sign (σ : ℤ) (w : Txt) : Prop := (σ = 1 ∧ (w = [] ∨ w = ['+'])) ∨ (σ = -1 ∧ w = ['-'])

/-- A decimal integer which fits into 32 bits. -/
def intText (i : ℤ) : Rel := fun s =>
  -2 ^ 31 ≤ i ∧ i < 2 ^ 31 ∧ ∃ (σ : ℤ) (n : ℕ), i = σ * (n : ℤ) ∧ ∃ w d, Sign σ w ∧ Decimal n d ∧ token (w ++ d) s

/-- A decimal number which fits into 64 bits. -/
def sizeText (n : ℕ) : Rel := fun s => n < 2 ^ 64 ∧ ∃ d, Decimal n d ∧ token d s

/-- The part of a number after the digits before the point: nothing, or a point and more digits with value `x`. -/
def FracText (x : ℚ) (w : Txt) : Prop :=
  (x = 0 ∧ w = []) ∨ ∃ (n : ℕ) (d : Txt), Decimal n d ∧ w = '.' :: d ∧ x = n / 10 ^ d.length

/-- An exponent with value `e`, or nothing. -/
def ExpText (e : ℤ) (w : Txt) : Prop :=
  (e = 0 ∧ w = []) ∨ ∃ (σ : ℤ) (n : ℕ) (v d : Txt), Sign σ v ∧ Decimal n d ∧ e = σ * (n : ℤ) ∧ (w = 'e' :: (v ++ d) ∨ w = 'E' :: (v ++ d))

/-- A decimal number with sign, fraction and exponent. -/
def realText (x : ℚ) : Rel := fun s =>
  ∃ (σ : ℤ) (n : ℕ) (y : ℚ) (e : ℤ), x = σ * ((n : ℚ) + y) * 10 ^ e ∧
    ∃ v d fr ex, Sign σ v ∧ Decimal n d ∧ FracText y fr ∧ ExpText e ex ∧ token (v ++ d ++ fr ++ ex) s

/-- The names of the standard sections. -/
def sectionNames : List Txt :=
  ["PhysicalNames".toList, "Entities".toList, "PartitionedEntities".toList, "Nodes".toList, "Elements".toList,
    "Periodic".toList, "GhostElements".toList]

/-- A section whose name does not begin with one of `names` is a comment; its text does not contain the character `$`. -/
def commentOf (names : List Txt) : Rel := fun s =>
  ∃ name nl body, name ≠ [] ∧ (∀ c ∈ name, c ≠ '\n' ∧ c ≠ '\r') ∧ (∀ c ∈ name.head?, ¬ Blank [c]) ∧
    (∀ k ∈ names, ¬ k <+: name) ∧ (nl = ['\n'] ∨ nl = ['\r', '\n']) ∧ '$' ∉ body ∧
    token ('$' :: name ++ nl ++ body ++ "$End".toList ++ name) s

/-- A comment in a file of version 4.1. -/
def commentText : Rel := commentOf sectionNames

/-- The text format. -/
def textFmt : Fmt ℚ where
  int := intText
  size := sizeText
  real := realText
  zero := token ['0']
  sixteen := token ['1', '6']
  opening n := token ('$' :: n)
  closing n := token ("$End".toList ++ n)
  comment := commentText

/-- dimension physicalTag "name" -/
def nameText (p : PhysName) : Rel :=
  intText p.dim ⊙ intText p.tag ⊙ fun s => p.name ≠ [] ∧ '"' ∉ p.name ∧ token ('"' :: p.name ++ ['"']) s

/-- Section PhysicalNames, which is a text also in binary files. -/
def namesText (l : List PhysName) : Rel :=
  token "$PhysicalNames".toList ⊙ sizeText l.length ⊙ Rel.many nameText l ⊙ token "$EndPhysicalNames".toList

/-! ## Binary -/

/-- `s` consists of the `k` bytes of the number `n`, the most significant byte first if `big`. -/
def bytesOf (big : Bool) (k n : ℕ) : Rel := fun s =>
  ∃ b : List ℕ, b.length = k ∧ (∀ x ∈ b, x < 256) ∧ n = Nat.ofDigits 256 (if big then b.reverse else b) ∧
    s = b.map Char.ofNat

/-- The binary format: 32 bit two's complement numbers, 64 bit numbers, doubles given by their bits. -/
def binFmt (big : Bool) : Fmt ℕ where
  int i := fun s => -2 ^ 31 ≤ i ∧ i < 2 ^ 31 ∧ bytesOf big 4 (i % 2 ^ 32).toNat s
  size n := bytesOf big 8 n
  real n := bytesOf big 8 n
  zero := bytesOf big 8 0
  sixteen := bytesOf big 8 16
  opening n := fun s => ∃ b, Blank b ∧ s = b ++ '$' :: n ++ ['\n']
  closing n := fun s => s = "\n$End".toList ++ n
  comment := commentText

/-- The empty set of strings: comments are not used. -/
def noComments : Rel := fun _ => False

/-- The part of a file after the header, with comments from `c` after the sections. -/
def fileRel {R : Type} (f : Fmt R) (c : Rel) (F : MshFile R) : Rel :=
  c.star ⊙ Rel.opt [] F.names (namesText F.names ⊙ c.star) ⊙ f.entities F.ents ⊙ c.star ⊙
    Rel.opt noParts F.parts (f.parts F.parts ⊙ c.star) ⊙ f.nodes F.nodes ⊙ c.star ⊙ f.elems F.elems ⊙ c.star ⊙
    Rel.opt [] F.links (f.links F.links ⊙ c.star) ⊙ Rel.opt [] F.ghosts (f.ghosts F.ghosts ⊙ c.star)

/-- The header of a text file: version, 0, size of `size_t`. -/
def headText : Rel :=
  (fun s => s = "$MeshFormat".toList) ⊙ token "4.1".toList ⊙ token ['0'] ⊙ token ['8'] ⊙ token "$EndMeshFormat".toList

/-- The header of a binary file: version, 1, size of `size_t`, a line end and the number one with four bytes. -/
def headBinary (big : Bool) : Rel :=
  (fun s => s = "$MeshFormat".toList) ⊙ token "4.1".toList ⊙ token ['1'] ⊙ token ['8'] ⊙ (fun s => s = ['\n']) ⊙ bytesOf big 4 1 ⊙
    token "$EndMeshFormat".toList

end Msh

end Verif
