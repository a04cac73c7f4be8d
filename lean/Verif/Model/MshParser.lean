import Mathlib.Data.Rat.Defs
import Mathlib.Algebra.Field.Rat
import Mathlib.Algebra.Order.Ring.Rat

/-!
# The parsers for gmsh files of version 4.1

Model of /repo/lib/lf/io/gmsh_file_v4_text.cc, gmsh_file_v4_binary.cc, of `ReadGmshFileV4` and of the header parser of
`ReadGmshFile`.  The grammars are written with Boost.Spirit.Qi; a rule is modelled as a function from the input to the
attribute and the remaining input, `none` if the rule fails or throws.  Trusted: the semantics of the primitive parsers of
Spirit and the assignment of attributes (`%=`), member by member in the order of the adapted structures
(gmsh_file_v4_detail.h).  An input is a list of characters, in binary files a character stands for a byte.
-/

namespace Verif

namespace Msh

/-- The input, a `std::string`. -/
abbrev Txt := List Char

/-- A rule of a grammar with attribute `α`.  Simplification: failing and throwing an expectation failure are the same
outcome `none`.  This makes no difference: a rule which fails inside a section (after the keyword at its beginning) always
makes the whole file fail, because all its parts are joined by the expectation operator `>`. -/
def Parser (α : Type) : Type := Txt → Option (α × Txt)

instance : Monad Parser where
  pure a := fun s => some (a, s)
  bind p f := fun s => (p s).bind fun x => f x.1 x.2

/-- `ascii::space`. -/
def isSpace (c : Char) : Bool :=
  c = ' ' || c = '\t' || c = '\n' || c = '\x0b' || c = '\x0c' || c = '\r'

/-- The skipper `ascii::space`, applied before every primitive parser. -/
def skip (s : Txt) : Txt := s.dropWhile isSpace

/-- Match a literal without skipper. -/
def strip : Txt → Txt → Option Txt
  | [], s => some s
  | _ :: _, [] => none
  | c :: k, d :: s => if c = d then strip k s else none

/-- `qi::lit` with skipper. -/
def lit (k : Txt) : Parser Unit := fun s => (strip k (skip s)).map fun r => ((), r)

/-- `qi::lit` in a rule without skipper. -/
def litNoSkip (k : Txt) : Parser Unit := fun s => (strip k s).map fun r => ((), r)

/-- Succeed without reading anything if `P` holds, else fail. -/
def require (P : Prop) [Decidable P] : Parser Unit := fun s => if P then some ((), s) else none

/-- `qi::repeat(n)[p]`. -/
def rep {α : Type} : ℕ → Parser α → Parser (List α)
  | 0, _ => pure []
  | n + 1, p => do
    let a ← p
    let l ← rep n p
    pure (a :: l)

/-! ## Data: /repo/lib/lf/io/gmsh_file_v4.h -/

/-- `GMshFileV4::PhysicalName`; /repo/lib/lf/io/gmsh_file_v4.h:39-54. -/
structure PhysName where
  dim : ℤ
  tag : ℤ
  name : Txt

/-- `Eigen::Vector3d`. -/
abbrev Vec (R : Type) := R × R × R

/-- `PointEntity`; /repo/lib/lf/io/gmsh_file_v4.h:69-77. -/
structure PointEnt (R : Type) where
  tag : ℤ
  coord : Vec R
  phys : List ℤ

/-- `Entity`; /repo/lib/lf/io/gmsh_file_v4.h:91-115. -/
structure Ent (R : Type) where
  tag : ℤ
  lo : Vec R
  hi : Vec R
  phys : List ℤ
  bounding : List ℤ

/-- `PartitionedPointEntity`; /repo/lib/lf/io/gmsh_file_v4.h:149-181. -/
structure PartPoint (R : Type) where
  tag : ℤ
  parentDim : ℤ
  parentTag : ℤ
  partitions : List ℤ
  coord : Vec R
  phys : List ℤ

/-- `PartitionedEntity`; /repo/lib/lf/io/gmsh_file_v4.h:186-229. -/
structure PartEnt (R : Type) where
  tag : ℤ
  parentDim : ℤ
  parentTag : ℤ
  partitions : List ℤ
  lo : Vec R
  hi : Vec R
  phys : List ℤ
  bounding : List ℤ

/-- The tuples `entities` and `partitioned_entities`: entities of dimensions 0 to 3; `A` is the type for the points, `B` the
type for the others. -/
structure Ents (A B : Type) where
  points : List A
  curves : List B
  surfaces : List B
  volumes : List B

/-- `PartitionedEntities`; /repo/lib/lf/io/gmsh_file_v4.h:231-259.  A ghost entity is a pair of tag and partition. -/
structure Parts (R : Type) where
  num : ℕ
  ghosts : List (ℤ × ℤ)
  ents : Ents (PartPoint R) (PartEnt R)

/-- `NodeBlock`; /repo/lib/lf/io/gmsh_file_v4.h:267-296. -/
structure NodeBlock (R : Type) where
  dim : ℤ
  tag : ℤ
  parametric : Bool
  nodes : List (ℕ × Vec R)

/-- `Nodes`; /repo/lib/lf/io/gmsh_file_v4.h:298-313. -/
structure Nodes (R : Type) where
  num : ℕ
  minTag : ℕ
  maxTag : ℕ
  blocks : List (NodeBlock R)

/-- `ElementBlock`; /repo/lib/lf/io/gmsh_file_v4.h:399-421.  `type` is the number of the `ElementType`. -/
structure ElemBlock where
  dim : ℤ
  tag : ℤ
  type : ℤ
  elems : List (ℕ × List ℕ)

/-- `Elements`; /repo/lib/lf/io/gmsh_file_v4.h:423-443. -/
structure Elems where
  num : ℕ
  minTag : ℕ
  maxTag : ℕ
  blocks : List ElemBlock

/-- `PeriodicLink`; /repo/lib/lf/io/gmsh_file_v4.h:459-482. -/
structure Link (R : Type) where
  dim : ℤ
  slave : ℤ
  master : ℤ
  affine : Option (Fin 4 → Fin 4 → R)
  nodes : List (ℕ × ℕ)

/-- `GhostElement`; /repo/lib/lf/io/gmsh_file_v4.h:488-498. -/
structure GhostElem where
  tag : ℕ
  partition : ℤ
  ghosts : List ℤ

/-- `GMshFileV4`, the members read from the part of the file after the header. -/
structure MshFile (R : Type) where
  names : List PhysName
  ents : Ents (PointEnt R) (Ent R)
  parts : Parts R
  nodes : Nodes R
  elems : Elems
  links : List (Link R)
  ghosts : List GhostElem

/-- The initial value of `partitioned_entities`; /repo/lib/lf/io/gmsh_file_v4.h:231-265. -/
def noParts {R : Type} : Parts R := ⟨0, [], ⟨[], [], [], []⟩⟩

/-- `NumNodes`; /repo/lib/lf/io/gmsh_file_v4.cc:118-194, with the numbers of gmsh_file_v4.h:316-387.  `none` is the exception
for unknown types. -/
def numNodes : ℤ → Option ℕ
  | 1 => some 2
  | 2 => some 3
  | 3 => some 4
  | 4 => some 4
  | 5 => some 8
  | 6 => some 6
  | 7 => some 5
  | 8 => some 3
  | 9 => some 6
  | 10 => some 9
  | 11 => some 10
  | 12 => some 27
  | 13 => some 18
  | 14 => some 14
  | 15 => some 1
  | 16 => some 8
  | 17 => some 20
  | 18 => some 15
  | 19 => some 13
  | 20 => some 9
  | 21 => some 10
  | 22 => some 12
  | 23 => some 15
  | 24 => some 15
  | 25 => some 21
  | 26 => some 4
  | 27 => some 5
  | 28 => some 6
  | 29 => some 20
  | 30 => some 35
  | 31 => some 56
  | 92 => some 64
  | 93 => some 125
  | _ => none

/-! ## The part common to both grammars -/

/-- The primitive parsers in which the two grammars differ.  `zero` and `sixteen` are the two alternatives for the size of an
affine transformation, `opening n` and `closing n` match the keywords `$n` and `$Endn`. -/
structure Prims (R : Type) where
  int : Parser ℤ
  size : Parser ℕ
  real : Parser R
  zero : Parser Unit
  sixteen : Parser Unit
  opening : Txt → Parser Unit
  closing : Txt → Parser Unit
  comment : Parser Unit

section Grammar
variable {R : Type} (g : Prims R)

/-- `vec3_`; gmsh_file_v4_text.cc:50, gmsh_file_v4_binary.cc:65. -/
def vec3 : Parser (Vec R) := do
  let x ← g.real
  let y ← g.real
  let z ← g.real
  pure (x, y, z)

/-- `int_vec_`; gmsh_file_v4_text.cc:51, gmsh_file_v4_binary.cc:67. -/
def intVec : Parser (List ℤ) := do
  let n ← g.size
  rep n g.int

/-- `point_entity_`; gmsh_file_v4_text.cc:78, gmsh_file_v4_binary.cc:91. -/
def pointEnt : Parser (PointEnt R) := do
  let tag ← g.int
  let c ← vec3 g
  let ph ← intVec g
  pure ⟨tag, c, ph⟩

/-- `entity_`; gmsh_file_v4_text.cc:81, gmsh_file_v4_binary.cc:94. -/
def ent : Parser (Ent R) := do
  let tag ← g.int
  let lo ← vec3 g
  let hi ← vec3 g
  let ph ← intVec g
  let bd ← intVec g
  pure ⟨tag, lo, hi, ph, bd⟩

/-- Four counts followed by as many entities; gmsh_file_v4_text.cc:85-90, 109-117, gmsh_file_v4_binary.cc:98-103,
119-126. -/
def ents {A B : Type} (a : Parser A) (b : Parser B) : Parser (Ents A B) := do
  let n0 ← g.size
  let n1 ← g.size
  let n2 ← g.size
  let n3 ← g.size
  let l0 ← rep n0 a
  let l1 ← rep n1 b
  let l2 ← rep n2 b
  let l3 ← rep n3 b
  pure ⟨l0, l1, l2, l3⟩

/-- `entities_` (the name of the section is `Entities`); gmsh_file_v4_text.cc:84-90, gmsh_file_v4_binary.cc:97-103. -/
def entities : Parser (Ents (PointEnt R) (Ent R)) := do
  g.opening "Entities".toList
  let e ← ents g (pointEnt g) (ent g)
  g.closing "Entities".toList
  pure e

/-- `ghost_entities_`; gmsh_file_v4_text.cc:95-97, gmsh_file_v4_binary.cc:107-108. -/
def ghostEnts : Parser (List (ℤ × ℤ)) := do
  let n ← g.size
  rep n do
    let t ← g.int
    let p ← g.int
    pure (t, p)

/-- `partitioned_point_entity_`; gmsh_file_v4_text.cc:99-100, gmsh_file_v4_binary.cc:110-111. -/
def partPoint : Parser (PartPoint R) := do
  let tag ← g.int
  let pd ← g.int
  let pt ← g.int
  let ps ← intVec g
  let c ← vec3 g
  let ph ← intVec g
  pure ⟨tag, pd, pt, ps, c, ph⟩

/-- `partitioned_entity_`; gmsh_file_v4_text.cc:104-106, gmsh_file_v4_binary.cc:115-117. -/
def partEnt : Parser (PartEnt R) := do
  let tag ← g.int
  let pd ← g.int
  let pt ← g.int
  let ps ← intVec g
  let lo ← vec3 g
  let hi ← vec3 g
  let ph ← intVec g
  let bd ← intVec g
  pure ⟨tag, pd, pt, ps, lo, hi, ph, bd⟩

/-- `partitioned_entities_` after the keyword at the beginning; gmsh_file_v4_text.cc:109-122,
gmsh_file_v4_binary.cc:119-132. -/
def partsBody : Parser (Parts R) := do
  let n ← g.size
  let gh ← ghostEnts g
  let e ← ents g (partPoint g) (partEnt g)
  g.closing "PartitionedEntities".toList
  pure ⟨n, gh, e⟩

/-- `node_block_`: first all tags, then all coordinates; gmsh_file_v4_text.cc:126-131, gmsh_file_v4_binary.cc:136-141.  The
third number is assigned to a `bool`. -/
def nodeBlock : Parser (NodeBlock R) := do
  let dim ← g.int
  let tag ← g.int
  let par ← g.int
  let n ← g.size
  let tags ← rep n g.size
  let coords ← rep n (vec3 g)
  pure ⟨dim, tag, par != 0, tags.zip coords⟩

/-- `nodes_`; gmsh_file_v4_text.cc:134-136, gmsh_file_v4_binary.cc:144-145. -/
def nodes : Parser (Nodes R) := do
  g.opening "Nodes".toList
  let n ← g.size
  let num ← g.size
  let lo ← g.size
  let hi ← g.size
  let b ← rep n (nodeBlock g)
  g.closing "Nodes".toList
  pure ⟨num, lo, hi, b⟩

/-- An element of a block of type `ty`; gmsh_file_v4_text.cc:143, gmsh_file_v4_binary.cc:152. -/
def element (ty : ℤ) : Parser (ℕ × List ℕ) := do
  let t ← g.size
  match numNodes ty with
  | none => fun _ => none
  | some k => do
    let ns ← rep k g.size
    pure (t, ns)

/-- `element_block_`; gmsh_file_v4_text.cc:140-143, gmsh_file_v4_binary.cc:149-152. -/
def elemBlock : Parser ElemBlock := do
  let dim ← g.int
  let tag ← g.int
  let ty ← g.int
  let n ← g.size
  let l ← rep n (element g ty)
  pure ⟨dim, tag, ty, l⟩

/-- `elements_`; gmsh_file_v4_text.cc:146-149, gmsh_file_v4_binary.cc:155-157. -/
def elems : Parser Elems := do
  g.opening "Elements".toList
  let n ← g.size
  let num ← g.size
  let lo ← g.size
  let hi ← g.size
  let b ← rep n (elemBlock g)
  g.closing "Elements".toList
  pure ⟨num, lo, hi, b⟩

/-- `'0' | ("16" > matrix4d_)`; gmsh_file_v4_text.cc:154-160, gmsh_file_v4_binary.cc:161-169. -/
def affine : Parser (Option (List R)) := fun s =>
  match g.zero s with
  | some (_, r) => some (none, r)
  | none => (do
      g.sixteen
      let l ← rep 16 g.real
      pure (some l) : Parser (Option (List R))) s

/-- The matrix: its entries are set in the order of the storage, `seq(N)` with column-major order, by
eigen_fusion_adapter.h:84-93; then `transposeInPlace`; gmsh_file_v4.cc:330-336. -/
def matrix4 (l : List R) (h : 16 ≤ l.length) : Fin 4 → Fin 4 → R :=
  let m : Fin 4 → Fin 4 → R := fun i j => l[4 * j.val + i.val]
  fun i j => m j i

/-- `periodic_link_`; gmsh_file_v4_text.cc:160-162, gmsh_file_v4_binary.cc:168-171. -/
def link : Parser (Link R) := do
  let dim ← g.int
  let sl ← g.int
  let ma ← g.int
  let a ← affine g
  let n ← g.size
  let l ← rep n do
    let x ← g.size
    let y ← g.size
    pure (x, y)
  pure ⟨dim, sl, ma, a.bind fun l => if h : 16 ≤ l.length then some (matrix4 l h) else none, l⟩

/-- `periodic_links_` after the keyword at the beginning; gmsh_file_v4_text.cc:165-167, gmsh_file_v4_binary.cc:174-176. -/
def linksBody : Parser (List (Link R)) := do
  let n ← g.size
  let l ← rep n (link g)
  g.closing "Periodic".toList
  pure l

/-- `ghost_element_`; gmsh_file_v4_text.cc:171-173, gmsh_file_v4_binary.cc:180-182. -/
def ghostElem : Parser GhostElem := do
  let t ← g.size
  let p ← g.int
  let n ← g.size
  let l ← rep n g.int
  pure ⟨t, p, l⟩

/-- `ghost_elements_` after the keyword at the beginning; gmsh_file_v4_text.cc:176-178, gmsh_file_v4_binary.cc:185-187. -/
def ghostsBody : Parser (List GhostElem) := do
  let n ← g.size
  let l ← rep n (ghostElem g)
  g.closing "GhostElements".toList
  pure l

end Grammar

/-- `*comment_` with a bound for the number of comments. -/
def commentsN (c : Parser Unit) : ℕ → Parser Unit
  | 0 => fun s => some ((), s)
  | n + 1 => fun s =>
    match c s with
    | none => some ((), s)
    | some (_, r) => commentsN c n r

/-- `*comment_`; a comment has at least one character. -/
def comments (c : Parser Unit) : Parser Unit := fun s => commentsN c s.length s

/-- `-(section >> *comment_)`: absent if the keyword at the beginning is not found. -/
def optional {α : Type} (c : Parser Unit) (dflt : α) (o : Parser Unit) (body : Parser α) : Parser α := fun s =>
  match o s with
  | none => some (dflt, s)
  | some (_, r) => (do
      let a ← body
      comments c
      pure a : Parser α) r

/-! ## The parts of the text grammar which are used by both grammars -/

/-- `qi::int_` and `qi::ulong_long`: a non-empty sequence of decimal digits, and its value. -/
def digits : Parser ℕ := fun s =>
  let d := s.takeWhile Char.isDigit
  if d = [] then none
  else some (d.foldl (fun a c => 10 * a + (c.toNat - 48)) 0, s.dropWhile Char.isDigit)

/-- An optional sign: `true` for minus. -/
def sign : Parser Bool
  | '-' :: s => some (true, s)
  | '+' :: s => some (false, s)
  | s => some (false, s)

/-- `qi::int_` without skipper: fails for values which are not in the range of `int`. -/
def rawInt : Parser ℤ := do
  let neg ← sign
  let n ← digits
  let v : ℤ := if neg then -(n : ℤ) else n
  require (-2 ^ 31 ≤ v ∧ v < 2 ^ 31)
  pure v

/-- `qi::int_`. -/
def textInt : Parser ℤ := fun s => rawInt (skip s)

/-- `qi::ulong_long`: fails for values which are not in the range of 64 bits. -/
def textSize : Parser ℕ := fun s => (do
  let n ← digits
  require (n < 2 ^ 64)
  pure n : Parser ℕ) (skip s)

/-- `quoted_string_`; gmsh_file_v4_text.cc:48, gmsh_file_v4_binary.cc:63. -/
def quoted : Parser Txt := fun s =>
  match skip s with
  | '"' :: t =>
    match t.takeWhile (· != '"'), t.dropWhile (· != '"') with
    | [], _ => none
    | _, [] => none
    | n, _ :: r => some (n, r)
  | _ => none

/-- `physical_name_`; gmsh_file_v4_text.cc:66, gmsh_file_v4_binary.cc:80. -/
def physName : Parser PhysName := do
  let d ← textInt
  let t ← textInt
  let n ← quoted
  pure ⟨d, t, n⟩

/-- `physical_name_vector_` after the keyword at the beginning; gmsh_file_v4_text.cc:69-71, gmsh_file_v4_binary.cc:83-85. -/
def namesBody : Parser (List PhysName) := do
  let n ← textSize
  let l ← rep n physName
  lit "$EndPhysicalNames".toList
  pure l

/-- The keywords at which no comment begins; gmsh_file_v4_text.cc:52-55, gmsh_file_v4_binary.cc:69-72. -/
def reserved : List Txt :=
  ["$PhysicalNames".toList, "$Entities".toList, "$PartitionedEntities".toList, "$Nodes".toList, "$Elements".toList,
    "$Periodic".toList, "$GhostElements".toList]

/-- `entry_`; gmsh_file_v4_text.cc:182-186, gmsh_file_v4_binary.cc:191-195. -/
def entry {R : Type} (g : Prims R) : Parser (MshFile R) := do
  comments g.comment
  let names ← optional g.comment [] (lit "$PhysicalNames".toList) namesBody
  let e ← entities g
  comments g.comment
  let p ← optional g.comment noParts (g.opening "PartitionedEntities".toList) (partsBody g)
  let n ← nodes g
  comments g.comment
  let el ← elems g
  comments g.comment
  let li ← optional g.comment [] (g.opening "Periodic".toList) (linksBody g)
  let gh ← optional g.comment [] (g.opening "GhostElements".toList) (ghostsBody g)
  pure ⟨names, e, p, n, el, li, gh⟩

/-! ## The text grammar -/

/-- The value of digits after the decimal point. -/
def fraction (d : Txt) : ℚ := (d.foldl (fun a c => 10 * a + (c.toNat - 48)) 0 : ℕ) / 10 ^ d.length

/-- The exponent of a `double`; without one the result is zero and nothing is read. -/
def exponent : Parser ℤ := fun s =>
  match s with
  | c :: t =>
    if c = 'e' ∨ c = 'E' then
      match (do
        let neg ← sign
        let n ← digits
        pure (if neg then -(n : ℤ) else (n : ℤ)) : Parser ℤ) t with
      | none => some (0, s)
      | some r => some r
    else some (0, s)
  | [] => some (0, [])

/-- The digits before and after the point of a `double`. -/
def mantissa : Parser ℚ := fun s =>
  let d := s.takeWhile Char.isDigit
  let r := s.dropWhile Char.isDigit
  let v : ℚ := (d.foldl (fun a c => 10 * a + (c.toNat - 48)) 0 : ℕ)
  if r.head? = some '.' then
    let f := r.tail.takeWhile Char.isDigit
    if d = [] ∧ f = [] then none else some (v + fraction f, r.tail.dropWhile Char.isDigit)
  else if d = [] then none
  else some (v, r)

/-- `qi::double_` without skipper: sign, digits before the point, point and digits after it, exponent.  Simplifications: the
value is exact, `inf` and `nan` are not read. -/
def rawReal : Parser ℚ := do
  let neg ← sign
  let m ← mantissa
  let e ← exponent
  pure ((if neg then -m else m) * 10 ^ e)

/-- `qi::double_`. -/
def textReal : Parser ℚ := fun s => rawReal (skip s)

/-- `start_comment_` in the text grammar: a rule without skipper (but white space before it is skipped), its attribute is the
rest of the line after `$`; gmsh_file_v4_text.cc:52-56, 191.  `res` are the keywords at which no comment begins. -/
def startComment (res : List Txt) : Parser Txt := fun s =>
  let s := skip s
  if res.any fun k => (strip k s).isSome then none
  else
    match s with
    | '$' :: t =>
      let a := t.takeWhile fun c => c != '\n' && c != '\r'
      if a = [] then none else some (a, t.dropWhile fun c => c != '\n' && c != '\r')
    | _ => none

/-- `*(char_ - '$')`. -/
def untilDollar : Parser Unit := fun s => some ((), s.dropWhile (· != '$'))

/-- `comment_` in the text grammar; gmsh_file_v4_text.cc:58-61. -/
def textComment (res : List Txt) : Parser Unit := do
  let a ← startComment res
  untilDollar
  lit "$End".toList
  lit a

/-- The text grammar; /repo/lib/lf/io/gmsh_file_v4_text.cc. -/
def textPrims : Prims ℚ where
  int := textInt
  size := textSize
  real := textReal
  zero := lit ['0']
  sixteen := lit ['1', '6']
  opening n := lit ('$' :: n)
  closing n := lit ("$End".toList ++ n)
  comment := textComment reserved

/-! ## The binary grammar -/

/-- The value of a sequence of bytes, the least significant byte first. -/
def littleVal : Txt → ℕ
  | [] => 0
  | c :: s => c.toNat + 256 * littleVal s

/-- `n` bytes, without skipper. -/
def bytes (n : ℕ) : Parser Txt := fun s => if n ≤ s.length then some (s.take n, s.drop n) else none

/-- `little_dword`, `little_qword` (`big = false`), `big_dword`, `big_qword` (`big = true`), for words of `n` bytes. -/
def word (big : Bool) (n : ℕ) : Parser ℕ := do
  let b ← bytes n
  pure (littleVal (if big then b.reverse else b))

/-- Conversion of a 32 bit number to `int`. -/
def toInt32 (n : ℕ) : ℤ := if n < 2 ^ 31 then n else (n : ℤ) - 2 ^ 32

/-- `dword` with attribute `int`. -/
def binInt (big : Bool) : Parser ℤ := do
  let n ← word big 4
  pure (toInt32 n)

/-- `qword(k)`: a 64 bit word with value `k`. -/
def qwordLit (big : Bool) (k : ℕ) : Parser Unit := do
  let n ← word big 8
  require (n = k)

/-- `start_comment_` in the binary grammar; gmsh_file_v4_binary.cc:69-74, 208.  Here `start_comment_` has the skipper, and
`qi::eol` skips white space, hence line ends, before it looks for a line end: it never matches and `+(char_ - qi::eol)` takes
all characters up to the end of the input (without white space). -/
def binStartComment : Parser Txt := fun s =>
  let s := skip s
  if reserved.any fun k => (strip k s).isSome then none
  else
    match s with
    | '$' :: t =>
      let a := t.filter fun c => !isSpace c
      if a = [] then none else some (a, [])
    | _ => none

/-- `comment_` in the binary grammar; gmsh_file_v4_binary.cc:75-78. -/
def binComment : Parser Unit := do
  let a ← binStartComment
  untilDollar
  lit "$End".toList
  lit a

/-- The binary grammar, `real` yields the 64 bits of the `double`; /repo/lib/lf/io/gmsh_file_v4_binary.cc.  The rules of the
sections have no skipper, but white space before them is skipped. -/
def binPrims (big : Bool) : Prims ℕ where
  int := binInt big
  size := word big 8
  real := word big 8
  zero := qwordLit big 0
  sixteen := qwordLit big 16
  opening n := lit ('$' :: n ++ ['\n'])
  closing n := litNoSkip ("\n$End".toList ++ n)
  comment := binComment

/-! ## Header and file -/

/-- `ascii::alnum | ascii::punct`: the printable characters but the blank. -/
def isGraph (c : Char) : Bool := 33 ≤ c.toNat && c.toNat ≤ 126

/-- `version_parser`, a rule without skipper; /repo/lib/lf/io/gmsh_reader.cc:670-672. -/
def version : Parser Txt := fun s =>
  let s := skip s
  let v := s.takeWhile isGraph
  if v = [] then none else some (v, s.dropWhile isGraph)

/-- First alternative of the header: version, 0, `size_t_size`; /repo/lib/lf/io/gmsh_reader.cc:675-676. -/
def headerText : Parser (Txt × Bool × ℤ × ℤ) := do
  let v ← version
  lit ['0']
  let n ← textInt
  pure (v, false, n, 1)

/-- `qi::little_dword` with skipper. -/
def skipBinInt : Parser ℤ := fun s => binInt false (skip s)

/-- Second alternative of the header: version, 1, `size_t_size`, the number one; /repo/lib/lf/io/gmsh_reader.cc:677-678. -/
def headerBinary : Parser (Txt × Bool × ℤ × ℤ) := do
  let v ← version
  lit ['1']
  let n ← textInt
  let one ← skipBinInt
  pure (v, true, n, one)

/-- The alternative `a | b`. -/
def orElse {α : Type} (a b : Parser α) : Parser α := fun s =>
  match a s with
  | some r => some r
  | none => b s

/-- The header: version, `is_binary`, `size_t_size`, `one`; /repo/lib/lf/io/gmsh_reader.cc:669-683. -/
def header : Parser (Txt × Bool × ℤ × ℤ) := do
  lit "$MeshFormat".toList
  let h ← orElse headerText headerBinary
  lit "$EndMeshFormat".toList
  pure h

/-- The content of a file of version 4.1: numbers are decimal fractions (text) or the bits of `double`s (binary). -/
inductive Content
  | text (f : MshFile ℚ)
  | binary (f : MshFile ℕ)

/-- `ReadGmshFileV4`; /repo/lib/lf/io/gmsh_file_v4.cc:304-340.  That the whole file has been read is not checked. -/
def readFileV4 (v : Txt) (isBinary : Bool) (sizeT one : ℤ) (s : Txt) : Option Content :=
  if v = "4.1".toList ∧ sizeT = 8 then
    if !isBinary then (entry textPrims s).map fun r => .text r.1
    else if one = 1 then (entry (binPrims false) s).map fun r => .binary r.1
    else (entry (binPrims true) s).map fun r => .binary r.1
  else none

/-- `ReadGmshFile` for a file with version 4.1; /repo/lib/lf/io/gmsh_reader.cc:645-697.  The branch for version 2.2 is in
MshParser2.lean.  Not modelled: reading the file from disk. -/
def readGmsh (s : Txt) : Option Content :=
  (header s).bind fun h => readFileV4 h.1.1 h.1.2.1 h.1.2.2.1 h.1.2.2.2 h.2

end Msh

end Verif
