import Verif.Model.MshParser

/-!
# Model of the parser for gmsh files of version 2.2

`readGmshFileV2` in /repo/lib/lf/io/gmsh_file_v2.cc (grammar `MshGrammarText` and the rules for nodes and elements which are
passed to it) and the choice of the version in `ReadGmshFile`.  Conventions as in MshParser.lean.  The rules for nodes and
elements have no skipper; white space before them is skipped, because they are called from a rule with skipper.
-/

namespace Verif

namespace Msh

/-- `GMshFileV2::Element`; /repo/lib/lf/io/gmsh_file_v2.h:174-197.  `type` is the number of the `ElementType`. -/
structure Elem2 where
  number : ℕ
  type : ℤ
  phys : ℤ
  elementary : ℤ
  partitions : List ℤ
  nodes : List ℕ

/-- `GMshFileV2::PeriodicEntity`; /repo/lib/lf/io/gmsh_file_v2.h:207-221. -/
structure Periodic2 where
  dim : ℤ
  slave : ℤ
  master : ℤ
  nodes : List (ℕ × ℕ)

/-- `GMshFileV2`, the members read from the part of the file after the header; /repo/lib/lf/io/gmsh_file_v2.h:223-228. -/
structure MshFile2 (R : Type) where
  names : List PhysName
  nodes : List (ℕ × Vec R)
  elems : List Elem2
  periodic : List Periodic2

/-- `qi::eol`. -/
def eol : Parser Unit
  | '\r' :: '\n' :: s => some ((), s)
  | '\r' :: s => some ((), s)
  | '\n' :: s => some ((), s)
  | _ => none

/-- `-p`, with no attribute. -/
def maybe (p : Parser Unit) : Parser Unit := fun s =>
  match p s with
  | none => some ((), s)
  | some r => some r

/-- `qi::uint_` without skipper. -/
def rawUint : Parser ℕ := do
  let n ← digits
  require (n < 2 ^ 32)
  pure n

/-- `qi::uint_`. -/
def textUint : Parser ℕ := fun s => rawUint (skip s)

/-- `' '`, without skipper. -/
def sp : Parser Unit := litNoSkip [' ']

/-- `node` of a text file; gmsh_file_v2.cc:656-657. -/
def nodeText2 : Parser (ℕ × Vec ℚ) := do
  let n ← rawUint
  sp
  let x ← rawReal
  sp
  let y ← rawReal
  sp
  let z ← rawReal
  eol
  pure (n, (x, y, z))

/-- `omit[qi::int_] >> ' '`. -/
def intSp : Parser Unit := do
  let _ ← rawInt
  sp

/-- `(qi::eps(_a > 2) >> omit[qi::int_] >> ' ') || qi::eps`; gmsh_file_v2.cc:661. -/
def third (a : ℤ) : Parser Unit := fun s => if 2 < a then maybe intSp s else some ((), s)

/-- `' ' >> qi::uint_`. -/
def spUint : Parser ℕ := do
  sp
  rawUint

/-- `*(' ' >> qi::uint_)`, with a bound for the number of repetitions. -/
def moreNodes : ℕ → Parser (List ℕ)
  | 0 => fun s => some ([], s)
  | n + 1 => fun s =>
    match spUint s with
    | none => some ([], s)
    | some (a, r) => (moreNodes n r).map fun x => (a :: x.1, x.2)

/-- `*(' ' >> qi::uint_)`. -/
def allNodes : Parser (List ℕ) := fun s => moreNodes s.length s

/-- `qi::uint_ % ' '`. -/
def nodeList : Parser (List ℕ) := do
  let a ← rawUint
  let l ← allNodes
  pure (a :: l)

/-- `*(qi::blank)`. -/
def blanks : Parser Unit := fun s => some ((), s.dropWhile fun c => c = ' ' || c = '\t')

/-- `qi::int_ >> ' '`. -/
def partition2 : Parser ℤ := do
  let i ← rawInt
  sp
  pure i

/-- `elementText`; gmsh_file_v2.cc:658-664.  The element number is converted from `int` to `size_type`. -/
def elementText2 : Parser Elem2 := do
  let n ← rawInt
  sp
  let ty ← rawInt
  sp
  let a ← rawInt
  sp
  let ph ← rawInt
  sp
  let el ← rawInt
  sp
  third a
  let ps ← rep (a - 3).toNat partition2
  let ns ← nodeList
  blanks
  eol
  pure ⟨(n % 2 ^ 32).toNat, ty, ph, el, ps, ns⟩

/-- `elementGroup` of a text file; gmsh_file_v2.cc:665-668.  That `reserve` throws if there is not enough memory is not
modelled. -/
def elemsText2 : Parser (List Elem2) := do
  lit "$Elements".toList
  eol
  let n ← rawUint
  eol
  let l ← rep n elementText2
  litNoSkip "$EndElements".toList
  pure l

/-- `node` of a binary file; gmsh_file_v2.cc:672-674, 698-699. -/
def nodeBin2 (big : Bool) : Parser (ℕ × Vec ℕ) := do
  let n ← word big 4
  let x ← word big 8
  let y ← word big 8
  let z ← word big 8
  pure (n, (x, y, z))

/-- `omit[dword]`. -/
def skipWord (big : Bool) : Parser Unit := do
  let _ ← word big 4
  pure ()

/-- `(qi::eps(_r2 > 2) >> omit[dword]) || qi::eps`; gmsh_file_v2.cc:677, 702. -/
def thirdBin (big : Bool) (ntags : ℤ) : Parser Unit := fun s => if 2 < ntags then maybe (skipWord big) s else some ((), s)

/-- `elementBin(type, #tags, #nodes)`; gmsh_file_v2.cc:675-679, 700-703. -/
def elementBin2 (big : Bool) (ty ntags : ℤ) (k : ℕ) : Parser Elem2 := do
  let n ← word big 4
  let ph ← binInt big
  let el ← binInt big
  thirdBin big ntags
  let ps ← rep (ntags - 3).toNat (binInt big)
  let ns ← rep k (word big 4)
  pure ⟨n, ty, ph, el, ps, ns⟩

/-- `repeat(n)[elementBin(...)[push_back(_val, _1)]]`: the elements which were appended, and the rest of the input unless the
parser fails.  The elements in front of the one at which it fails are not removed. -/
def pushElems (big : Bool) (ty ntags : ℤ) (k : ℕ) : ℕ → Txt → List Elem2 × Option Txt
  | 0, s => ([], some s)
  | n + 1, s =>
    match elementBin2 big ty ntags k s with
    | none => ([], none)
    | some (e, r) => (e :: (pushElems big ty ntags k n r).1, (pushElems big ty ntags k n r).2)

/-- The three numbers before a block of elements: type, number of elements, number of tags; gmsh_file_v2.cc:685-687,
709-711.  The second is also kept as a 32 bit word. -/
def blockHeader (big : Bool) : Parser (ℤ × ℕ × ℤ) := do
  let b ← binInt big
  let c ← word big 4
  let d ← binInt big
  pure (b, c, d)

/-- The blocks of elements, `*(...)`: `a` is the number of elements in the file, `e` the number of elements read so far (`_e`),
`acc` the elements read so far.  `none` is the exception of `NumNodes` for unknown types.  The first argument bounds the number
of blocks (each block has at least one byte); gmsh_file_v2.cc:684-693, 708-717. -/
def blocks2 (big : Bool) (a : ℕ) : ℕ → ℕ → List Elem2 → Txt → Option (List Elem2 × Txt)
  | 0, _, acc, s => some (acc, s)
  | fuel + 1, e, acc, s =>
    if e < a then
      match blockHeader big s with
      | none => some (acc, s)
      | some ((b, c, d), r) =>
        match numNodes b with
        | none => if (toInt32 c).toNat = 0 then blocks2 big a fuel ((e + c) % 2 ^ 32) acc r else none
        | some k =>
          match pushElems big b d k (toInt32 c).toNat r with
          | (l, none) => some (acc ++ l, s)
          | (l, some r) => blocks2 big a fuel ((e + c) % 2 ^ 32) (acc ++ l) r
    else some (acc, s)

/-- All blocks of elements. -/
def allBlocks (big : Bool) (a : ℕ) : Parser (List Elem2) := fun s => blocks2 big a s.length 0 [] s

/-- `elementGroup` of a binary file; gmsh_file_v2.cc:680-694, 704-718. -/
def elemsBin2 (big : Bool) : Parser (List Elem2) := do
  lit "$Elements".toList
  eol
  let a ← rawUint
  eol
  let l ← allBlocks big a
  eol
  litNoSkip "$EndElements".toList
  pure l

/-- `nodeGroup_`; gmsh_file_v2.cc:491-493. -/
def nodes2 {R : Type} (node : Parser (ℕ × Vec R)) : Parser (List (ℕ × Vec R)) := do
  lit "$Nodes".toList
  eol
  let n ← rawUint
  eol
  let l ← rep n node
  maybe eol
  litNoSkip "$EndNodes".toList
  pure l

/-- `physicalEntityGroup_` after the keyword at the beginning; gmsh_file_v2.cc:483-485.  `reserve` throws for negative
numbers. -/
def namesBody2 : Parser (List PhysName) := do
  let n ← textInt
  require (0 ≤ n)
  let l ← rep n.toNat physName
  lit "$EndPhysicalNames".toList
  pure l

/-- `periodicEntity_` with `periodicEntityNodeMapping_`; gmsh_file_v2.cc:508-515. -/
def periodic2 : Parser Periodic2 := do
  let d ← textInt
  let sl ← textInt
  let ma ← textInt
  let n ← textUint
  let _ ← rep n do
    let x ← textUint
    let y ← textUint
    pure (x, y)
  pure ⟨d, sl, ma, []⟩

/-- `periodicEntityGroup_` after the keyword at the beginning; gmsh_file_v2.cc:519-521.  The rule is defined with `=`, not `%=`,
and its right hand side contains a semantic action.  Hence the attribute is not set: the list remains empty.  (The same holds
for the pairs of nodes in `periodicEntityNodeMapping_`.) -/
def periodicBody2 : Parser (List Periodic2) := do
  let n ← textUint
  let _ ← rep n periodic2
  lit "$EndPeriodic".toList
  pure []

/-- The keywords at which no comment begins; gmsh_file_v2.cc:471-473. -/
def reserved2 : List Txt := ["$PhysicalNames".toList, "$Nodes".toList, "$Elements".toList, "$Periodic".toList]

/-- `start_`; gmsh_file_v2.cc:527-529.  The comments are those of MshParser.lean with other keywords; gmsh_file_v2.cc:471-477. -/
def start2 {R : Type} (node : Parser (ℕ × Vec R)) (elems : Parser (List Elem2)) : Parser (MshFile2 R) := do
  comments (textComment reserved2)
  let names ← optional (textComment reserved2) [] (lit "$PhysicalNames".toList) namesBody2
  let n ← nodes2 node
  comments (textComment reserved2)
  let e ← elems
  comments (textComment reserved2)
  let p ← optional (textComment reserved2) [] (lit "$Periodic".toList) periodicBody2
  pure ⟨names, n, e, p⟩

/-- The content of a gmsh file. -/
inductive AnyContent
  | v4 (c : Content)
  | text2 (f : MshFile2 ℚ)
  | binary2 (f : MshFile2 ℕ)

/-- `qi::phrase_parse` with the grammar for version 2.2, and the check that the whole file was read (white space at the end is
skipped); gmsh_file_v2.cc:730-738. -/
def whole {α : Type} (p : Parser α) (s : Txt) : Option α :=
  (p s).bind fun x => if skip x.2 = [] then some x.1 else none

/-- `readGmshFileV2`; gmsh_file_v2.cc:602-741. -/
def readFileV2 (v : Txt) (isBinary : Bool) (sizeT one : ℤ) (s : Txt) : Option AnyContent :=
  if v = "2.2".toList ∧ sizeT = 8 then
    if !isBinary then (whole (start2 nodeText2 elemsText2) s).map .text2
    else if one = 1 then (whole (start2 (nodeBin2 false) (elemsBin2 false)) s).map .binary2
    else (whole (start2 (nodeBin2 true) (elemsBin2 true)) s).map .binary2
  else none

/-- `ReadGmshFile`; /repo/lib/lf/io/gmsh_reader.cc:645-697.  Not modelled: reading the file from disk. -/
def readGmshFile (s : Txt) : Option AnyContent :=
  (header s).bind fun h =>
    if h.1.1 = "4.1".toList then (readFileV4 h.1.1 h.1.2.1 h.1.2.2.1 h.1.2.2.2 h.2).map .v4
    else if h.1.1 = "2.2".toList then readFileV2 h.1.1 h.1.2.1 h.1.2.2.1 h.1.2.2.2 h.2
    else none

end Msh

end Verif
