import Verif.Model.VtkFile

/-!
# The legacy VTK file format

A reader for files with an unstructured grid, following "VTK File Formats", section "Simple Legacy Formats": keywords and
numbers are separated by white space; in text files the data are numbers; in binary files the data begin after the line end
and consist of big-endian words.  Only the data types and the type of parsers are taken from the model.
-/

namespace Verif

namespace VtkF

open Msh (Txt Vec Parser)

/-! ## Numbers -/

/-- A sequence of decimal digits. -/
def decimal (w : Txt) : Option ℕ :=
  if w ≠ [] ∧ ∀ c ∈ w, '0' ≤ c ∧ c ≤ '9' then some (Nat.ofDigits 10 (w.reverse.map fun c => c.toNat - 48)) else none

/-- An integer. -/
def integer : Txt → Option ℤ
  | '-' :: w => (decimal w).map fun n => -(n : ℤ)
  | w => (decimal w).map fun n => (n : ℤ)

/-- Digits with a point, and an exponent after the letter e. -/
def magnitude (w : Txt) : Option ℚ :=
  let m := w.takeWhile (· ≠ 'e')
  let x := (w.dropWhile (· ≠ 'e')).drop 1
  let i := m.takeWhile (· ≠ '.')
  let f := (m.dropWhile (· ≠ '.')).drop 1
  (decimal (i ++ f)).bind fun n =>
  (if 'e' ∈ w then integer x else some 0).map fun e => (n : ℚ) / 10 ^ f.length * 10 ^ e

/-- A decimal number. -/
def number : Txt → Option ℚ
  | '-' :: w => (magnitude w).map fun x => -x
  | w => magnitude w

/-- The range of an integer type. -/
def IntTy.lo : IntTy → ℤ
  | .char => -2 ^ 7
  | .short => -2 ^ 15
  | .int => -2 ^ 31
  | .long => -2 ^ 63
  | _ => 0

/-- The range of an integer type. -/
def IntTy.hi : IntTy → ℤ
  | .char => 2 ^ 7 - 1
  | .uchar => 2 ^ 8 - 1
  | .short => 2 ^ 15 - 1
  | .ushort => 2 ^ 16 - 1
  | .int => 2 ^ 31 - 1
  | .uint => 2 ^ 32 - 1
  | .long => 2 ^ 63 - 1
  | .ulong => 2 ^ 64 - 1

/-- The values of a type. -/
def IntTy.Has (ty : IntTy) (i : ℤ) : Prop := ty.lo ≤ i ∧ i ≤ ty.hi

instance (ty : IntTy) (i : ℤ) : Decidable (ty.Has i) := inferInstanceAs (Decidable (_ ∧ _))

/-! ## Words -/

/-- White space. -/
def space (c : Char) : Bool := [' ', '\t', '\n', '\x0b', '\x0c', '\r'].contains c

/-- The next word. -/
def word : Parser Txt := fun s =>
  let t := s.dropWhile space
  let w := t.takeWhile fun c => !space c
  if w = [] then none else some (w, t.dropWhile fun c => !space c)

/-- A result or failure. -/
def lift {α : Type} (o : Option α) : Parser α := fun s => o.map fun a => (a, s)

/-- The next word is `k`. -/
def keyword (k : Txt) : Parser Unit := word >>= fun w => lift (if w = k then some () else none)

/-- A natural number. -/
def nat : Parser ℕ := word >>= fun w => lift (decimal w)

/-- Repeat. -/
def times {α : Type} : ℕ → Parser α → Parser (List α)
  | 0, _ => pure []
  | n + 1, p => p >>= fun a => times n p >>= fun l => pure (a :: l)

/-- The names of the types. -/
def typeNames : List (Txt × (IntTy ⊕ Bool)) :=
  [("char".toList, .inl .char), ("unsigned_char".toList, .inl .uchar), ("short".toList, .inl .short),
    ("unsigned_short".toList, .inl .ushort), ("int".toList, .inl .int), ("unsigned_int".toList, .inl .uint),
    ("long".toList, .inl .long), ("unsigned_long".toList, .inl .ulong), ("float".toList, .inr false),
    ("double".toList, .inr true)]

/-- The name of a type: an integer type, or `true` for double, `false` for float. -/
def typeName : Parser (IntTy ⊕ Bool) := word >>= fun w => lift (typeNames.lookup w)

/-! ## Data -/

/-- How data are written: `ints ty n` are `n` integers, `reals d n` are `n` numbers of type double or float. -/
structure Codec (R : Type) where
  format : Txt
  ints : IntTy → ℕ → Parser (List ℤ)
  reals : Bool → ℕ → Parser (List R)

/-- Text. -/
def textCodec : Codec ℚ where
  format := "ASCII".toList
  ints ty n := times n (word >>= fun w => lift ((integer w).bind fun i => if ty.Has i then some i else none))
  reals _ n := times n (word >>= fun w => lift (number w))

/-- A big-endian number of `k` bytes. -/
def bigEndian (k : ℕ) : Parser ℕ := fun s =>
  if k ≤ s.length then some ((s.take k).foldl (fun a c => 256 * a + c.toNat) 0, s.drop k) else none

/-- A two's complement number of `k` bytes. -/
def signed (k n : ℕ) : ℤ := if 2 * n < 256 ^ k then n else n - 256 ^ k

/-- The value of the bytes of an integer. -/
def IntTy.value (ty : IntTy) (n : ℕ) : ℤ := if ty.lo < 0 then signed ty.size n else n

/-- The end of a line. -/
def newline : Parser Unit
  | '\n' :: s => some ((), s)
  | _ => none

/-- Binary data. -/
def binaryCodec : Codec ℕ where
  format := "BINARY".toList
  ints ty n := newline >>= fun _ => times n (bigEndian ty.size >>= fun v => pure (ty.value v))
  reals d n := newline >>= fun _ => times n (bigEndian (if d then 8 else 4))

/-! ## The file -/

/-- Group numbers in threes. -/
def triples {R : Type} : List R → List (Vec R)
  | x :: y :: z :: l => (x, y, z) :: triples l
  | _ => []

/-- Split numbers into `n` groups, each preceded by its length. -/
def groups : ℕ → List ℤ → Option (List (List ℕ))
  | 0, [] => some []
  | n + 1, k :: l =>
    if 0 ≤ k ∧ k.toNat ≤ l.length ∧ ∀ i ∈ l.take k.toNat, 0 ≤ i then
      (groups n (l.drop k.toNat)).map fun c => (l.take k.toNat).map Int.toNat :: c
    else none
  | _, _ => none

section
variable {R : Type} (c : Codec R)

/-- A line of the file. -/
def line : Parser Txt := fun s => some (s.takeWhile (· ≠ '\n'), s.dropWhile (· ≠ '\n'))

/-- The points: POINTS n dataType, and the coordinates. -/
def readPoints : Parser (List (Vec R)) :=
  keyword "POINTS".toList >>= fun _ => nat >>= fun n => keyword "float".toList >>= fun _ =>
  c.reals false (3 * n) >>= fun l => pure (triples l)

/-- The cells: CELLS n size, and for each cell the number of its points and their indices; `size` is the number of integers. -/
def readCells : Parser (List (List ℕ)) :=
  keyword "CELLS".toList >>= fun _ => nat >>= fun n => nat >>= fun size => c.ints .int size >>= fun l => lift (groups n l)

/-- The types of the cells: CELL_TYPES n, and the types. -/
def readTypes (n : ℕ) : Parser (List ℕ) :=
  keyword "CELL_TYPES".toList >>= fun _ => nat >>= fun m =>
  (lift (if m = n then some () else none)) >>= fun _ => c.ints .int n >>= fun l =>
  lift (if ∀ i ∈ l, 0 ≤ i then some (l.map Int.toNat) else none)

/-- A field: arrayName numComponents numTuples dataType, and the data; with one component. -/
def readField : Parser (Field R) :=
  word >>= fun name => keyword ['1'] >>= fun _ => nat >>= fun n => typeName >>= fun ty =>
  match ty with
  | .inl .int => c.ints .int n >>= fun l => pure (.ints name l)
  | .inl _ => fun _ => none
  | .inr d => c.reals d n >>= fun l => pure (.reals d name l)

/-- FIELD dataName numArrays, and the arrays. -/
def readFields : Parser (List (Field R)) :=
  keyword "FIELD".toList >>= fun _ => word >>= fun _ => nat >>= fun n => times n (readField c)

/-- SCALARS dataName dataType numComp, LOOKUP_TABLE tableName, and the data; with one component. -/
def readScalars (n : ℕ) : Parser (Attr R) :=
  word >>= fun name => typeName >>= fun ty => keyword ['1'] >>= fun _ => keyword "LOOKUP_TABLE".toList >>= fun _ =>
  word >>= fun table =>
  match ty with
  | .inl t => c.ints t n >>= fun l => pure (.ints t name table l)
  | .inr d => c.reals d n >>= fun l => pure (.reals d name table l)

/-- VECTORS dataName dataType, and the data. -/
def readVectors (n : ℕ) : Parser (Attr R) :=
  word >>= fun name => typeName >>= fun ty =>
  match ty with
  | .inl _ => fun _ => none
  | .inr d => c.reals d (3 * n) >>= fun l => pure (.vecs d name (triples l))

/-- The attributes up to the next other keyword or the end of the file, at most `fuel`; each belongs to `n` points or cells. -/
def readAttrs (n : ℕ) : ℕ → Parser (List (Attr R))
  | 0 => pure []
  | fuel + 1 => fun s =>
    match word s with
    | none => some ([], s)
    | some (w, r) =>
      if w = "SCALARS".toList then (readScalars c n >>= fun a => readAttrs n fuel >>= fun l => pure (a :: l)) r
      else if w = "VECTORS".toList then (readVectors c n >>= fun a => readAttrs n fuel >>= fun l => pure (a :: l)) r
      else some ([], s)

/-- The attributes of the points or cells. -/
def readData (k : Txt) (n : ℕ) : Parser (List (Attr R)) :=
  keyword k >>= fun _ => nat >>= fun m => (lift (if m = n then some () else none)) >>= fun _ =>
  fun s => readAttrs c n s.length s

/-- A file. -/
def readFile : Parser (File R) :=
  line >>= fun version => (lift (if version = "# vtk DataFile Version 3.0".toList then some () else none)) >>= fun _ =>
  newline >>= fun _ => line >>= fun header => keyword c.format >>= fun _ =>
  keyword "DATASET".toList >>= fun _ => keyword "UNSTRUCTURED_GRID".toList >>= fun _ =>
  readPoints c >>= fun pts => readCells c >>= fun cs => readTypes c cs.length >>= fun ts =>
  readFields c >>= fun fs => readData c "POINT_DATA".toList pts.length >>= fun pd =>
  readData c "CELL_DATA".toList cs.length >>= fun cd => pure ⟨header, pts, cs, ts, fs, pd, cd⟩

/-- The contents of a file; after the last data there may only be white space. -/
def readVtk (s : Txt) : Option (File R) :=
  (readFile c s).bind fun x => if ∀ d ∈ x.2, space d then some x.1 else none

end

/-- Read a text file. -/
def readText (s : Txt) : Option (File ℚ) := readVtk textCodec s

/-- Read a binary file. -/
def readBinary (s : Txt) : Option (File ℕ) := readVtk binaryCodec s

/-! ## Admissible contents -/

/-- A name: a word without white space. -/
def Name (w : Txt) : Prop := w ≠ [] ∧ ∀ c ∈ w, space c = false

/-- The attribute has a proper name, belongs to `n` points or cells, and its numbers fit into its type; `fits` tells this for
floating point numbers.  Unsigned characters are excluded. -/
def Attr.Ok {R : Type} (fits : Bool → R → Prop) (n : ℕ) : Attr R → Prop
  | .ints ty name table d => Name name ∧ Name table ∧ d.length = n ∧ ty ≠ .uchar ∧ ∀ i ∈ d, ty.Has i
  | .reals b name table d => Name name ∧ Name table ∧ d.length = n ∧ ∀ x ∈ d, fits b x
  | .vecs b name d => Name name ∧ d.length = n ∧ ∀ v ∈ d, fits b v.1 ∧ fits b v.2.1 ∧ fits b v.2.2

/-- The same for fields. -/
def Field.Ok {R : Type} (fits : Bool → R → Prop) : Field R → Prop
  | .ints name d => Name name ∧ ∀ i ∈ d, IntTy.int.Has i
  | .reals b name d => Name name ∧ ∀ x ∈ d, fits b x

/-- A field has values. -/
def Field.Nonempty {R : Type} : Field R → Prop
  | .ints _ d => d ≠ []
  | .reals _ _ d => d ≠ []

/-- Contents which the format can represent. -/
structure File.Ok {R : Type} (fits : Bool → R → Prop) (F : File R) : Prop where
  header : '\n' ∉ F.header
  headerSize : F.header.length ≤ 256
  types : F.types.length = F.cells.length
  numPoints : F.points.length < 2 ^ 31
  numCells : F.cells.length + (F.cells.map List.length).sum < 2 ^ 31
  points : ∀ v ∈ F.points, fits false v.1 ∧ fits false v.2.1 ∧ fits false v.2.2
  indices : ∀ c ∈ F.cells, ∀ i ∈ c, i < 2 ^ 31
  typeNumbers : ∀ t ∈ F.types, t < 2 ^ 31
  fields : ∀ f ∈ F.fields, f.Ok fits
  pointData : ∀ a ∈ F.pointData, a.Ok fits F.points.length
  cellData : ∀ a ∈ F.cellData, a.Ok fits F.cells.length

/-- The bits of a floating point number fit into its type. -/
def bitsFit (double : Bool) (n : ℕ) : Prop := n < 2 ^ (if double then 64 else 32)

/-- Apply a function to all coordinates. -/
def mapVec {R S : Type} (r : R → S) (v : Vec R) : Vec S := (r v.1, r v.2.1, r v.2.2)

/-- Replace floating point numbers. -/
def Attr.map {R S : Type} (r : R → S) : Attr R → Attr S
  | .ints ty name table d => .ints ty name table d
  | .reals b name table d => .reals b name table (d.map r)
  | .vecs b name d => .vecs b name (d.map (mapVec r))

/-- Replace floating point numbers. -/
def Field.map {R S : Type} (r : R → S) : Field R → Field S
  | .ints name d => .ints name d
  | .reals b name d => .reals b name (d.map r)

/-- Replace floating point numbers. -/
def File.map {R S : Type} (r : R → S) (F : File R) : File S :=
  ⟨F.header, F.points.map (mapVec r), F.cells, F.types, F.fields.map (Field.map r), F.pointData.map (Attr.map r),
    F.cellData.map (Attr.map r)⟩

/-- `y` is a rounded value of `x`: three digits after the point for medium-sized numbers, three digits after the first one for
small and large ones. -/
def Near (x y : ℚ) : Prop :=
  if 1 / 1000 ≤ |x| ∧ |x| < 100000 then |x - y| ≤ 1 / 2000 else |x - y| ≤ |x| / 2000

end VtkF

end Verif
