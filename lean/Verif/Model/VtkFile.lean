import Verif.Model.MshParser
import Mathlib.Data.Nat.Digits.Defs
import Mathlib.Data.Int.Log
import Mathlib.Data.Rat.Floor

/-!
# Model of `WriteToFile` for `VtkFile`

/repo/lib/lf/io/vtk_writer.h:31-146 and vtk_writer.cc:91-575: the checks before a file is written and the grammar (Boost.Spirit
Karma) which produces the bytes.  Trusted: the semantics of the generators of Karma, stated at the definitions below, and the
choice of the alternative for a `boost::variant` by its type.  A file is a list of characters, in binary files a character
stands for a byte.  In text files `float` and `double` are rational numbers, in binary files they are given by their bits.
-/

namespace Verif

namespace VtkF

open Msh (Txt Vec)

/-! ## Data -/

/-- The integer types of `ScalarData`; /repo/lib/lf/io/vtk_writer.h:114-118. -/
inductive IntTy
  | char | uchar | short | ushort | int | uint | long | ulong
  deriving DecidableEq

/-- Size in bytes; `long` has eight bytes. -/
def IntTy.size : IntTy → ℕ
  | .char => 1
  | .uchar => 1
  | .short => 2
  | .ushort => 2
  | .int => 4
  | .uint => 4
  | .long => 8
  | .ulong => 8

/-- `ScalarData` (of integers, of `float` or `double`) and `VectorData`; /repo/lib/lf/io/vtk_writer.h:84-118.  The flag tells
`double` from `float`. -/
inductive Attr (R : Type)
  | ints (ty : IntTy) (name table : Txt) (data : List ℤ)
  | reals (double : Bool) (name table : Txt) (data : List R)
  | vecs (double : Bool) (name : Txt) (data : List (Vec R))

/-- `FieldDataArray`; /repo/lib/lf/io/vtk_writer.h:71-82, 120-122. -/
inductive Field (R : Type)
  | ints (name : Txt) (data : List ℤ)
  | reals (double : Bool) (name : Txt) (data : List R)

/-- `VtkFile`; /repo/lib/lf/io/vtk_writer.h:63-68, 129-146.  The member `format` selects the writer, see `writeText` and
`writeBinary`.  A `CellType` is its number. -/
structure File (R : Type) where
  header : Txt
  points : List (Vec R)
  cells : List (List ℕ)
  types : List ℕ
  fields : List (Field R)
  pointData : List (Attr R)
  cellData : List (Attr R)

/-- `data.size()`. -/
def Attr.size {R : Type} : Attr R → ℕ
  | .ints _ _ _ d => d.length
  | .reals _ _ _ d => d.length
  | .vecs _ _ d => d.length

/-! ## Generators -/

/-- `*g`: a member for which the generator fails is skipped. -/
def star {α : Type} (g : α → Option Txt) (l : List α) : Txt := (l.filterMap g).flatten

/-- `g % sep`, for a generator which never fails; fails for an empty list. -/
def sepBy {α : Type} (sep : Txt) (g : α → Txt) : List α → Option Txt
  | [] => none
  | a :: l => some (g a ++ (l.map fun b => sep ++ g b).flatten)

/-- `*(g % sep)` for a list: the inner generator takes the whole list, it fails if the list is empty and is then skipped. -/
def starSepBy {α : Type} (sep : Txt) (g : α → Txt) (l : List α) : Txt := (sepBy sep g l).getD []

/-- Decimal digits of a number: `karma::uint_`, `karma::ushort_`, `karma::ulong_`, and `lit(n)`. -/
def dec (n : ℕ) : Txt := if n = 0 then ['0'] else ((Nat.digits 10 n).map Nat.digitChar).reverse

/-- `karma::int_`, `karma::short_`, `karma::long_`. -/
def int (i : ℤ) : Txt := if i < 0 then '-' :: dec i.natAbs else dec i.natAbs

/-- `karma::uint_` with a value of type `size_t`: the attribute is an `unsigned int`. -/
def count (n : ℕ) : Txt := dec (n % 2 ^ 32)

/-- Remove trailing zeros from `n` with `prec` digits: the loop in `real_inserter`. -/
def stripZeros : ℕ → ℕ → ℕ × ℕ
  | n, 0 => (n, 0)
  | n, k + 1 => if n % 10 = 0 then stripZeros (n / 10) k else (n, k + 1)

/-- `real_policies::fraction_part`: the fractional part, given in thousandths; leading zeros are added, trailing ones omitted. -/
def fracPart (r : ℕ) : Txt :=
  if r = 0 then ['0'] else
    let x := stripZeros r 3
    List.replicate (x.2 - (dec x.1).length) '0' ++ dec x.1

/-- `real_policies::exponent`: at least two digits. -/
def expo (e : ℤ) : Txt :=
  'e' :: (if e < 0 then ['-'] else []) ++ (if e.natAbs < 10 then ['0'] else []) ++ dec e.natAbs

/-- A value rounded to thousandths: `floor(1000 x + 0.5)`. -/
def thousandths (x : ℚ) : ℕ := ⌊1000 * x + 1 / 2⌋.toNat

/-- `karma::float_` and `karma::double_` with the default policies: three digits after the point; numbers with absolute value
below 1/1000 or from 100000 on are written with an exponent.  Simplification: the arithmetic is exact. -/
def real (x : ℚ) : Txt :=
  let a := |x|
  if x ≠ 0 ∧ (a < 1 / 1000 ∨ 100000 ≤ a) then
    let e := Int.log 10 a
    let q := thousandths (a / 10 ^ e)
    let p := if 10000 ≤ q then (1000, e + 1) else (q, e)
    (if x < 0 then ['-'] else []) ++ dec (p.1 / 1000) ++ '.' :: fracPart (p.1 % 1000) ++ expo p.2
  else
    let q := thousandths a
    (if x < 0 ∧ q ≠ 0 then ['-'] else []) ++ dec (q / 1000) ++ '.' :: fracPart (q % 1000)

/-- The `k` least significant bytes of a number, the most significant one first: `karma::byte_`, `big_word`, `big_dword`,
`big_qword`, `big_bin_float`, `big_bin_double`. -/
def bytes : ℕ → ℕ → Txt
  | 0, _ => []
  | k + 1, n => bytes k (n / 256) ++ [Char.ofNat (n % 256)]

/-- The same for an integer, which is converted to the unsigned type. -/
def intBytes (k : ℕ) (i : ℤ) : Txt := bytes k (i % 256 ^ k).toNat

/-- `eol`. -/
def eol : Txt := ['\n']

/-- Name of the type in `SCALARS`; /repo/lib/lf/io/vtk_writer.cc:220-278, 304-349. -/
def IntTy.text : IntTy → Txt
  | .char => " char 1".toList
  | .uchar => " char 1".toList
  | .short => " short 1".toList
  | .ushort => " unsigned_short 1".toList
  | .int => " int 1".toList
  | .uint => " unsigned_int 1".toList
  | .long => " long 1".toList
  | .ulong => " unsigned_long 1".toList

/-- Name of the floating point type. -/
def realTy (double : Bool) : Txt := if double then " double".toList else " float".toList

/-! ## The rules which differ between text and binary files -/

/-- The rules of `VtkGrammar` which depend on `BINARY`: the format, `points_vector`, `cells_vector`, `cell_type`, the data of
`field_data_*` and of the attributes including the line end after them. -/
structure Rules (R : Type) where
  format : Txt
  points : List (Vec R) → Txt
  cell : List ℕ → Option Txt
  type : ℕ → Txt
  fieldInts : List ℤ → Option Txt
  fieldReals : Bool → List R → Option Txt
  ints : IntTy → List ℤ → Txt
  reals : Bool → List R → Txt
  vecs : Bool → List (Vec R) → Txt

/-- Three numbers in a line; /repo/lib/lf/io/vtk_writer.cc:145-146, 363-373. -/
def vecLine (v : Vec ℚ) : Txt := real v.1 ++ [' '] ++ real v.2.1 ++ [' '] ++ real v.2.2 ++ eol

/-- `BINARY = false`; /repo/lib/lf/io/vtk_writer.cc:144-147, 158-164, 174-178, 200-213, 303-374. -/
def textRules : Rules ℚ where
  format := "ASCII".toList
  points l := star (fun v => some (vecLine v)) l
  cell c := (sepBy [' '] dec c).map fun s => dec c.length ++ [' '] ++ s ++ eol
  type t := int t ++ eol
  fieldInts l := (sepBy [' '] int l).map fun s => s ++ eol
  fieldReals _ l := (sepBy [' '] real l).map fun s => s ++ eol
  ints _ l := starSepBy eol int l ++ eol
  reals _ l := starSepBy eol real l ++ eol
  vecs _ l := star (fun v => some (vecLine v)) l

/-- Number of bytes of a floating point number. -/
def realSize (double : Bool) : ℕ := if double then 8 else 4

/-- Three numbers of `k` bytes. -/
def vecBytes (k : ℕ) (v : Vec ℕ) : Txt := bytes k v.1 ++ bytes k v.2.1 ++ bytes k v.2.2

/-- `BINARY = true`; /repo/lib/lf/io/vtk_writer.cc:140-143, 155-157, 170-173, 187-199, 219-302.
Simplification: `sizeof(long) == 8`. -/
def binaryRules : Rules ℕ where
  format := "BINARY".toList
  points l := star (fun v => some (vecBytes 4 v)) l ++ eol
  cell c := some (bytes 4 c.length ++ star (fun n => some (bytes 4 n)) c)
  type t := intBytes 4 t
  fieldInts l := some (star (fun i => some (intBytes 4 i)) l ++ eol)
  fieldReals d l := some (star (fun n => some (bytes (realSize d) n)) l ++ eol)
  ints ty l := star (fun i => some (intBytes ty.size i)) l ++ eol
  reals d l := star (fun n => some (bytes (realSize d) n)) l ++ eol
  vecs d l := star (fun v => some (vecBytes (realSize d) v)) l ++ eol

/-! ## The grammar -/

section Grammar
variable {R : Type} (g : Rules R)

/-- `points`; /repo/lib/lf/io/vtk_writer.cc:149-152. -/
def points (l : List (Vec R)) : Txt := "POINTS ".toList ++ count l.length ++ " float".toList ++ eol ++ g.points l

/-- `cell_list_size`; /repo/lib/lf/io/vtk_writer.cc:92-98. -/
def cellListSize (cells : List (List ℕ)) : ℕ := cells.foldl (fun r v => r + v.length) cells.length

/-- `cells`; /repo/lib/lf/io/vtk_writer.cc:165-168. -/
def cells (l : List (List ℕ)) : Txt :=
  "CELLS ".toList ++ count l.length ++ [' '] ++ count (cellListSize l) ++ eol ++ star g.cell l ++ eol

/-- `cell_types`; /repo/lib/lf/io/vtk_writer.cc:179-181. -/
def cellTypes (l : List ℕ) : Txt :=
  "CELL_TYPES ".toList ++ count l.length ++ eol ++ star (fun t => some (g.type t)) l

/-- `unstructured_grid`; /repo/lib/lf/io/vtk_writer.cc:183-184. -/
def grid (F : File R) : Txt :=
  "DATASET UNSTRUCTURED_GRID".toList ++ eol ++ points g F.points ++ cells g F.cells ++ cellTypes g F.types

/-- `field_data_int`, `field_data_float`, `field_data_double`; /repo/lib/lf/io/vtk_writer.cc:187-213. -/
def field : Field R → Option Txt
  | .ints name d => (g.fieldInts d).map fun s => name ++ " 1 ".toList ++ dec d.length ++ " int".toList ++ eol ++ s
  | .reals b name d => (g.fieldReals b d).map fun s => name ++ " 1 ".toList ++ dec d.length ++ realTy b ++ eol ++ s

/-- `field_data`; /repo/lib/lf/io/vtk_writer.cc:214-216. -/
def fieldData (l : List (Field R)) : Txt :=
  "FIELD FieldData ".toList ++ dec l.length ++ eol ++ star (field g) l

/-- `scalar_data_*` and `vector_data_*`; /repo/lib/lf/io/vtk_writer.cc:219-374. -/
def attr : Attr R → Txt
  | .ints ty name table d =>
    "SCALARS ".toList ++ name ++ ty.text ++ eol ++ "LOOKUP_TABLE ".toList ++ table ++ eol ++ g.ints ty d
  | .reals b name table d =>
    "SCALARS ".toList ++ name ++ realTy b ++ " 1".toList ++ eol ++ "LOOKUP_TABLE ".toList ++ table ++ eol ++ g.reals b d
  | .vecs b name d => "VECTORS ".toList ++ name ++ realTy b ++ eol ++ g.vecs b d

/-- `attributes`; /repo/lib/lf/io/vtk_writer.cc:376-380. -/
def attributes (l : List (Attr R)) : Txt := star (fun a => some (attr g a)) l

/-- `root`; /repo/lib/lf/io/vtk_writer.cc:382-387. -/
def root (F : File R) : Txt :=
  "# vtk DataFile Version 3.0".toList ++ eol ++ F.header ++ eol ++ g.format ++ eol ++ grid g F ++ eol ++
    fieldData g F.fields ++ "POINT_DATA ".toList ++ dec F.points.length ++ eol ++ attributes g F.pointData ++
    "CELL_DATA ".toList ++ dec F.cells.length ++ eol ++ attributes g F.cellData

/-- `ValidateVtkFile` does not throw; /repo/lib/lf/io/vtk_writer.cc:425-460. -/
def valid (F : File R) : Bool :=
  !F.header.contains '\n' && decide (F.header.length ≤ 256) && decide (F.types.length = F.cells.length) &&
    (F.pointData.all fun a => decide (a.size = F.points.length)) && F.cellData.all fun a => decide (a.size = F.cells.length)

/-- `WriteToFile`: the contents of the file, `none` if an exception is thrown; /repo/lib/lf/io/vtk_writer.cc:551-575.
Opening the file is assumed to succeed.  In case of an exception the file is left empty. -/
def write (F : File R) : Option Txt := if valid F then some (root g F) else none

end Grammar

/-- `WriteToFile` with `format = ASCII`. -/
def writeText (F : File ℚ) : Option Txt := write textRules F

/-- `WriteToFile` with `format = BINARY`. -/
def writeBinary (F : File ℕ) : Option Txt := write binaryRules F

end VtkF

end Verif
