import Mathlib.Order.Defs.LinearOrder
import Mathlib.Data.List.Basic
import Mathlib.Order.Basic
import Mathlib.Data.Nat.Basic

/-!
# Model of the tables of physical entities in `GmshReader`

`std::multimap` is the list of its entries in the order of iteration.  An iterator is the suffix of this list it
points to, so that the iterator past the end is `[]` and dereferencing it is undefined behaviour.
-/

namespace Verif

/-- What a lookup does: it returns, throws, or its behaviour is undefined. -/
inductive Lookup (α : Type)
  | value (a : α)
  | throws
  | undefined
  deriving DecidableEq, Repr

/-- Entries `(key, (value, codim))` of the multimaps `name_2_nr_` and `nr_2_name_`;
/repo/lib/lf/io/gmsh_reader.h:186-190. -/
abbrev PhysMap (κ ν : Type) := List (κ × (ν × ℕ))

variable {κ ν : Type} [LinearOrder κ]

/-- `multimap::insert`: behind all entries whose key is not greater. -/
def PhysMap.insert (m : PhysMap κ ν) (e : κ × (ν × ℕ)) : PhysMap κ ν :=
  m.takeWhile (fun x => decide (x.1 ≤ e.1)) ++ e :: m.dropWhile (fun x => decide (x.1 ≤ e.1))

/-- The value `-1` of the argument `codim`, of type `unsigned int`. -/
def noCodim : ℕ := 4294967295

/-- `while (begin->second.second != codim && begin != end) ++begin;`, for the iterator `it` which is `n`
increments away from `end`: the iterator afterwards, `none` if an iterator past the end is dereferenced. -/
def skipOther (codim : ℕ) : PhysMap κ ν → ℕ → Option (PhysMap κ ν)
  | [], _ => none
  | e :: it, n => if e.2.2 ≠ codim ∧ n ≠ 0 then skipOther codim it (n - 1) else some (e :: it)

/-- `PhysicalEntityName2Nr(name, codim)` and `PhysicalEntityNr2Name(number, codim)`, which have the same code;
/repo/lib/lf/io/gmsh_reader.cc:34-66, 68-100.  The assertion on an empty name is left out. -/
def physLookup (m : PhysMap κ ν) (key : κ) (codim : ℕ) : Lookup ν :=
  let lower := m.dropWhile fun x => decide (x.1 < key)
  let n := (lower.takeWhile fun x => decide (x.1 ≤ key)).length
  match n, lower with
  | 0, _ => .throws
  | _, [] => .throws
  | n + 1, result :: begin' =>
    if n = 0 then
      if codim = noCodim ∨ codim = result.2.2 then .value result.2.1 else .throws
    else if codim = noCodim then .throws
    else if result.2.2 = codim then .value result.2.1
    else match skipOther codim begin' n with
      | none => .undefined
      | some [] => .undefined
      | some (e :: _) => if e.2.2 = codim then .value e.2.1 else .throws

/-- `PhysicalEntities(codim)`; /repo/lib/lf/io/gmsh_reader.cc:102-112. -/
def physEntities (m : PhysMap κ ν) (codim : ℕ) : List (κ × ν) :=
  m.filterMap fun p => if p.2.2 ≠ codim then none else some (p.1, p.2.1)

/-- A physical entity of the file: name, number and dimension; /repo/lib/lf/io/gmsh_file_v2.h:40-55,
gmsh_file_v4.h:40-53. -/
structure PhysName (κ : Type) where
  name : κ
  number : ℕ
  dimension : ℕ
  deriving DecidableEq

/-- The codimension `dim_mesh - pe.Dimension`, computed with `unsigned int`. -/
def PhysName.codim (dimMesh : ℕ) (p : PhysName κ) : ℕ :=
  if p.dimension ≤ dimMesh then dimMesh - p.dimension else 4294967296 - (p.dimension - dimMesh)

/-- `name_2_nr_` and `nr_2_name_` after construction; /repo/lib/lf/io/gmsh_reader.cc:333-338, 630-635. -/
def name2Nr (dimMesh : ℕ) (file : List (PhysName κ)) : PhysMap κ ℕ :=
  file.foldl (fun m p => PhysMap.insert m (p.name, (p.number, p.codim dimMesh))) []
@[inherit_doc name2Nr]
def nr2Name (dimMesh : ℕ) (file : List (PhysName κ)) : PhysMap ℕ κ :=
  file.foldl (fun m p => PhysMap.insert m (p.number, (p.name, p.codim dimMesh))) []

end Verif
