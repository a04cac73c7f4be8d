import Mathlib.Logic.Basic
import Mathlib.Data.List.Basic

/-!
# Model of `lf::base::RefEl`

Failing `LF_ASSERT_MSG_CONSTEXPR` checks and out-of-range table accesses are modelled by `none`.
-/

namespace Verif

/-- `lf::base::RefElType`; /repo/lib/lf/base/ref_el.h:31-40. -/
inductive RefEl
  | point | segment | tria | quad
  deriving DecidableEq, Repr

namespace RefEl

/-- `Dimension()`; /repo/lib/lf/base/ref_el.h:203-205. -/
def dimension : RefEl → ℕ
  | point => 0 | segment => 1 | tria => 2 | quad => 2

/-- `NumNodes()`; /repo/lib/lf/base/ref_el.h:212-227. -/
def numNodes : RefEl → ℕ
  | point => 1 | segment => 2 | tria => 3 | quad => 4

/-- `NumSubEntities(sub_codim)`; /repo/lib/lf/base/ref_el.h:308-328. -/
def numSubEntities (r : RefEl) (subCodim : ℕ) : Option ℕ :=
  if subCodim ≤ r.dimension then
    if subCodim = 0 then some 1
    else match r with
      | segment => some 2
      | tria => some 3
      | quad => some 4
      | point => none
  else none

/-- `SubType(sub_codim, sub_index)`; /repo/lib/lf/base/ref_el.h:351-374. -/
def subType (r : RefEl) (subCodim subIndex : ℕ) : Option RefEl :=
  match r.numSubEntities subCodim with
  | none => none
  | some n =>
    if subIndex < n then
      if subCodim = 0 then some r
      else if subCodim = r.dimension then some point
      else if r.dimension - subCodim = 1 then some segment
      else none
    else none

/-- `sub_sub_entity_index_tria_`; /repo/lib/lf/base/ref_el.h:126-127. -/
def subSubTria : List (List ℕ) := [[0, 1], [1, 2], [2, 0]]

/-- `sub_sub_entity_index_quad_`; /repo/lib/lf/base/ref_el.h:128-129. -/
def subSubQuad : List (List ℕ) := [[0, 1], [1, 2], [2, 3], [3, 0]]

/-- `SubSubEntity2SubEntity`; /repo/lib/lf/base/ref_el.h:412-450.
The (too weak) check `sub_index <= NumSubEntities(sub_codim)` is kept as in the code; the later check
on `sub_rel_index` calls `SubType`, which rejects `sub_index == NumSubEntities(sub_codim)`. -/
def subSubEntity2SubEntity (r : RefEl) (subCodim subIndex subRelCodim subRelIndex : ℕ) : Option ℕ :=
  match r.numSubEntities subCodim with
  | none => none
  | some n =>
    if subIndex ≤ n ∧ subRelCodim ≤ r.dimension - subCodim then
      match (r.subType subCodim subIndex).bind (fun s => s.numSubEntities subRelCodim) with
      | none => none
      | some m =>
        if subRelIndex < m then
          match r with
          | point => some 0
          | r =>
            if subCodim = 0 then some subRelIndex
            else if subCodim = r.dimension then some subIndex
            else match r with
              | tria => (subSubTria[subIndex]?).bind (·[subRelIndex]?)
              | quad => (subSubQuad[subIndex]?).bind (·[subRelIndex]?)
              | _ => none
        else none
    else none

end RefEl
end Verif
