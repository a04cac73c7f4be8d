import Verif.Model.RefEl
import Mathlib.Data.Int.Notation

/-!
# Model of `lf::refinement::Hybrid2DRefinementPattern`

A failing `LF_VERIFY_MSG` is `none`.  An integer matrix is the list of its columns, a column is the list
of its entries.
-/

namespace Verif

/-- `RefPat`; /repo/lib/lf/refinement/hybrid2d_refinement_pattern.h:35-46. -/
inductive RefPat
  | nil | copy | split | bisect | trisect | trisectLeft | quadsect | threeedge | regular | barycentric
  deriving DecidableEq, Repr

/-- Lattice constant; /repo/lib/lf/geometry/refinement_pattern.h:49-50. -/
def latticeConst : ℤ := 6

/-- `Hybrid2DRefinementPattern`; /repo/lib/lf/refinement/hybrid2d_refinement_pattern.h:55-60, 250-253.
`anchor = none` models the value `idx_nil`. -/
structure Pattern where
  ref : RefEl
  anchor : Option ℕ
  pat : RefPat
  anchorSet : Bool
  deriving DecidableEq, Repr

namespace Pattern

/-- Verification of an anchor which is not `idx_nil`;
/repo/lib/lf/refinement/hybrid2d_refinement_pattern.h:91-95, 213-217.  For a point, `NumSubEntities(1)`
fails an assertion. -/
def checkAnchor (p : Pattern) : Option Pattern :=
  match p.anchor with
  | none => some p
  | some a => (p.ref.numSubEntities 1).bind fun n => if a < n then some p else none

/-- Constructors; /repo/lib/lf/refinement/hybrid2d_refinement_pattern.h:71-96.  The constructors with one
and two arguments are `make ref .nil none` and `make ref pat none`. -/
def make (ref : RefEl) (pat : RefPat) (anchor : Option ℕ) : Option Pattern :=
  checkAnchor ⟨ref, anchor, pat, anchor.isSome⟩

/-- `setAnchor`; /repo/lib/lf/refinement/hybrid2d_refinement_pattern.h:210-219. -/
def setAnchor (p : Pattern) (anchor : Option ℕ) : Option Pattern :=
  checkAnchor { p with anchor := anchor, anchorSet := anchor.isSome }

/-- `setRefPattern`; /repo/lib/lf/refinement/hybrid2d_refinement_pattern.h:228-232. -/
def setRefPattern (p : Pattern) (pat : RefPat) : Pattern := { p with pat := pat, anchorSet := false }

/-- `refpat()`; /repo/lib/lf/refinement/hybrid2d_refinement_pattern.h:238-246. -/
def refpat (p : Pattern) : Option RefPat :=
  if (p.pat = .bisect ∨ p.pat = .trisect ∨ p.pat = .trisectLeft ∨ p.pat = .quadsect ∨ p.pat = .quadsect ∨
      p.pat = .threeedge) ∧ p.anchorSet = false then none
  else some p.pat

/-- `NumChildren(codim)`; /repo/lib/lf/refinement/hybrid2d_refinement_pattern.cc:49-270. -/
def numChildren (p : Pattern) (codim : ℕ) : Option ℕ :=
  if p.ref.dimension < codim then none
  else match p.ref, codim, p.pat with
    | .point, _, .nil => some 0
    | .point, _, .copy => some 1
    | .point, _, _ => none
    | .segment, 0, .nil => some 0
    | .segment, 0, .copy => some 1
    | .segment, 0, .split => some 2
    | .segment, 0, _ => none
    | .segment, _, .nil => some 0
    | .segment, _, .copy => some 0
    | .segment, _, .split => some 1
    | .segment, _, _ => none
    | .tria, 0, .nil => some 0
    | .tria, 0, .copy => some 1
    | .tria, 0, .bisect => some 2
    | .tria, 0, .trisect => some 3
    | .tria, 0, .trisectLeft => some 3
    | .tria, 0, .quadsect => some 4
    | .tria, 0, .regular => some 4
    | .tria, 0, .barycentric => some 6
    | .tria, 0, _ => none
    | .tria, 1, .nil => some 0
    | .tria, 1, .copy => some 0
    | .tria, 1, .bisect => some 1
    | .tria, 1, .trisect => some 2
    | .tria, 1, .trisectLeft => some 2
    | .tria, 1, .quadsect => some 3
    | .tria, 1, .regular => some 3
    | .tria, 1, .barycentric => some 6
    | .tria, 1, _ => none
    | .tria, _, .barycentric => some 1
    | .tria, _, _ => some 0
    | .quad, 0, .nil => some 0
    | .quad, 0, .copy => some 1
    | .quad, 0, .trisect => some 3
    | .quad, 0, .quadsect => some 4
    | .quad, 0, .bisect => some 2
    | .quad, 0, .split => some 2
    | .quad, 0, .threeedge => some 4
    | .quad, 0, .barycentric => some 4
    | .quad, 0, .regular => some 4
    | .quad, 0, _ => none
    | .quad, 1, .nil => some 0
    | .quad, 1, .copy => some 0
    | .quad, 1, .trisect => some 2
    | .quad, 1, .quadsect => some 3
    | .quad, 1, .bisect => some 1
    | .quad, 1, .split => some 1
    | .quad, 1, .threeedge => some 3
    | .quad, 1, .barycentric => some 4
    | .quad, 1, .regular => some 4
    | .quad, 1, _ => none
    | .quad, _, .barycentric => some 1
    | .quad, _, .regular => some 1
    | .quad, _, _ => some 0

/-- `lt_half`, `lt_third`, `lt_one`; /repo/lib/lf/refinement/hybrid2d_refinement_pattern.cc:282-284. -/
def ltHalf : ℤ := latticeConst / 2
def ltThird : ℤ := latticeConst / 3
def ltOne : ℤ := latticeConst

/-- `lt_node_coords`, `lt_midpoint_coords` of a triangle (columns; index modulo 3);
/repo/lib/lf/refinement/hybrid2d_refinement_pattern.cc:345-353. -/
def triaNode (i : ℕ) : List ℤ :=
  match i % 3 with
  | 0 => [0, 0]
  | 1 => [ltOne, 0]
  | _ => [0, ltOne]
def triaMid (i : ℕ) : List ℤ :=
  match i % 3 with
  | 0 => [ltHalf, 0]
  | 1 => [ltHalf, ltHalf]
  | _ => [0, ltHalf]
def triaCenter : List ℤ := [ltThird, ltThird]

/-- `lt_node_coords`, `lt_midpoint_coords` of a quadrilateral (columns; index modulo 4);
/repo/lib/lf/refinement/hybrid2d_refinement_pattern.cc:688-698. -/
def quadNode (i : ℕ) : List ℤ :=
  match i % 4 with
  | 0 => [0, 0]
  | 1 => [ltOne, 0]
  | 2 => [ltOne, ltOne]
  | _ => [0, ltOne]
def quadMid (i : ℕ) : List ℤ :=
  match i % 4 with
  | 0 => [ltHalf, 0]
  | 1 => [ltOne, ltHalf]
  | 2 => [ltHalf, ltOne]
  | _ => [0, ltHalf]
def quadCenter : List ℤ := [ltHalf, ltHalf]

/-- `LF_VERIFY_MSG(anchor_set_, ...)` in front of a result which depends on the anchor. -/
def needAnchor {α : Type} (p : Pattern) (f : ℕ → α) : Option α :=
  if p.anchorSet then p.anchor.map f else none

/-- Children of a triangle; /repo/lib/lf/refinement/hybrid2d_refinement_pattern.cc:356-531. -/
def triaCells (p : Pattern) : Option (List (List (List ℤ))) :=
  match p.pat with
  | .nil => some []
  | .copy => some [[triaNode 0, triaNode 1, triaNode 2]]
  | .bisect => p.needAnchor fun a =>
    [[triaNode a, triaMid a, triaNode (2 + a)],
     [triaNode (1 + a), triaMid a, triaNode (2 + a)]]
  | .trisect => p.needAnchor fun a =>
    [[triaNode a, triaMid a, triaNode (2 + a)],
     [triaNode (1 + a), triaMid a, triaMid (1 + a)],
     [triaNode (2 + a), triaMid a, triaMid (1 + a)]]
  | .trisectLeft => p.needAnchor fun a =>
    [[triaNode a, triaMid a, triaMid (2 + a)],
     [triaNode (1 + a), triaMid a, triaNode (2 + a)],
     [triaNode (2 + a), triaMid a, triaMid (2 + a)]]
  | .quadsect => p.needAnchor fun a =>
    [[triaNode a, triaMid a, triaMid (2 + a)],
     [triaNode (1 + a), triaMid a, triaMid (1 + a)],
     [triaNode (2 + a), triaMid a, triaMid (1 + a)],
     [triaNode (2 + a), triaMid a, triaMid (2 + a)]]
  | .regular => some
    [[triaNode 0, triaMid 0, triaMid 2],
     [triaNode 1, triaMid 0, triaMid 1],
     [triaNode 2, triaMid 2, triaMid 1],
     [triaMid 0, triaMid 1, triaMid 2]]
  | .barycentric => some
    [[triaNode 0, triaMid 0, triaCenter],
     [triaNode 1, triaMid 0, triaCenter],
     [triaNode 1, triaMid 1, triaCenter],
     [triaNode 2, triaMid 1, triaCenter],
     [triaNode 2, triaMid 2, triaCenter],
     [triaNode 0, triaMid 2, triaCenter]]
  | _ => none

/-- Interior edges of a triangle; /repo/lib/lf/refinement/hybrid2d_refinement_pattern.cc:532-668. -/
def triaEdges (p : Pattern) : Option (List (List (List ℤ))) :=
  match p.pat with
  | .nil => some []
  | .copy => some []
  | .bisect => p.needAnchor fun a => [[triaMid a, triaNode (2 + a)]]
  | .trisect => p.needAnchor fun a =>
    [[triaMid a, triaNode (2 + a)], [triaMid a, triaMid (1 + a)]]
  | .trisectLeft => p.needAnchor fun a =>
    [[triaMid a, triaNode (2 + a)], [triaMid a, triaMid (2 + a)]]
  | .quadsect => p.needAnchor fun a =>
    [[triaMid a, triaNode (2 + a)], [triaMid a, triaMid (2 + a)], [triaMid a, triaMid (1 + a)]]
  | .regular => some
    [[triaMid 0, triaMid 2], [triaMid 0, triaMid 1], [triaMid 2, triaMid 1]]
  | .barycentric => some
    [[triaNode 0, triaCenter], [triaNode 1, triaCenter], [triaNode 2, triaCenter],
     [triaMid 0, triaCenter], [triaMid 1, triaCenter], [triaMid 2, triaCenter]]
  | _ => none

/-- Children of a quadrilateral; /repo/lib/lf/refinement/hybrid2d_refinement_pattern.cc:701-854. -/
def quadCells (p : Pattern) : Option (List (List (List ℤ))) :=
  match p.pat with
  | .nil => some []
  | .copy => some [[quadNode 0, quadNode 1, quadNode 2, quadNode 3]]
  | .trisect => p.needAnchor fun a =>
    [[quadMid a, quadNode (2 + a), quadNode (3 + a)],
     [quadMid a, quadNode a, quadNode (3 + a)],
     [quadMid a, quadNode (1 + a), quadNode (2 + a)]]
  | .quadsect => p.needAnchor fun a =>
    [[quadNode a, quadNode (3 + a), quadMid a],
     [quadNode (1 + a), quadMid (1 + a), quadMid a],
     [quadNode (2 + a), quadNode (3 + a), quadMid (1 + a)],
     [quadMid a, quadMid (1 + a), quadNode (3 + a)]]
  | .bisect => p.needAnchor fun a =>
    [[quadNode a, quadMid a, quadMid (2 + a), quadNode (3 + a)],
     [quadNode (1 + a), quadNode (2 + a), quadMid (2 + a), quadMid a]]
  | .split => p.needAnchor fun a =>
    [[quadNode a, quadMid a, quadMid (2 + a), quadNode (3 + a)],
     [quadNode (1 + a), quadNode (2 + a), quadMid (2 + a), quadMid a]]
  | .threeedge => p.needAnchor fun a =>
    [[quadNode (2 + a), quadNode (3 + a), quadMid (3 + a), quadMid (1 + a)],
     [quadNode a, quadMid a, quadMid (3 + a)],
     [quadNode (1 + a), quadMid a, quadMid (1 + a)],
     [quadMid a, quadMid (1 + a), quadMid (3 + a)]]
  | .regular => some
    [[quadNode 0, quadMid 0, quadCenter, quadMid 3],
     [quadNode 1, quadMid 1, quadCenter, quadMid 0],
     [quadNode 2, quadMid 1, quadCenter, quadMid 2],
     [quadNode 3, quadMid 2, quadCenter, quadMid 3]]
  | .barycentric => some
    [[quadNode 0, quadMid 0, quadCenter, quadMid 3],
     [quadNode 1, quadMid 1, quadCenter, quadMid 0],
     [quadNode 2, quadMid 1, quadCenter, quadMid 2],
     [quadNode 3, quadMid 2, quadCenter, quadMid 3]]
  | _ => none

/-- Interior edges of a quadrilateral; /repo/lib/lf/refinement/hybrid2d_refinement_pattern.cc:855-962. -/
def quadEdges (p : Pattern) : Option (List (List (List ℤ))) :=
  match p.pat with
  | .nil => some []
  | .copy => some []
  | .trisect => p.needAnchor fun a =>
    [[quadMid a, quadNode (2 + a)], [quadMid a, quadNode (3 + a)]]
  | .quadsect => p.needAnchor fun a =>
    [[quadNode (3 + a), quadMid a], [quadMid (1 + a), quadMid a], [quadNode (3 + a), quadMid (1 + a)]]
  | .bisect => p.needAnchor fun a => [[quadMid a, quadMid (2 + a)]]
  | .split => p.needAnchor fun a => [[quadMid a, quadMid (2 + a)]]
  | .threeedge => p.needAnchor fun a =>
    [[quadMid (3 + a), quadMid (1 + a)], [quadMid a, quadMid (3 + a)], [quadMid a, quadMid (1 + a)]]
  | .regular => some
    [[quadMid 0, quadCenter], [quadMid 1, quadCenter], [quadMid 2, quadCenter], [quadMid 3, quadCenter]]
  | .barycentric => some
    [[quadMid 0, quadCenter], [quadMid 1, quadCenter], [quadMid 2, quadCenter], [quadMid 3, quadCenter]]
  | _ => none

/-- `ChildPolygons(codim)`; /repo/lib/lf/refinement/hybrid2d_refinement_pattern.cc:272-981. -/
def childPolygons (p : Pattern) (codim : ℕ) : Option (List (List (List ℤ))) :=
  if p.ref.dimension < codim then none
  else match p.ref, codim with
    | .point, _ => if p.pat = .nil then some [] else some [[[]]]
    | .segment, 0 =>
      match p.pat with
      | .nil => some []
      | .copy => some [[[0], [ltOne]]]
      | .split => some [[[0], [ltHalf]], [[ltHalf], [ltOne]]]
      | _ => none
    | .segment, _ => if p.pat = .split then some [[[ltHalf]]] else some []
    | .tria, 0 => p.triaCells
    | .tria, 1 => p.triaEdges
    | .tria, _ => if p.pat = .barycentric then some [[triaCenter]] else some []
    | .quad, 0 => p.quadCells
    | .quad, 1 => p.quadEdges
    | .quad, _ => if p.pat = .regular ∨ p.pat = .barycentric then some [[quadCenter]] else some []

end Pattern
end Verif
