import Verif.Model.RefPattern
import Mathlib.Algebra.Field.Basic
import Mathlib.Algebra.Order.Field.Basic
import Mathlib.Algebra.BigOperators.Group.List.Basic

/-!
# Specification vocabulary for refinement patterns
-/

namespace Verif

/-- The (element type, pattern) combinations which the documentation of `ChildPolygons` describes, and
whether they need an anchor edge; /repo/lib/lf/refinement/hybrid2d_refinement_pattern.h:97-205. -/
def patternTable : RefEl → RefPat → Option Bool
  | .point, .nil => some false
  | .point, .copy => some false
  | .segment, .nil => some false
  | .segment, .copy => some false
  | .segment, .split => some false
  | .tria, .nil => some false
  | .tria, .copy => some false
  | .tria, .bisect => some true
  | .tria, .trisect => some true
  | .tria, .trisectLeft => some true
  | .tria, .quadsect => some true
  | .tria, .regular => some false
  | .tria, .barycentric => some false
  | .quad, .nil => some false
  | .quad, .copy => some false
  | .quad, .split => some true
  | .quad, .bisect => some true
  | .quad, .trisect => some true
  | .quad, .quadsect => some true
  | .quad, .threeedge => some true
  | .quad, .regular => some false
  | .quad, .barycentric => some false
  | _, _ => none

/-- A legal request: the pattern exists for the type of element, and the anchor is set if needed. -/
def Pattern.Admissible (p : Pattern) : Prop :=
  patternTable p.ref p.pat = some false ∨ (patternTable p.ref p.pat = some true ∧ p.anchorSet = true)

/-- Pattern objects which a program can create by constructors and setters. -/
inductive Pattern.Reachable : Pattern → Prop
  | make (ref : RefEl) (pat : RefPat) (a : Option ℕ) (p : Pattern) :
      Pattern.make ref pat a = some p → Reachable p
  | setAnchor (p : Pattern) (a : Option ℕ) (q : Pattern) :
      Reachable p → p.setAnchor a = some q → Reachable q
  | setRefPattern (p : Pattern) (pat : RefPat) : Reachable p → Reachable (p.setRefPattern pat)

/-- Lattice points of the reference elements (lattice constant 6). -/
def InLattice : RefEl → List ℤ → Prop
  | .point, [] => True
  | .segment, [x] => 0 ≤ x ∧ x ≤ 6
  | .tria, [x, y] => 0 ≤ x ∧ 0 ≤ y ∧ x + y ≤ 6
  | .quad, [x, y] => 0 ≤ x ∧ x ≤ 6 ∧ 0 ≤ y ∧ y ≤ 6
  | _, _ => False

/-- Possible numbers of vertices of a child: by the dimension of the child. -/
def vertexCounts (dim : ℕ) : List ℕ :=
  match dim with
  | 0 => [1]
  | 1 => [2]
  | _ => [3, 4]

section Tiling
variable {K : Type} [Field K] [LinearOrder K] [IsStrictOrderedRing K]

/-- Points of the reference triangle and of the reference square. -/
def InRefEl (ref : RefEl) (p : K × K) : Prop :=
  match ref with
  | .tria => 0 ≤ p.1 ∧ 0 ≤ p.2 ∧ p.1 + p.2 ≤ 1
  | .quad => 0 ≤ p.1 ∧ p.1 ≤ 1 ∧ 0 ≤ p.2 ∧ p.2 ≤ 1
  | _ => False

/-- Reference coordinates of a lattice point. -/
def latticePoint (col : List ℤ) : K × K :=
  (((col.getD 0 0 : ℤ) : K) / 6, ((col.getD 1 0 : ℤ) : K) / 6)

/-- Weighted sum of points. -/
def combination (w : List K) (pts : List (K × K)) : K × K :=
  ((List.zipWith (fun a (q : K × K) => a * q.1) w pts).sum,
   (List.zipWith (fun a (q : K × K) => a * q.2) w pts).sum)

/-- `p` lies in the closed convex polygon with the given vertices. -/
def InPolygon (pts : List (K × K)) (p : K × K) : Prop :=
  ∃ w : List K, w.length = pts.length ∧ (∀ x ∈ w, 0 ≤ x) ∧ w.sum = 1 ∧ p = combination w pts

/-- `p` lies in the interior of the (non-degenerate) convex polygon with the given vertices. -/
def InInterior (pts : List (K × K)) (p : K × K) : Prop :=
  ∃ w : List K, w.length = pts.length ∧ (∀ x ∈ w, 0 < x) ∧ w.sum = 1 ∧ p = combination w pts

/-- Twice the signed area of the triangle `a`, `b`, `c`. -/
def cross (a b c : K × K) : K := (b.1 - a.1) * (c.2 - a.2) - (b.2 - a.2) * (c.1 - a.1)

/-- Vertices of a non-degenerate strictly convex polygon, passed through in one direction: three
consecutive vertices always turn to the same side. -/
def StrictlyConvex (pts : List (K × K)) : Prop :=
  3 ≤ pts.length ∧
  ((∀ i < pts.length, 0 < cross (pts.getD i 0) (pts.getD ((i + 1) % pts.length) 0)
      (pts.getD ((i + 2) % pts.length) 0)) ∨
   (∀ i < pts.length, cross (pts.getD i 0) (pts.getD ((i + 1) % pts.length) 0)
      (pts.getD ((i + 2) % pts.length) 0) < 0))

/-- Area of a triangle or of a convex quadrilateral. -/
def polyArea (pts : List (K × K)) : K :=
  match pts with
  | [a, b, c] => |cross a b c| / 2
  | [a, b, c, d] => |cross a b c| / 2 + |cross a c d| / 2
  | _ => 0

end Tiling
end Verif
