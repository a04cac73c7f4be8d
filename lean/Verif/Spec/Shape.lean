import Verif.Spec.Transfer

/-!
# Specification: shapes of the triangles of a mesh hierarchy

A triangle with a refinement edge is described, up to translation, by its corner opposite to the refinement edge: the
two vectors from this corner to the end points of the refinement edge.
-/

namespace Verif

section
variable {K : Type} {w : ℕ} [Field K]

/-- The corner of a triangle opposite to its side `r`, as the vectors to the two end points of this side. -/
def triaCorner (p0 p1 p2 : Vec K w) : ℕ → Option (Vec K w × Vec K w)
  | 0 => some (p0 - p2, p1 - p2)
  | 1 => some (p1 - p0, p2 - p0)
  | 2 => some (p2 - p1, p0 - p1)
  | _ => none

/-- The corner opposite to the refinement edge (`RefinementEdges(level)`,
/repo/lib/lf/refinement/mesh_hierarchy.h:240-244) of the cell with index `c`, if this is an affine triangle. -/
def Level.corner (L : Level (Geo K w)) (c : ℕ) : Option (Vec K w × Vec K w) :=
  match L.mesh.cellGeo c, L.refEdges[c]? with
  | some (.triaO1 p0 p1 p2), some (some r) => triaCorner p0 p1 p2 r
  | _, _ => none

/-- The same for a mesh hierarchy. -/
def Hierarchy.corner (H : Hierarchy (Geo K w)) (level c : ℕ) : Option (Vec K w × Vec K w) :=
  (H.levels.reverse[level]?).bind fun L => L.corner c

/-- `y` is a scaled copy of the corner `x`, possibly with the vectors in the other order. -/
def Scaled (s : K) (x y : Vec K w × Vec K w) : Prop := y = (s • x.1, s • x.2) ∨ y = (s • x.2, s • x.1)

/-- `y` has one of the four shapes newest vertex bisection creates from a triangle with the corner `x = (u, v)`, in the
size which belongs to the number `n` of halvings: the triangle itself, its mirror image, and the two triangles which
arise by bisection, of which each angle occurs in the four. -/
def NvbShape (n : ℕ) (x y : Vec K w × Vec K w) : Prop :=
  ∃ s : K, (s = (1 / 2) ^ n ∨ s = -(1 / 2) ^ n) ∧ (Scaled s x y ∨ Scaled s (x.1, -x.2) y ∨
    Scaled s (x.1 + x.2, x.1 - x.2) y ∨ Scaled s (x.1 + x.2, x.2 - x.1) y)

/-- The corner of child `k` of a triangle with the corner `x = (u, v)`, for the patterns used by `RefineRegular` (with
`rp_regular`) and `RefineMarked`. -/
def ChildCorner (pat : RefPat) (k : ℕ) (x y : Vec K w × Vec K w) : Prop :=
  match pat, k with
  | .copy, 0 => y = x
  | .bisect, 0 | .trisect, 0 => y = (-(1 / 2 : K) • (x.1 + x.2), (1 / 2 : K) • (x.1 - x.2))
  | .bisect, 1 | .trisectLeft, 1 => y = (-(1 / 2 : K) • (x.1 + x.2), (1 / 2 : K) • (x.2 - x.1))
  | .trisect, 1 => y = ((1 / 2 : K) • (x.1 - x.2), -(1 / 2 : K) • x.2)
  | .trisect, 2 => y = (-(1 / 2 : K) • x.2, (1 / 2 : K) • x.1)
  | .trisectLeft, 0 => y = (-(1 / 2 : K) • x.2, (1 / 2 : K) • (x.1 - x.2))
  | .trisectLeft, 2 => y = (-(1 / 2 : K) • x.1, (1 / 2 : K) • x.2)
  | .regular, 0 | .regular, 1 | .regular, 2 => Scaled (1 / 2 : K) x y
  | .regular, 3 => y = (-(1 / 2 : K) • x.1, -(1 / 2 : K) • x.2)
  | _, _ => False

end

variable {G : Type}

/-- The triangle `i` of level `level + 1` is child `k` of the cell `c` of level `level`, which has been refined with the
pattern `pat`. -/
def Hierarchy.ChildOf (H : Hierarchy G) (level c : ℕ) (pat : RefPat) (k i : ℕ) : Prop :=
  ∃ info p, H.pattern level (0, c) = some p ∧ p.ref = .tria ∧ p.pat = pat ∧
    H.parentInfo (level + 1) (0, i) = some info ∧ info.parent = some (0, c) ∧ info.childNumber = some k

/-- Children for which the code chooses a refinement edge in accordance with newest vertex bisection: all, except for
child 1 of `rp_trisect` and child 0 of `rp_trisect_left`; children of `rp_barycentric` are not considered. -/
def NvbChild (pat : RefPat) (k : ℕ) : Prop :=
  pat ≠ .barycentric ∧ ¬ (pat = .trisect ∧ k = 1) ∧ ¬ (pat = .trisectLeft ∧ k = 0)

/-- The cell `c'` of level `level'` arises from the cell `c` of level `level` by passing from triangles to children
other than the exceptional ones. -/
inductive Hierarchy.NvbLine (H : Hierarchy G) (level c : ℕ) : ℕ → ℕ → Prop
  | refl : H.NvbLine level c level c
  | step {l d k i : ℕ} {pat : RefPat} : H.NvbLine level c l d → H.ChildOf l d pat k i → NvbChild pat k →
      H.NvbLine level c (l + 1) i

end Verif
