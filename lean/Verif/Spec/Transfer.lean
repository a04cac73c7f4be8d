import Verif.Spec.Geometry
import Verif.Spec.Refinement
import Verif.Model.Transfer

/-!
# Specification vocabulary for relative geometries
-/

namespace Verif
variable {K : Type} {w : ℕ}

/-- The corners of an axis-parallel rectangle, passed through in one of the two directions. -/
def AxisQuad {A : Type} (x0 y0 x1 y1 x2 y2 x3 y3 : A) : Prop :=
  (y1 = y0 ∧ x2 = x1 ∧ x3 = x0 ∧ y3 = y2) ∨ (x1 = x0 ∧ y2 = y1 ∧ y3 = y0 ∧ x3 = x2)

/-- Points, axis-parallel segments and axis-parallel rectangles. -/
def AxisParallel : List (List ℤ) → Prop
  | [_] => True
  | [[x0, y0], [x1, y1]] => x0 = x1 ∨ y0 = y1
  | [[x0, y0], [x1, y1], [x2, y2], [x3, y3]] => AxisQuad x0 y0 x1 y1 x2 y2 x3 y3
  | _ => False

namespace Geo
variable [Field K] [LinearOrder K]

/-- The relative geometry `r` places the child `h` in the parent `g`: for every point of the reference
element of the child, `r` yields a point of the reference element of the parent, and mapping this point by
`g` gives the same point as mapping the given one by `h`. -/
def Places {n : ℕ} (r : Geo K n) (g h : Geo K w) : Prop :=
  r.kind = h.kind ∧ ∀ x, h.kind.Contains x → ∃ y v, r.global x = some y ∧ g.kind.Contains (List.ofFn y) ∧
    g.global (List.ofFn y) = some v ∧ h.global x = some v

/-- Geometries with the following property: the composition with an affine map of the reference element
belongs to the same class of parametrizations.  All but `QuadO1` and `QuadO2`. -/
def Stable : Geo K w → Prop
  | quadO1 .. => False
  | quadO2 .. => False
  | _ => True

end Geo

/-- All geometries of the mesh are points, straight or quadratic segments and triangles, or parallelograms. -/
def Mesh.Stable (M : Mesh (Geo K w)) : Prop :=
  ∀ codim ≤ 2, ∀ i < M.topo.num codim, ∀ g, M.geo codim i = some g → g.Stable

/-- Patterns which cut quadrilaterals into axis-parallel rectangles of the reference element. -/
def axisPats : List RefPat := [.copy, .split, .bisect, .regular, .barycentric]

/-- The parent of the parent ... (`n` times) of an entity of the given level. -/
def Hierarchy.ancestor {G : Type} (H : Hierarchy G) : ℕ → ℕ → Ent → Option Ent
  | 0, _, e => some e
  | n + 1, level, e => (H.parentEntity level e).bind fun par => H.ancestor n (level - 1) par

/-- Geometry of an entity of a level. -/
def Hierarchy.geo {G : Type} (H : Hierarchy G) (level : ℕ) (e : Ent) : Option G :=
  (H.getMesh level).bind fun M => M.geo e.1 e.2

/-- An entity of a level. -/
def Hierarchy.Has {G : Type} (H : Hierarchy G) (level : ℕ) (e : Ent) : Prop :=
  ∃ M, H.getMesh level = some M ∧ e.1 ≤ 2 ∧ e.2 < M.topo.num e.1

/-- Pattern by which an entity of a level has been refined. -/
def Hierarchy.pattern {G : Type} (H : Hierarchy G) (level : ℕ) (e : Ent) : Option Pattern :=
  (H.levels.reverse[level]?).bind fun L => L.pattern e

/-- Entities for whose children `GeometryInParent` is exact. -/
def Hierarchy.Exact (H : Hierarchy (Geo K w)) (level : ℕ) (e : Ent) : Prop :=
  (∃ g, H.geo level e = some g ∧ g.Stable) ∨ ∃ p, H.pattern level e = some p ∧ p.pat ∈ axisPats

end Verif
