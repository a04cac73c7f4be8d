import Verif.Model.Geometry
import Verif.Spec.Geometry

/-!
# Specification of outer normals
-/

namespace Verif
namespace Geo

/-- `n` is the outer unit normal of the cell `g` at its side `i`: a unit vector, orthogonal to the side, and
all points of the cell which are not on this side are strictly on the other side of its line. -/
structure IsOuterNormal (g : Geo ℝ 2) (i : ℕ) (n : Vec ℝ 2) : Prop where
  unit : dot n n = 1
  orthogonal : ∀ s t p q, g.global (sidePoint g.kind i s) = some p → g.global (sidePoint g.kind i t) = some q →
    dot n (q - p) = 0
  outer : ∀ x t p q, g.kind.Contains x → (∀ s, 0 ≤ s → s ≤ 1 → x ≠ sidePoint g.kind i s) →
    g.global (sidePoint g.kind i t) = some p → g.global x = some q → dot n (q - p) < 0

/-- Triangles and quadrilaterals with straight sides which are strictly convex: one turns in the same
direction at all corners. -/
def StrictlyConvex : Geo ℝ 2 → Prop
  | triaO1 a b c => det2 (b - a) (c - a) ≠ 0
  | quadO1 a b c d =>
    (0 < det2 (b - a) (c - b) ∧ 0 < det2 (c - b) (d - c) ∧ 0 < det2 (d - c) (a - d) ∧ 0 < det2 (a - d) (b - a)) ∨
    (det2 (b - a) (c - b) < 0 ∧ det2 (c - b) (d - c) < 0 ∧ det2 (d - c) (a - d) < 0 ∧ det2 (a - d) (b - a) < 0)
  | parallelogram a b c d => det2 (b - a) (d - a) ≠ 0 ∧ d - c + b - a = 0
  | _ => False

end Geo
end Verif

namespace Verif

/-- Length of side `i` of a reference cell: the distance of its end points. -/
noncomputable def RefEl.sideLength (r : RefEl) (i : ℕ) : ℝ :=
  Real.sqrt ((List.zipWith (fun p q : ℝ => (q - p) ^ 2) (Geo.sidePoint r i 0) (Geo.sidePoint r i 1)).sum)

end Verif
