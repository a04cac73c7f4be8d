import Verif.Spec.Geometry
import Verif.Model.GeoCheck

/-!
# Specification: cells which are not degenerate
-/

namespace Verif
namespace Geo
variable {w : ℕ}

/-- Square of the distance of two points. -/
noncomputable def lengthSq (p q : Vec ℝ w) : ℝ := ∑ i, (p i - q i) ^ 2

/-- Area of the parallelogram spanned by two vectors: the root of their Gram determinant. -/
noncomputable def spannedArea (u v : Vec ℝ w) : ℝ :=
  Real.sqrt ((matrix 2 [u, v]).transpose * matrix 2 [u, v]).det

/-- The squared lengths of the sides and twice the area of a triangle exceed `tol` times the sum of the squared lengths
of the sides. -/
def WellShapedTria (tol : ℝ) (a b c : Vec ℝ w) : Prop :=
  let s := tol * (lengthSq a b + lengthSq b c + lengthSq c a)
  s < lengthSq a b ∧ s < lengthSq b c ∧ s < lengthSq c a ∧ s < spannedArea (b - a) (c - a)

/-- The same for a quadrilateral, with the two triangles on both sides of the diagonal through the first corner. -/
def WellShapedQuad (tol : ℝ) (a b c d : Vec ℝ w) : Prop :=
  let s := tol * (lengthSq a b + lengthSq b c + lengthSq c d + lengthSq d a)
  s < lengthSq a b ∧ s < lengthSq b c ∧ s < lengthSq c d ∧ s < lengthSq d a ∧
    s < spannedArea (b - a) (c - a) + spannedArea (d - a) (c - a)

/-- The parametrization of a cell is regular: at all points of the reference element the integration element is positive
and `JacobianInverseGramian` does not divide by zero. -/
def Regular (g : Geo ℝ w) : Prop :=
  ∀ x, g.kind.Contains x → (g.jacobianInverseGramian x).isSome ∧ ∃ t > 0, g.integrationElement x = some t

/-- Oriented area of the parallelogram at the corner `q` of a polygon in the plane with the neighbours `p` and `r`. -/
def cornerTurn (p q r : Vec ℝ 2) : ℝ := (q 0 - p 0) * (r 1 - q 1) - (q 1 - p 1) * (r 0 - q 0)

/-- A quadrilateral in the plane which is strictly convex: on the way around it one turns to the same side at all four
corners. -/
def ConvexQuad (a b c d : Vec ℝ 2) : Prop :=
  (0 < cornerTurn d a b ∧ 0 < cornerTurn a b c ∧ 0 < cornerTurn b c d ∧ 0 < cornerTurn c d a) ∨
  (cornerTurn d a b < 0 ∧ cornerTurn a b c < 0 ∧ cornerTurn b c d < 0 ∧ cornerTurn c d a < 0)

/-- Cells which arise from a cell by repeated regular refinement, without the checks of the constructors. -/
inductive RegularDescendant (g : Geo ℝ w) : Geo ℝ w → Prop
  | refl : RegularDescendant g g
  | step {d c : Geo ℝ w} {p : Pattern} {cs : List (Geo ℝ w)} : RegularDescendant g d → p.pat = .regular →
      d.child p 0 = some cs → c ∈ cs → RegularDescendant g c

end Geo
end Verif
