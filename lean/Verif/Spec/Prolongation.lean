import Verif.Spec.Transfer
import Verif.Spec.FeTools

/-!
# Specification vocabulary for prolongation
-/

namespace Verif
variable {G : Type} {K : Type} [Field K] [LinearOrder K]

/-- The point with the local coordinates `x` in the entity `e` of the given level has the local coordinates `y`
in the parent `par` of `e`, according to `ParentEntity` and `GeometryInParent`. -/
def Hierarchy.InParent (H : Hierarchy G) (level : ℕ) (e : Ent) (x : List K) (par : Ent) (y : List K) : Prop :=
  H.parentEntity level e = some par ∧
  ∃ n, ∃ g : Geo K n, ∃ v, H.geometryInParent K level e = some ⟨n, g⟩ ∧ g.global x = some v ∧ y = List.ofFn v

/-- The function on the fine mesh with the coefficients `F` has at the point `x` of the fine cell `i`, which
lies in the coarse cell `c`, the value of the function on the coarse mesh with the coefficients `w`. -/
def Hierarchy.AgreesAt (H : Hierarchy G) (level : ℕ) (coarse fine : FeSpace K) (w F : List K) (c i : ℕ) (x : List K) :
    Prop :=
  ∃ y v, H.InParent (level + 1) (0, i) x (0, c) y ∧ coarse.evalFE w (0, c) y = some v ∧
    fine.evalFE F (0, i) x = some v

/-- Polynomials of degree `pc` on the cell `c` of level `level`, with reference element `r`, are polynomials of
degree `pf` on its children with reference element `rf`:
triangles in a triangle, any degree; triangles in a quadrilateral, the double degree; patterns which
cut a quadrilateral into rectangles (in the reference element), any degree. -/
def Hierarchy.Nested (H : Hierarchy G) (level c : ℕ) (r rf : RefEl) (pc pf : ℕ) : Prop :=
  (r = .tria ∧ pc ≤ pf) ∨ (rf = .tria ∧ 2 * pc ≤ pf) ∨
  (∃ p, H.pattern level (0, c) = some p ∧ p.pat ∈ axisPats ∧ pc ≤ pf)

end Verif
