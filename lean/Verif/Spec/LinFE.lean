import Verif.Model.LinFE
import Verif.Spec.Quad
import Mathlib.LinearAlgebra.Matrix.NonsingularInverse

/-!
# Specification vocabulary for `lf/uscalfe/lin_fe.h`
-/

namespace Verif
open Geo

/-- The affine functions `x ↦ k i + gr i · x` are the barycentric coordinates of the triangle with corners
`v`: function `i` is `1` in corner `i` and `0` in the others. -/
def IsBary (v : Fin 3 → Vec ℝ 2) (k : Fin 3 → ℝ) (gr : Fin 3 → Vec ℝ 2) : Prop :=
  ∀ i j, k i + dot (gr i) (v j) = if i = j then 1 else 0

/-- The `2 x 2` tensor product Gauss rule on the unit square. -/
noncomputable def gauss22 : QuadRule ℝ where
  ref := .quad
  degree := 3
  points := [[zeta0, zeta0], [zeta0, zeta1], [zeta1, zeta0], [zeta1, zeta1]]
  weights := [1 / 4, 1 / 4, 1 / 4, 1 / 4]

/-- The gradient on the cell, at the point with reference coordinates `x`, of the function with the
gradient `d` on the reference element: `J (JᵀJ)⁻¹ d`. -/
noncomputable def Geo.pushGrad {w : ℕ} (g : Geo ℝ w) (x : List ℝ) (d : List ℝ) : Vec ℝ w :=
  let J := matrix g.kind.dimension ((g.jacobian x).getD [])
  (J * (J.transpose * J)⁻¹).mulVec fun k => d.getD k.val 0

/-- The integrand of the Dirichlet form of the `i`-th and the `j`-th shape function, transformed to the
reference element: `|det J| (grad N_i) · (grad N_j)`. -/
noncomputable def Geo.dirichlet {w : ℕ} (g : Geo ℝ w) (fe : RefFE ℝ) (i j : ℕ) (x : List ℝ) : ℝ :=
  (g.integrationElement x).getD 0 *
    dot (g.pushGrad x (((fe.grad x).getD []).getD i [])) (g.pushGrad x (((fe.grad x).getD []).getD j []))

end Verif
