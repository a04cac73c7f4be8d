import Verif.Model.FeTools
import Verif.Model.Geometry
import Verif.Spec.Geometry
import Mathlib.LinearAlgebra.Matrix.Notation

/-!
# Model of the element matrix and element vector providers of `lf/uscalfe/lin_fe.h`

`double` is `ℝ`.  The cells are given by their geometries in the plane (the code asserts
`DimGlobal() == 2 && DimLocal() == 2`).  Divisions by zero are `none`.
-/

namespace Verif
open Geo

/-- A `3 x 3` matrix as upper left block of a `4 x 4` matrix of zeros:
`elem_mat.block<3, 3>(0, 0) = B`. -/
def block33 (B : Matrix (Fin 3) (Fin 3) ℝ) : Matrix (Fin 4) (Fin 4) ℝ :=
  Matrix.of fun i j => if h : i.val < 3 ∧ j.val < 3 then B ⟨i.val, h.1⟩ ⟨j.val, h.2⟩ else 0

/-- The matrix `X` with a column of ones and the coordinates of the corners;
/repo/lib/lf/uscalfe/lin_fe.cc:69-71. -/
def triaX (v : Fin 3 → Vec ℝ 2) : Matrix (Fin 3) (Fin 3) ℝ := Matrix.of fun i => ![1, v i 0, v i 1]

/-- `LinearFELaplaceElementMatrix::Eval` for a triangle with the given corners;
/repo/lib/lf/uscalfe/lin_fe.cc:60-85. -/
noncomputable def laplaceTria (v : Fin 3 → Vec ℝ 2) : Option (Matrix (Fin 4) (Fin 4) ℝ) :=
  let X := triaX v
  if X.det = 0 then none else
  let area := 1 / 2 * |X.det|
  let grad : Matrix (Fin 2) (Fin 3) ℝ := Matrix.of fun k i => X⁻¹ k.succ i
  some (block33 (area • (grad.transpose * grad)))

/-- The coefficients `G` of the bilinear mapping; /repo/lib/lf/uscalfe/lin_fe.cc:91-97. -/
noncomputable def quadG (v : Fin 4 → Vec ℝ 2) : Matrix (Fin 2) (Fin 4) ℝ :=
  (Matrix.of fun r k => v k r) *
    (!![1, -1, -1, 1; 0, 1, 0, -1; 0, 0, 0, 1; 0, 0, 1, -1] : Matrix (Fin 4) (Fin 4) ℝ)

/-- The coefficients `detc` of the determinant; /repo/lib/lf/uscalfe/lin_fe.cc:102-107. -/
def quadDetc (G : Matrix (Fin 2) (Fin 4) ℝ) : Fin 3 → ℝ :=
  ![G 0 1 * G 1 2 - G 1 1 * G 0 2, G 0 1 * G 1 3 - G 1 1 * G 0 3, G 1 2 * G 0 3 - G 0 2 * G 1 3]

/-- `detDPhi`; /repo/lib/lf/uscalfe/lin_fe.cc:110-112. -/
noncomputable def detDPhi (G : Matrix (Fin 2) (Fin 4) ℝ) (x y : ℝ) : ℝ :=
  |quadDetc G 0 + quadDetc G 1 * x + quadDetc G 2 * y|

/-- `DPhiadj`; /repo/lib/lf/uscalfe/lin_fe.cc:117-125. -/
def DPhiadj (G : Matrix (Fin 2) (Fin 4) ℝ) (x y : ℝ) : Matrix (Fin 2) (Fin 2) ℝ :=
  !![G 1 2 + G 1 3 * x, -G 1 1 - G 1 3 * y; -G 0 2 - G 0 3 * x, G 0 1 + G 0 3 * y]

/-- `DervRefShapFncts`; /repo/lib/lf/uscalfe/lin_fe.cc:27-37. -/
def dervRefShapFncts (x y : ℝ) : Matrix (Fin 4) (Fin 2) ℝ :=
  !![y - 1, x - 1; 1 - y, -x; y, x; -y, 1 - x]

/-- `kZeta_0`, `kZeta_1`; /repo/lib/lf/uscalfe/lin_fe.h:73-75. -/
noncomputable def zeta0 : ℝ := 1 / 2 - 1 / 2 * (1 / Real.sqrt 3)
noncomputable def zeta1 : ℝ := 1 / 2 + 1 / 2 * (1 / Real.sqrt 3)

/-- `kQuadPoints`; /repo/lib/lf/uscalfe/lin_fe.h:76-78. -/
noncomputable def kQuadPoints : List (ℝ × ℝ) :=
  [(zeta0, zeta0), (zeta0, zeta1), (zeta1, zeta0), (zeta1, zeta1)]

/-- `LinearFELaplaceElementMatrix::Eval` for a quadrilateral with the given corners;
/repo/lib/lf/uscalfe/lin_fe.cc:86-148. -/
noncomputable def laplaceQuad (v : Fin 4 → Vec ℝ 2) : Option (Matrix (Fin 4) (Fin 4) ℝ) :=
  let G := quadG v
  let step (mat : Matrix (Fin 4) (Fin 4) ℝ) (qp : ℝ × ℝ) : Option (Matrix (Fin 4) (Fin 4) ℝ) :=
    let gradmat := DPhiadj G qp.1 qp.2 * (dervRefShapFncts qp.1 qp.2).transpose
    if detDPhi G qp.1 qp.2 = 0 then none
    else some (mat + (detDPhi G qp.1 qp.2)⁻¹ • (gradmat.transpose * gradmat))
  (kQuadPoints.foldlM step 0).map fun mat => (1 / 4 : ℝ) • mat

/-- `LinearFELaplaceElementMatrix::Eval`; /repo/lib/lf/uscalfe/lin_fe.cc:39-163.  (The logger statements,
which are compiled out or have no effect on the result, are left out.) -/
noncomputable def linearFELaplace (g : Geo ℝ 2) : Option (Matrix (Fin 4) (Fin 4) ℝ) :=
  (g.kind.corners.mapM g.global).bind fun vertices =>
  match g.kind, vertices with
  | .tria, [a, b, c] => laplaceTria ![a, b, c]
  | .quad, [a, b, c, d] => laplaceQuad ![a, b, c, d]
  | _, _ => none

/-- The columns of `ref_mp`; /repo/lib/lf/uscalfe/lin_fe.h:184-204. -/
noncomputable def refMp : RefEl → Option (List (List ℝ))
  | .tria => some [[1 / 2, 0], [1 / 2, 1 / 2], [0, 1 / 2], [-1, -1]]
  | .quad => some [[1 / 2, 0], [1, 1 / 2], [1 / 2, 1], [0, 1 / 2]]
  | _ => none

/-- `vec[i] += v`. -/
def addAt (vec : List ℝ) (i : ℕ) (v : ℝ) : Option (List ℝ) := (vec[i]?).map fun t => vec.set i (t + v)

/-- `LinearFELocalLoadVector::Eval` on cell `e` with geometry `g`; /repo/lib/lf/uscalfe/lin_fe.h:162-222. -/
noncomputable def linearFELoad (f : MeshFn ℝ ℝ) (g : Geo ℝ 2) (e : Ent) : Option (List ℝ) :=
  (refMp g.kind).bind fun mp =>
  g.volume.bind fun area =>
  (f e mp).bind fun fvals =>
  let n := g.kind.numNodes
  ((List.range n).foldlM (fun vec k =>
    (fvals[k]?).bind fun t =>
    (addAt vec k (1 / 2 * t)).bind fun vec => addAt vec ((k + 1) % n) (1 / 2 * t)) [0, 0, 0, 0]).map
  fun vec => vec.map fun t => area / n * t

/-- `MeshFunctionGlobal`: evaluates a function of world coordinates;
/repo/lib/lf/mesh/utils/mesh_function_global.h:45-61. -/
noncomputable def meshFunctionGlobal {w : ℕ} {V : Type} (geo : Ent → Option (Geo ℝ w)) (f : Vec ℝ w → V) : MeshFn ℝ V :=
  fun e pts => (geo e).bind fun g => (pts.mapM g.global).map fun xs => xs.map f

end Verif
