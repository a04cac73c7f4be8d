import Verif.Model.Geometry
import Mathlib.LinearAlgebra.Matrix.NonsingularInverse

/-!
# Specification vocabulary for geometries
-/

namespace Verif
variable {K : Type} {w : ℕ}

/-- The points of the reference elements; a point is the list of its coordinates. -/
def RefEl.Contains [Field K] [LinearOrder K] : RefEl → List K → Prop
  | .point, [] => True
  | .segment, [x] => 0 ≤ x ∧ x ≤ 1
  | .tria, [x, y] => 0 ≤ x ∧ 0 ≤ y ∧ x + y ≤ 1
  | .quad, [x, y] => 0 ≤ x ∧ x ≤ 1 ∧ 0 ≤ y ∧ y ≤ 1
  | _, _ => False

/-- Corners of the reference elements; /repo/lib/lf/base/ref_el.cc:22-29. -/
def RefEl.corners [Field K] : RefEl → List (List K)
  | .point => [[]]
  | .segment => [[0], [1]]
  | .tria => [[0, 0], [1, 0], [0, 1]]
  | .quad => [[0, 0], [1, 0], [1, 1], [0, 1]]

/-- Midpoints of the sides of the reference elements. -/
def RefEl.sideMids [Field K] : RefEl → List (List K)
  | .point => []
  | .segment => [[1 / 2]]
  | .tria => [[1 / 2, 0], [1 / 2, 1 / 2], [0, 1 / 2]]
  | .quad => [[1 / 2, 0], [1, 1 / 2], [1 / 2, 1], [0, 1 / 2]]

namespace Geo

/-- The geometries with a parametrization of second order. -/
def quadratic : Geo K w → Bool
  | segO2 .. => true
  | triaO2 .. => true
  | quadO2 .. => true
  | _ => false

/-- Where the coordinates passed to the constructor belong: the corners of the reference element, for
second order geometries followed by the midpoints of the sides. -/
def nodes [Field K] (g : Geo K w) : List (List K) :=
  g.kind.corners ++ if g.quadratic then g.kind.sideMids else []

/-- What the constructor of `Parallelogram` asserts (up to a tolerance):
/repo/lib/lf/geometry/quad_o1.cc:266-269. -/
def Proper [Field K] : Geo K w → Prop
  | parallelogram a b c d => d - c + b - a = 0
  | _ => True

/-- Point with parameter `t` on side `i` of a reference cell, which runs from corner `i` to the next
corner. -/
def sidePoint [Field K] (r : RefEl) (i : ℕ) (t : K) : List K :=
  List.zipWith (fun p q => (1 - t) * p + t * q) ((r.corners : List (List K)).getD i [])
    ((r.corners : List (List K)).getD ((i + 1) % r.numNodes) [])

/-- The matrix with `n` columns from a list. -/
def matrix [Zero K] (n : ℕ) (cols : List (Vec K w)) : Matrix (Fin w) (Fin n) K :=
  fun i j => (cols.getD j.val 0) i

/-- The set described by a geometry: the image of its reference element. -/
def image [Field K] [LinearOrder K] (g : Geo K w) : Set (Vec K w) :=
  {v | ∃ x, g.kind.Contains x ∧ g.global x = some v}

end Geo
end Verif
