import Verif.Model.RefPattern
import Mathlib.Algebra.Field.Basic
import Mathlib.Algebra.Order.Field.Basic
import Mathlib.Algebra.BigOperators.Fin
import Mathlib.Algebra.Module.Pi
import Mathlib.Analysis.Real.Sqrt

/-!
# Model of `lf::geometry`

`double` is an ordered field `K`, world coordinates are vectors in `K^w`.  A matrix of coordinates is the
list of its columns.  The functions `Global`, `Jacobian`, ... of the code take a matrix of points and treat
its columns independently of each other; the model describes one column.  A failing `LF_VERIFY_MSG` /
`LF_ASSERT_MSG`, a point with the wrong number of coordinates and a division by zero are `none`.

The constructors of `TriaO1`, `QuadO1` and `Parallelogram` also check, with a tolerance, that the cell is
not degenerate (tria_o1.cc:10-48, quad_o1.cc:12-58).  This check is not modelled: objects of type `Geo` are
not restricted by it, so that the theorems also cover degenerate cells, on which the code stops.
-/

namespace Verif
variable {K : Type} {w : ℕ}

/-- World coordinates, one column of a matrix of coordinates. -/
abbrev Vec (K : Type) (w : ℕ) := Fin w → K

/-- Geometry objects, given by the columns of `coords_`; /repo/lib/lf/geometry/point.h, segment_o1.h,
segment_o2.h, tria_o1.h, tria_o2.h, quad_o1.h, quad_o2.h. -/
inductive Geo (K : Type) (w : ℕ)
  | point (a : Vec K w)
  | segO1 (a b : Vec K w)
  | segO2 (a b m : Vec K w)
  | triaO1 (a b c : Vec K w)
  | triaO2 (a b c d e f : Vec K w)
  | quadO1 (a b c d : Vec K w)
  | parallelogram (a b c d : Vec K w)
  | quadO2 (a b c d e f g h : Vec K w)

namespace Geo

/-- `RefEl()`. -/
def kind : Geo K w → RefEl
  | point .. => .point
  | segO1 .. => .segment
  | segO2 .. => .segment
  | triaO1 .. => .tria
  | triaO2 .. => .tria
  | quadO1 .. => .quad
  | parallelogram .. => .quad
  | quadO2 .. => .quad

/-- The columns of `coords_`. -/
def coords : Geo K w → List (Vec K w)
  | point a => [a]
  | segO1 a b => [a, b]
  | segO2 a b m => [a, b, m]
  | triaO1 a b c => [a, b, c]
  | triaO2 a b c d e f => [a, b, c, d, e, f]
  | quadO1 a b c d => [a, b, c, d]
  | parallelogram a b c d => [a, b, c, d]
  | quadO2 a b c d e f g h => [a, b, c, d, e, f, g, h]

/-- `isAffine()`: only overridden for quadrilaterals; /repo/lib/lf/geometry/geometry_interface.h:220,
/repo/lib/lf/geometry/quad_o1.h:76, 146.  (`QuadO2`, `TriaO2` and `SegmentO2` inherit the default.) -/
def isAffine : Geo K w → Bool
  | quadO1 .. => false
  | _ => true

/-- The constructors, called with a matrix with the given columns. -/
def mkPoint : List (Vec K w) → Option (Geo K w)
  | [a] => some (point a)
  | _ => none
def mkSegO1 : List (Vec K w) → Option (Geo K w)
  | [a, b] => some (segO1 a b)
  | _ => none
def mkSegO2 : List (Vec K w) → Option (Geo K w)
  | [a, b, m] => some (segO2 a b m)
  | _ => none
def mkTriaO1 : List (Vec K w) → Option (Geo K w)
  | [a, b, c] => some (triaO1 a b c)
  | _ => none
def mkTriaO2 : List (Vec K w) → Option (Geo K w)
  | [a, b, c, d, e, f] => some (triaO2 a b c d e f)
  | _ => none
def mkQuadO1 : List (Vec K w) → Option (Geo K w)
  | [a, b, c, d] => some (quadO1 a b c d)
  | _ => none
def mkParallelogram : List (Vec K w) → Option (Geo K w)
  | [a, b, c, d] => some (parallelogram a b c d)
  | _ => none
def mkQuadO2 : List (Vec K w) → Option (Geo K w)
  | [a, b, c, d, e, f, g, h] => some (quadO2 a b c d e f g h)
  | _ => none

/-- `SubGeometry(codim, i)`; /repo/lib/lf/geometry/point.cc:23-28, segment_o1.cc:33-43, segment_o2.cc:78-88,
tria_o1.cc:76-97, tria_o2.cc:149-171, quad_o1.cc:159-178 and 327-347, quad_o2.cc:160-182.  The bounds on `i`
are those of the assertions in the code; for `QuadO2` and `codim = 2` the code allows `i = 8`, which
accesses a column which does not exist. -/
def sub (g : Geo K w) (codim i : ℕ) : Option (Geo K w) :=
  let col (j : ℕ) : Option (Vec K w) := g.coords[j]?
  let edgeO1 (r : RefEl) : Option (Geo K w) :=
    (r.subSubEntity2SubEntity 1 i 1 0).bind fun j0 => (r.subSubEntity2SubEntity 1 i 1 1).bind fun j1 =>
    (col j0).bind fun a => (col j1).bind fun b => mkSegO1 [a, b]
  let edgeO2 (n : ℕ) : Option (Geo K w) :=
    (col i).bind fun a => (col ((i + 1) % n)).bind fun b => (col (i + n)).bind fun m => mkSegO2 [a, b, m]
  match g, codim with
  | point a, 0 => if i = 0 then some (point a) else none
  | segO1 .., 0 => if i = 0 then some g else none
  | segO1 .., 1 => if i < 2 then (col i).map point else none
  | segO2 .., 0 => if i = 0 then some g else none
  | segO2 .., 1 => if i ≤ 2 then (col i).map point else none
  | triaO1 .., 0 => if i = 0 then some g else none
  | triaO1 .., 1 => if i < 3 then edgeO1 .tria else none
  | triaO1 .., 2 => if i < 3 then (col i).map point else none
  | triaO2 .., 0 => if i = 0 then some g else none
  | triaO2 .., 1 => if i ≤ 2 then edgeO2 3 else none
  | triaO2 .., 2 => if i ≤ 5 then (col i).map point else none
  | quadO1 .., 0 => if i = 0 then some g else none
  | quadO1 .., 1 => if i < 4 then edgeO1 .quad else none
  | quadO1 .., 2 => if i < 4 then (col i).map point else none
  | parallelogram .., 0 => if i = 0 then some g else none
  | parallelogram .., 1 => if i < 4 then edgeO1 .quad else none
  | parallelogram .., 2 => if i < 4 then (col i).map point else none
  | quadO2 .., 0 => if i = 0 then some g else none
  | quadO2 .., 1 => if i ≤ 3 then edgeO2 4 else none
  | quadO2 .., 2 => if i ≤ 8 then (col i).map point else none
  | _, _ => none

section Maps
variable [Field K] [LinearOrder K]

/-- `Parallelogram(p0, p1, p2)`; /repo/lib/lf/geometry/quad_o1.cc:273-288. -/
def spanned (p0 p1 p2 : Vec K w) : Geo K w := parallelogram p0 p1 (p1 + (p2 - p0)) p2

/-- Monomial coefficients of the componentwise polynomials of the second order cells: of `1`, of `x`, `y`,
of `x^2`, `y^2`, of `xy`, and of `x^2 y`, `x y^2`. -/
structure Coef (K : Type) (w : ℕ) where
  alpha : Vec K w
  beta0 : Vec K w
  beta1 : Vec K w
  gamma0 : Vec K w
  gamma1 : Vec K w
  delta : Vec K w
  eps0 : Vec K w
  eps1 : Vec K w

/-- Coefficients of `SegmentO2` (`alpha_`, `beta_`, `gamma_` for `x^2`, `x`, `1`);
/repo/lib/lf/geometry/segment_o2.cc:18-20. -/
def segCoef (a b m : Vec K w) : Vec K w × Vec K w × Vec K w :=
  ((2 : K) • (b + a) - (4 : K) • m, (4 : K) • m - (3 : K) • a - b, a)

/-- Coefficients of `TriaO2`; /repo/lib/lf/geometry/tria_o2.cc:41-46. -/
def triaCoef (A B C D E F : Vec K w) : Coef K w where
  alpha := A
  beta0 := (4 : K) • D - (3 : K) • A - B
  beta1 := (4 : K) • F - (3 : K) • A - C
  gamma0 := (2 : K) • (A + B) - (4 : K) • D
  gamma1 := (2 : K) • (A + C) - (4 : K) • F
  delta := (4 : K) • (A + E - D - F)
  eps0 := 0
  eps1 := 0

/-- Coefficients of `QuadO2`; /repo/lib/lf/geometry/quad_o2.cc:44-53. -/
def quadCoef (A B C D E F G H : Vec K w) : Coef K w where
  alpha := A
  beta0 := -(3 : K) • A - B + (4 : K) • E
  beta1 := -(3 : K) • A - D + (4 : K) • H
  gamma0 := (2 : K) • (A + B) - (4 : K) • E
  gamma1 := (2 : K) • (A + D) - (4 : K) • H
  delta := (5 : K) • A - B - (3 : K) • C - D - (4 : K) • (E - F - G + H)
  eps0 := -(2 : K) • (A + B - C - D) + (4 : K) • (E - G)
  eps1 := -(2 : K) • (A - B - C + D) - (4 : K) • (F - H)

/-- The range check of the second order geometries. -/
def inUnit (x : List K) : Prop := ∀ t ∈ x, 0 ≤ t ∧ t ≤ 1

instance (x : List K) : Decidable (inUnit x) := by unfold inUnit; infer_instance

/-- `Global(local)` for one point; /repo/lib/lf/geometry/point.cc:4-7, segment_o1.cc:7-9,
segment_o2.cc:28-37, tria_o1.cc:70-74, tria_o2.cc:50-59, quad_o1.cc:67-81 and 306-310, quad_o2.cc:56-67. -/
def global : Geo K w → List K → Option (Vec K w)
  | point a, [] => some a
  | segO1 a b, [x] => some (x • b + (1 - x) • a)
  | segO2 a b m, [x] =>
    if inUnit [x] then some (x • (x • (segCoef a b m).1 + (segCoef a b m).2.1) + (segCoef a b m).2.2) else none
  | triaO1 a b c, [x, y] => some ((1 - x - y) • a + x • b + y • c)
  | triaO2 A B C D E F, [x, y] =>
    let q := triaCoef A B C D E F
    if inUnit [x, y] then
      some ((x • q.beta0 + y • q.beta1) + ((x * x) • q.gamma0 + (y * y) • q.gamma1) + (x * y) • q.delta + q.alpha)
    else none
  | quadO1 a b c d, [x, y] =>
    some (((1 - x) * (1 - y)) • a + (x * (1 - y)) • b + (x * y) • c + ((1 - x) * y) • d)
  | parallelogram a b _ d, [x, y] => some ((1 - x - y) • a + x • b + y • d)
  | quadO2 A B C D E F G H, [x, y] =>
    let q := quadCoef A B C D E F G H
    if inUnit [x, y] then
      some ((x • q.beta0 + y • q.beta1) + ((x * x) • q.gamma0 + (y * y) • q.gamma1) + (x * y) • q.delta +
        ((x * x * y) • q.eps0 + (y * y * x) • q.eps1) + q.alpha)
    else none
  | _, _ => none

/-- `Jacobian(local)` for one point: the list of its columns; /repo/lib/lf/geometry/point.cc:10-12,
segment_o1.cc:11-13, segment_o2.cc:39-44, tria_o1.cc:57 and tria_o1.h:35-38, tria_o2.cc:64-82,
quad_o1.cc:85-102 and 291, 312-314, quad_o2.cc:69-98. -/
def jacobian : Geo K w → List K → Option (List (Vec K w))
  | point _, _ => some []
  | segO1 a b, [_] => some [b - a]
  | segO2 a b m, [x] =>
    if inUnit [x] then some [x • ((2 : K) • (segCoef a b m).1) + (segCoef a b m).2.1] else none
  | triaO1 a b c, [_, _] => some [b - a, c - a]
  | triaO2 A B C D E F, [x, y] =>
    let q := triaCoef A B C D E F
    if inUnit [x, y] then
      some [q.beta0 + x • ((2 : K) • q.gamma0) + y • q.delta, q.beta1 + y • ((2 : K) • q.gamma1) + x • q.delta]
    else none
  | quadO1 a b c d, [x, y] => some [(1 - y) • (b - a) + y • (c - d), (1 - x) • (d - a) + x • (c - b)]
  | parallelogram a b _ d, [_, _] => some [b - a, d - a]
  | quadO2 A B C D E F G H, [x, y] =>
    let q := quadCoef A B C D E F G H
    if inUnit [x, y] then
      some [q.beta0 + x • ((2 : K) • q.gamma0) + (y * y) • q.eps1 + (x * y) • ((2 : K) • q.eps0) + y • q.delta,
        q.beta1 + y • ((2 : K) • q.gamma1) + (x * x) • q.eps0 + (x * y) • ((2 : K) • q.eps1) + x • q.delta]
    else none
  | _, _ => none

/-- Scalar product of two columns. -/
def dot (a b : Vec K w) : K := ∑ i, a i * b i

/-- Entry of a column. -/
def entry (a : Vec K w) (i : ℕ) : K := if h : i < w then a ⟨i, h⟩ else 0

/-- Determinant of the `2 x 2` matrix with the given columns. -/
def det2 (a b : Vec K w) : K := entry a 0 * entry b 1 - entry b 0 * entry a 1

/-- Column with two entries. -/
def vec2 (x y : K) : Vec K w := fun i => if i.val = 0 then x else y

/-- `transpose().inverse()` of the `2 x 2` matrix with columns `a`, `b`. -/
def invTranspose2 (a b : Vec K w) : Option (List (Vec K w)) :=
  if det2 a b = 0 then none
  else some [(det2 a b)⁻¹ • vec2 (entry b 1) (-(entry b 0)), (det2 a b)⁻¹ • vec2 (-(entry a 1)) (entry a 0)]

/-- `J * (J^T J)^{-1}` for the matrix with columns `a`, `b`. -/
def gramInv2 (a b : Vec K w) : Option (List (Vec K w)) :=
  let D := dot a a * dot b b - dot a b * dot a b
  if D = 0 then none
  else some [D⁻¹ • (dot b b • a - dot a b • b), D⁻¹ • (dot a a • b - dot a b • a)]

/-- Entries of `SegmentO2::JacobianInverseGramian` and `IntegrationElement`: `jTj`;
/repo/lib/lf/geometry/segment_o2.cc:23-25, 58-60, 71-73. -/
def segGram (a b m : Vec K w) (x : K) : K :=
  let α := (segCoef a b m).1
  let β := (segCoef a b m).2.1
  4 * x * (x * dot α α + dot α β) + dot β β

/-- `JacobianInverseGramian(local)` for one point; /repo/lib/lf/geometry/point.cc:14-17, segment_o1.cc:15-25,
segment_o2.cc:46-64, tria_o1.cc:59-63, tria_o2.cc:87-119, quad_o1.cc:106-132 and 293-300, 316-319,
quad_o2.cc:100-132.  The linear system solved by `colPivHouseholderQr()` in quad_o1.cc:125-128 is solved
exactly. -/
def jacobianInverseGramian : Geo K w → List K → Option (List (Vec K w))
  | segO1 a b, [_] =>
    if w = 1 then
      if entry (b - a) 0 = 0 then none else some [fun i => ((b - a) i)⁻¹]
    else if dot (b - a) (b - a) = 0 then none
    else some [(dot (b - a) (b - a))⁻¹ • (b - a)]
  | segO2 a b m, [x] =>
    if inUnit [x] then
      let J := x • ((2 : K) • (segCoef a b m).1) + (segCoef a b m).2.1
      if w = 1 then
        if entry J 0 = 0 then none else some [fun i => (J i)⁻¹]
      else if segGram a b m x = 0 then none
      else some [(segGram a b m x)⁻¹ • J]
    else none
  | g, [x, y] =>
    match g.jacobian [x, y] with
    | some [A, B] => if w = 2 then invTranspose2 A B else gramInv2 A B
    | _ => none
  | _, _ => none

end Maps

section Children
variable [Field K] [LinearOrder K]

/-- `isParallelogram(polygon)`; /repo/lib/lf/geometry/refinement_pattern.cc:17-27. -/
def latParallelogram : List (List ℤ) → Bool
  | [a, b, c, d] => decide (a.getD 0 0 - b.getD 0 0 + c.getD 0 0 - d.getD 0 0 = 0 ∧
      a.getD 1 0 - b.getD 1 0 + c.getD 1 0 - d.getD 1 0 = 0)
  | _ => false

/-- Lattice coordinates divided by the lattice constant. -/
def latRef (col : List ℤ) : List K := col.map fun (z : ℤ) => (1 / 6 : K) * (z : K)

/-- Midpoint of two columns. -/
def midRef (p q : List K) : List K := List.zipWith (fun s t => (s + t) / 2) p q

/-- The vertices of a lattice polygon followed by the midpoints of its sides (for one side: its midpoint). -/
def withMids : List (List K) → List (List K)
  | [a, b] => [a, b, midRef a b]
  | [a, b, c] => [a, b, c, midRef a b, midRef b c, midRef c a]
  | [a, b, c, d] => [a, b, c, d, midRef a b, midRef b c, midRef c d, midRef d a]
  | l => l

/-- One child; /repo/lib/lf/geometry/segment_o1.cc:66-92, segment_o2.cc:111-140, tria_o1.cc:121-150,
tria_o2.cc:192-240, quad_o1.cc:205-250 and 375-432, quad_o2.cc:203-276. -/
def buildChild (g : Geo K w) (codim : ℕ) (poly : List (List ℤ)) : Option (Geo K w) :=
  let loc : List (List K) := poly.map latRef
  let pts : Option (List (Vec K w)) := loc.mapM g.global
  let pts2 : Option (List (Vec K w)) := (withMids loc).mapM g.global
  match g, codim with
  | segO1 .., 0 => if poly.length = 2 then pts.bind mkSegO1 else none
  | segO1 .., 1 => if poly.length = 1 then pts.bind mkPoint else none
  | segO2 .., 0 => if poly.length = 2 then pts2.bind mkSegO2 else none
  | segO2 .., 1 => if poly.length = 1 then pts.bind mkPoint else none
  | triaO1 .., 0 => if poly.length = 3 then pts.bind mkTriaO1 else none
  | triaO1 .., 1 => if poly.length = 2 then pts.bind mkSegO1 else none
  | triaO1 .., 2 => if poly.length = 1 then pts.bind mkPoint else none
  | triaO2 .., 0 => if poly.length = 3 then pts2.bind mkTriaO2 else none
  | triaO2 .., 1 => if poly.length = 2 then pts2.bind mkSegO2 else none
  | triaO2 .., 2 => if poly.length = 1 then pts.bind mkPoint else none
  | quadO1 .., 0 =>
    if poly.length = 3 then pts.bind mkTriaO1 else if poly.length = 4 then pts.bind mkQuadO1 else none
  | quadO1 .., 1 => if poly.length = 2 then pts.bind mkSegO1 else none
  | quadO1 .., 2 => if poly.length = 1 then pts.bind mkPoint else none
  | parallelogram .., 0 =>
    if poly.length = 3 then pts.bind mkTriaO1
    else if poly.length = 4 then
      if latParallelogram poly then pts.bind mkParallelogram else pts.bind mkQuadO1
    else none
  | parallelogram .., 1 => if poly.length = 2 then pts.bind mkSegO1 else none
  | parallelogram .., 2 => if poly.length = 1 then pts.bind mkPoint else none
  | quadO2 .., 0 =>
    if poly.length = 3 then pts2.bind mkTriaO2 else if poly.length = 4 then pts2.bind mkQuadO2 else none
  | quadO2 .., 1 => if poly.length = 2 then pts2.bind mkSegO2 else none
  | quadO2 .., 2 => if poly.length = 1 then pts.bind mkPoint else none
  | _, _ => none

/-- `ChildGeometry(ref_pattern, codim)`; /repo/lib/lf/geometry/point.cc:30-41, segment_o1.cc:45-94,
segment_o2.cc:90-145, tria_o1.cc:99-153, tria_o2.cc:173-243, quad_o1.cc:181-252 and 351-434,
quad_o2.cc:184-279. -/
def child (g : Geo K w) (p : Pattern) (codim : ℕ) : Option (List (Geo K w)) :=
  if p.ref = g.kind then
    match g with
    | point a =>
      if codim = 0 then
        if p.numChildren 0 = some 1 then some [point a] else none
      else none
    | _ =>
      (p.childPolygons codim).bind fun polys =>
      if p.numChildren codim = some polys.length then polys.mapM (buildChild g codim) else none
  else none

/-- A column with the given entries. -/
def ofEntries (n : ℕ) (l : List K) : Vec K n := fun i => l.getD i.val 0

/-- The object returned by `MeshHierarchy::GeometryInParent`, from the stored vertices; `n` is the dimension
of the parent; /repo/lib/lf/refinement/mesh_hierarchy.cc:1680-1712, 1735, 1751, 1796, 1812, 1824-1826.  For
quadrilaterals the code always creates a `QuadO1`. -/
def relative (n : ℕ) (poly : List (List ℤ)) : Option (Geo K n) :=
  match poly.map fun col => ofEntries n (latRef col : List K) with
  | [a] => some (point a)
  | [a, b] => some (segO1 a b)
  | [a, b, c] => some (triaO1 a b c)
  | [a, b, c, d] => some (quadO1 a b c d)
  | _ => none

end Children

section Real

/-- `IntegrationElement(local)` for one point; /repo/lib/lf/geometry/point.cc:19-21, segment_o1.cc:27-31,
segment_o2.cc:66-76, tria_o1.cc:61, 64-65, tria_o2.cc:123-146, quad_o1.cc:136-156 and 296, 301-302, 321-324,
quad_o2.cc:134-158. -/
noncomputable def integrationElement : Geo ℝ w → List ℝ → Option ℝ
  | point _, _ => some 1
  | segO1 a b, [_] => some (Real.sqrt (dot (b - a) (b - a)))
  | segO2 a b m, [x] => if inUnit [x] then some (Real.sqrt (segGram a b m x)) else none
  | triaO2 A B C D E F, [x, y] =>
    match (triaO2 A B C D E F).jacobian [x, y] with
    | some [a, b] => some (if w = 2 then |det2 a b| else Real.sqrt |dot a a * dot b b - dot a b * dot a b|)
    | _ => none
  | quadO2 A B C D E F G H, [x, y] =>
    match (quadO2 A B C D E F G H).jacobian [x, y] with
    | some [a, b] => some (if w = 2 then |det2 a b| else Real.sqrt |dot a a * dot b b - dot a b * dot a b|)
    | _ => none
  | g, [x, y] =>
    match g.jacobian [x, y] with
    | some [a, b] => some (if w = 2 then |det2 a b| else Real.sqrt (dot a a * dot b b - dot a b * dot a b))
    | _ => none
  | _, _ => none

/-- `lf::geometry::Volume(geo)`; /repo/lib/lf/geometry/geometry_interface.cc:11-39. -/
noncomputable def volume (g : Geo ℝ w) : Option ℝ :=
  match g.kind with
  | .point => some 1
  | .segment => (g.integrationElement [1 / 2]).map fun t => 1 * t
  | .tria => (g.integrationElement [1 / 3, 1 / 3]).map fun t => 1 / 2 * t
  | .quad => (g.integrationElement [1 / 2, 1 / 2]).map fun t => 1 * t

end Real
end Geo
end Verif
