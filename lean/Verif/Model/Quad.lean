import Mathlib.Data.Rat.Defs
import Mathlib.Algebra.Field.Defs
import Verif.Model.RefEl

/-!
# Model of `lf::quad`: quadrature rules and their cache

Matrices of points are lists of columns.  The one-dimensional Gauss rules and the hard-coded rules for
the triangle are parameters of `makeQuadRule` here.  `double` is an arbitrary field.  Failing checks are
modelled by `none`.
-/

namespace Verif

/-- `lf::quad::QuadRule`; /repo/lib/lf/quad/quad_rule.h:58-182 (the data members).  `points` holds the
columns of `points_`. -/
structure QuadRule (K : Type) where
  ref : RefEl
  degree : ℕ
  points : List (List K)
  weights : List K
  deriving DecidableEq

namespace QuadRule

variable {K : Type}

/-- The constructor with its two checks; /repo/lib/lf/quad/quad_rule.h:90-98.  All columns of an Eigen
matrix have the same length, which the check `points_.rows() == Dimension()` compares once. -/
def make (ref : RefEl) (points : List (List K)) (weights : List K) (degree : ℕ) :
    Option (QuadRule K) :=
  if (∀ c ∈ points, c.length = ref.dimension) ∧ weights.length = points.length then
    some { ref := ref, degree := degree, points := points, weights := weights }
  else none

/-- The default constructor, an "invalid quadrature rule"; /repo/lib/lf/quad/quad_rule.h:75 (`degree_`
has the default initialiser 0, line 178). -/
def empty : QuadRule K := { ref := .point, degree := 0, points := [], weights := [] }

/-- `NumPoints()`; /repo/lib/lf/quad/quad_rule.h:158. -/
def numPoints (q : QuadRule K) : ℕ := q.points.length

end QuadRule

section
variable {K : Type}

/-- `Eigen::kroneckerProduct` of two row (or two column) vectors. -/
def kron [Mul K] (a b : List K) : List K := a.flatMap fun x => b.map fun y => x * y

/-- `v.replicate(1, n)` for a row vector `v`. -/
def replicateRow (v : List K) (n : ℕ) : List K := (List.replicate n v).flatten

/-- Filling a `2 × m` matrix row by row (`points2d.row(0) = …; points2d.row(1) = …`); Eigen asserts that
the sizes of the right-hand sides agree with `m`; /repo/lib/lf/quad/make_quad_rule.cc:31-34 and
147-150. -/
def fromRows (m : ℕ) (r0 r1 : List K) : Option (List (List K)) :=
  if r0.length = m ∧ r1.length = m then some (List.zipWith (fun a b => [a, b]) r0 r1) else none

/-- The one-dimensional rules and the hard-coded rules `make_QuadRule` is built from:
`GaussLegendre(n)`, `GaussJacobi(n, 1, 0)` (/repo/lib/lf/quad/gauss_quadrature.cc:16-196) and
`HardcodedQuadRule<kTria, d>()` (/repo/lib/lf/quad/quad_rules_tria.cc).  The first component of a
one-dimensional rule are its points, the second its weights. -/
structure QuadBase (K : Type) where
  legendre : ℕ → List K × List K
  jacobi10 : ℕ → List K × List K
  hard : ℕ → QuadRule K

variable [Field K]

/-- `make_QuadRule`; /repo/lib/lf/quad/make_quad_rule.cc:21-157.  The fifty `case` labels of the
triangle are the two middle branches of the last `if`. -/
def makeQuadRule (B : QuadBase K) (ref : RefEl) (degree : ℕ) : Option (QuadRule K) :=
  let n := degree / 2 + 1
  match ref with
  | .segment =>
    let (points, weights) := B.legendre n
    QuadRule.make .segment (points.map fun x => [x]) weights (2 * n - 1)
  | .quad =>
    let (points1d, weights1d) := B.legendre n
    (fromRows (n * n) (kron points1d (List.replicate n 1)) (replicateRow points1d n)).bind fun pts =>
      QuadRule.make .quad pts (kron weights1d weights1d) (2 * n - 1)
  | .tria =>
    if degree = 3 then some (B.hard 4)
    else if 1 ≤ degree ∧ degree ≤ 50 then some (B.hard degree)
    else
      let (legP, legW) := B.legendre n
      let (jacP, jacW) := B.jacobi10 n
      let jacP := jacP.map fun x => (x + 1) / 2
      let jacW := jacW.map fun w => w * (1 / 4)
      (fromRows (n * n) (kron legP (jacP.map fun y => 1 - y)) (replicateRow jacP n)).bind fun pts =>
        QuadRule.make .tria pts (kron legW jacW) (2 * n - 1)
  | .point => none

/-- `make_TriaQR_MidpointRule`, also called `make_TriaQR_P1O2`;
/repo/lib/lf/quad/make_quad_rule.cc:159-170. -/
def triaMidpoint : Option (QuadRule K) :=
  QuadRule.make .tria [[1 / 3, 1 / 3]] [1 / 2] 1

/-- `make_TriaQR_EdgeMidpointRule`, also called `make_TriaQR_P3O3`;
/repo/lib/lf/quad/make_quad_rule.cc:172-189.  The weight is an argument: the code has the literal
`0.16666666666666665741`, i.e. the `double` nearest to `1/6`. -/
def triaEdgeMidpoint (w : K) : Option (QuadRule K) :=
  QuadRule.make .tria [[1 / 2, 0], [1 / 2, 1 / 2], [0, 1 / 2]] [w, w, w] 2

/-- The literal of `make_TriaQR_EdgeMidpointRule`; /repo/lib/lf/quad/make_quad_rule.cc:183-185. -/
def edgeMidpointLiteral : ℚ := 16666666666666665741 / 10 ^ 20

/-- `make_QuadQR_EdgeMidpointRule`, also called `make_QuadQR_P4O2`;
/repo/lib/lf/quad/make_quad_rule.cc:191-211. -/
def quadEdgeMidpoint : Option (QuadRule K) :=
  QuadRule.make .quad [[1 / 2, 0], [1, 1 / 2], [1 / 2, 1], [0, 1 / 2]]
    [1 / 4, 1 / 4, 1 / 4, 1 / 4] 1

/-- `make_TriaQR_P6O4`; /repo/lib/lf/quad/make_quad_rule.cc:213-235. -/
def triaP6O4 : Option (QuadRule K) :=
  QuadRule.make .tria
    [[1 / 2, 0], [1 / 2, 1 / 2], [0, 1 / 2], [1 / 6, 1 / 6], [1 / 6, 2 / 3], [2 / 3, 1 / 6]]
    (([1, 1, 1, 9, 9, 9] : List K).map fun w => w / 60) 3

/-- `make_TriaQR_P7O6`; /repo/lib/lf/quad/make_quad_rule.cc:237-239. -/
def triaP7O6 (B : QuadBase K) : QuadRule K := B.hard 5

/-- `make_QuadQR_MidpointRule` and `make_QuadQR_P1O2`; /repo/lib/lf/quad/make_quad_rule.h:79-82. -/
def quadMidpoint (B : QuadBase K) : Option (QuadRule K) := makeQuadRule B .quad 1

/-- `make_QuadQR_P4O4`; /repo/lib/lf/quad/make_quad_rule.h:99-101. -/
def quadP4O4 (B : QuadBase K) : Option (QuadRule K) := makeQuadRule B .quad 3

/-- `RefEl::NodeCoords()`, its columns; /repo/lib/lf/base/ref_el.cc:5-14 and /repo/lib/lf/base/ref_el.h:241-255. -/
def refNodeCoords : RefEl → List (List K)
  | .point => [[]]
  | .segment => [[0], [1]]
  | .tria => [[0, 0], [1, 0], [0, 1]]
  | .quad => [[0, 0], [1, 0], [1, 1], [0, 1]]

/-- `make_QuadRuleNodal`; /repo/lib/lf/quad/make_quad_rule_nodal.cc:14-23. -/
def quadRuleNodal (ref : RefEl) : Option (QuadRule K) :=
  let vol : K := if ref = .tria then 1 / 2 else 1
  QuadRule.make ref (refNodeCoords ref) (List.replicate ref.numNodes (vol / ref.numNodes)) 1

end

/-- `RefEl::Id()`; /repo/lib/lf/base/ref_el.h:494-496 with the values of `RefElType`, lines 31-40. -/
def RefEl.id : RefEl → ℕ
  | .point => 1 | .segment => 2 | .tria => 3 | .quad => 4

/-- `QuadRuleCache::cache_`, an array of five `deque`s; /repo/lib/lf/quad/quad_rule_cache.h:70. -/
structure QuadCache (K : Type) where
  cache : List (List (QuadRule K))

namespace QuadCache

variable {K : Type}

/-- The default-constructed cache; /repo/lib/lf/quad/quad_rule_cache.h:28. -/
def new : QuadCache K := ⟨List.replicate 5 []⟩

/-- The `deque` of one reference element (`cache_[ref_el.Id()]`). -/
def rules (c : QuadCache K) (ref : RefEl) : Option (List (QuadRule K)) := c.cache[ref.id]?

/-- `deque::resize(m)` to a larger size. -/
def grow (v : List (QuadRule K)) (m : ℕ) : List (QuadRule K) :=
  v ++ List.replicate (m - v.length) QuadRule.empty

/-- `QuadRuleCache::Get`; /repo/lib/lf/quad/quad_rule_cache.cc:14-26.  `mk` stands for `make_QuadRule`.
The result is the new state of the cache and the place `(ref_el.Id(), degree)` the returned reference
points to: references into a `deque` stay valid when it grows at its end.  When a check of
`make_QuadRule` fails the object is not used any more. -/
def get (mk : RefEl → ℕ → Option (QuadRule K)) (c : QuadCache K) (ref : RefEl) (degree : ℕ) :
    Option (QuadCache K × (ℕ × ℕ)) :=
  (c.rules ref).bind fun vector =>
    let vector := if vector.length < degree + 1 then grow vector (degree + 1) else vector
    (vector[degree]?).bind fun qr =>
      (if qr.numPoints = 0 then mk ref degree else some qr).bind fun qr =>
        if degree ≤ qr.degree then
          some (⟨c.cache.set ref.id (vector.set degree qr)⟩, (ref.id, degree))
        else none

/-- Reading through a reference handed out earlier. -/
def deref (c : QuadCache K) (r : ℕ × ℕ) : Option (QuadRule K) :=
  (c.cache[r.1]?).bind (·[r.2]?)

/-- A history of calls of `Get`, with the references handed out (latest first). -/
def run (mk : RefEl → ℕ → Option (QuadRule K)) (c : QuadCache K) :
    List (RefEl × ℕ) → Option (QuadCache K × List (ℕ × ℕ))
  | [] => some (c, [])
  | (ref, degree) :: t =>
    (c.get mk ref degree).bind fun (c', r) => (run mk c' t).map fun (c'', rs) => (c'', r :: rs)

end QuadCache

end Verif
