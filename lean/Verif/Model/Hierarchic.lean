import Verif.Model.HierPoly
import Verif.Model.Quad
import Verif.Model.ScalarFE

/-!
# Model of the hierarchic finite elements and `HierarchicScalarFESpace`

/repo/lib/lf/fe/hierarchic_fe.h and hierarchic_scalar_fe_space.h.

Matrices are treated column by column, i.e. for one evaluation point.  Rows of a result matrix are written
one after the other as in the code: `fillRows` collects the assignments, a row index out of range, a read
access out of range and a row that is never written (uninitialised memory) give `none`.

The elements keep pointers to quadrature rules of a `QuadRuleCache`; here they contain the rules
themselves (that the rule behind such a pointer never changes is property C43).  `unsigned` arithmetic is
modelled in `ℕ`: polynomial degrees have to be at least one, for degree zero `2 * (degree - 1)` would wrap
around and the constructors give `none`.  Index expressions like `4 - i + (d - 1)` which are evaluated modulo
`2^32` are written `4 + (d - 1) - i`.
-/

namespace Verif

/-- A vector (or matrix) with `n` uninitialised rows after the assignments `W` in this order. -/
def fillRows {α : Type} (n : ℕ) (W : List (ℕ × Option α)) : Option (List α) :=
  if ∀ w ∈ W, w.1 < n ∧ w.2.isSome then
    (List.range n).mapM fun k => (W.reverse.find? fun w => w.1 == k).bind fun w => w.2
  else none

section
variable {K : Type} [Field K]

/-- `v.segment(start, n)`. -/
def segment {α : Type} (v : List α) (start n : ℕ) : Option (List α) :=
  if start + n ≤ v.length then some ((v.drop start).take n) else none

/-- The functional dual to the `i`-th basis function on a segment, applied to a function with the values
`f0`, `f1` at the end points and `vals` at the quadrature points;
/repo/lib/lf/fe/hierarchic_fe.h:374-387 (the same computation in 957-974, 977-995, 998-1017 and 1564-1638). -/
def segDual (qr : QuadRule K) (i : ℕ) (f0 f1 : K) (vals : List K) : K :=
  let P0 := iLegendreDx i (0 : K) 1
  let P1 := iLegendreDx i (1 : K) 1
  let psidd := qr.points.map fun x => legendreDx (i - 1) (x.getD 0 0) 1
  let integ := (List.zipWith (· * ·) (List.zipWith (· * ·) qr.weights psidd) vals).sum
  (P1 * f1 - P0 * f0 - integ) * ((2 * i - 1 : ℕ) : K)

/-! ## Segments -/

/-- `FeHierarchicSegment` with the rule `qr_dual_`; /repo/lib/lf/fe/hierarchic_fe.h:242-394. -/
def hierSegment (p : ℕ) (qr : QuadRule K) : RefFE K where
  ref := .segment
  degree := p
  num := p + 1
  numCodim codim := if codim ≤ 1 then some (if codim = 0 then p - 1 else 2) else none
  numSub codim subidx := if (codim = 0 ∧ subidx = 0) ∨ (codim = 1 ∧ subidx < 2) then
    some (if codim = 0 then p - 1 else 2) else none
  eval
    | [x] => fillRows (p + 1) ([(0, some (1 - x)), (1, some x)] ++
        (List.range (p - 1)).map fun i => (i + 2, some (iLegendre (i + 2) x 1)))
    | _ => none
  grad
    | [x] => fillRows (p + 1) ([(0, some [-1]), (1, some [1])] ++
        (List.range (p - 1)).map fun i => (i + 2, some [iLegendreDx (i + 2) x 1]))
    | _ => none
  nodes := [[0], [1]] ++ qr.points
  toDofs nodevals :=
    (nodevals[0]?).bind fun f0 => (nodevals[1]?).bind fun f1 =>
      if p + 1 ≤ 2 ∨ qr.numPoints ≤ nodevals.length then
        fillRows (p + 1) ([(0, some f0), (1, some f1)] ++
          (List.range' 2 (p + 1 - 2)).map fun i =>
            (i, some (segDual qr i f0 f1 (nodevals.drop (nodevals.length - qr.numPoints)))))
      else none

/-- Constructor of `FeHierarchicSegment`; /repo/lib/lf/fe/hierarchic_fe.h:250-253.  `get` stands for
`qr_cache.Get`. -/
def makeHierSegment (get : RefEl → ℕ → Option (QuadRule K)) (degree : ℕ) : Option (RefFE K) :=
  if degree = 0 then none else
    (get .segment (2 * (degree - 1))).map fun qr => hierSegment degree qr

/-! ## Triangles -/

/-- Data members of `FeHierarchicTria`: `interior_degree_`, `edge_degrees_`, `rel_orient_`,
`qr_dual_edge_`, `qr_dual_tria_`; /repo/lib/lf/fe/hierarchic_fe.h:920-925. -/
structure HierTria (K : Type) where
  p : ℕ
  e : ℕ → ℕ
  o : ℕ → Bool
  q : ℕ → QuadRule K
  qt : QuadRule K

namespace HierTria

/-- `NumRefShapeFunctions(0)`; /repo/lib/lf/fe/hierarchic_fe.h:529-534. -/
def numInterior (F : HierTria K) : ℕ := if F.p ≤ 2 then 0 else (F.p - 2) * (F.p - 1) / 2

/-- `NumRefShapeFunctions()`; /repo/lib/lf/fe/hierarchic_fe.h:517-520. -/
def num (F : HierTria K) : ℕ := F.numInterior + (F.e 0 - 1) + (F.e 1 - 1) + (F.e 2 - 1) + 3

/-- The pairs `(i, j)` visited by the loops over the interior basis functions;
/repo/lib/lf/fe/hierarchic_fe.h:647-680 (also 784-815, 1050-1087). -/
def interior (p : ℕ) : List (ℕ × ℕ) :=
  if 2 < p then (List.range (p - 2)).flatMap fun i => (List.range (p - i - 2)).map fun j => (i, j)
  else []

/-- Assignments `result.row(current_dof++) = …`. -/
def counted {α : Type} (cur : ℕ) (l : List α) : List (ℕ × Option α) :=
  l.mapIdx fun k a => (cur + k, some a)

/-- `EvalReferenceShapeFunctions`; /repo/lib/lf/fe/hierarchic_fe.h:579-686. -/
def eval (F : HierTria K) : List K → Option (List K)
  | [x, y] =>
    let l1 := 1 - x - y
    let l2 := x
    let l3 := y
    let cur1 := 3 + (F.e 0 - 1)
    let cur2 := cur1 + (F.e 1 - 1)
    let cur3 := cur2 + (F.e 2 - 1)
    let int := (interior F.p).map fun ij =>
      (if F.o 0 then iLegendre (ij.1 + 2) l2 (l1 + l2) else iLegendre (ij.1 + 2) l1 (l1 + l2)) *
        iJacobi (ij.2 + 1) ((2 * ij.1 + 4 : ℕ) : K) l3
    if cur3 + int.length = F.num then
      fillRows F.num ([(0, some l1), (1, some l2), (2, some l3)] ++
        ((List.range (F.e 0 - 1)).map fun i =>
          if F.o 0 then (3 + i, some (iLegendre (i + 2) l2 (l1 + l2)))
          else (F.e 0 + 1 - i, some (iLegendre (i + 2) l1 (l1 + l2)))) ++
        ((List.range (F.e 1 - 1)).map fun i =>
          if F.o 1 then (cur1 + i, some (iLegendre (i + 2) l3 (l2 + l3)))
          else (cur1 + F.e 1 - 2 - i, some (iLegendre (i + 2) l2 (l2 + l3)))) ++
        ((List.range (F.e 2 - 1)).map fun i =>
          if F.o 2 then (cur2 + i, some (iLegendre (i + 2) l1 (l3 + l1)))
          else (cur2 + F.e 2 - 2 - i, some (iLegendre (i + 2) l3 (l3 + l1)))) ++
        counted cur3 int)
    else none
  | _ => none

/-- The two derivatives `ILegendreDx(n, a, b) * da + ILegendreDt(n, a, b) * (db + db')` which
`GradientsReferenceShapeFunctions` of the triangle assigns for an edge function; the gradients `da` of
`a` and `db`, `db'` of the two summands of `b` are constant. -/
def edgeGrad (n : ℕ) (a b : K) (da db db' : K × K) : List K :=
  [iLegendreDx n a b * da.1 + iLegendreDt n a b * (db.1 + db'.1),
   iLegendreDx n a b * da.2 + iLegendreDt n a b * (db.2 + db'.2)]

/-- `GradientsReferenceShapeFunctions`; /repo/lib/lf/fe/hierarchic_fe.h:688-820. -/
def grad (F : HierTria K) : List K → Option (List (List K))
  | [x, y] =>
    let l1 := 1 - x - y
    let l2 := x
    let l3 := y
    let d1 : K × K := (-1, -1)
    let d2 : K × K := (1, 0)
    let d3 : K × K := (0, 1)
    let cur1 := 3 + (F.e 0 - 1)
    let cur2 := cur1 + (F.e 1 - 1)
    let cur3 := cur2 + (F.e 2 - 1)
    let int := (interior F.p).map fun ij =>
      let edgeEval := if F.o 0 then iLegendre (ij.1 + 2) l2 (l1 + l2)
        else iLegendre (ij.1 + 2) l1 (l1 + l2)
      let edgeD := if F.o 0 then edgeGrad (ij.1 + 2) l2 (l1 + l2) d2 d1 d2
        else edgeGrad (ij.1 + 2) l1 (l1 + l2) d1 d1 d2
      let jackinte := iJacobi (ij.2 + 1) ((2 * ij.1 + 4 : ℕ) : K) l3
      let jackeval := iJacobiDx (ij.2 + 1) ((2 * ij.1 + 4 : ℕ) : K) l3
      [jackinte * edgeD.getD 0 0 + edgeEval * jackeval * d3.1,
       jackinte * edgeD.getD 1 0 + edgeEval * jackeval * d3.2]
    if cur3 + int.length = F.num then
      fillRows F.num ([(0, some [d1.1, d1.2]), (1, some [d2.1, d2.2]), (2, some [d3.1, d3.2])] ++
        ((List.range (F.e 0 - 1)).map fun i =>
          if F.o 0 then (3 + i, some (edgeGrad (i + 2) l2 (l1 + l2) d2 d1 d2))
          else (3 + F.e 0 - 2 - i, some (edgeGrad (i + 2) l1 (l1 + l2) d1 d1 d2))) ++
        ((List.range (F.e 1 - 1)).map fun i =>
          if F.o 1 then (cur1 + i, some (edgeGrad (i + 2) l3 (l2 + l3) d3 d2 d3))
          else (cur1 + F.e 1 - 2 - i, some (edgeGrad (i + 2) l2 (l2 + l3) d2 d2 d3))) ++
        ((List.range (F.e 2 - 1)).map fun i =>
          if F.o 2 then (cur2 + i, some (edgeGrad (i + 2) l1 (l3 + l1) d1 d3 d1))
          else (cur2 + F.e 2 - 2 - i, some (edgeGrad (i + 2) l3 (l3 + l1) d3 d3 d1))) ++
        counted cur3 int)
    else none
  | _ => none

/-- `Ns0`, `Ns1`, `Ns2`; /repo/lib/lf/fe/hierarchic_fe.h:829-831. -/
def ns (F : HierTria K) (j : ℕ) : ℕ := if 1 < F.e j then (F.q j).numPoints else 0

/-- `EvaluationNodes`; /repo/lib/lf/fe/hierarchic_fe.h:828-878.  The blocks of columns are appended
to each other here. -/
def nodes (F : HierTria K) : List (List K) :=
  [[0, 0], [1, 0], [0, 1]] ++
  (if 1 < F.e 0 then (F.q 0).points.map fun s =>
    if F.o 0 then [s.getD 0 0, 0] else [1 - s.getD 0 0, 0] else []) ++
  (if 1 < F.e 1 then (F.q 1).points.map fun s =>
    if F.o 1 then [1 - s.getD 0 0, s.getD 0 0] else [s.getD 0 0, 1 - s.getD 0 0] else []) ++
  (if 1 < F.e 2 then (F.q 2).points.map fun s =>
    if F.o 2 then [0, 1 - s.getD 0 0] else [0, s.getD 0 0] else []) ++
  F.qt.points

/-- `NodalValuesToEdgeDofs`; /repo/lib/lf/fe/hierarchic_fe.h:945-1019. -/
def edgeDofs (F : HierTria K) (nodevals : List K) : Option (List K) :=
  (nodevals[0]?).bind fun v0 => (nodevals[1]?).bind fun v1 => (nodevals[2]?).bind fun v2 =>
  (segment nodevals 3 (F.ns 0)).bind fun s0 =>
  (segment nodevals (3 + F.ns 0) (F.ns 1)).bind fun s1 =>
  (segment nodevals (3 + F.ns 0 + F.ns 1) (F.ns 2)).bind fun s2 =>
  fillRows (F.e 0 + F.e 1 + F.e 2 - 3)
    (((List.range' 2 (F.e 0 + 1 - 2)).map fun i =>
      if F.o 0 then (1 + i - 3, some (segDual (F.q 0) i v0 v1 s0))
      else (4 + (F.e 0 - 1) - i - 3, some (segDual (F.q 0) i v1 v0 s0))) ++
    ((List.range' 2 (F.e 1 + 1 - 2)).map fun i =>
      if F.o 1 then (1 + i + (F.e 0 - 1) - 3, some (segDual (F.q 1) i v1 v2 s1))
      else (4 + (F.e 0 + F.e 1 - 2) - i - 3, some (segDual (F.q 1) i v2 v1 s1))) ++
    ((List.range' 2 (F.e 2 + 1 - 2)).map fun i =>
      if F.o 2 then (1 + i + (F.e 0 + F.e 1 - 2) - 3, some (segDual (F.q 2) i v2 v0 s2))
      else (4 + (F.e 0 + F.e 1 + F.e 2 - 3) - i - 3, some (segDual (F.q 2) i v0 v2 s2))))

/-- The integrand of the functional for the interior basis function `(i, j)` without the function values;
/repo/lib/lf/fe/hierarchic_fe.h:1036-1079.  The quotient `x / (1 - y)` is the one of the field (the code
gets infinities or NaNs for `y = 1`). -/
def faceWeight (F : HierTria K) (i j : ℕ) (pt : List K) : K :=
  let x := pt.getD 0 0
  let y := pt.getD 1 0
  let xnorm := x / (1 - y)
  let xnormAdj := if F.o 0 then xnorm else 1 - xnorm
  let ypow := (1 - y) ^ i
  let ypowp1 := (1 - y) ^ (i + 1)
  let psidd := legendreDx (i + 1) xnormAdj 1
  let jacdd := jacobiDx j ((2 * i + 4 : ℕ) : K) y
  let jacd := iJacobiDx (j + 1) ((2 * i + 4 : ℕ) : K) y
  psidd * (ypowp1 * jacdd - ((2 * i + 4 : ℕ) : K) * ypow * jacd)

/-- `NodalValuesToFaceDofs`; /repo/lib/lf/fe/hierarchic_fe.h:1026-1090. -/
def faceDofs (F : HierTria K) (nodevals : List K) : Option (List K) :=
  (segment nodevals (3 + (F.ns 0 + F.ns 1 + F.ns 2)) F.qt.numPoints).bind fun vals =>
    fillRows F.numInterior (counted 0 ((interior F.p).map fun ij =>
      (List.zipWith (· * ·) (List.zipWith (· * ·) F.qt.weights vals)
        (F.qt.points.map (F.faceWeight ij.1 ij.2))).sum *
        ((2 * ij.1 + 3 : ℕ) : K) * ((2 * ij.2 + 2 * ij.1 + 5 : ℕ) : K)))

/-- `NodalValuesToDofs`; /repo/lib/lf/fe/hierarchic_fe.h:891-918. -/
def toDofs (F : HierTria K) (nodevals : List K) : Option (List K) :=
  let d := (F.e 0 - 1) + (F.e 1 - 1) + (F.e 2 - 1)
  (segment nodevals 0 3).bind fun vertex =>
  (F.edgeDofs nodevals).bind fun edge =>
  (F.faceDofs nodevals).bind fun face =>
  (F.nodes.mapM F.eval).bind fun basis =>
  let boundaryFunction := basis.map fun b => dotRow (vertex ++ edge) (b.take (3 + d))
  (F.faceDofs boundaryFunction).map fun boundaryFaceDofs =>
    vertex ++ edge ++ List.zipWith (· - ·) face boundaryFaceDofs

/-- `FeHierarchicTria`; /repo/lib/lf/fe/hierarchic_fe.h:474-1091. -/
def fe (F : HierTria K) : RefFE K where
  ref := .tria
  degree := max F.p (max (F.e 0) (max (F.e 1) (max (F.e 2) 1)))
  num := F.num
  numCodim codim :=
    if codim = 0 then some F.numInterior
    else if codim = 1 then
      if F.e 0 = F.e 1 ∧ F.e 0 = F.e 2 then some (F.e 0 - 1) else none
    else if codim = 2 then some 1 else none
  numSub codim subidx :=
    if codim = 0 then if subidx = 0 then some F.numInterior else none
    else if codim = 1 then if subidx ≤ 2 then some (F.e subidx - 1) else none
    else if codim = 2 then if subidx ≤ 2 then some 1 else none
    else none
  eval := F.eval
  grad := F.grad
  nodes := F.nodes
  toDofs := F.toDofs

end HierTria

/-- Constructor of `FeHierarchicTria`; /repo/lib/lf/fe/hierarchic_fe.h:482-502. -/
def makeHierTria (get : RefEl → ℕ → Option (QuadRule K)) (p : ℕ) (e : ℕ → ℕ) (o : ℕ → Bool) :
    Option (HierTria K) :=
  if p = 0 ∨ e 0 = 0 ∨ e 1 = 0 ∨ e 2 = 0 then none else
  (get .segment (2 * (e 0 - 1))).bind fun q0 =>
  (get .segment (2 * (e 1 - 1))).bind fun q1 =>
  (get .segment (2 * (e 2 - 1))).bind fun q2 =>
  (get .tria (2 * (p - 1))).map fun qt => ⟨p, e, o, fun j => [q0, q1].getD j q2, qt⟩

/-! ## Quadrilaterals -/

/-- Data members of `FeHierarchicQuad`: `interior_degree_`, `edge_degrees_`, `rel_orient_`,
`qr_dual_edge_` and the rule of `fe1d_`; /repo/lib/lf/fe/hierarchic_fe.h:1671-1676. -/
structure HierQuad (K : Type) where
  p : ℕ
  e : ℕ → ℕ
  o : ℕ → Bool
  q : ℕ → QuadRule K
  q1 : QuadRule K

namespace HierQuad

/-- `Degree()`; /repo/lib/lf/fe/hierarchic_fe.h:1179-1182. -/
def degree (F : HierQuad K) : ℕ := max F.p (max (F.e 0) (max (F.e 1) (max (F.e 2) (F.e 3))))

/-- `fe1d_`; /repo/lib/lf/fe/hierarchic_fe.h:1167-1169. -/
def fe1d (F : HierQuad K) : RefFE K :=
  hierSegment (max F.p (max (F.e 0) (max (F.e 1) (max (F.e 2) (F.e 3))))) F.q1

/-- `NumRefShapeFunctions(0)`; /repo/lib/lf/fe/hierarchic_fe.h:1202-1203. -/
def numInterior (F : HierQuad K) : ℕ := (F.p - 1) * (F.p - 1)

/-- `NumRefShapeFunctions()`; /repo/lib/lf/fe/hierarchic_fe.h:1188-1192. -/
def num (F : HierQuad K) : ℕ :=
  4 + F.numInterior + (F.e 0 - 1) + (F.e 1 - 1) + (F.e 2 - 1) + (F.e 3 - 1)

/-- The writes of the loops over edge and interior functions, shared by evaluation and gradients:
`vx i`, `vy i` belong to `sf1d_x.row(i)`, `sf1d_y.row(i)`, and `fx i`, `fy i` to the flipped rows;
`c a b` combines them.  /repo/lib/lf/fe/hierarchic_fe.h:1266-1327 and 1369-1442 (the row indices of the
two methods agree). -/
def rows {α β : Type} (F : HierQuad K) (vx vy fx fy : ℕ → β) (c : β → β → Option α) :
    List (ℕ × Option α) :=
  let cur1 := 4 + (F.e 0 - 1)
  let cur2 := cur1 + (F.e 1 - 1)
  let cur3 := cur2 + (F.e 2 - 1)
  let cur4 := cur3 + (F.e 3 - 1)
  [(0, c (vx 0) (vy 0)), (1, c (vx 1) (vy 0)), (2, c (vx 1) (vy 1)), (3, c (vx 0) (vy 1))] ++
  ((List.range (F.e 0 - 1)).map fun i =>
    if F.o 0 then (4 + i, c (vx (2 + i)) (vy 0)) else (4 + F.e 0 - 2 - i, c (fx (2 + i)) (vy 0))) ++
  ((List.range (F.e 1 - 1)).map fun i =>
    if F.o 1 then (cur1 + i, c (vx 1) (vy (2 + i))) else (cur1 + F.e 1 - 2 - i, c (vx 1) (fy (2 + i)))) ++
  ((List.range (F.e 2 - 1)).map fun i =>
    if F.o 2 then (cur2 + i, c (fx (2 + i)) (vy 1)) else (cur2 + F.e 2 - 2 - i, c (vx (2 + i)) (vy 1))) ++
  ((List.range (F.e 3 - 1)).map fun i =>
    if F.o 3 then (cur3 + i, c (vx 0) (fy (2 + i))) else (cur3 + F.e 3 - 2 - i, c (vx 0) (vy (2 + i)))) ++
  ((List.range (F.p - 1)).flatMap fun i => (List.range (F.p - 1)).map fun j =>
    c (vx (j + 2)) (vy (i + 2))).mapIdx fun k v => (cur4 + k, v)

/-- The final check of the number of rows; /repo/lib/lf/fe/hierarchic_fe.h:1328-1329. -/
def allRows (F : HierQuad K) : Bool :=
  4 + (F.e 0 - 1) + (F.e 1 - 1) + (F.e 2 - 1) + (F.e 3 - 1) + (F.p - 1) * (F.p - 1) = F.num

/-- `EvalReferenceShapeFunctions`; /repo/lib/lf/fe/hierarchic_fe.h:1247-1331. -/
def eval (F : HierQuad K) : List K → Option (List K)
  | [x, y] =>
    (F.fe1d.eval [x]).bind fun sx => (F.fe1d.eval [y]).bind fun sy =>
    (F.fe1d.eval [1 - x]).bind fun sfx => (F.fe1d.eval [1 - y]).bind fun sfy =>
    if F.allRows then
      fillRows F.num (F.rows (fun i => sx[i]?) (fun i => sy[i]?) (fun i => sfx[i]?) (fun i => sfy[i]?)
        fun a b => a.bind fun a => b.map fun b => a * b)
    else none
  | _ => none

/-- `GradientsReferenceShapeFunctions`; /repo/lib/lf/fe/hierarchic_fe.h:1333-1445.  Every entry is a pair
of value and derivative here: the derivative with respect to the first coordinate is the derivative of the
`x` factor times the value of the `y` factor, and vice versa; the derivatives of the flipped functions get
a minus sign. -/
def grad (F : HierQuad K) : List K → Option (List (List K))
  | [x, y] =>
    (F.fe1d.eval [x]).bind fun sx => (F.fe1d.eval [y]).bind fun sy =>
    (F.fe1d.grad [x]).bind fun dx => (F.fe1d.grad [y]).bind fun dy =>
    (F.fe1d.eval [1 - x]).bind fun sfx => (F.fe1d.eval [1 - y]).bind fun sfy =>
    (F.fe1d.grad [1 - x]).bind fun dfx => (F.fe1d.grad [1 - y]).bind fun dfy =>
    let pair : List K → List (List K) → K → ℕ → Option (K × K) := fun s d sgn i =>
      (s[i]?).bind fun v => (d[i]?).bind fun g => (g[0]?).map fun g => (v, sgn * g)
    fillRows F.num (F.rows (pair sx dx 1) (pair sy dy 1) (pair sfx dfx (-1)) (pair sfy dfy (-1))
      fun a b => a.bind fun a => b.map fun b => [a.2 * b.1, a.1 * b.2])
  | _ => none

/-- `Ne0`, …, `Ne3`; /repo/lib/lf/fe/hierarchic_fe.h:1453-1460. -/
def ne (F : HierQuad K) (j : ℕ) : ℕ := if 1 < F.e j then (F.q j).numPoints else 0

/-- `EvaluationNodes`; /repo/lib/lf/fe/hierarchic_fe.h:1452-1525. -/
def nodes (F : HierQuad K) : List (List K) :=
  [[0, 0], [1, 0], [1, 1], [0, 1]] ++
  (if 1 < F.e 0 then (F.q 0).points.map fun s =>
    if F.o 0 then [s.getD 0 0, 0] else [1 - s.getD 0 0, 0] else []) ++
  (if 1 < F.e 1 then (F.q 1).points.map fun s =>
    if F.o 1 then [1, s.getD 0 0] else [1, 1 - s.getD 0 0] else []) ++
  (if 1 < F.e 2 then (F.q 2).points.map fun s =>
    if F.o 2 then [1 - s.getD 0 0, 1] else [s.getD 0 0, 1] else []) ++
  (if 1 < F.e 3 then (F.q 3).points.map fun s =>
    if F.o 3 then [0, 1 - s.getD 0 0] else [0, s.getD 0 0] else []) ++
  (if 1 < F.p then F.fe1d.nodes.flatMap fun py => F.fe1d.nodes.map fun px => [px.getD 0 0, py.getD 0 0]
    else [])

/-- The edge part of `NodalValuesToDofs`, one edge: `i` runs from 2 to `Degree()` and is skipped if it
exceeds the degree of the edge; /repo/lib/lf/fe/hierarchic_fe.h:1564-1638.  (The code has one loop over
`i` for all edges; the assignments for different edges are independent of each other.) -/
def edgeWrites (F : HierQuad K) (j : ℕ) (pos neg : ℕ → ℕ) (v0 v1 : K) (s : List K) :
    List (ℕ × Option K) :=
  ((List.range' 2 (F.degree + 1 - 2)).filter fun i => i ≤ F.e j).map fun i =>
    if F.o j then (pos i, some (segDual (F.q j) i v0 v1 s)) else (neg i, some (segDual (F.q j) i v1 v0 s))

/-- The interior part of `NodalValuesToDofs`: the one-dimensional functionals are applied in the first
coordinate (`dof_temp`), then in the second (`dof_temp2`), and the matrix is read column by column;
/repo/lib/lf/fe/hierarchic_fe.h:1640-1666. -/
def faceDofs (F : HierQuad K) (start : ℕ) (nodevals : List K) : Option (List K) :=
  let nq := F.fe1d.nodes.length
  ((List.range nq).mapM fun i =>
    (segment nodevals (start + nq * i) nq).bind fun v =>
      (F.fe1d.toDofs v).bind fun d => segment d 2 (F.p - 1)).bind fun dofTemp =>
  ((List.range (F.p - 1)).mapM fun i =>
    (dofTemp.mapM fun r => r[i]?).bind fun col =>
      (F.fe1d.toDofs col).bind fun d => segment d 2 (F.p - 1)).bind fun dofTemp2 =>
  ((List.range (F.p - 1)).mapM fun n => dofTemp2.mapM fun r => r[n]?).map List.flatten

/-- `NodalValuesToDofs`; /repo/lib/lf/fe/hierarchic_fe.h:1545-1668. -/
def toDofs (F : HierQuad K) (nodevals : List K) : Option (List K) :=
  (nodevals[0]?).bind fun v0 => (nodevals[1]?).bind fun v1 =>
  (nodevals[2]?).bind fun v2 => (nodevals[3]?).bind fun v3 =>
  (segment nodevals 4 (F.ne 0)).bind fun s0 =>
  (segment nodevals (4 + F.ne 0) (F.ne 1)).bind fun s1 =>
  (segment nodevals (4 + F.ne 0 + F.ne 1) (F.ne 2)).bind fun s2 =>
  (segment nodevals (4 + F.ne 0 + F.ne 1 + F.ne 2) (F.ne 3)).bind fun s3 =>
  (if 1 < F.p then F.faceDofs (4 + F.ne 0 + F.ne 1 + F.ne 2 + F.ne 3) nodevals else some []).bind fun face =>
  fillRows F.num
    ([(0, some v0), (1, some v1), (2, some v2), (3, some v3)] ++
    F.edgeWrites 0 (fun i => 2 + i) (fun i => 5 + (F.e 0 - 1) - i) v0 v1 s0 ++
    F.edgeWrites 1 (fun i => 2 + i + (F.e 0 - 1)) (fun i => 5 + (F.e 0 + F.e 1 - 2) - i) v1 v2 s1 ++
    F.edgeWrites 2 (fun i => 2 + i + (F.e 0 + F.e 1 - 2)) (fun i => 5 + (F.e 0 + F.e 1 + F.e 2 - 3) - i)
      v2 v3 s2 ++
    F.edgeWrites 3 (fun i => 2 + i + (F.e 0 + F.e 1 + F.e 2 - 3))
      (fun i => 5 + (F.e 0 + F.e 1 + F.e 2 + F.e 3 - 4) - i) v3 v0 s3 ++
    HierTria.counted (F.e 0 + F.e 1 + F.e 2 + F.e 3) face)

/-- `FeHierarchicQuad`; /repo/lib/lf/fe/hierarchic_fe.h:1141-1678. -/
def fe (F : HierQuad K) : RefFE K where
  ref := .quad
  degree := F.degree
  num := F.num
  numCodim codim :=
    if codim = 0 then some F.numInterior
    else if codim = 1 then
      if F.e 0 = F.e 1 ∧ F.e 0 = F.e 2 ∧ F.e 0 = F.e 3 then some (F.e 0 - 1) else none
    else if codim = 2 then some 1 else none
  numSub codim subidx :=
    if codim = 0 then if subidx = 0 then some F.numInterior else none
    else if codim = 1 then if subidx < 4 then some (F.e subidx - 1) else none
    else if codim = 2 then if subidx < 4 then some 1 else none
    else none
  eval := F.eval
  grad := F.grad
  nodes := F.nodes
  toDofs := F.toDofs

end HierQuad

/-- Constructor of `FeHierarchicQuad`; /repo/lib/lf/fe/hierarchic_fe.h:1149-1175. -/
def makeHierQuad (get : RefEl → ℕ → Option (QuadRule K)) (p : ℕ) (e : ℕ → ℕ) (o : ℕ → Bool) :
    Option (HierQuad K) :=
  if p = 0 ∨ e 0 = 0 ∨ e 1 = 0 ∨ e 2 = 0 ∨ e 3 = 0 then none else
  (get .segment (2 * (e 0 - 1))).bind fun q0 =>
  (get .segment (2 * (e 1 - 1))).bind fun q1 =>
  (get .segment (2 * (e 2 - 1))).bind fun q2 =>
  (get .segment (2 * (e 3 - 1))).bind fun q3 =>
  (get .segment (2 * (max p (max (e 0) (max (e 1) (max (e 2) (e 3)))) - 1))).map fun q1d =>
    ⟨p, e, o, fun j => [q0, q1, q2].getD j q3, q1d⟩

/-! ## The space -/

/-- The number of dofs per entity given to the dof handler;
/repo/lib/lf/fe/hierarchic_scalar_fe_space.h:98-114. -/
def hierCount (T : Topo) (degree : Ent → ℕ) (e : Ent) : ℕ :=
  match T.refEl e with
  | some .segment => degree e - 1
  | some .tria => if degree e ≤ 2 then 0 else (degree e - 2) * (degree e - 1) / 2
  | some .quad => (degree e - 1) * (degree e - 1)
  | _ => 1

/-- The reference element `Init` stores for an entity;
/repo/lib/lf/fe/hierarchic_scalar_fe_space.h:177-220. -/
def hierLayout (get : RefEl → ℕ → Option (QuadRule K)) (T : Topo) (degree : Ent → ℕ) (e : Ent) :
    Option (RefFE K) :=
  (T.refEl e).bind fun r =>
    let edgeDegree j := degree (1, (T.cell e.2).edges.getD j 0)
    let ori j := (T.cell e.2).ori.getD j false
    match r with
    | .point => some (fePoint 1)
    | .segment => makeHierSegment get (degree e)
    | .tria => (makeHierTria get (degree e) edgeDegree ori).map HierTria.fe
    | .quad => (makeHierQuad get (degree e) edgeDegree ori).map HierQuad.fe

/-- `HierarchicScalarFESpace` with a degree functor; /repo/lib/lf/fe/hierarchic_scalar_fe_space.h:91-116.
`Init` has to succeed for all entities. -/
def hierSpace (get : RefEl → ℕ → Option (QuadRule K)) (T : Topo) (degree : Ent → ℕ) :
    Option (FeSpace K) :=
  (dynamicDofHandler T (hierCount T degree)).bind fun dofh =>
    if (∀ i < T.num 2, (hierLayout get T degree (2, i)).isSome) ∧
        (∀ i < T.num 1, (hierLayout get T degree (1, i)).isSome) ∧
        ∀ i < T.num 0, (hierLayout get T degree (0, i)).isSome then
      some ⟨T, dofh, hierLayout get T degree⟩
    else none

/-- `HierarchicScalarFESpace` of uniform degree; /repo/lib/lf/fe/hierarchic_scalar_fe_space.h:64-72. -/
def hierSpaceUniform (get : RefEl → ℕ → Option (QuadRule K)) (T : Topo) (degree : ℕ) :
    Option (FeSpace K) :=
  hierSpace get T fun e => if T.refEl e = some .point then 1 else degree

end
end Verif
