import Verif.Model.Geometry

/-!
# Model of the degeneracy checks in the constructors of `TriaO1`, `QuadO1` and `Parallelogram`

`Geo` describes objects without these checks (see `Verif.Model.Geometry`).  Here the constructors are modelled with
them, for real coordinates.  A failing `LF_VERIFY_MSG` / `LF_ASSERT_MSG` is `none`.
-/

namespace Verif
namespace Geo
variable {w : ℕ}

/-- `(p - q).squaredNorm()`. -/
noncomputable def sqDist (p q : Vec ℝ w) : ℝ := dot (p - q) (p - q)

/-- `a.cross(b).norm()` for columns with three entries. -/
noncomputable def crossNorm (a b : Vec ℝ w) : ℝ :=
  Real.sqrt ((entry a 1 * entry b 2 - entry a 2 * entry b 1) * (entry a 1 * entry b 2 - entry a 2 * entry b 1) +
    (entry a 2 * entry b 0 - entry a 0 * entry b 2) * (entry a 2 * entry b 0 - entry a 0 * entry b 2) +
    (entry a 0 * entry b 1 - entry a 1 * entry b 0) * (entry a 0 * entry b 1 - entry a 1 * entry b 0))

/-- The default value of `tol`; /repo/lib/lf/geometry/tria_o1.h:18, quad_o1.h:18. -/
noncomputable def defaultTol : ℝ := 1 / 10 ^ 8

/-- `assertNonDegenerateTriangle(coords, tol)`; /repo/lib/lf/geometry/tria_o1.cc:10-48. -/
noncomputable def assertNonDegenerateTriangle (tol : ℝ) (p0 p1 p2 : Vec ℝ w) : Option Bool :=
  let e0lensq := sqDist p1 p0
  let e1lensq := sqDist p2 p1
  let e2lensq := sqDist p0 p2
  let circum := e0lensq + e1lensq + e2lensq
  if e0lensq > tol * circum then
    if e1lensq > tol * circum then
      if e2lensq > tol * circum then
        match w with
        | 2 =>
          let area := |(entry p1 0 - entry p0 0) * (entry p2 1 - entry p0 1) -
            (entry p1 1 - entry p0 1) * (entry p2 0 - entry p0 0)|
          if area > tol * circum then some true else none
        | 3 =>
          let area := crossNorm (p1 - p0) (p2 - p0)
          if area > tol * circum then some true else none
        | _ => none
      else none
    else none
  else none

/-- `assertNonDegenerateQuad(coords, tol)`; /repo/lib/lf/geometry/quad_o1.cc:12-58. -/
noncomputable def assertNonDegenerateQuad (tol : ℝ) (p0 p1 p2 p3 : Vec ℝ w) : Option Bool :=
  let e0lensq := sqDist p1 p0
  let e1lensq := sqDist p2 p1
  let e2lensq := sqDist p3 p2
  let e3lensq := sqDist p0 p3
  let circum := e0lensq + e1lensq + e2lensq + e3lensq
  if e0lensq > tol * circum then
    if e1lensq > tol * circum then
      if e2lensq > tol * circum then
        if e3lensq > tol * circum then
          match w with
          | 2 =>
            let ar1 := (entry p1 0 - entry p0 0) * (entry p2 1 - entry p0 1) -
              (entry p1 1 - entry p0 1) * (entry p2 0 - entry p0 0)
            let ar2 := (entry p3 0 - entry p0 0) * (entry p2 1 - entry p0 1) -
              (entry p3 1 - entry p0 1) * (entry p2 0 - entry p0 0)
            let area := |ar1| + |ar2|
            if area > tol * circum then some true else none
          | 3 =>
            let ar1 := crossNorm (p1 - p0) (p2 - p0)
            let ar2 := crossNorm (p3 - p0) (p2 - p0)
            let area := ar1 + ar2
            if area > tol * circum then some true else none
          | _ => none
        else none
      else none
    else none
  else none

/-- The constructor `TriaO1(coords)`; /repo/lib/lf/geometry/tria_o1.cc:50-68.  The precomputed members are those of
`jacobian`, `jacobianInverseGramian` and `integrationElement`. -/
noncomputable def newTriaO1 : List (Vec ℝ w) → Option (Geo ℝ w)
  | [p0, p1, p2] => (assertNonDegenerateTriangle defaultTol p0 p1 p2).bind fun _ => mkTriaO1 [p0, p1, p2]
  | _ => none

/-- The constructor `QuadO1(coords)`; /repo/lib/lf/geometry/quad_o1.cc:60-64. -/
noncomputable def newQuadO1 : List (Vec ℝ w) → Option (Geo ℝ w)
  | [p0, p1, p2, p3] => (assertNonDegenerateQuad defaultTol p0 p1 p2 p3).bind fun _ => mkQuadO1 [p0, p1, p2, p3]
  | _ => none

/-- The constructor `Parallelogram(coords)`; /repo/lib/lf/geometry/quad_o1.cc:258-271. -/
noncomputable def newParallelogram : List (Vec ℝ w) → Option (Geo ℝ w)
  | [p0, p1, p2, p3] => (assertNonDegenerateQuad defaultTol p0 p1 p2 p3).bind fun _ =>
    if Real.sqrt (dot (p3 - p2 + p1 - p0) (p3 - p2 + p1 - p0)) <
        1 / 10 ^ 8 * Real.sqrt (dot (p2 - p0) (p2 - p0)) then mkParallelogram [p0, p1, p2, p3]
    else none
  | _ => none

/-- The constructor `Parallelogram(p0, p1, p2)`; /repo/lib/lf/geometry/quad_o1.cc:273-288. -/
noncomputable def newSpanned (p0 p1 p2 : Vec ℝ w) : Option (Geo ℝ w) :=
  (assertNonDegenerateQuad defaultTol p0 p1 (p1 + (p2 - p0)) p2).map fun _ => spanned p0 p1 p2

/-- The constructor which belongs to an object, called with its coordinates.  The constructors of the other classes do
not check the coordinates; /repo/lib/lf/geometry/point.h:22, segment_o1.h:14-15, segment_o2.cc:9-26, tria_o2.cc:10-47,
quad_o2.cc:10-54. -/
noncomputable def construct (g : Geo ℝ w) : Option (Geo ℝ w) :=
  match g with
  | triaO1 .. => newTriaO1 g.coords
  | quadO1 .. => newQuadO1 g.coords
  | parallelogram .. => newParallelogram g.coords
  | _ => some g

/-- `ChildGeometry(ref_pattern, codim)` with the checks of the constructors of the children; compare `Geo.child`. -/
noncomputable def childChecked (g : Geo ℝ w) (p : Pattern) (codim : ℕ) : Option (List (Geo ℝ w)) :=
  (g.child p codim).bind fun cs => cs.mapM construct

/-- `GeometryInParent` with the checks of the constructors; compare `Geo.relative`. -/
noncomputable def relativeChecked (n : ℕ) (poly : List (List ℤ)) : Option (Geo ℝ n) :=
  (relative n poly).bind construct

end Geo
end Verif
