import Verif.Model.Quad

/-!
# The hard-coded quadrature rules for triangles: common definitions

The literals of /repo/lib/lf/quad/quad_rules_tria.cc are decimal fractions with at most 25 digits after the
point.  They are stored as multiples of `10⁻²⁵`.
-/

namespace Verif

/-- A weight and the coordinates of a point, times `10²⁵`. -/
structure TabRow where
  w : ℕ
  x : ℕ
  y : ℕ

/-- `10²⁵`. -/
def tabScale : ℕ := 10 ^ 25

/-- `HardcodedQuadRule<kTria, d>()` for the given literals; e.g. /repo/lib/lf/quad/quad_rules_tria.cc:34-50.  The
literals are taken as exact decimal numbers. -/
def hardRule {K : Type} [Field K] (d : ℕ) (rows : List TabRow) : QuadRule K where
  ref := .tria
  degree := d
  points := rows.map fun r => [(r.x : K) / tabScale, (r.y : K) / tabScale]
  weights := rows.map fun r => (r.w : K) / tabScale

end Verif
