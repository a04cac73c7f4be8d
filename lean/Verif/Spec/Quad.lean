import Mathlib.Algebra.Polynomial.Eval.Degree
import Mathlib.MeasureTheory.Integral.IntervalIntegral.Basic
import Verif.Model.Quad

/-!
# Specification vocabulary for quadrature rules
-/

namespace Verif
open Finset

/-- The value of a quadrature rule for the integrand `f`: `∑ i, weights[i] * f (points[i])`. -/
noncomputable def QuadRule.integrate (q : QuadRule ℝ) (f : List ℝ → ℝ) : ℝ :=
  (List.zipWith (fun w p => w * f p) q.weights q.points).sum

/-- The integral over a reference element: `[0,1]`, the triangle `{x, y ≥ 0, x + y ≤ 1}`, `[0,1]²`. -/
noncomputable def refIntegral : RefEl → (List ℝ → ℝ) → ℝ
  | .point, f => f []
  | .segment, f => ∫ x in (0 : ℝ)..1, f [x]
  | .tria, f => ∫ y in (0 : ℝ)..1, ∫ x in (0 : ℝ)..(1 - y), f [x, y]
  | .quad, f => ∫ y in (0 : ℝ)..1, ∫ x in (0 : ℝ)..1, f [x, y]

/-- The polynomials a rule of degree `d` has to integrate exactly, see the documentation of
`QuadRule::Degree()` (/repo/lib/lf/quad/quad_rule.h:106-128): total degree at most `d` on segments and
triangles, degree at most `d` in each variable on quadrilaterals. -/
def IsPolyOn : RefEl → ℕ → (List ℝ → ℝ) → Prop
  | .point, _, _ => True
  | .segment, d, f => ∃ c : ℕ → ℝ, ∀ x, f [x] = ∑ a ∈ range (d + 1), c a * x ^ a
  | .tria, d, f => ∃ c : ℕ → ℕ → ℝ, ∀ x y,
      f [x, y] = ∑ a ∈ range (d + 1), ∑ b ∈ range (d + 1 - a), c a b * (x ^ a * y ^ b)
  | .quad, d, f => ∃ c : ℕ → ℕ → ℝ, ∀ x y,
      f [x, y] = ∑ a ∈ range (d + 1), ∑ b ∈ range (d + 1), c a b * (x ^ a * y ^ b)

/-- The rule integrates all polynomials of degree `d` exactly. -/
def QuadRule.ExactFor (q : QuadRule ℝ) (d : ℕ) : Prop :=
  ∀ f, IsPolyOn q.ref d f → q.integrate f = refIntegral q.ref f

/-- One point per weight, each with the coordinates of the reference element. -/
def QuadRule.WellFormed {K : Type} (q : QuadRule K) : Prop :=
  (∀ c ∈ q.points, c.length = q.ref.dimension) ∧ q.weights.length = q.points.length

/-- An `n`-point Gauss rule on `[a, b]` for the weight function `ω`: it integrates all polynomials of
degree at most `2 n - 1` exactly. -/
def IsGauss (a b : ℝ) (ω : ℝ → ℝ) (n : ℕ) (r : List ℝ × List ℝ) : Prop :=
  r.1.length = n ∧ r.2.length = n ∧ ∀ p : Polynomial ℝ, p.natDegree ≤ 2 * n - 1 →
    (List.zipWith (fun w x => w * p.eval x) r.2 r.1).sum = ∫ x in a..b, ω x * p.eval x

/-- The one-dimensional rules are exact Gauss rules: Gauss-Legendre on `[0,1]` and Gauss-Jacobi with
weight `(1 - x)¹ (1 + x)⁰` on `[-1,1]`. -/
structure QuadBase.Exact (B : QuadBase ℝ) (n : ℕ) : Prop where
  legendre : IsGauss 0 1 (fun _ => 1) n (B.legendre n)
  jacobi10 : IsGauss (-1) 1 (fun x => (1 - x) ^ 1 * (1 + x) ^ 0) n (B.jacobi10 n)

end Verif
