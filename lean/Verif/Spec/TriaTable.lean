import Verif.Spec.Quad
import Verif.Spec.Geometry

/-!
# Specification vocabulary for quadrature rules with rounded weights and points
-/

namespace Verif
open Finset

/-- The polynomial `∑ c a b x^a y^b` of total degree at most `d`. -/
noncomputable def polyXY (d : ℕ) (c : ℕ → ℕ → ℝ) (p : List ℝ) : ℝ :=
  ∑ a ∈ range (d + 1), ∑ b ∈ range (d + 1 - a), c a b * (p.getD 0 0 ^ a * p.getD 1 0 ^ b)

/-- Sum of the absolute values of its coefficients. -/
noncomputable def coeffSum (d : ℕ) (c : ℕ → ℕ → ℝ) : ℝ :=
  ∑ a ∈ range (d + 1), ∑ b ∈ range (d + 1 - a), |c a b|

/-- The rule on the triangle integrates all polynomials of total degree at most `d` up to `ε` times the sum of
the absolute values of the coefficients. -/
def QuadRule.ExactUpTo (q : QuadRule ℝ) (ε : ℝ) (d : ℕ) : Prop :=
  ∀ c, |q.integrate (polyXY d c) - refIntegral .tria (polyXY d c)| ≤ ε * coeffSum d c

/-- Positive weights, points in the closed reference element. -/
def QuadRule.Positive (q : QuadRule ℝ) : Prop := (∀ w ∈ q.weights, 0 < w) ∧ ∀ p ∈ q.points, q.ref.Contains p

/-- `y` is `x` up to the relative error `u`. -/
def Near (u x y : ℝ) : Prop := |y - x| ≤ u * |x|

/-- Every weight and coordinate of `q'` is that of `q` up to the relative error `u`. -/
structure QuadRule.Near (u : ℝ) (q q' : QuadRule ℝ) : Prop where
  ref : q'.ref = q.ref
  degree : q'.degree = q.degree
  weights : List.Forall₂ (Verif.Near u) q.weights q'.weights
  points : List.Forall₂ (List.Forall₂ (Verif.Near u)) q.points q'.points

end Verif
