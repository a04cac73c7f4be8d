import Mathlib.Analysis.SpecialFunctions.Gamma.Basic

/-!
# One-dimensional Gauss rules

Model of /repo/lib/lf/quad/gauss_quadrature.cc.  The extended precision floating point type of the code
is an exact field `K`.  The starting values of Newton's iteration (cc:36, 107-145) and the loop around a
Newton step (cc:41-60, 147-178) are not modelled: `root i` stands for the value of `z1` in the last
pass through the `i`-th loop, and everything computed from it is modelled.
-/

namespace Verif

variable {K : Type} [Field K]

/-- The variables `p1`, `p2` after `j` passes of the loop evaluating the Legendre polynomials at `z`;
/repo/lib/lf/quad/gauss_quadrature.cc:43-51. -/
def legLoop (z : K) : ℕ → K × K
  | 0 => (1, 0)
  | j + 1 =>
    let p := legLoop z j
    (((2 * (j : K) + 1) * z * p.1 - (j : K) * p.2) / ((j : K) + 1), p.1)

/-- The variable `pp`, meant to be the derivative of the Legendre polynomial;
/repo/lib/lf/quad/gauss_quadrature.cc:56. -/
def legDeriv (n : ℕ) (z : K) : K :=
  let p := legLoop z n
  (n : K) * (z * p.1 - p.2) / (z * z - 1)

/-- One Newton step: the new `z`; /repo/lib/lf/quad/gauss_quadrature.cc:58-59. -/
def legNewton (n : ℕ) (z1 : K) : K := z1 - (legLoop z1 n).1 / legDeriv n z1

/-- What happens to `points` and `weights` after the Newton iteration number `i` has ended with `z1`;
/repo/lib/lf/quad/gauss_quadrature.cc:62-65. -/
def legStore (n : ℕ) (z1 : K) (i : ℕ) (r : List K × List K) : List K × List K :=
  let z := legNewton n z1
  let pp := legDeriv n z1
  let w := 1 / ((1 - z * z) * pp * pp)
  (((r.1.set i (1 / 2 * (1 - z))).set (n - 1 - i) (1 / 2 * (1 + z))),
    (r.2.set i w).set (n - 1 - i) w)

/-- `GaussLegendre`; /repo/lib/lf/quad/gauss_quadrature.cc:16-69.  A failed `LF_ASSERT_MSG` is `none`. -/
def gaussLegendre (num_points : ℕ) (root : ℕ → K) : Option (List K × List K) :=
  if num_points > 0 then
    let m := (num_points + 1) / 2
    some ((List.range m).foldl (fun r i => legStore num_points (root i) i r)
      (List.replicate num_points 0, List.replicate num_points 0))
  else none

/-- The variables `p1`, `p2`, `temp` after the loop evaluating the Jacobi polynomials at `z` has been run
for `j = 2, ..., k + 1`; /repo/lib/lf/quad/gauss_quadrature.cc:146-165. -/
def jacLoop (alpha beta z : K) : ℕ → K × K × K
  | 0 =>
    let temp := 2 + (alpha + beta)
    ((alpha - beta + temp * z) / 2, 1, temp)
  | k + 1 =>
    let s := jacLoop alpha beta z k
    let alfbet := alpha + beta
    let j : K := ((k + 2 : ℕ) : K)
    let temp := 2 * j + alfbet
    let a := 2 * j * (j + alfbet) * (temp - 2)
    let b := (temp - 1) * (alpha * alpha - beta * beta + temp * (temp - 2) * z)
    let c := 2 * (j - 1 + alpha) * (j - 1 + beta) * temp
    ((b * s.1 - c * s.2.1) / a, s.1, temp)

/-- The variable `pp`, meant to be the derivative of the Jacobi polynomial of degree `n ≥ 1`;
/repo/lib/lf/quad/gauss_quadrature.cc:166-168. -/
def jacDeriv (n : ℕ) (alpha beta z : K) : K :=
  let s := jacLoop alpha beta z (n - 1)
  ((n : K) * (alpha - beta - s.2.2 * z) * s.1 + 2 * ((n : K) + alpha) * ((n : K) + beta) * s.2.1) /
    (s.2.2 * (1 - z * z))

/-- One Newton step: the new `z`; /repo/lib/lf/quad/gauss_quadrature.cc:172-173. -/
def jacNewton (n : ℕ) (alpha beta z1 : K) : K :=
  z1 - (jacLoop alpha beta z1 (n - 1)).1 / jacDeriv n alpha beta z1

/-- The weight computed after the Newton iteration has ended with `z1`; the exponential of the sum of
`lgamma` values is written as a quotient of Gamma values, which is the same for positive arguments;
/repo/lib/lf/quad/gauss_quadrature.cc:182-186. -/
noncomputable def jacWeight (n : ℕ) (alpha beta z1 : ℝ) : ℝ :=
  let s := jacLoop alpha beta z1 (n - 1)
  Real.Gamma (alpha + n) * Real.Gamma (beta + n) /
      (Real.Gamma (n + 1) * Real.Gamma (n + (alpha + beta) + 1)) *
    s.2.2 * (2 : ℝ) ^ (alpha + beta) / (jacDeriv n alpha beta z1 * s.2.1)

/-- `GaussJacobi`; /repo/lib/lf/quad/gauss_quadrature.cc:71-196.  A failed `LF_ASSERT_MSG` is `none`. -/
noncomputable def gaussJacobi (num_points : ℕ) (alpha beta : ℝ) (root : ℕ → ℝ) :
    Option (List ℝ × List ℝ) :=
  open Classical in
  if num_points > 0 ∧ alpha > -1 ∧ beta > -1 then
    some ((List.range num_points).map fun i => jacNewton num_points alpha beta (root i),
      (List.range num_points).map fun i => jacWeight num_points alpha beta (root i))
  else none

end Verif
