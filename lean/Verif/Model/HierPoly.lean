import Mathlib.Algebra.Field.Defs
import Mathlib.Data.Nat.Cast.Defs

/-!
# Model of the polynomials behind the hierarchic finite elements

/repo/lib/lf/fe/hierarchic_fe.cc.  `double` is an arbitrary field, the degrees are natural numbers
(`unsigned` without wrap-around; `ILegendre` and its derivatives are only meaningful for `n ≥ 1`, the C++
code would wrap around for `n = 0`).  Subexpressions like `2 * i - 1` which C++ evaluates in `unsigned`
are evaluated in `ℕ` and then converted.
-/

namespace Verif
section
variable {K : Type} [Field K]

/-- The loop of `Legendre`, the state `(Pim1, Pi)` after the passes for `i = 2, ..., k + 1`;
/repo/lib/lf/fe/hierarchic_fe.cc:20-27. -/
def legendreLoop (x t : K) : ℕ → K × K
  | 0 => (1, 2 * x - t)
  | k + 1 =>
    let i := k + 2
    let s := legendreLoop x t k
    let pip1 := ((2 * i - 1 : ℕ) : K) * (2 * x - t) / (i : K) * s.2 -
      ((i - 1 : ℕ) : K) * t * t / (i : K) * s.1
    (s.2, pip1)

/-- `Legendre`; /repo/lib/lf/fe/hierarchic_fe.cc:13-29. -/
def legendre (n : ℕ) (x t : K) : K :=
  if n = 0 then 1 else if n = 1 then 2 * x - t else (legendreLoop x t (n - 1)).2

/-- `ILegendre`; /repo/lib/lf/fe/hierarchic_fe.cc:31-37. -/
def iLegendre (n : ℕ) (x t : K) : K :=
  if n = 1 then x else
    (legendre n x t - t * t * legendre (n - 2) x t) / ((2 * (2 * n - 1) : ℕ) : K)

/-- `ILegendreDx`; /repo/lib/lf/fe/hierarchic_fe.cc:39-41. -/
def iLegendreDx (n : ℕ) (x t : K) : K := legendre (n - 1) x t

/-- `ILegendreDt`; /repo/lib/lf/fe/hierarchic_fe.cc:43-48. -/
def iLegendreDt (n : ℕ) (x t : K) : K :=
  if n = 1 then 0 else -(1 / 2) * (legendre (n - 1) x t + t * legendre (n - 2) x t)

/-- `LegendreDx`; /repo/lib/lf/fe/hierarchic_fe.cc:51-58. -/
def legendreDx : ℕ → K → K → K
  | 0, _, _ => 0
  | n + 1, x, t => ((2 * (n + 1) : ℕ) : K) * legendre n x t + (2 * x - t) * legendreDx n x t

/-- The loop of `Jacobi`, the state `(p0, p1)` after the passes for `j = 1, ..., k`, for the argument
`x ∈ [-1, 1]`; /repo/lib/lf/fe/hierarchic_fe.cc:70-85. -/
def jacobiLoop (al be x : K) : ℕ → K × K
  | 0 => (1, 1 / 2 * (al - be + x * (al + be + 2)))
  | k + 1 =>
    let j := k + 1
    let s := jacobiLoop al be x k
    let alpha1 := ((2 * (j + 1) : ℕ) : K) * ((j : K) + al + be + 1) * (((2 * j : ℕ) : K) + al + be)
    let alpha2 := (((2 * j : ℕ) : K) + al + be + 1) * (al * al - be * be)
    let alpha3 := (((2 * j : ℕ) : K) + al + be) * (((2 * j : ℕ) : K) + al + be + 1) *
      (((2 * j : ℕ) : K) + al + be + 2)
    let alpha4 := 2 * ((j : K) + al) * ((j : K) + be) * (((2 * j : ℕ) : K) + al + be + 2)
    let p2 := 1 / alpha1 * ((alpha2 + alpha3 * x) * s.2 - alpha4 * s.1)
    (s.2, p2)

/-- `Jacobi(n, alpha, beta, x)`; /repo/lib/lf/fe/hierarchic_fe.cc:60-87. -/
def jacobiAB (n : ℕ) (al be x : K) : K :=
  let z := 2 * x - 1
  if n = 0 then 1 else if n = 1 then 1 / 2 * (al - be + z * (al + be + 2)) else
    (jacobiLoop al be z (n - 1)).2

/-- `Jacobi(n, alpha, x)`; /repo/lib/lf/fe/hierarchic_fe.cc:89-91. -/
def jacobi (n : ℕ) (al x : K) : K := jacobiAB n al 0 x

/-- One step of the recurrence in `IJacobi` (for the new index `m = j + 1`);
/repo/lib/lf/fe/hierarchic_fe.cc:102-110 for `m = 2`, 112-118 for `m = j + 1`. -/
def iJacobiStep (al x : K) (m : ℕ) (pj pjm1 : K) : K :=
  let a := ((2 * m : ℕ) : K) * ((m : K) + al) * (((2 * m : ℕ) : K) + al - 2)
  let b := ((2 * m : ℕ) : K) + al - 1
  let c := (((2 * m : ℕ) : K) + al) * (((2 * m : ℕ) : K) + al - 2)
  let d := 2 * ((m : K) + al - 1) * ((m - 1 : ℕ) : K) * (((2 * m : ℕ) : K) + al)
  (b * (c * (2 * x - 1) + al * al) * pj - d * pjm1) / a

/-- The loop of `IJacobi`, the state `(Pjm2, Pjm1, Pj)` after the passes for `j = 2, ..., k + 1`;
/repo/lib/lf/fe/hierarchic_fe.cc:106-122. -/
def iJacobiLoop (al x : K) : ℕ → K × K × K
  | 0 => (1, (2 + al) * x - 1, iJacobiStep al x 2 ((2 + al) * x - 1) 1)
  | k + 1 =>
    let s := iJacobiLoop al x k
    (s.2.1, s.2.2, iJacobiStep al x (k + 3) s.2.2 s.2.1)

/-- `IJacobi`; /repo/lib/lf/fe/hierarchic_fe.cc:93-128. -/
def iJacobi (n : ℕ) (al x : K) : K :=
  if n = 0 then -1 else if n = 1 then x else
    let s := iJacobiLoop al x (n - 2)
    let anL := ((n : K) + al) / ((((2 * n : ℕ) : K) + al - 1) * (((2 * n : ℕ) : K) + al))
    let bnL := al / ((((2 * n : ℕ) : K) + al - 2) * (((2 * n : ℕ) : K) + al))
    let cnL := ((n - 1 : ℕ) : K) / ((((2 * n : ℕ) : K) + al - 2) * (((2 * n : ℕ) : K) + al - 1))
    anL * s.2.2 + bnL * s.2.1 - cnL * s.1

/-- `IJacobiDx`; /repo/lib/lf/fe/hierarchic_fe.cc:130-132. -/
def iJacobiDx (n : ℕ) (al x : K) : K := jacobi (n - 1) al x

/-- `JacobiDx`; /repo/lib/lf/fe/hierarchic_fe.cc:134-139. -/
def jacobiDx (n : ℕ) (al x : K) : K :=
  if n = 0 then 0 else jacobiAB (n - 1) (al + 1) 1 x * (al + (n : K) + 1)

end
end Verif
