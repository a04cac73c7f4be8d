import Verif.Model.EllBvp
import Mathlib.Analysis.SpecialFunctions.Exp
import Mathlib.Analysis.SpecialFunctions.Sqrt
import Mathlib.LinearAlgebra.Matrix.NonsingularInverse

/-!
# Model: Strang splitting for the Fisher/KPP equation

`/repo/projects/fisher_kpp/strangsplitting.{h,cc}`: time stepping for `u' = div (c grad u) + λ u (1 - u / K)`, with SDIRK-2
for the diffusion and the exact evolution for the reaction.
-/

namespace Verif.Fisher
open Verif Matrix

variable {n w : ℕ}

/-- `Eigen::SparseLU`, with exact linear algebra: the solution of the linear system if the matrix is regular, and failure
(`info() != Success`, caught by `LF_VERIFY_MSG`) otherwise. -/
noncomputable def luSolve (S : Matrix (Fin n) (Fin n) ℝ) (b : Fin n → ℝ) : Option (Fin n → ℝ) :=
  if S.det = 0 then none else some (S⁻¹ *ᵥ b)

/-- The state of a `StrangSplit`; /repo/projects/fisher_kpp/strangsplitting.h:58-82.  `fe_space_` and `T_` are not used after
construction, the LU decompositions are determined by the other members. -/
structure StrangSplit (n : ℕ) where
  A : Matrix (Fin n) (Fin n) ℝ
  M : Matrix (Fin n) (Fin n) ℝ
  m : ℕ
  tau : ℝ
  lambda : ℝ
  kappa : ℝ

/-- The constructor, after the assembly of the matrices; strangsplitting.h:191-198.  For `m = 0` the step size is infinite;
this is modelled as failure. -/
noncomputable def StrangSplit.make (A M : Matrix (Fin n) (Fin n) ℝ) (T : ℝ) (m : ℕ) (lambda : ℝ) : Option (StrangSplit n) :=
  if m = 0 then none else
  let kappa := 1 - 1 / 2 * √2
  let tau := T / m
  if (M + (1 / 2 * tau * kappa) • A).det = 0 then none else
  if (M + (tau * kappa) • A).det = 0 then none else
  some ⟨A, M, m, tau, lambda, kappa⟩

/-- `StrangSplit::diffusionEvolutionOperator`; /repo/projects/fisher_kpp/strangsplitting.cc:15-49. -/
noncomputable def StrangSplit.diffusion (s : StrangSplit n) (firstcall : Bool) (mu : Fin n → ℝ) : Option (Fin n → ℝ) :=
  let rhs := -(s.A *ᵥ mu)
  if firstcall then
    let solver1 := luSolve (s.M + (1 / 2 * s.tau * s.kappa) • s.A)
    (solver1 rhs).bind fun k1 =>
    (solver1 (rhs - (1 / 2 * s.tau * (1 - s.kappa)) • s.A *ᵥ k1)).bind fun k2 =>
    some (mu + (1 / 2 * s.tau * (1 - s.kappa)) • k1 + (1 / 2 * s.tau * s.kappa) • k2)
  else
    let solver2 := luSolve (s.M + (s.tau * s.kappa) • s.A)
    (solver2 rhs).bind fun k1 =>
    (solver2 (rhs - (s.tau * (1 - s.kappa)) • s.A *ᵥ k1)).bind fun k2 =>
    some (mu + (s.tau * (1 - s.kappa)) • k1 + (s.tau * s.kappa) • k2)

/-- One component of `cap.cwiseQuotient(ones + (cap.cwiseQuotient(sol_cur) - ones) * std::exp(-lambda_ * t))`;
strangsplitting.cc:79-80, 88-89.  Division of a positive capacity by zero is infinity in double arithmetic, and the result is
zero then; other divisions by zero are modelled as failure. -/
noncomputable def logisticStep (lambda t cap y : ℝ) : Option ℝ :=
  if y = 0 then if 0 < cap then some 0 else none
  else
    let q := 1 + (cap / y - 1) * Real.exp (-lambda * t)
    if q = 0 then none else some (cap / q)

/-- The reaction step for all components. -/
noncomputable def StrangSplit.reaction (s : StrangSplit n) (t : ℝ) (cap sol : Fin n → ℝ) : Option (Fin n → ℝ) :=
  if ∀ i, (logisticStep s.lambda t (cap i) (sol i)).isSome then
    some fun i => (logisticStep s.lambda t (cap i) (sol i)).getD 0
  else none

/-- The loop over the time steps; strangsplitting.cc:77-85, with the number of iterations left. -/
noncomputable def StrangSplit.steps (s : StrangSplit n) (cap : Fin n → ℝ) : ℕ → (Fin n → ℝ) → Option (Fin n → ℝ)
  | 0, sol => some sol
  | k + 1, sol => (s.reaction s.tau cap sol).bind fun sol => (s.diffusion false sol).bind fun sol => s.steps cap k sol

/-- `StrangSplit::Evolution`; strangsplitting.cc:54-93.  The loop runs for `i = 1, ..., m_ - 2`. -/
noncomputable def StrangSplit.evolution (s : StrangSplit n) (cap mu : Fin n → ℝ) : Option (Fin n → ℝ) :=
  (s.diffusion true mu).bind fun sol =>
  (s.steps cap (s.m - 2) sol).bind fun sol =>
  s.reaction (s.tau / 2) cap sol

/-! ## Assembly -/

section
variable (B : QuadBase ℝ) (U : UniformFESpace ℝ) (T : Topo) (geo : Ent → Option (Geo ℝ w))

/-- The boundary value problem whose Galerkin matrix is `A_COO`: diffusion with coefficient `c`, and `h` on all edges on
the boundary; strangsplitting.h:139-161. -/
noncomputable def fisherBvp (bd : ℕ → Bool) (c h : Ent → List ℝ → ℝ) : EllBvp w where
  α := fun e x => .scalar (c e x)
  γ := fun _ _ => 0
  f := fun _ _ => 0
  η := h
  h := fun _ _ => 0
  g := fun _ _ => 0
  bd := bd
  dir := fun _ => false
  neu := fun _ => false
  imp := fun _ => true

/-- `M_COO`, assembled over the cells only; strangsplitting.h:148-150, 157. -/
noncomputable def massCoo : Option (Coo ℝ) :=
  (cellPrecomp B U).bind fun pre =>
  assembleMatrixFE (U.space T) 0 (fun _ => true)
    (reactionDiffusionElementMatrix pre T geo (pointwise fun _ _ => .scalar 0) (pointwise fun _ _ => 1))
    (Coo.mk' U.dofh.numDofs U.dofh.numDofs)

/-- A dense matrix of the expected size. -/
noncomputable def toMatrix (N : ℕ) (D : Dense ℝ) : Option (Matrix (Fin N) (Fin N) ℝ) :=
  if D.rows = N ∧ D.cols = N then some fun i j => D.entry i j else none

/-- `assembleGalerkinMatrices`; strangsplitting.h:124-176.  The coefficients are given at the local points of an entity,
`bd` stands for the flags of the edges on the boundary, and the two spaces of order one (the one of `dofh` and the one
made in lines 131-132) are the same. -/
noncomputable def assembleGalerkinMatrices (bd : ℕ → Bool) (c h : Ent → List ℝ → ℝ)
    (L : Matrix (Fin U.dofh.numDofs) (Fin U.dofh.numDofs) ℝ) :
    Option (Matrix (Fin U.dofh.numDofs) (Fin U.dofh.numDofs) ℝ × Matrix (Fin U.dofh.numDofs) (Fin U.dofh.numDofs) ℝ) :=
  ((fisherBvp bd c h).galerkinMatrix B U T geo).bind fun A =>
  (massCoo B U T geo).bind fun M =>
  (A.makeDense.bind (toMatrix _)).bind fun A_ds =>
  (M.makeDense.bind (toMatrix _)).bind fun M =>
  some (A_ds - L, M)

/-- The constructor of `StrangSplit`; strangsplitting.h:179-199. -/
noncomputable def strangSplit (bd : ℕ → Bool) (tEnd : ℝ) (m : ℕ) (lambda : ℝ) (c h : Ent → List ℝ → ℝ)
    (L : Matrix (Fin U.dofh.numDofs) (Fin U.dofh.numDofs) ℝ) : Option (StrangSplit U.dofh.numDofs) :=
  (assembleGalerkinMatrices B U T geo bd c h L).bind fun AM => StrangSplit.make AM.1 AM.2 tEnd m lambda

end

end Verif.Fisher
