import Verif.Lemmas.StrangAssembly
import Mathlib.Analysis.Complex.ExponentialBounds

/-!
# C94, C95: Strang splitting for the Fisher/KPP equation
-/

namespace Verif
open Matrix Fisher

variable {n w : ℕ}

section Diffusion
variable {A M : Matrix (Fin n) (Fin n) ℝ}

/-- **C94**, stability: for all symmetric positive semi-definite stiffness matrices, all symmetric positive definite mass
matrices, all step sizes and all coefficient vectors, the constructor of `StrangSplit` succeeds, and so do all calls of
`diffusionEvolutionOperator`; they never increase the `L²` norm. -/
theorem C94_stable (hA : SemiDefinite A) (hM : Definite M) (T : ℝ) (hT : 0 ≤ T) (m : ℕ) (hm : m ≠ 0) (lambda : ℝ) :
    ∃ s, StrangSplit.make A M T m lambda = some s ∧
      ∀ firstcall mu, ∃ r, s.diffusion firstcall mu = some r ∧ normSq M r ≤ normSq M mu := by
  obtain ⟨k0, k1, -, k3⟩ := kappa_bounds
  have ht : 0 ≤ T / m := div_nonneg hT (Nat.cast_nonneg m)
  have d1 := det_ne hM hA (c := 1 / 2 * (T / m) * (1 - 1 / 2 * √2)) (by positivity)
  have d2 := det_ne hM hA (c := T / m * (1 - 1 / 2 * √2)) (by positivity)
  have hs : StrangSplit.make A M T m lambda = some ⟨A, M, m, T / m, lambda, 1 - 1 / 2 * √2⟩ := by
    simp only [StrangSplit.make]
    rw [if_neg hm, if_neg d1, if_neg d2]
  refine ⟨_, hs, fun b mu => ?_⟩
  obtain ⟨w, z1, z2, e1, e2, e3, e4⟩ := diffusion_factor (det_M_ne hM) ((make_det hs).2.2 b) mu
  refine ⟨_, e4, ?_⟩
  rw [e3]
  exact stable_core hM hA (interval_nonneg (s := ⟨A, M, m, T / m, lambda, 1 - 1 / 2 * √2⟩) ht b) k0 k1 k3 e1 e2

variable {T lambda : ℝ} {m : ℕ} {s : StrangSplit n} (hs : StrangSplit.make A M T m lambda = some s)
include hs

/-- **C94**, conservation: if the columns of the stiffness matrix sum up to zero (no flux through the boundary), then
`diffusionEvolutionOperator` succeeds and does not change the integral of the finite element function. -/
theorem C94_conservative (hA : ∀ j, ∑ i, A i j = 0) (firstcall : Bool) (mu : Fin n → ℝ) :
    ∃ r, s.diffusion firstcall mu = some r ∧ Fisher.integral M r = Fisher.integral M mu := by
  obtain ⟨-, rfl, hdet⟩ := make_det hs
  obtain ⟨k1, k2, hev, e1, e2⟩ := diffusion_stages (hdet firstcall) mu
  have h0 : ∀ v : Fin n → ℝ, ∑ i, (A *ᵥ v) i = 0 := fun v => by
    simp only [mulVec, dotProduct]
    rw [Finset.sum_comm]
    refine Finset.sum_eq_zero fun j _ => ?_
    rw [← Finset.sum_mul, hA j, zero_mul]
  have i1 : ∑ i, (M *ᵥ k1) i = 0 := by
    have := congrArg (fun v : Fin n → ℝ => ∑ i, v i) e1
    simp only [Pi.add_apply, Pi.smul_apply, Pi.neg_apply, smul_eq_mul, Finset.sum_add_distrib, ← Finset.mul_sum,
      Finset.sum_neg_distrib, h0] at this
    linarith
  have i2 : ∑ i, (M *ᵥ k2) i = 0 := by
    have := congrArg (fun v : Fin n → ℝ => ∑ i, v i) e2
    simp only [Pi.add_apply, Pi.smul_apply, Pi.neg_apply, Pi.sub_apply, smul_eq_mul, Finset.sum_add_distrib, ← Finset.mul_sum,
      Finset.sum_neg_distrib, Finset.sum_sub_distrib, h0] at this
    linarith
  refine ⟨_, hev, ?_⟩
  simp only [Fisher.integral, mulVec_add, mulVec_smul, Pi.add_apply, Pi.smul_apply, smul_eq_mul, Finset.sum_add_distrib,
    ← Finset.mul_sum, i1, i2]
  ring

/-- **C94**, order two: for an eigenvector `A μ = e M μ` with `e ≥ 0`, whose exact evolution over a time `h` is the
multiplication by `exp (- h e)`, one call multiplies `μ` by a number which differs from it by at most `(h e)³`.  The first
call advances by half a time step, the others by a time step. -/
theorem C94_order (hT : 0 ≤ T) (firstcall : Bool) {mu : Fin n → ℝ} {e : ℝ} (he : 0 ≤ e) (hmu : A *ᵥ mu = e • M *ᵥ mu) :
    ∃ h R : ℝ, h = (if firstcall then T / m / 2 else T / m) ∧ s.diffusion firstcall mu = some (R • mu) ∧
      |R - Real.exp (-(h * e))| ≤ (h * e) ^ 3 ∧ |R| ≤ 1 := by
  obtain ⟨-, rfl, hdet⟩ := make_det hs
  obtain ⟨k0, k1, k2, k3⟩ := kappa_bounds
  set s : StrangSplit n := ⟨A, M, m, T / m, lambda, 1 - 1 / 2 * √2⟩ with hsdef
  have hh : 0 ≤ s.interval firstcall := interval_nonneg (div_nonneg hT (Nat.cast_nonneg m)) _
  have hz : 0 ≤ s.interval firstcall * e := mul_nonneg hh he
  have hk : s.kappa = 1 - 1 / 2 * √2 := rfl
  have hD : 0 < 1 + s.kappa * (s.interval firstcall * e) := by rw [hk]; positivity
  refine ⟨s.interval firstcall, _, rfl, diffusion_eigen (hdet firstcall) hmu hD.ne', ?_⟩
  rw [hk] at hD ⊢
  clear_value s
  clear hs hdet hsdef hmu
  generalize s.interval firstcall * e = z at hz hD
  generalize 1 - 1 / 2 * √2 = κ at k0 k1 k2 k3 hD
  have hup : (1 - (1 - 2 * κ) * z) / (1 + κ * z) ^ 2 ≤ 1 := by
    rw [div_le_one (by positivity)]
    nlinarith [mul_nonneg k0.le hz, mul_nonneg (by linarith : (0:ℝ) ≤ 1 - 2 * κ) hz, sq_nonneg (κ * z)]
  have hlow : -(1 / 2) ≤ (1 - (1 - 2 * κ) * z) / (1 + κ * z) ^ 2 := by
    rw [le_div_iff₀ (by positivity)]
    nlinarith [mul_nonneg k0.le hz, mul_nonneg (by linarith : (0:ℝ) ≤ 4 * κ - 1) hz, sq_nonneg (κ * z)]
  refine ⟨?_, abs_le.2 ⟨by linarith, hup⟩⟩
  have hexp := Real.exp_pos (-z)
  rcases le_total z 1 with h1 | h1
  · have hb := Real.exp_bound (x := -z) (by rw [abs_neg, abs_of_nonneg hz]; exact h1) (n := 3) (by norm_num)
    simp only [Finset.sum_range_succ, Finset.sum_range_zero, Nat.factorial, Nat.cast_one, pow_zero, pow_one, zero_add,
      abs_neg, abs_of_nonneg hz] at hb
    norm_num at hb
    have hq : |(1 - (1 - 2 * κ) * z) / (1 + κ * z) ^ 2 - (1 + -z + z ^ 2 / 2)| ≤ z ^ 3 * (1 / 2) := by
      have : (1 - (1 - 2 * κ) * z) / (1 + κ * z) ^ 2 - (1 + -z + z ^ 2 / 2) =
          -((κ - κ ^ 2 + κ ^ 2 / 2 * z) * z ^ 3) / (1 + κ * z) ^ 2 := by
        field_simp
        linear_combination (-2 * z ^ 2) * k3
      rw [this, abs_div, abs_neg, abs_mul, abs_of_nonneg (pow_nonneg hz 3), abs_of_pos (pow_pos hD 2),
        div_le_iff₀ (by positivity)]
      have hc : 0 ≤ κ - κ ^ 2 + κ ^ 2 / 2 * z := by nlinarith [mul_nonneg (sq_nonneg κ) hz]
      rw [abs_of_nonneg hc]
      have hc2 : κ - κ ^ 2 + κ ^ 2 / 2 * z ≤ 1 / 2 := by nlinarith [mul_nonneg (sq_nonneg κ) (by linarith : 0 ≤ 1 - z)]
      have hc3 : (1 : ℝ) ≤ (1 + κ * z) ^ 2 := by nlinarith [mul_nonneg k0.le hz, sq_nonneg (κ * z)]
      have hz3 := pow_nonneg hz 3
      nlinarith [mul_le_mul_of_nonneg_right hc2 hz3, mul_le_mul_of_nonneg_left hc3 (mul_nonneg hz3 (by norm_num : (0:ℝ) ≤ 1 / 2))]
    have hz3 := pow_nonneg hz 3
    calc _ ≤ |(1 - (1 - 2 * κ) * z) / (1 + κ * z) ^ 2 - (1 + -z + z ^ 2 / 2)| + |Real.exp (-z) - (1 + -z + z ^ 2 / 2)| := by
          rw [abs_sub_comm (Real.exp (-z))]
          exact abs_sub_le _ _ _
      _ ≤ z ^ 3 * (1 / 2) + z ^ 3 * (2 / 9) := add_le_add hq hb
      _ ≤ z ^ 3 := by linarith
  · have hz3 : 1 ≤ z ^ 3 := one_le_pow₀ h1
    have he1 : Real.exp (-z) ≤ Real.exp (-1) := Real.exp_le_exp.2 (by linarith)
    have he2 := Real.exp_neg_one_lt_d9
    rw [abs_le]
    constructor
    · linarith
    · linarith

end Diffusion

/-- **C94** for the matrices which `assembleGalerkinMatrices` computes: for all meshes whose cells are regular and contain
all dofs, all non-negative diffusion coefficients `c` and boundary coefficients `h`, and quadrature rules with positive
weights which are exact for products of shape functions, the matrices are symmetric and positive (semi-)definite, so that
the constructor of `StrangSplit` and all diffusion steps succeed and are stable.  If `h` is zero, they conserve the
integral, and constants are in the kernel of the stiffness matrix. -/
theorem C94_assembled (B : QuadBase ℝ) (T : Topo) (hT : T.WF) (p : ℕ) (hp : 1 ≤ p ∧ p ≤ 3) (U : UniformFESpace ℝ)
    (hU : lagrangeSpace T p = some U) (hfit : U.dofh.numDofs < 2 ^ 31) (geo : Ent → Option (Geo ℝ w)) (g : Ent → Geo ℝ w)
    (rules : RefEl → QuadRule ℝ) (hM : BvpMesh B T p geo g rules)
    (hR : ∀ r, r = .segment ∨ r = .tria ∨ r = .quad → (∀ a ∈ (rules r).weights, 0 < a) ∧ (rules r).ExactFor (2 * p))
    (hcov : ∀ d < U.dofh.numDofs, ∃ c < T.numCells, d ∈ U.dofh.all (0, c))
    (bd : ℕ → Bool) (c h : Ent → List ℝ → ℝ)
    (hc : ∀ k < T.numCells, ∀ x ∈ (bvpData p g rules (0, k)).rule.points, 0 ≤ c (0, k) x)
    (hh : ∀ e < T.numEdges, bd e = true → ∀ x ∈ (bvpData p g rules (1, e)).rule.points, 0 ≤ h (1, e) x)
    (tEnd : ℝ) (hT0 : 0 ≤ tEnd) (m : ℕ) (hm : m ≠ 0) (lambda : ℝ) :
    ∃ A M s, assembleGalerkinMatrices B U T geo bd c h 0 = some (A, M) ∧
      strangSplit B U T geo bd tEnd m lambda c h 0 = some s ∧ SemiDefinite A ∧ Definite M ∧
      ((∀ e < T.numEdges, bd e = true → ∀ x ∈ (bvpData p g rules (1, e)).rule.points, h (1, e) x = 0) →
        A *ᵥ (fun _ => 1) = 0) ∧
      ∀ firstcall mu, ∃ r, s.diffusion firstcall mu = some r ∧ normSq M r ≤ normSq M mu ∧
        ((∀ e < T.numEdges, bd e = true → ∀ x ∈ (bvpData p g rules (1, e)).rule.points, h (1, e) x = 0) →
          Fisher.integral M r = Fisher.integral M mu) := by
  obtain ⟨A, D, h1, h2, h3, h4, h5⟩ := bvp_matrix hT hp hU hfit hM (fisherBvp bd c h)
  obtain ⟨A', D', g1, g2, g3, g4, g5⟩ := mass_matrix hT hp hU hfit hM
  obtain ⟨hsd, hone⟩ := stiff_semidefinite hT hp hU hfit hM hR hc hh h3 h4 h5
  have hpd := mass_definite hT hp hU hfit hM hR hcov g3 g4 g5
  obtain ⟨MA, hMA⟩ : ∃ X : Matrix (Fin U.dofh.numDofs) (Fin U.dofh.numDofs) ℝ,
      X = (fun i j => D.entry i j : Matrix (Fin U.dofh.numDofs) (Fin U.dofh.numDofs) ℝ) := ⟨_, rfl⟩
  obtain ⟨MM, hMM⟩ : ∃ X : Matrix (Fin U.dofh.numDofs) (Fin U.dofh.numDofs) ℝ,
      X = (fun i j => D'.entry i j : Matrix (Fin U.dofh.numDofs) (Fin U.dofh.numDofs) ℝ) := ⟨_, rfl⟩
  have t1 : toMatrix _ D = some MA := by rw [hMA]; exact toMatrix_some h3 h4
  have t2 : toMatrix _ D' = some MM := by rw [hMM]; exact toMatrix_some g3 g4
  rw [← hMA] at hsd hone
  rw [← hMM] at hpd
  have ha : assembleGalerkinMatrices B U T geo bd c h 0 = some (MA, MM) := by
    unfold assembleGalerkinMatrices
    rw [h1, Option.bind_some, g1, Option.bind_some, h2, Option.bind_some, t1, Option.bind_some, g2,
      Option.bind_some, t2, Option.bind_some, sub_zero]
  obtain ⟨s, hs, hst⟩ := C94_stable hsd hpd tEnd hT0 m hm lambda
  refine ⟨_, _, s, ha, ?_, hsd, hpd, fun hz => ?_, fun b mu => ?_⟩
  · unfold strangSplit
    rw [ha, Option.bind_some]
    exact hs
  · funext i
    have := hone hz i
    simp only [mulVec, dotProduct, mul_one, Pi.zero_apply]
    rw [← this]
    exact Finset.sum_congr rfl fun j _ => hsd.symm i j
  · obtain ⟨r, hr, hle⟩ := hst b mu
    refine ⟨r, hr, hle, fun hz => ?_⟩
    obtain ⟨r', hr', he⟩ := C94_conservative hs (hone hz) b mu
    rw [hr, Option.some.injEq] at hr'
    rw [hr']
    exact he

/-- Two dofs, both matrices not diagonal: the hypotheses of `C94_stable`, `C94_conservative` and `C94_order` hold. -/
example : SemiDefinite !![1, -1; -1, (1 : ℝ)] ∧ Definite !![2, 1; 1, (2 : ℝ)] ∧
    (∀ j, ∑ i, (!![1, -1; -1, (1 : ℝ)] : Matrix _ _ ℝ) i j = 0) ∧
    !![1, -1; -1, (1 : ℝ)] *ᵥ ![1, -1] = (2 : ℝ) • !![2, 1; 1, (2 : ℝ)] *ᵥ ![1, -1] := by
  refine ⟨⟨fun i j => by fin_cases i <;> fin_cases j <;> rfl, fun x => ?_⟩,
    ⟨fun i j => by fin_cases i <;> fin_cases j <;> rfl, fun x hx => ?_⟩, fun j => ?_, ?_⟩
  · simp [dotProduct, mulVec, Fin.sum_univ_two]
    nlinarith [sq_nonneg (x 0 - x 1)]
  · simp [dotProduct, mulVec, Fin.sum_univ_two]
    have : x 0 ≠ 0 ∨ x 1 ≠ 0 := by
      by_contra h
      push Not at h
      exact hx (by funext i; fin_cases i; exacts [h.1, h.2])
    rcases this with h | h
    · nlinarith [sq_nonneg (x 0 + x 1), sq_nonneg (x 1), pow_pos (abs_pos.2 h) 2, sq_abs (x 0)]
    · nlinarith [sq_nonneg (x 0 + x 1), sq_nonneg (x 0), pow_pos (abs_pos.2 h) 2, sq_abs (x 1)]
  · fin_cases j <;> simp [Fin.sum_univ_two]
  · funext i
    fin_cases i <;> simp [mulVec, dotProduct, Fin.sum_univ_two] <;> norm_num

/-! ## C95 -/

/-- **C95**, reaction: for all positive capacities, all non-negative populations and all non-negative times, the reaction
step succeeds, and in every component it returns the value at time `t` of the solution of the logistic equation
`y' = λ y (1 - y / K)`; there is exactly one such solution. -/
theorem C95_reaction (s : StrangSplit n) (hl : 0 ≤ s.lambda) (t : ℝ) (ht : 0 ≤ t) (cap sol : Fin n → ℝ)
    (hcap : ∀ i, 0 < cap i) (hsol : ∀ i, 0 ≤ sol i) :
    (∀ i, ∃ y, IsLogistic s.lambda (cap i) (sol i) y) ∧
    ∃ r, s.reaction t cap sol = some r ∧ ∀ i y, IsLogistic s.lambda (cap i) (sol i) y → r i = y t := by
  refine ⟨fun i => ⟨_, logisticSol_is hl (hcap i) (hsol i)⟩, _, reaction_some fun i =>
    logisticSol_step (hcap i) (hsol i) (mul_nonneg hl ht), fun i y hy => ?_⟩
  exact logistic_unique (hcap i) (logisticSol_is hl (hcap i) (hsol i)) hy ht

/-- **C95**, reaction, bounds: populations stay non-negative and on their side of the capacity, and move towards it, unless
they are zero. -/
theorem C95_bounds (s : StrangSplit n) (hl : 0 ≤ s.lambda) (t : ℝ) (ht : 0 ≤ t) (cap sol : Fin n → ℝ)
    (hcap : ∀ i, 0 < cap i) (hsol : ∀ i, 0 ≤ sol i) :
    ∃ r, s.reaction t cap sol = some r ∧ ∀ i, 0 ≤ r i ∧ (sol i = 0 → r i = 0) ∧
      (sol i ≤ cap i → sol i ≤ r i ∧ r i ≤ cap i) ∧ (cap i ≤ sol i → cap i ≤ r i ∧ r i ≤ sol i) := by
  refine ⟨_, reaction_some fun i => logisticSol_step (hcap i) (hsol i) (mul_nonneg hl ht), fun i => ?_⟩
  refine ⟨logisticSol_nonneg (hcap i) (hsol i) (mul_nonneg hl ht), fun h => by rw [h]; simp [logisticSol], ?_⟩
  have hK := hcap i
  rcases (hsol i).eq_or_lt with h0 | h0
  · rw [← h0]
    simp only [logisticSol, if_true]
    exact ⟨fun h => ⟨le_rfl, h⟩, fun h => ⟨h, le_rfl⟩⟩
  · have hq := logistic_den hK h0 (mul_nonneg hl ht)
    simp only [logisticSol]
    rw [if_neg h0.ne']
    have hE1 : Real.exp (-s.lambda * t) ≤ 1 := Real.exp_le_one_iff.mpr (by linarith [mul_nonneg hl ht])
    have hE0 := Real.exp_pos (-s.lambda * t)
    generalize hE : Real.exp (-s.lambda * t) = E at *
    have hy : sol i * (1 + (cap i / sol i - 1) * E) = sol i * (1 - E) + cap i * E := by field_simp; ring
    refine ⟨fun h => ?_, fun h => ?_⟩
    · have h1 : 1 ≤ cap i / sol i := (one_le_div h0).2 h
      refine ⟨?_, ?_⟩
      · rw [le_div_iff₀ hq, hy]; nlinarith
      · rw [div_le_iff₀ hq]
        nlinarith [mul_nonneg hK.le (mul_nonneg (by linarith : 0 ≤ cap i / sol i - 1) hE0.le)]
    · have h1 : cap i / sol i ≤ 1 := (div_le_one h0).2 h
      refine ⟨?_, ?_⟩
      · rw [le_div_iff₀ hq]
        nlinarith [mul_nonneg hK.le (mul_nonneg (by linarith : 0 ≤ 1 - cap i / sol i) hE0.le)]
      · rw [div_le_iff₀ hq, hy]; nlinarith

section Evolution
variable {A M : Matrix (Fin n) (Fin n) ℝ} {T lambda : ℝ} {m : ℕ} {s : StrangSplit n}
  (hs : StrangSplit.make A M T m lambda = some s)
include hs

theorem steps_const (hA : A *ᵥ (fun _ => 1) = 0) (hT : 0 ≤ T) (hl : 0 ≤ lambda) {K y₀ : ℝ} (hK : 0 < K) (hy : 0 ≤ y₀) (k : ℕ) :
    s.steps (fun _ => K) k (fun _ => y₀) = some fun _ => logisticSol lambda K y₀ (k * (T / m)) := by
  have hdet := (make_det hs).2.2
  obtain ⟨-, rfl, -⟩ := make_det hs
  have ht : 0 ≤ T / m := div_nonneg hT (Nat.cast_nonneg m)
  have hc : ∀ c : ℝ, A *ᵥ (fun _ => c) = 0 := fun c => by
    have : (fun _ : Fin n => c) = c • fun _ : Fin n => (1 : ℝ) := by funext i; simp
    rw [this, mulVec_smul, hA, smul_zero]
  induction k generalizing y₀ with
  | zero =>
    simp only [StrangSplit.steps, Nat.cast_zero, zero_mul]
    rw [(logisticSol_is hl hK hy).1]
  | succ k ih =>
    rw [StrangSplit.steps, reaction_some fun i => logisticSol_step hK hy (mul_nonneg hl ht), Option.bind_some,
      diffusion_kernel (hdet false) (hc _), Option.bind_some, ih (logisticSol_nonneg hK hy (mul_nonneg hl ht))]
    rw [logisticSol_add hK hy (mul_nonneg hl ht)]
    have : T / m + k * (T / m) = (k + 1 : ℕ) * (T / m) := by push_cast; ring
    rw [this]

/-- **C95**, partial: *the full property is that `Evolution` advances the population to the final time `T`.*  Without flux
through the boundary, constants are in the kernel of the stiffness matrix, and the exact solution of the Fisher/KPP equation
for a constant initial population and a constant capacity is the solution `y` of the logistic equation.  For `m ≥ 2` time
steps, `Evolution` returns its value at the time `T - 3/2 T/m`, which tends to `T` with `m`. -/
theorem C95_time_partial (hA : A *ᵥ (fun _ => 1) = 0) (hT : 0 ≤ T) (hl : 0 ≤ lambda) (hm : 2 ≤ m) {K y₀ : ℝ} (hK : 0 < K)
    (hy : 0 ≤ y₀) (y : ℝ → ℝ) (hsol : IsLogistic lambda K y₀ y) :
    s.evolution (fun _ => K) (fun _ => y₀) = some fun _ => y (T - 3 / 2 * (T / m)) := by
  have hdet := (make_det hs).2.2
  have hst := fun k => steps_const hs hA hT hl hK hy k
  obtain ⟨hm0, rfl, -⟩ := make_det hs
  have hm' : (0 : ℝ) < m := by exact_mod_cast Nat.pos_of_ne_zero hm0
  have ht : 0 ≤ T / m := div_nonneg hT hm'.le
  have hc : ∀ c : ℝ, A *ᵥ (fun _ => c) = 0 := fun c => by
    have : (fun _ : Fin n => c) = c • fun _ : Fin n => (1 : ℝ) := by funext i; simp
    rw [this, mulVec_smul, hA, smul_zero]
  have hk : (0 : ℝ) ≤ lambda * ((m - 2 : ℕ) * (T / m)) := mul_nonneg hl (mul_nonneg (Nat.cast_nonneg _) ht)
  have e : T - 3 / 2 * (T / m) = (m - 2 : ℕ) * (T / m) + T / m / 2 := by
    rw [Nat.cast_sub hm]
    field_simp
    push_cast
    ring
  have he : 0 ≤ T - 3 / 2 * (T / m) := by rw [e]; positivity
  rw [StrangSplit.evolution, diffusion_kernel (hdet true) (hc _), Option.bind_some, hst, Option.bind_some,
    reaction_some fun i => logisticSol_step hK (logisticSol_nonneg hK hy hk) (mul_nonneg hl (by linarith))]
  congr 1
  funext i
  simp only
  rw [logisticSol_add hK hy hk, ← e]
  exact logistic_unique hK (logisticSol_is hl hK hy) hsol he

/-- **C95** fails: for every number `m ≥ 2` of time steps, every final time `T > 0`, growth rate `λ > 0` and initial
population `0 < y₀ < K`, the result is not the population at time `T`, but too small in every component. -/
theorem C95_time_not (hA : A *ᵥ (fun _ => 1) = 0) (hT : 0 < T) (hl : 0 < lambda) (hm : 2 ≤ m) {K y₀ : ℝ}
    (hy : 0 < y₀) (hyK : y₀ < K) (y : ℝ → ℝ) (hsol : IsLogistic lambda K y₀ y) :
    ∃ r, s.evolution (fun _ => K) (fun _ => y₀) = some r ∧ ∀ i, r i < y T := by
  have hK : 0 < K := hy.trans hyK
  refine ⟨_, C95_time_partial hs hA hT.le hl.le hm hK hy.le y hsol, fun i => ?_⟩
  have hm' : (2 : ℝ) ≤ m := by exact_mod_cast hm
  have hd : 0 < T / m := div_pos hT (by linarith)
  have h0 : 0 ≤ T - 3 / 2 * (T / m) := by
    have : T = m * (T / m) := by field_simp
    nlinarith
  rw [← logistic_unique hK (logisticSol_is hl.le hK hy.le) hsol h0,
    ← logistic_unique hK (logisticSol_is hl.le hK hy.le) hsol hT.le]
  simp only [logisticSol]
  rw [if_neg hy.ne', if_neg hy.ne']
  have hr : 0 < K / y₀ - 1 := by
    have := (one_lt_div hy).2 hyK
    linarith
  refine div_lt_div_of_pos_left hK (logistic_den hK hy (mul_nonneg hl.le hT.le)) ?_
  have : Real.exp (-lambda * T) < Real.exp (-lambda * (T - 3 / 2 * (T / m))) :=
    Real.exp_lt_exp.2 (by nlinarith [mul_pos hl hd])
  nlinarith

/-- **C95**, steady states: if the capacity is in the kernel of the stiffness matrix (e.g. constant, without flux through the
boundary), a population which has reached the capacity stays there, and so does the population zero. -/
theorem C95_steady {cap : Fin n → ℝ} (hcap : ∀ i, 0 < cap i) (hA : A *ᵥ cap = 0) :
    s.evolution cap cap = some cap ∧ s.evolution cap 0 = some 0 := by
  have hdet := (make_det hs).2.2
  obtain ⟨hm0, rfl, -⟩ := make_det hs
  have r1 : ∀ t, StrangSplit.reaction (⟨A, M, m, T / m, lambda, 1 - 1 / 2 * √2⟩ : StrangSplit n) t cap cap = some cap := fun t =>
    reaction_some fun i => by
      simp only [logisticStep]
      rw [if_neg (hcap i).ne', div_self (hcap i).ne']
      simp
  have r2 : ∀ t, StrangSplit.reaction (⟨A, M, m, T / m, lambda, 1 - 1 / 2 * √2⟩ : StrangSplit n) t cap 0 = some 0 := fun t =>
    reaction_some fun i => by
      simp only [logisticStep, Pi.zero_apply]
      rw [if_pos trivial, if_pos (hcap i)]
  have s1 : ∀ k, StrangSplit.steps (⟨A, M, m, T / m, lambda, 1 - 1 / 2 * √2⟩ : StrangSplit n) cap k cap = some cap := fun k => by
    induction k with
    | zero => rfl
    | succ k ih => rw [StrangSplit.steps, r1, Option.bind_some, diffusion_kernel (hdet false) hA, Option.bind_some, ih]
  have s2 : ∀ k, StrangSplit.steps (⟨A, M, m, T / m, lambda, 1 - 1 / 2 * √2⟩ : StrangSplit n) cap k 0 = some 0 := fun k => by
    induction k with
    | zero => rfl
    | succ k ih =>
      rw [StrangSplit.steps, r2, Option.bind_some, diffusion_kernel (hdet false) (mulVec_zero _), Option.bind_some, ih]
  constructor
  · rw [StrangSplit.evolution, diffusion_kernel (hdet true) hA, Option.bind_some, s1, Option.bind_some, r1]
  · rw [StrangSplit.evolution, diffusion_kernel (hdet true) (mulVec_zero _), Option.bind_some, s2, Option.bind_some, r2]

/-- **C95**, partial, without reaction (`λ = 0`): the initial value is an eigenvector of the diffusion, and the exact solution
at time `T` is its multiple by `exp (- T e)`.  `Evolution` makes one diffusion step of length `T/m/2` and `m - 2` of length
`T/m`, i.e. it advances by `T - 3/2 T/m` as well. -/
theorem C95_heat_partial (hT : 0 ≤ T) (hl : lambda = 0) {cap mu : Fin n → ℝ} (hcap : ∀ i, 0 < cap i) {e : ℝ} (he : 0 ≤ e)
    (hmu : A *ᵥ mu = e • M *ᵥ mu) :
    ∃ R₁ R₂ : ℝ, |R₁ - Real.exp (-(T / m / 2 * e))| ≤ (T / m / 2 * e) ^ 3 ∧ |R₂ - Real.exp (-(T / m * e))| ≤ (T / m * e) ^ 3 ∧
      s.evolution cap mu = some ((R₁ * R₂ ^ (m - 2)) • mu) := by
  have hlin : ∀ (b : Bool) (R : ℝ), s.diffusion b mu = some (R • mu) → ∀ c : ℝ, ∃ R', s.diffusion b (c • mu) = some (R' • c • mu) ∧
      (mu ≠ 0 → c ≠ 0 → R' = R) := by
    intro b R hR c
    obtain ⟨h, R', hh, h1, h2, -⟩ := C94_order hs hT b (mu := c • mu) he (by rw [mulVec_smul, hmu, mulVec_smul, smul_comm])
    refine ⟨R', h1, fun hm hc => ?_⟩
    obtain ⟨-, rfl, hdet⟩ := make_det hs
    obtain ⟨k0, -⟩ := kappa_bounds
    set s : StrangSplit n := ⟨A, M, m, T / m, lambda, 1 - 1 / 2 * √2⟩ with hsdef
    have hz : 0 ≤ s.interval b * e := mul_nonneg (interval_nonneg (div_nonneg hT (Nat.cast_nonneg m)) _) he
    have hD : 1 + s.kappa * (s.interval b * e) ≠ 0 := by
      have : s.kappa = 1 - 1 / 2 * √2 := rfl
      rw [this]; positivity
    have e1 := diffusion_eigen (hdet b) hmu hD
    have e2 := diffusion_eigen (hdet b) (mu := c • mu) (e := e) (by rw [mulVec_smul, mulVec_smul, smul_comm, ← hmu]) hD
    rw [hR, Option.some.injEq] at e1
    rw [h1, Option.some.injEq] at e2
    have hcm : c • mu ≠ 0 := smul_ne_zero hc hm
    rw [smul_left_injective ℝ hcm e2, smul_left_injective ℝ hm e1]
  obtain ⟨h₁, R₁, hh₁, a1, a2, -⟩ := C94_order hs hT true he hmu
  obtain ⟨h₂, R₂, hh₂, b1, b2, -⟩ := C94_order hs hT false he hmu
  simp only [if_true] at hh₁
  simp only [Bool.false_eq_true, if_false] at hh₂
  subst hh₁ hh₂
  refine ⟨R₁, R₂, a2, b2, ?_⟩
  have hdif : ∀ (c : ℝ), s.diffusion false (c • mu) = some ((c * R₂) • mu) := fun c => by
    by_cases hm : mu = 0
    · subst hm
      rw [smul_zero, smul_zero]
      have := b1
      rw [smul_zero] at this
      exact this
    · by_cases hc : c = 0
      · subst hc
        obtain ⟨R', h1, -⟩ := hlin false R₂ b1 0
        rw [h1, zero_smul, smul_zero, zero_mul, zero_smul]
      · obtain ⟨R', h1, h2⟩ := hlin false R₂ b1 c
        rw [h1, h2 hm hc, smul_smul, mul_comm]
  have hsl : s.lambda = 0 := by
    obtain ⟨-, rfl, -⟩ := make_det hs
    exact hl
  have hreac : ∀ t v, s.reaction t cap v = some v := fun t v => reaction_some fun i => by
    rw [hsl]
    simp only [logisticStep]
    by_cases hv : v i = 0
    · rw [if_pos hv, if_pos (hcap i), hv]
    · have hd : cap i / v i ≠ 0 := div_ne_zero (hcap i).ne' hv
      rw [if_neg hv]
      simp only [neg_zero, zero_mul, Real.exp_zero, mul_one, add_sub_cancel]
      rw [if_neg hd, div_div_cancel₀ (hcap i).ne']
  have hsteps : ∀ k (c : ℝ), s.steps cap k (c • mu) = some ((c * R₂ ^ k) • mu) := fun k => by
    induction k with
    | zero => intro c; simp [StrangSplit.steps]
    | succ k ih =>
      intro c
      rw [StrangSplit.steps, hreac, Option.bind_some, hdif, Option.bind_some, ih]
      congr 2
      ring
  have hsm : s.m = m := by
    obtain ⟨-, rfl, -⟩ := make_det hs
    rfl
  rw [StrangSplit.evolution, a1, Option.bind_some, hsm, hsteps, Option.bind_some, hreac]

end Evolution

/-- The hypotheses of the theorems on `Evolution`: two dofs, ten time steps. -/
example : ∃ s, StrangSplit.make !![1, -1; -1, (1 : ℝ)] !![2, 1; 1, (2 : ℝ)] 1 10 3 = some s ∧
    !![1, -1; -1, (1 : ℝ)] *ᵥ (fun _ => 1) = 0 ∧ (2 : ℕ) ≤ 10 := by
  have hA : SemiDefinite !![1, -1; -1, (1 : ℝ)] := ⟨fun i j => by fin_cases i <;> fin_cases j <;> rfl, fun x => by
    simp [dotProduct, mulVec, Fin.sum_univ_two]
    nlinarith [sq_nonneg (x 0 - x 1)]⟩
  have hM : Definite !![2, 1; 1, (2 : ℝ)] := ⟨fun i j => by fin_cases i <;> fin_cases j <;> rfl, fun x hx => by
    simp [dotProduct, mulVec, Fin.sum_univ_two]
    have : x 0 ≠ 0 ∨ x 1 ≠ 0 := by
      by_contra h
      push Not at h
      exact hx (by funext i; fin_cases i; exacts [h.1, h.2])
    rcases this with h | h
    · nlinarith [sq_nonneg (x 0 + x 1), sq_nonneg (x 1), pow_pos (abs_pos.2 h) 2, sq_abs (x 0)]
    · nlinarith [sq_nonneg (x 0 + x 1), sq_nonneg (x 0), pow_pos (abs_pos.2 h) 2, sq_abs (x 1)]⟩
  obtain ⟨s, hs, -⟩ := C94_stable hA hM 1 zero_le_one 10 (by norm_num) 3
  refine ⟨s, hs, ?_, by norm_num⟩
  funext i
  fin_cases i <;> simp [mulVec, dotProduct, Fin.sum_univ_two]

end Verif
