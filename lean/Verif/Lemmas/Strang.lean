import Verif.Spec.Strang
import Mathlib.Tactic.LinearCombination
import Mathlib.Tactic.Module
import Mathlib.Tactic.Positivity
import Mathlib.Tactic.FieldSimp
import Mathlib.Analysis.SpecialFunctions.ExpDeriv
import Mathlib.Analysis.Calculus.Deriv.Inv
import Mathlib.Analysis.Calculus.Deriv.Mul
import Mathlib.LinearAlgebra.Matrix.ToLinearEquiv
import Mathlib.Analysis.ODE.Gronwall

/-!
# Lemmas: Strang splitting
-/

namespace Verif.Fisher
open Matrix

variable {n : ℕ} {A M : Matrix (Fin n) (Fin n) ℝ}

theorem symm_dot (h : ∀ i j, A i j = A j i) (x y : Fin n → ℝ) : x ⬝ᵥ A *ᵥ y = y ⬝ᵥ A *ᵥ x := by
  have : A.transpose = A := by ext i j; exact h j i
  rw [dotProduct_mulVec, ← mulVec_transpose, this, dotProduct_comm]

theorem det_ne (hM : Definite M) (hA : SemiDefinite A) {c : ℝ} (hc : 0 ≤ c) : (M + c • A).det ≠ 0 := by
  intro h
  obtain ⟨v, hv, h0⟩ := exists_mulVec_eq_zero_iff.mpr h
  have h1 := hM.pos v hv
  have h2 := mul_nonneg hc (hA.nonneg v)
  have : v ⬝ᵥ (M + c • A) *ᵥ v = 0 := by rw [h0, dotProduct_zero]
  rw [add_mulVec, smul_mulVec, dotProduct_add, dotProduct_smul, smul_eq_mul] at this
  linarith

theorem det_M_ne (hM : Definite M) : M.det ≠ 0 := by
  have := det_ne (A := 0) hM ⟨fun _ _ => rfl, fun x => by simp⟩ (c := 0) le_rfl
  simpa using this

theorem luSolve_some {S : Matrix (Fin n) (Fin n) ℝ} (h : S.det ≠ 0) (b : Fin n → ℝ) :
    ∃ x, luSolve S b = some x ∧ S *ᵥ x = b ∧ ∀ y, S *ᵥ y = b → y = x := by
  have hu : IsUnit S.det := isUnit_iff_ne_zero.mpr h
  refine ⟨S⁻¹ *ᵥ b, if_neg h, ?_, fun y hy => ?_⟩
  · rw [mulVec_mulVec, mul_nonsing_inv _ hu, one_mulVec]
  · rw [← hy, mulVec_mulVec, nonsing_inv_mul _ hu, one_mulVec]

/-- The two stages with step size `h`. -/
theorem diffusion_stages {s : StrangSplit n} {b : Bool} (hdet : (s.M + (s.interval b * s.kappa) • s.A).det ≠ 0)
    (mu : Fin n → ℝ) :
    ∃ k1 k2, s.diffusion b mu = some (mu + (s.interval b * (1 - s.kappa)) • k1 + (s.interval b * s.kappa) • k2) ∧
      s.M *ᵥ k1 + (s.interval b * s.kappa) • s.A *ᵥ k1 = -(s.A *ᵥ mu) ∧
      s.M *ᵥ k2 + (s.interval b * s.kappa) • s.A *ᵥ k2 = -(s.A *ᵥ mu) - (s.interval b * (1 - s.kappa)) • s.A *ᵥ k1 := by
  cases b with
  | true =>
    have e : s.interval true = 1 / 2 * s.tau := by simp [StrangSplit.interval]; ring
    rw [e] at hdet ⊢
    obtain ⟨k1, h1, h1', -⟩ := luSolve_some hdet (-(s.A *ᵥ mu))
    obtain ⟨k2, h2, h2', -⟩ := luSolve_some hdet (-(s.A *ᵥ mu) - (1 / 2 * s.tau * (1 - s.kappa)) • s.A *ᵥ k1)
    rw [add_mulVec, smul_mulVec] at h1' h2'
    refine ⟨k1, k2, ?_, h1', h2'⟩
    simp only [StrangSplit.diffusion, if_true, h1, Option.bind_some, h2]
  | false =>
    have e : s.interval false = s.tau := rfl
    rw [e] at hdet ⊢
    obtain ⟨k1, h1, h1', -⟩ := luSolve_some hdet (-(s.A *ᵥ mu))
    obtain ⟨k2, h2, h2', -⟩ := luSolve_some hdet (-(s.A *ᵥ mu) - (s.tau * (1 - s.kappa)) • s.A *ᵥ k1)
    rw [add_mulVec, smul_mulVec] at h1' h2'
    refine ⟨k1, k2, ?_, h1', h2'⟩
    simp only [StrangSplit.diffusion, h1, Option.bind_some, h2]
    rfl

/-- The result of a step in terms of a vector `w` with `μ = (1 + κ h B)² w` for `B = M⁻¹ A`. -/
theorem diffusion_factor {s : StrangSplit n} {b : Bool} (hM : s.M.det ≠ 0)
    (hdet : (s.M + (s.interval b * s.kappa) • s.A).det ≠ 0) (mu : Fin n → ℝ) :
    ∃ w z1 z2, s.M *ᵥ z1 = s.interval b • s.A *ᵥ w ∧ s.M *ᵥ z2 = s.interval b • s.A *ᵥ z1 ∧
      mu = w + (2 * s.kappa) • z1 + (s.kappa ^ 2) • z2 ∧ s.diffusion b mu = some (w - (1 - 2 * s.kappa) • z1) := by
  obtain ⟨k1, k2, hev, e1, e2⟩ := diffusion_stages hdet mu
  set h := s.interval b
  set κ := s.kappa
  obtain ⟨y, -, hy, -⟩ := luSolve_some hdet (s.M *ᵥ mu)
  obtain ⟨w, -, hw, -⟩ := luSolve_some hdet (s.M *ᵥ y)
  obtain ⟨z1, -, hz1, -⟩ := luSolve_some hM (h • s.A *ᵥ w)
  obtain ⟨z2, -, hz2, -⟩ := luSolve_some hM (h • s.A *ᵥ z1)
  obtain ⟨z3, -, hz3, -⟩ := luSolve_some hM (h • s.A *ᵥ z2)
  have injM : ∀ a c : Fin n → ℝ, s.M *ᵥ a = s.M *ᵥ c → a = c := fun a c hac => by
    obtain ⟨x, -, -, hx⟩ := luSolve_some hM (s.M *ᵥ c)
    rw [hx a hac, hx c rfl]
  have injS : ∀ a c : Fin n → ℝ, s.M *ᵥ a + (h * κ) • s.A *ᵥ a = s.M *ᵥ c + (h * κ) • s.A *ᵥ c → a = c := fun a c hac => by
    obtain ⟨x, -, -, hx⟩ := luSolve_some hdet ((s.M + (h * κ) • s.A) *ᵥ c)
    rw [hx a (by rw [add_mulVec, smul_mulVec, hac, add_mulVec, smul_mulVec]), hx c rfl]
  rw [add_mulVec, smul_mulVec] at hy hw
  have ey : y = w + κ • z1 := by
    apply injM
    rw [mulVec_add, mulVec_smul, hz1, ← hw]
    module
  have emu : mu = w + (2 * κ) • z1 + (κ ^ 2) • z2 := by
    apply injM
    rw [← hy, ey]
    simp only [mulVec_add, mulVec_smul, hz1, hz2]
    module
  have hmu : h • s.A *ᵥ mu = s.M *ᵥ z1 + (2 * κ) • s.M *ᵥ z2 + (κ ^ 2) • s.M *ᵥ z3 := by
    rw [hz1, hz2, hz3, emu]
    simp only [mulVec_add, mulVec_smul]
    module
  have ek1 : h • k1 = -(z1 + κ • z2) := by
    apply injS
    have : s.M *ᵥ (h • k1) + (h * κ) • s.A *ᵥ (h • k1) = -(h • s.A *ᵥ mu) := by
      rw [mulVec_smul, mulVec_smul, smul_comm (h * κ) h, ← smul_add, e1, smul_neg]
    rw [this, hmu]
    have a2 : (h * κ) • s.A *ᵥ z1 = κ • s.M *ᵥ z2 := by rw [hz2]; module
    have a3 : (h * κ) • s.A *ᵥ z2 = κ • s.M *ᵥ z3 := by rw [hz3]; module
    simp only [mulVec_neg, mulVec_add, mulVec_smul, smul_neg, smul_add, smul_comm (h * κ) κ, a2, a3]
    module
  have ek2 : h • k2 = -(z1 + (2 * κ - 1) • z2) := by
    apply injS
    have : s.M *ᵥ (h • k2) + (h * κ) • s.A *ᵥ (h • k2) = -(h • s.A *ᵥ mu) - (1 - κ) • (h • s.A *ᵥ (h • k1)) := by
      rw [mulVec_smul, mulVec_smul, smul_comm (h * κ) h, ← smul_add, e2, mulVec_smul]
      module
    rw [this, hmu, ek1]
    have b2 : h • s.A *ᵥ z1 = s.M *ᵥ z2 := hz2.symm
    have b3 : h • s.A *ᵥ z2 = s.M *ᵥ z3 := hz3.symm
    have a2 : (h * κ) • s.A *ᵥ z1 = κ • s.M *ᵥ z2 := by rw [hz2]; module
    have a3 : (h * κ) • s.A *ᵥ z2 = κ • s.M *ᵥ z3 := by rw [hz3]; module
    simp only [mulVec_neg, mulVec_add, mulVec_smul, smul_neg, smul_add, smul_comm (h * κ) (2 * κ - 1), smul_comm h κ, a2, a3, b2, b3]
    module
  refine ⟨w, z1, z2, hz1, hz2, emu, ?_⟩
  rw [hev, Option.some.injEq, mul_comm h, mul_comm h, mul_smul, mul_smul, ek1, ek2]
  conv_lhs => rw [emu]
  module

theorem kappa_bounds : 0 < 1 - 1 / 2 * √2 ∧ 1 < 4 * (1 - 1 / 2 * √2) ∧ 1 - 1 / 2 * √2 < 1 / 2 ∧
    (1 - 1 / 2 * √2) ^ 2 = 2 * (1 - 1 / 2 * √2) - 1 / 2 := by
  have h2 : √2 * √2 = 2 := Real.mul_self_sqrt (by norm_num)
  have h0 : 0 ≤ √2 := Real.sqrt_nonneg 2
  refine ⟨?_, ?_, ?_, ?_⟩
  · nlinarith
  · nlinarith
  · nlinarith
  · nlinarith

theorem stable_core (hM : Definite M) (hA : SemiDefinite A) {h κ : ℝ} (hh : 0 ≤ h) (hκ0 : 0 < κ) (hκ : 1 < 4 * κ)
    (hκ2 : κ ^ 2 = 2 * κ - 1 / 2) {w z1 z2 : Fin n → ℝ} (h1 : M *ᵥ z1 = h • A *ᵥ w) (h2 : M *ᵥ z2 = h • A *ᵥ z1) :
    normSq M (w - (1 - 2 * κ) • z1) ≤ normSq M (w + (2 * κ) • z1 + (κ ^ 2) • z2) := by
  have s := symm_dot hM.symm
  have sA := symm_dot hA.symm
  have p01 : 0 ≤ w ⬝ᵥ M *ᵥ z1 := by rw [h1, dotProduct_smul]; exact mul_nonneg hh (hA.nonneg w)
  have p11 : 0 ≤ z1 ⬝ᵥ M *ᵥ z1 := by
    by_cases hz : z1 = 0
    · rw [hz]; simp
    · exact (hM.pos _ hz).le
  have p12 : 0 ≤ z1 ⬝ᵥ M *ᵥ z2 := by rw [h2, dotProduct_smul]; exact mul_nonneg hh (hA.nonneg z1)
  have p22 : 0 ≤ z2 ⬝ᵥ M *ᵥ z2 := by
    by_cases hz : z2 = 0
    · rw [hz]; simp
    · exact (hM.pos _ hz).le
  have p02 : w ⬝ᵥ M *ᵥ z2 = z1 ⬝ᵥ M *ᵥ z1 := by
    rw [h2, h1, dotProduct_smul, dotProduct_smul, sA w z1]
  have e1 : normSq M (w - (1 - 2 * κ) • z1) = w ⬝ᵥ M *ᵥ w - 2 * (1 - 2 * κ) * (w ⬝ᵥ M *ᵥ z1) + (1 - 2 * κ) ^ 2 * (z1 ⬝ᵥ M *ᵥ z1) := by
    simp only [normSq, mulVec_sub, mulVec_smul, sub_dotProduct, dotProduct_sub, smul_dotProduct, dotProduct_smul, smul_eq_mul, s z1 w]
    ring
  have e2 : normSq M (w + (2 * κ) • z1 + (κ ^ 2) • z2) = w ⬝ᵥ M *ᵥ w + 4 * κ * (w ⬝ᵥ M *ᵥ z1) + 6 * κ ^ 2 * (z1 ⬝ᵥ M *ᵥ z1) +
      4 * κ ^ 3 * (z1 ⬝ᵥ M *ᵥ z2) + κ ^ 4 * (z2 ⬝ᵥ M *ᵥ z2) := by
    simp only [normSq, mulVec_add, mulVec_smul, add_dotProduct, dotProduct_add, smul_dotProduct, dotProduct_smul, smul_eq_mul, s z1 w,
      s z2 w, s z2 z1, p02]
    ring
  rw [e1, e2]
  have c3 : 0 ≤ 4 * κ ^ 3 * (z1 ⬝ᵥ M *ᵥ z2) := mul_nonneg (by positivity) p12
  have c4 : 0 ≤ κ ^ 4 * (z2 ⬝ᵥ M *ᵥ z2) := mul_nonneg (by positivity) p22
  have c2 : 0 ≤ (8 * κ - 2) * (z1 ⬝ᵥ M *ᵥ z1) := mul_nonneg (by linarith) p11
  have e : 6 * κ ^ 2 - (1 - 2 * κ) ^ 2 = 8 * κ - 2 := by linear_combination 2 * hκ2
  have := congrArg (· * (z1 ⬝ᵥ M *ᵥ z1)) e
  nlinarith [p01]

theorem make_det {T lambda : ℝ} {m : ℕ} {s : StrangSplit n} (h : StrangSplit.make A M T m lambda = some s) :
    m ≠ 0 ∧ s = ⟨A, M, m, T / m, lambda, 1 - 1 / 2 * √2⟩ ∧ ∀ b, (s.M + (s.interval b * s.kappa) • s.A).det ≠ 0 := by
  simp only [StrangSplit.make] at h
  split_ifs at h with hm h1 h2
  rw [Option.some.injEq] at h
  subst h
  refine ⟨hm, rfl, fun b => ?_⟩
  cases b with
  | false => exact h2
  | true =>
    have : (1 / 2 * (T / m) * (1 - 1 / 2 * √2)) = T / m / 2 * (1 - 1 / 2 * √2) := by ring
    rw [this] at h1
    exact h1

theorem interval_nonneg {s : StrangSplit n} (h : 0 ≤ s.tau) (b : Bool) : 0 ≤ s.interval b := by
  cases b
  · exact h
  · exact div_nonneg h (by norm_num)

theorem solve_unique {S : Matrix (Fin n) (Fin n) ℝ} (h : S.det ≠ 0) {a c : Fin n → ℝ} (hac : S *ᵥ a = S *ᵥ c) : a = c := by
  obtain ⟨x, -, -, hx⟩ := luSolve_some h (S *ᵥ c)
  rw [hx a hac, hx c rfl]

/-- The factor by which a step multiplies an eigenvector. -/
theorem diffusion_eigen {s : StrangSplit n} {b : Bool} (hdet : (s.M + (s.interval b * s.kappa) • s.A).det ≠ 0)
    {mu : Fin n → ℝ} {e : ℝ} (he : s.A *ᵥ mu = e • s.M *ᵥ mu) (h1 : 1 + s.kappa * (s.interval b * e) ≠ 0) :
    s.diffusion b mu = some (((1 - (1 - 2 * s.kappa) * (s.interval b * e)) / (1 + s.kappa * (s.interval b * e)) ^ 2) • mu) := by
  obtain ⟨k1, k2, hev, e1, e2⟩ := diffusion_stages hdet mu
  set h := s.interval b
  set κ := s.kappa
  obtain ⟨D, hD⟩ : ∃ D, D = 1 + κ * (h * e) := ⟨_, rfl⟩
  rw [← hD] at h1 ⊢
  have i1 : k1 = (-e / D) • mu := by
    apply solve_unique hdet
    rw [add_mulVec, smul_mulVec, e1, add_mulVec, smul_mulVec, mulVec_smul, mulVec_smul, he]
    simp only [← smul_add, ← add_smul, smul_smul, ← neg_smul]
    congr 1
    field_simp
    linear_combination (-e) * hD
  have i2 : k2 = (-e * (1 - (1 - 2 * κ) * (h * e)) / D ^ 2) • mu := by
    apply solve_unique hdet
    rw [add_mulVec, smul_mulVec, e2, add_mulVec, smul_mulVec, mulVec_smul, mulVec_smul, i1, mulVec_smul, he]
    simp only [← smul_add, ← add_smul, ← sub_smul, smul_smul, ← neg_smul]
    congr 1
    field_simp
    linear_combination (e * (-D - 1 + (1 - 2 * κ) * (h * e))) * hD
  rw [hev, i1, i2, Option.some.injEq]
  simp only [smul_smul]
  rw [← one_smul ℝ mu]
  simp only [smul_smul, ← add_smul, mul_one, one_mul]
  congr 1
  field_simp
  linear_combination (D + 1 - (1 - 2 * κ) * (h * e)) * hD

/-! ## The reaction -/

theorem logistic_den {lambda t K y : ℝ} (hK : 0 < K) (hy : 0 < y) (h : 0 ≤ lambda * t) :
    0 < 1 + (K / y - 1) * Real.exp (-lambda * t) := by
  have h1 : Real.exp (-lambda * t) ≤ 1 := Real.exp_le_one_iff.mpr (by linarith)
  have h2 := Real.exp_pos (-lambda * t)
  have h3 : 0 < K / y * Real.exp (-lambda * t) := by positivity
  linarith

theorem logisticStep_pos {lambda t K y : ℝ} (hK : 0 < K) (hy : 0 < y) (h : 0 ≤ lambda * t) :
    logisticStep lambda t K y = some (K / (1 + (K / y - 1) * Real.exp (-lambda * t))) := by
  simp only [logisticStep]
  rw [if_neg hy.ne', if_neg (logistic_den hK hy h).ne']

/-- The formula of the code as a function of time. -/
noncomputable def logisticSol (lambda K y t : ℝ) : ℝ := if y = 0 then 0 else K / (1 + (K / y - 1) * Real.exp (-lambda * t))

theorem logisticSol_step {lambda K y t : ℝ} (hK : 0 < K) (hy : 0 ≤ y) (h : 0 ≤ lambda * t) :
    logisticStep lambda t K y = some (logisticSol lambda K y t) := by
  rcases hy.eq_or_lt with rfl | hy
  · simp [logisticStep, logisticSol, hK]
  · rw [logisticStep_pos hK hy h, logisticSol, if_neg hy.ne']

theorem logisticSol_is {lambda K y : ℝ} (hl : 0 ≤ lambda) (hK : 0 < K) (hy : 0 ≤ y) : IsLogistic lambda K y (logisticSol lambda K y) := by
  rcases hy.eq_or_lt with rfl | hy
  · have : logisticSol lambda K 0 = fun _ => 0 := by funext t; simp [logisticSol]
    rw [this]
    refine ⟨rfl, fun t _ => ?_⟩
    have := hasDerivAt_const t (0 : ℝ)
    simpa using this
  · have e : logisticSol lambda K y = fun t => K / (1 + (K / y - 1) * Real.exp (-lambda * t)) := by
      funext t; simp only [logisticSol]; rw [if_neg hy.ne']
    rw [e]
    refine ⟨by simp only [mul_zero, Real.exp_zero, mul_one, add_sub_cancel]; field_simp, fun t ht => ?_⟩
    have hq := logistic_den hK hy (mul_nonneg hl ht)
    have d1 : HasDerivAt (fun t : ℝ => -lambda * t) (-lambda) t := by
      simpa using (hasDerivAt_id t).const_mul (-lambda)
    have d2 := ((d1.exp.const_mul (K / y - 1)).const_add 1)
    have d3 := (d2.inv hq.ne').const_mul K
    have d4 : HasDerivAt (fun t => K / (1 + (K / y - 1) * Real.exp (-lambda * t))) _ t := d3
    refine d4.congr_deriv ?_
    beta_reduce
    generalize hE : (K / y - 1) * Real.exp (-lambda * t) = E at hq ⊢
    have : (K / y - 1) * (Real.exp (-lambda * t) * -lambda) = -lambda * E := by rw [← hE]; ring
    rw [this]
    clear hE this d1 d2 d3 d4
    field_simp
    ring

theorem logistic_unique {lambda K y₀ : ℝ} (hK : 0 < K) {y z : ℝ → ℝ} (hy : IsLogistic lambda K y₀ y)
    (hz : IsLogistic lambda K y₀ z) {t : ℝ} (ht : 0 ≤ t) : y t = z t := by
  have cy : ContinuousOn y (Set.Icc 0 t) := fun x hx => (hy.2 x hx.1).continuousAt.continuousWithinAt
  have cz : ContinuousOn z (Set.Icc 0 t) := fun x hx => (hz.2 x hx.1).continuousAt.continuousWithinAt
  have cg : ContinuousOn (fun x => lambda * (1 - (y x + z x) / K)) (Set.Icc 0 t) :=
    continuousOn_const.mul (continuousOn_const.sub ((cy.add cz).div_const K))
  obtain ⟨C, hC⟩ := isCompact_Icc.exists_bound_of_continuousOn cg
  have := norm_le_gronwallBound_of_norm_deriv_right_le (f := fun x => y x - z x)
    (f' := fun x => lambda * y x * (1 - y x / K) - lambda * z x * (1 - z x / K)) (δ := 0) (K := C) (ε := 0) (a := 0) (b := t)
    (cy.sub cz) (fun x hx => ((hy.2 x hx.1).sub (hz.2 x hx.1)).hasDerivWithinAt) (by simp [hy.1, hz.1])
    (fun x hx => by
      have e : lambda * y x * (1 - y x / K) - lambda * z x * (1 - z x / K) = lambda * (1 - (y x + z x) / K) * (y x - z x) := by
        field_simp; ring
      rw [e, norm_mul, add_zero]
      exact mul_le_mul_of_nonneg_right (hC x ⟨hx.1, hx.2.le⟩) (norm_nonneg _)) t ⟨ht, le_rfl⟩
  rw [gronwallBound_ε0_δ0] at this
  exact sub_eq_zero.mp (norm_le_zero_iff.mp this)

theorem logisticSol_nonneg {lambda K y t : ℝ} (hK : 0 < K) (hy : 0 ≤ y) (h : 0 ≤ lambda * t) : 0 ≤ logisticSol lambda K y t := by
  rcases hy.eq_or_lt with rfl | hy
  · simp [logisticSol]
  · rw [logisticSol, if_neg hy.ne']
    exact (div_pos hK (logistic_den hK hy h)).le

theorem logisticSol_add {lambda K y s t : ℝ} (hK : 0 < K) (hy : 0 ≤ y) (hs : 0 ≤ lambda * s) :
    logisticSol lambda K (logisticSol lambda K y s) t = logisticSol lambda K y (s + t) := by
  rcases hy.eq_or_lt with rfl | hy
  · simp [logisticSol]
  · have hq := logistic_den hK hy hs
    have hp : 0 < K / (1 + (K / y - 1) * Real.exp (-lambda * s)) := div_pos hK hq
    have e1 : logisticSol lambda K y s = K / (1 + (K / y - 1) * Real.exp (-lambda * s)) := if_neg hy.ne'
    rw [e1]
    simp only [logisticSol]
    rw [if_neg hp.ne', if_neg hy.ne']
    congr 2
    rw [div_div_cancel₀ hK.ne', add_sub_cancel_left, mul_assoc, ← Real.exp_add]
    congr 3
    ring

theorem reaction_some {s : StrangSplit n} {t : ℝ} {cap sol r : Fin n → ℝ}
    (h : ∀ i, logisticStep s.lambda t (cap i) (sol i) = some (r i)) : s.reaction t cap sol = some r := by
  simp only [StrangSplit.reaction]
  rw [if_pos fun i => by rw [h i]; rfl]
  congr 1
  funext i
  rw [h i]
  rfl

/-- A vector in the kernel of `A` is not changed by the diffusion. -/
theorem diffusion_kernel {s : StrangSplit n} {b : Bool} (hdet : (s.M + (s.interval b * s.kappa) • s.A).det ≠ 0)
    {mu : Fin n → ℝ} (h : s.A *ᵥ mu = 0) : s.diffusion b mu = some mu := by
  obtain ⟨k1, k2, hev, e1, e2⟩ := diffusion_stages hdet mu
  have i1 : k1 = 0 := solve_unique hdet (by rw [add_mulVec, smul_mulVec, e1, h, mulVec_zero, neg_zero])
  have i2 : k2 = 0 := solve_unique hdet (by rw [add_mulVec, smul_mulVec, e2, h, i1, mulVec_zero, mulVec_zero]; simp)
  rw [hev, i1, i2]
  simp

end Verif.Fisher
