import Verif.Lemmas.LinFE
import Verif.Lemmas.Geometry

namespace Verif
open Geo Matrix

theorem zeta_sum : zeta0 + zeta1 = 1 := by simp only [zeta0, zeta1]; ring

theorem zeta_prod : zeta0 * zeta1 = 1 / 6 := by
  simp only [zeta0, zeta1]
  have h : Real.sqrt 3 * Real.sqrt 3 = 3 := Real.mul_self_sqrt (by norm_num)
  have h0 : Real.sqrt 3 ≠ 0 := by positivity
  have : (1 / Real.sqrt 3) * (1 / Real.sqrt 3) = 1 / 3 := by
    rw [div_mul_div_comm, h]; norm_num
  linear_combination (-1 / 4) * this

theorem zeta_ne : zeta0 ≠ zeta1 := by
  intro h
  have h1 := zeta_sum
  have h2 := zeta_prod
  rw [← h] at h1 h2
  have : zeta0 = 1 / 2 := by linarith
  rw [this] at h2
  norm_num at h2

theorem zeta_moment (a : ℕ) (ha : a ≤ 3) : zeta0 ^ a + zeta1 ^ a = 2 * (1 / (a + 1)) := by
  have h1 := zeta_sum
  have h2 := zeta_prod
  interval_cases a
  · norm_num
  · norm_num; linarith
  · have : zeta0 ^ 2 + zeta1 ^ 2 = (zeta0 + zeta1) ^ 2 - 2 * (zeta0 * zeta1) := by ring
    rw [this, h1, h2]; norm_num
  · have : zeta0 ^ 3 + zeta1 ^ 3 = (zeta0 + zeta1) ^ 3 - 3 * (zeta0 * zeta1) * (zeta0 + zeta1) := by ring
    rw [this, h1, h2]; norm_num

theorem gauss22_wf : gauss22.WellFormed := by simp [QuadRule.WellFormed, gauss22, RefEl.dimension]

theorem gauss22_integrate (f : List ℝ → ℝ) : gauss22.integrate f =
    1 / 4 * (f [zeta0, zeta0] + f [zeta0, zeta1] + f [zeta1, zeta0] + f [zeta1, zeta1]) := by
  simp [QuadRule.integrate, gauss22]
  ring

theorem gauss22_exact : gauss22.ExactFor 3 := by
  refine quad_exact rfl 3 (fun a ha b hb f hf => ?_) gauss22_wf
  rw [gauss22_integrate, hf, hf, hf, hf]
  have h1 := zeta_moment a ha
  have h2 := zeta_moment b hb
  have : 1 / 4 * (zeta0 ^ a * zeta0 ^ b + zeta0 ^ a * zeta1 ^ b + zeta1 ^ a * zeta0 ^ b + zeta1 ^ a * zeta1 ^ b) =
    1 / 4 * ((zeta0 ^ a + zeta1 ^ a) * (zeta0 ^ b + zeta1 ^ b)) := by ring
  rw [this, h1, h2]
  ring

section
variable {g : Geo ℝ 2} {x d : List ℝ} {A B : Vec ℝ 2}

theorem pushGrad_two (hk : g.kind.dimension = 2) (hJ : g.jacobian x = some [A, B]) (hd : det2 A B ≠ 0) :
    g.pushGrad x d = d.getD 0 0 • ((det2 A B)⁻¹ • vec2 (entry B 1) (-(entry B 0))) +
      d.getD 1 0 • ((det2 A B)⁻¹ • vec2 (-(entry A 1)) (entry A 0)) := by
  obtain ⟨C, hC, -, hm⟩ := invTranspose2_spec A B (by rw [det2_sq]; exact mul_ne_zero hd hd)
  rw [invTranspose2, if_neg hd] at hC
  obtain rfl := Option.some.inj hC
  have : g.pushGrad x d = (matrix 2 [A, B] * ((matrix 2 [A, B]).transpose * matrix 2 [A, B])⁻¹).mulVec
      fun k : Fin 2 => d.getD k.val 0 := by
    have : ∀ n, n = 2 → (matrix n [A, B] * ((matrix n [A, B]).transpose * matrix n [A, B])⁻¹).mulVec
        (fun k : Fin n => d.getD k.val 0) =
        (matrix 2 [A, B] * ((matrix 2 [A, B]).transpose * matrix 2 [A, B])⁻¹).mulVec
        fun k : Fin 2 => d.getD k.val 0 := by
      rintro n rfl; rfl
    simp only [pushGrad, hJ, Option.getD_some]
    exact this _ hk
  rw [this, ← hm]
  funext i
  simp [Matrix.mulVec, dotProduct, matrix, Fin.sum_univ_two]
  ring

end

section
variable (a b c d : Vec ℝ 2) (x y : ℝ)

/-- The columns of the Jacobian of a bilinear quadrilateral. -/
def quadA (a b c d : Vec ℝ 2) (y : ℝ) : Vec ℝ 2 := (1 - y) • (b - a) + y • (c - d)
def quadB (a b c d : Vec ℝ 2) (x : ℝ) : Vec ℝ 2 := (1 - x) • (d - a) + x • (c - b)

theorem detDPhi_eq : detDPhi (quadG ![a, b, c, d]) x y = |det2 (quadA a b c d y) (quadB a b c d x)| := by
  simp only [detDPhi, quadDetc, quadG, det2, entry, quadA, quadB]
  congr 1
  simp [Matrix.mul_apply, Fin.sum_univ_four]
  ring

theorem gradmat_eq (i : Fin 4) (r : Fin 2) :
    (DPhiadj (quadG ![a, b, c, d]) x y * (dervRefShapFncts x y).transpose) r i =
      dervRefShapFncts x y i 0 * (vec2 (entry (quadB a b c d x) 1) (-(entry (quadB a b c d x) 0)) : Vec ℝ 2) r +
      dervRefShapFncts x y i 1 * (vec2 (-(entry (quadA a b c d y) 1)) (entry (quadA a b c d y) 0) : Vec ℝ 2) r := by
  rw [Matrix.mul_apply, Fin.sum_univ_two, Matrix.transpose_apply, Matrix.transpose_apply]
  simp only [DPhiadj, quadG, entry, quadA, quadB, vec2]
  fin_cases r <;> simp [Matrix.mul_apply, Fin.sum_univ_four] <;> ring

theorem derv_eq (i : Fin 4) (r : Fin 2) :
    ((((lagrO1Quad : RefFE ℝ).grad [x, y]).getD []).getD i.val []).getD r.val 0 = dervRefShapFncts x y i r := by
  fin_cases i <;> fin_cases r <;> simp [lagrO1Quad, dervRefShapFncts]

theorem quad_point (h : detDPhi (quadG ![a, b, c, d]) x y ≠ 0) (i j : Fin 4) :
    (detDPhi (quadG ![a, b, c, d]) x y)⁻¹ *
      ∑ r, (DPhiadj (quadG ![a, b, c, d]) x y * (dervRefShapFncts x y).transpose) r i *
        (DPhiadj (quadG ![a, b, c, d]) x y * (dervRefShapFncts x y).transpose) r j =
      (quadO1 a b c d).dirichlet lagrO1Quad i.val j.val [x, y] := by
  have hJ : (quadO1 a b c d).jacobian [x, y] = some [quadA a b c d y, quadB a b c d x] := rfl
  rw [detDPhi_eq] at h ⊢
  have hd := abs_ne_zero.mp h
  have hI : (quadO1 a b c d).integrationElement [x, y] =
      some |det2 (quadA a b c d y) (quadB a b c d x)| := by
    simp only [integrationElement, hJ]
    simp
  rw [dirichlet, hI, Option.getD_some, pushGrad_two rfl hJ hd, pushGrad_two rfl hJ hd]
  have e0 := derv_eq x y i 0
  have e1 := derv_eq x y i 1
  have f0 := derv_eq x y j 0
  have f1 := derv_eq x y j 1
  simp only [Fin.val_zero, Fin.val_one] at e0 e1 f0 f1
  rw [e0, e1, f0, f1, Fin.sum_univ_two, gradmat_eq, gradmat_eq, gradmat_eq, gradmat_eq, dot_two]
  set D := det2 (quadA a b c d y) (quadB a b c d x)
  simp only [Pi.add_apply, Pi.smul_apply, smul_eq_mul]
  have hs : |D| * |D| = D * D := abs_mul_abs_self D
  have h1 : |D|⁻¹ = |D| * (D⁻¹ * D⁻¹) := by
    field_simp
    exact (sq_abs D).symm
  rw [h1]
  ring

theorem integrationElement_quadO1 : (quadO1 a b c d).integrationElement [x, y] =
    some |det2 (quadA a b c d y) (quadB a b c d x)| := by
  have hJ : (quadO1 a b c d).jacobian [x, y] = some [quadA a b c d y, quadB a b c d x] := rfl
  simp only [integrationElement, hJ]
  simp

theorem laplaceQuad_eq (h : ∀ p ∈ gauss22.points, (quadO1 a b c d).integrationElement p ≠ some 0) :
    laplaceQuad ![a, b, c, d] = some (Matrix.of fun i j : Fin 4 =>
      gauss22.integrate ((quadO1 a b c d).dirichlet lagrO1Quad i.val j.val)) := by
  have hp : ∀ x y, [x, y] ∈ gauss22.points → detDPhi (quadG ![a, b, c, d]) x y ≠ 0 := by
    intro x y hxy h0
    rw [detDPhi_eq] at h0
    exact h _ hxy (by rw [integrationElement_quadO1, h0])
  have h1 := hp zeta0 zeta0 (by simp [gauss22])
  have h2 := hp zeta0 zeta1 (by simp [gauss22])
  have h3 := hp zeta1 zeta0 (by simp [gauss22])
  have h4 := hp zeta1 zeta1 (by simp [gauss22])
  simp only [laplaceQuad, kQuadPoints, List.foldlM_cons, List.foldlM_nil, if_neg h1, if_neg h2, if_neg h3,
    if_neg h4, Option.bind_eq_bind, Option.bind_some, Option.pure_def, Option.map_some]
  congr 1
  ext i j
  simp only [Matrix.smul_apply, Matrix.add_apply, Matrix.zero_apply, smul_eq_mul, Matrix.of_apply]
  rw [gauss22_integrate, ← quad_point a b c d _ _ h1, ← quad_point a b c d _ _ h2,
    ← quad_point a b c d _ _ h3, ← quad_point a b c d _ _ h4]
  rw [Matrix.mul_apply, Matrix.mul_apply, Matrix.mul_apply, Matrix.mul_apply]
  simp only [Matrix.transpose_apply, zero_add]

end
end Verif
