import Verif.Lemmas.LocComp

/-!
Bilinear forms given by quadrature rules.
-/

namespace Verif
open Geo Finset Matrix

variable {w : ℕ}

theorem integrate_nonneg (q : QuadRule ℝ) (hw : ∀ a ∈ q.weights, 0 ≤ a) {f : List ℝ → ℝ}
    (hf : ∀ p ∈ q.points, 0 ≤ f p) : 0 ≤ q.integrate f := by
  unfold QuadRule.integrate
  revert hw hf
  generalize q.weights = w
  generalize q.points = p
  intro hw hf
  induction w generalizing p with
  | nil => simp
  | cons a t ih =>
    cases p with
    | nil => simp
    | cons b s =>
      simp only [List.zipWith_cons_cons, List.sum_cons]
      exact add_nonneg (mul_nonneg (hw a (by simp)) (hf b (by simp)))
        (ih s (fun x hx => hw x (by simp [hx])) fun x hx => hf x (by simp [hx]))

theorem integrate_eq_zero (q : QuadRule ℝ) (hl : q.weights.length = q.points.length) (hw : ∀ a ∈ q.weights, 0 < a)
    {f : List ℝ → ℝ} (hf : ∀ p ∈ q.points, 0 ≤ f p) : q.integrate f = 0 ↔ ∀ p ∈ q.points, f p = 0 := by
  unfold QuadRule.integrate
  revert hw hf hl
  generalize q.weights = w
  generalize q.points = p
  intro hl hw hf
  induction w generalizing p with
  | nil =>
    have : p = [] := by simpa using hl.symm
    simp [this]
  | cons a t ih =>
    cases p with
    | nil => simp
    | cons b s =>
      simp only [List.zipWith_cons_cons, List.sum_cons, List.mem_cons, forall_eq_or_imp]
      have h1 : 0 ≤ a * f b := mul_nonneg (hw a (by simp)).le (hf b (by simp))
      have h2 : 0 ≤ (List.zipWith (fun w p => w * f p) t s).sum :=
        integrate_nonneg ⟨.point, 0, s, t⟩ (fun x hx => (hw x (by simp [show x ∈ t from hx])).le)
          fun x hx => hf x (by simp [show x ∈ s from hx])
      rw [add_eq_zero_iff_of_nonneg h1 h2, mul_eq_zero, or_iff_right (hw a (by simp)).ne',
        ih s (by simpa using hl) (fun x hx => hw x (by simp [hx])) fun x hx => hf x (by simp [hx])]

theorem integrationElement_nonneg (g : Geo ℝ w) {x : List ℝ} {t : ℝ} (h : g.integrationElement x = some t) :
    0 ≤ t := by
  have key : ∀ (c : Prop) [Decidable c] (a b : ℝ), 0 ≤ if c then |a| else Real.sqrt b := by
    intro c _ a b
    split <;> positivity
  unfold integrationElement at h
  split at h <;> (try split at h) <;> first
    | (simp at h; done)
    | (rw [Option.some_inj] at h; subst h; first | exact zero_le_one | exact Real.sqrt_nonneg _ | exact key _ _ _)

theorem form_eq {n : ℕ} (q : QuadRule ℝ) (M : Matrix (Fin n) (Fin n) ℝ) (F : Fin n → Fin n → List ℝ → ℝ)
    (hM : ∀ i j, M i j = q.integrate (F i j)) (x y : Fin n → ℝ) :
    x ⬝ᵥ M.mulVec y = q.integrate fun p => ∑ i, ∑ j, x i * (y j * F i j p) := by
  simp only [dotProduct, mulVec, hM]
  rw [integrate_sum]
  refine Finset.sum_congr rfl fun i _ => ?_
  rw [integrate_sum, Finset.mul_sum]
  refine Finset.sum_congr rfl fun j _ => ?_
  rw [integrate_smul, integrate_smul]
  ring

variable {g : Geo ℝ w} {fe : RefFE ℝ} {q : QuadRule ℝ} {detJ : List ℝ → ℝ}

theorem massForm_form (γ : List ℝ → ℝ) (M : Matrix (Fin fe.num) (Fin fe.num) ℝ)
    (hM : ∀ i j, M i j = massForm fe q detJ γ i.val j.val) (x y : Fin fe.num → ℝ) :
    x ⬝ᵥ M.mulVec y = q.integrate fun p => detJ p * (γ p * (fe.combine x p * fe.combine y p)) := by
  rw [form_eq q M _ hM]
  refine integrate_congr q fun p _ => ?_
  rw [RefFE.combine, RefFE.combine, Finset.sum_mul_sum, Finset.mul_sum, Finset.mul_sum]
  refine Finset.sum_congr rfl fun i _ => ?_
  rw [Finset.mul_sum, Finset.mul_sum]
  exact Finset.sum_congr rfl fun j _ => by ring

theorem massForm_comm (γ : List ℝ → ℝ) (i j : ℕ) : massForm fe q detJ γ i j = massForm fe q detJ γ j i := by
  unfold massForm
  congr 1
  funext p
  rw [mul_comm (fe.shape j p)]

theorem pushGrad_lin (hd : g.kind.dimension = 2) (p : List ℝ) (c : Fin fe.num → ℝ) :
    ∑ i, c i • g.pushGrad p (fe.gradAt i.val p) = g.pushGrad p (fe.combineGrad c p) := by
  have hfun : ∀ n, n = 2 → (fun k : Fin n => (fe.combineGrad c p).getD k.val 0) =
      fun k => ∑ i, c i * (fe.gradAt i.val p).getD k.val 0 := by
    rintro n rfl
    funext k
    fin_cases k <;> rfl
  simp only [pushGrad]
  rw [hfun _ hd]
  funext r
  simp only [Finset.sum_apply, Pi.smul_apply, smul_eq_mul, mulVec, dotProduct, Finset.mul_sum]
  rw [Finset.sum_comm]
  exact Finset.sum_congr rfl fun _ _ => Finset.sum_congr rfl fun _ _ => by ring

theorem diffusionForm_form (hd : g.kind.dimension = 2) (α : List ℝ → Matrix (Fin w) (Fin w) ℝ)
    (M : Matrix (Fin fe.num) (Fin fe.num) ℝ)
    (hM : ∀ i j, M i j = diffusionForm g fe q detJ α i.val j.val) (x y : Fin fe.num → ℝ) :
    x ⬝ᵥ M.mulVec y = q.integrate fun p => detJ p *
      dot (g.pushGrad p (fe.combineGrad x p)) ((α p).mulVec (g.pushGrad p (fe.combineGrad y p))) := by
  rw [form_eq q M _ hM]
  refine integrate_congr q fun p _ => ?_
  rw [← pushGrad_lin hd, ← pushGrad_lin hd, Matrix.mulVec_sum]
  simp only [Matrix.mulVec_smul]
  rw [dot_sum_smul, Finset.mul_sum]
  refine Finset.sum_congr rfl fun i _ => ?_
  rw [Finset.mul_sum]
  exact Finset.sum_congr rfl fun j _ => by ring

theorem dot_eq (a b : Vec ℝ w) : dot a b = a ⬝ᵥ b := rfl

theorem diffusionForm_comm (α : List ℝ → Matrix (Fin w) (Fin w) ℝ)
    (hα : ∀ p ∈ q.points, (α p).transpose = α p) (i j : ℕ) :
    diffusionForm g fe q detJ α i j = diffusionForm g fe q detJ α j i := by
  unfold diffusionForm
  refine integrate_congr q fun p hp => ?_
  rw [dot_eq, dot_eq, Matrix.dotProduct_mulVec, ← Matrix.mulVec_transpose, hα p hp, dotProduct_comm]

theorem sum_fin_range (n : ℕ) (f : ℕ → ℝ) : ∑ i : Fin n, f i.val = ∑ i ∈ range n, f i :=
  Fin.sum_univ_eq_sum_range f n

/-- The gradient of a constant vanishes. -/
theorem combineGrad_const (hg : fe.GradCorrect) (hd : fe.ref.dimension = 2) (c : Fin fe.num → ℝ) (K : ℝ)
    (hc : ∀ x, x.length = 2 → fe.combine c x = K) (x : List ℝ) (hx : x.length = 2) :
    fe.combineGrad c x = [0, 0] := by
  obtain ⟨v, hv, hl, hder⟩ := hg x (hx.trans hd.symm)
  have key : ∀ k < 2, ∑ i, c i * (fe.gradAt i.val x).getD k 0 = 0 := by
    intro k hk
    have h1 : HasDerivAt (fun t => ∑ i, c i * fe.shape i.val (x.set k t))
        (∑ i, c i * (fe.gradAt i.val x).getD k 0) (x.getD k 0) := by
      refine HasDerivAt.fun_sum fun i _ => HasDerivAt.const_mul _ ?_
      have := (hder i.val i.isLt).2 k (by omega)
      rw [RefFE.gradAt, hv]
      exact this
    have h2 : (fun t => ∑ i, c i * fe.shape i.val (x.set k t)) = fun _ => K := by
      funext t
      exact hc _ (by simpa using hx)
    rw [h2] at h1
    exact h1.unique (hasDerivAt_const _ _)
  rw [RefFE.combineGrad, key 0 (by norm_num), key 1 (by norm_num)]

theorem pushGrad_zero (x : List ℝ) : g.pushGrad x [0, 0] = 0 := by
  have : (fun k : Fin g.kind.dimension => ([0, 0] : List ℝ).getD k.val 0) = 0 := by
    funext k
    rcases k with ⟨_ | _ | k, h⟩ <;> simp
  rw [pushGrad, this]
  simp

end Verif
