import Mathlib.Analysis.Calculus.Deriv.Prod
import Mathlib.Analysis.Calculus.Deriv.Add
import Mathlib.Analysis.Calculus.FDeriv.Pow
import Verif.Spec.ScalarFE
import Verif.Lemmas.HierEval
import Verif.Lemmas.Jacobi

/-!
# Derivatives of the hierarchic shape functions
-/

namespace Verif

theorem legendre_differentiable (n : ℕ) : Differentiable ℝ fun p : ℝ × ℝ => legendre n p.1 p.2 := by
  induction n using Nat.strong_induction_on with
  | _ n ih =>
    match n with
    | 0 => simp only [legendre_zero]; fun_prop
    | 1 => simp only [legendre_one]; fun_prop
    | n + 2 =>
      have h1 := ih (n + 1) (by omega)
      have h0 := ih n (by omega)
      have hf : (fun p : ℝ × ℝ => legendre (n + 2) p.1 p.2) = fun p : ℝ × ℝ => ((n : ℝ) + 2)⁻¹ *
          ((2 * n + 3) * (2 * p.1 - p.2) * legendre (n + 1) p.1 p.2 - (n + 1) * p.2 ^ 2 * legendre n p.1 p.2) := by
        funext p
        rw [eq_inv_mul_iff_mul_eq₀ (by positivity), legendre_rec]
      rw [hf]
      fun_prop

theorem iLegendre_differentiable (n : ℕ) : Differentiable ℝ fun p : ℝ × ℝ => iLegendre (n + 2) p.1 p.2 := by
  have h := two_mul_add_three_ne (K := ℝ) n
  have hf : (fun p : ℝ × ℝ => iLegendre (n + 2) p.1 p.2) = fun p : ℝ × ℝ => (2 * (2 * (n : ℝ) + 3))⁻¹ *
      (legendre (n + 2) p.1 p.2 - p.2 ^ 2 * legendre n p.1 p.2) := by
    funext p
    rw [eq_inv_mul_iff_mul_eq₀ h, iLegendre_eq]
  have h2 := legendre_differentiable (n + 2)
  have h0 := legendre_differentiable n
  rw [hf]
  fun_prop

/-- Chain rule for a function of two variables with known partial derivatives. -/
theorem chain2 {f : ℝ → ℝ → ℝ} (hf : Differentiable ℝ fun p : ℝ × ℝ => f p.1 p.2) {a b : ℝ → ℝ}
    {a' b' fx ft s : ℝ} (ha : HasDerivAt a a' s) (hb : HasDerivAt b b' s)
    (hx : HasDerivAt (fun x => f x (b s)) fx (a s)) (ht : HasDerivAt (fun t => f (a s) t) ft (b s)) :
    HasDerivAt (fun s => f (a s) (b s)) (fx * a' + ft * b') s := by
  have hd := (hf (a s, b s)).hasFDerivAt
  have h1 : HasDerivAt (fun x => f x (b s)) (fderiv ℝ (fun p : ℝ × ℝ => f p.1 p.2) (a s, b s) (1, 0)) (a s) :=
    HasFDerivAt.comp_hasDerivAt (f := fun x => (x, b s)) (a s) hd
      ((hasDerivAt_id (a s)).prodMk (hasDerivAt_const (a s) (b s)))
  have h2 : HasDerivAt (fun t => f (a s) t) (fderiv ℝ (fun p : ℝ × ℝ => f p.1 p.2) (a s, b s) (0, 1)) (b s) :=
    HasFDerivAt.comp_hasDerivAt (f := fun t => (a s, t)) (b s) hd
      ((hasDerivAt_const (b s) (a s)).prodMk (hasDerivAt_id (b s)))
  have h3 : HasDerivAt (fun s => f (a s) (b s)) (fderiv ℝ (fun p : ℝ × ℝ => f p.1 p.2) (a s, b s) (a', b')) s :=
    HasFDerivAt.comp_hasDerivAt (f := fun s => (a s, b s)) s hd (ha.prodMk hb)
  refine h3.congr_deriv ?_
  rw [← h1.unique hx, ← h2.unique ht]
  rw [show ((a', b') : ℝ × ℝ) = a' • ((1, 0) : ℝ × ℝ) + b' • ((0, 1) : ℝ × ℝ) by simp, map_add, map_smul, map_smul]
  simp only [smul_eq_mul]
  ring

theorem iLegendre_chain (n : ℕ) {a b : ℝ → ℝ} {a' b' s : ℝ} (ha : HasDerivAt a a' s)
    (hb : HasDerivAt b b' s) : HasDerivAt (fun s => iLegendre (n + 2) (a s) (b s))
      (iLegendreDx (n + 2) (a s) (b s) * a' + iLegendreDt (n + 2) (a s) (b s) * b') s :=
  chain2 (iLegendre_differentiable n) ha hb (iLegendre_hasDeriv _ (by omega) _ _)
    (iLegendre_hasDerivT _ (by omega) _ _)

/-- A function of two variables together with its gradient. -/
abbrev FnGrad := (ℝ → ℝ → ℝ) × (ℝ → ℝ → List ℝ)

def FnGrad.Correct (g : FnGrad) : Prop := ∀ x y, ∃ a b, g.2 x y = [a, b] ∧
  HasDerivAt (fun t => g.1 t y) a x ∧ HasDerivAt (fun t => g.1 x t) b y

theorem RefFE.gradCorrect_of (fe : RefFE ℝ) (href : fe.ref.dimension = 2) (G : List FnGrad)
    (hn : G.length = fe.num) (he : ∀ x y, fe.eval [x, y] = some (G.map fun g => g.1 x y))
    (hg : ∀ x y, fe.grad [x, y] = some (G.map fun g => g.2 x y)) (h : ∀ g ∈ G, g.Correct) :
    fe.GradCorrect := by
  intro x hx
  rw [href] at hx
  obtain ⟨x, y, rfl⟩ : ∃ a b, x = [a, b] := by
    match x, hx with
    | [a, b], _ => exact ⟨a, b, rfl⟩
  refine ⟨_, hg x y, by simp [hn], fun i hi => ?_⟩
  have hi' : i < G.length := by omega
  obtain ⟨a, b, hab, h1, h2⟩ := h G[i] (List.getElem_mem _) x y
  have e : ∀ x y, fe.shape i [x, y] = G[i].1 x y := fun x y => by
    simp [RefFE.shape, he, hi']
  have eg : (G.map fun g => g.2 x y).getD i [] = [a, b] := by simp [hi', hab]
  rw [eg, href]
  refine ⟨rfl, fun k hk => ?_⟩
  interval_cases k
  · simpa only [List.set_cons_zero, e, List.getD_cons_zero] using h1
  · simpa only [List.set_cons_succ, List.set_cons_zero, e, List.getD_cons_zero, List.getD_cons_succ] using h2

namespace HierTria

theorem bary_hasDeriv (x y : ℝ) (j : ℕ) : HasDerivAt (fun t => bary t y j) (dbary j).1 x ∧
    HasDerivAt (fun t => bary x t j) (dbary j).2 y := by
  match j with
  | 0 =>
    simp only [bary, dbary]
    exact ⟨by simpa using ((hasDerivAt_id x).const_sub 1).sub_const y, by simpa using (hasDerivAt_id y).const_sub (1 - x)⟩
  | 1 => exact ⟨hasDerivAt_id x, hasDerivAt_const y x⟩
  | j + 2 => exact ⟨hasDerivAt_const x y, hasDerivAt_id y⟩

theorem edgeFn_correct (F : HierTria ℝ) (j i : ℕ) : FnGrad.Correct (F.edgeFn j i, F.edgeFnD j i) := by
  intro x y
  refine ⟨_, _, rfl, ?_, ?_⟩
  · unfold edgeFn
    have h0 := (bary_hasDeriv x y j).1
    have h1 := (bary_hasDeriv x y ((j + 1) % 3)).1
    cases F.o j
    · exact iLegendre_chain i h0 (h0.add h1)
    · exact iLegendre_chain i h1 (h0.add h1)
  · unfold edgeFn
    have h0 := (bary_hasDeriv x y j).2
    have h1 := (bary_hasDeriv x y ((j + 1) % 3)).2
    cases F.o j
    · exact iLegendre_chain i h0 (h0.add h1)
    · exact iLegendre_chain i h1 (h0.add h1)

theorem intFn_correct (F : HierTria ℝ) (ij : ℕ × ℕ) : FnGrad.Correct (F.intFn ij, F.intFnD ij) := by
  intro x y
  obtain ⟨a, b, hab, h1, h2⟩ := F.edgeFn_correct 0 ij.1 x y
  simp only at hab h1 h2
  refine ⟨_, _, rfl, ?_, ?_⟩
  · refine (h1.mul_const _).congr_deriv ?_
    rw [hab]; simp; ring
  · refine (h2.mul (iJacobi_hasDeriv (al := ((2 * ij.1 + 4 : ℕ) : ℝ)) (by positivity) ij.2 y)).congr_deriv ?_
    rw [hab]; simp; ring

/-- The shape functions with their gradients. -/
noncomputable def fnGrads (F : HierTria ℝ) : List FnGrad :=
  [(fun x y => 1 - x - y, fun _ _ => [-1, -1]), (fun x _ => x, fun _ _ => [1, 0]), (fun _ y => y, fun _ _ => [0, 1])] ++
    (oriented (F.o 0) ((List.range (F.e 0 - 1)).map fun i => ((F.edgeFn 0 i, F.edgeFnD 0 i) : FnGrad))) ++
    (oriented (F.o 1) ((List.range (F.e 1 - 1)).map fun i => ((F.edgeFn 1 i, F.edgeFnD 1 i) : FnGrad))) ++
    (oriented (F.o 2) ((List.range (F.e 2 - 1)).map fun i => ((F.edgeFn 2 i, F.edgeFnD 2 i) : FnGrad))) ++
    (interior F.p).map fun ij => ((F.intFn ij, F.intFnD ij) : FnGrad)

theorem gradCorrect (F : HierTria ℝ) : F.fe.GradCorrect := by
  have e1 : ∀ x y, F.fnGrads.map (fun g => g.1 x y) = F.shapes x y := fun x y => by
    simp [fnGrads, shapes, edgeShapes, oriented_map, Function.comp_def]
  have e2 : ∀ x y, F.fnGrads.map (fun g => g.2 x y) = F.grads x y := fun x y => by
    simp [fnGrads, grads, oriented_map, Function.comp_def]
  refine RefFE.gradCorrect_of F.fe rfl F.fnGrads ?_ (fun x y => ?_) (fun x y => ?_) ?_
  · rw [← List.length_map (fun g => g.1 0 0), e1, shapes_length]; rfl
  · rw [e1]; exact F.eval_eq x y
  · rw [e2]; exact F.grad_eq x y
  · intro g hg
    simp only [fnGrads, List.mem_append, mem_oriented, List.mem_map, List.mem_cons, List.not_mem_nil, or_false] at hg
    rcases hg with (((hg | ⟨i, -, rfl⟩) | ⟨i, -, rfl⟩) | ⟨i, -, rfl⟩) | ⟨i, -, rfl⟩
    · rcases hg with rfl | rfl | rfl <;> intro x y
      · exact ⟨_, _, rfl, (bary_hasDeriv x y 0).1, (bary_hasDeriv x y 0).2⟩
      · exact ⟨_, _, rfl, (bary_hasDeriv x y 1).1, (bary_hasDeriv x y 1).2⟩
      · exact ⟨_, _, rfl, (bary_hasDeriv x y 2).1, (bary_hasDeriv x y 2).2⟩
    · exact F.edgeFn_correct 0 i
    · exact F.edgeFn_correct 1 i
    · exact F.edgeFn_correct 2 i
    · exact F.intFn_correct i

end HierTria

namespace HierQuad

theorem fn1_hasDeriv (i : ℕ) (x : ℝ) : HasDerivAt (fn1 i) (fn1D i x) x := by
  match i with
  | 0 => exact (hasDerivAt_id x).const_sub 1
  | 1 => exact hasDerivAt_id x
  | i + 2 => exact iLegendre_hasDeriv _ (by omega) x 1

/-- A function of one variable together with its derivative. -/
abbrev FnD := (ℝ → ℝ) × (ℝ → ℝ)

def FnD.Correct (g : FnD) : Prop := ∀ x, HasDerivAt g.1 (g.2 x) x

noncomputable def fwd (i : ℕ) : FnD := (fn1 i, fn1D i)
noncomputable def bwd (i : ℕ) : FnD := (fun x => fn1 i (1 - x), fun x => -fn1D i (1 - x))
def prodD (a b : FnD) : FnGrad := (fun x y => a.1 x * b.1 y, fun x y => [a.2 x * b.1 y, a.1 x * b.2 y])

theorem fwd_correct (i : ℕ) : (fwd i).Correct := fn1_hasDeriv i
theorem bwd_correct (i : ℕ) : (bwd i).Correct := fun x => by
  have := (fn1_hasDeriv i (1 - x)).comp x ((hasDerivAt_id x).const_sub 1)
  simpa [bwd, Function.comp_def] using this

theorem prodD_correct {a b : FnD} (ha : a.Correct) (hb : b.Correct) : (prodD a b).Correct := fun x y =>
  ⟨_, _, rfl, (ha x).mul_const _, (hb y).const_mul _⟩

theorem gradCorrect (F : HierQuad ℝ) (hd : 1 ≤ F.deg1) : F.fe.GradCorrect := by
  have e1 : ∀ x y, (F.block fwd fwd bwd bwd prodD).map (fun g => g.1 x y) = F.shapes x y := fun x y => by
    simp only [block, shapes, List.map_append, ← oriented_map, List.map_map, List.map_flatMap, Function.comp_def,
      prodD, apply_ite Prod.fst, ite_apply]
    rfl
  have e2 : ∀ x y, (F.block fwd fwd bwd bwd prodD).map (fun g => g.2 x y) = F.grads x y := fun x y => by
    simp only [block, grads, List.map_append, ← oriented_map, List.map_map, List.map_flatMap, Function.comp_def,
      prodD, apply_ite Prod.fst, apply_ite Prod.snd, ite_apply]
    rfl
  refine RefFE.gradCorrect_of F.fe rfl (F.block fwd fwd bwd bwd prodD) ?_ (fun x y => ?_) (fun x y => ?_) ?_
  · rw [block_length]; rfl
  · rw [e1]; exact F.eval_eq hd x y
  · rw [e2]; exact F.grad_eq hd x y
  · intro g hg
    simp only [block, List.mem_append, mem_oriented, List.mem_map, List.mem_flatMap, List.mem_cons, List.not_mem_nil,
      or_false] at hg
    have hi : ∀ (c : Prop) [Decidable c] (a b : FnD), a.Correct → b.Correct → (if c then a else b).Correct :=
      fun c _ a b ha hb => by split <;> assumption
    rcases hg with ((((hg | ⟨i, -, rfl⟩) | ⟨i, -, rfl⟩) | ⟨i, -, rfl⟩) | ⟨i, -, rfl⟩) | ⟨i, -, j, -, rfl⟩
    · rcases hg with rfl | rfl | rfl | rfl <;> exact prodD_correct (fwd_correct _) (fwd_correct _)
    · exact prodD_correct (hi _ _ _ (fwd_correct _) (bwd_correct _)) (fwd_correct _)
    · exact prodD_correct (fwd_correct _) (hi _ _ _ (fwd_correct _) (bwd_correct _))
    · exact prodD_correct (hi _ _ _ (bwd_correct _) (fwd_correct _)) (fwd_correct _)
    · exact prodD_correct (fwd_correct _) (hi _ _ _ (bwd_correct _) (fwd_correct _))
    · exact prodD_correct (fwd_correct _) (fwd_correct _)

end HierQuad

theorem hierSegment_gradCorrect (p : ℕ) (hp : 1 ≤ p) (qr : QuadRule ℝ) : (hierSegment p qr).GradCorrect := by
  intro x hx
  obtain ⟨x, rfl⟩ : ∃ a, x = [a] := List.length_eq_one_iff.mp hx
  refine ⟨_, hierSegment_grad p hp qr x, by simp [hierSegment]; omega, fun i hi => ?_⟩
  have hi' : i ≤ p := by simp only [hierSegment] at hi; omega
  have e : ∀ x, (hierSegment p qr).shape i [x] = HierQuad.fn1 i x := fun x => by
    rw [RefFE.shape, hierSegment_eval p hp, Option.getD_some, List.getD_eq_getElem?_getD,
      HierQuad.segShapes_get p x i hi' hp]; rfl
  have eg : ([[-1], [1]] ++ (List.range (p - 1)).map fun i => [iLegendreDx (i + 2) x 1]).getD i [] =
      [HierQuad.fn1D i x] := by
    match i with
    | 0 => rfl
    | 1 => rfl
    | i + 2 =>
      simp only [List.cons_append, List.nil_append, List.getD_cons_succ]
      simp [HierQuad.fn1D, show i < p - 1 by omega]
  rw [eg]
  refine ⟨rfl, fun k hk => ?_⟩
  have : k = 0 := by have : k < 1 := hk; omega
  subst this
  simpa only [List.set_cons_zero, e, List.getD_cons_zero] using HierQuad.fn1_hasDeriv i x

end Verif
