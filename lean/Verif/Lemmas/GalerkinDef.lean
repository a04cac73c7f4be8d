import Verif.Spec.ScalarFE
import Verif.Lemmas.QuadPoly
import Verif.Lemmas.LagrConform
import Verif.Lemmas.LocCompForm
import Verif.Props.FeTools
import Mathlib.MeasureTheory.Integral.DominatedConvergence
import Mathlib.MeasureTheory.Integral.IntervalIntegral.Basic
import Mathlib.Analysis.Calculus.MeanValue

/-!
# Lemmas: a polynomial whose square has integral zero over the reference element vanishes there
-/

namespace Verif
open Finset Geo

/-- The points of the reference triangle and the reference quadrilateral. -/
def InCell : RefEl → ℝ → ℝ → Prop
  | .tria, x, y => 0 ≤ x ∧ 0 ≤ y ∧ x + y ≤ 1
  | .quad, x, y => 0 ≤ x ∧ x ≤ 1 ∧ 0 ≤ y ∧ y ≤ 1
  | _, _, _ => False

theorem IsPolyOn.continuous {r : RefEl} (hr : r = .tria ∨ r = .quad) {d : ℕ} {f : List ℝ → ℝ} (h : IsPolyOn r d f) :
    Continuous fun p : ℝ × ℝ => f [p.1, p.2] := by
  rcases hr with rfl | rfl
  · obtain ⟨c, hc⟩ := h
    simp only [hc]
    fun_prop
  · obtain ⟨c, hc⟩ := h
    simp only [hc]
    fun_prop

theorem integral_zero_imp {f : ℝ → ℝ} {b : ℝ} (hb : 0 < b) (hf : Continuous f) (h0 : ∀ x ∈ Set.Icc 0 b, 0 ≤ f x)
    (h : ∫ x in (0 : ℝ)..b, f x = 0) : ∀ x ∈ Set.Icc 0 b, f x = 0 := by
  intro x hx
  by_contra hne
  have := intervalIntegral.integral_pos hb hf.continuousOn (fun y hy => h0 y ⟨hy.1.le, hy.2⟩)
    ⟨x, hx, lt_of_le_of_ne (h0 x hx) (Ne.symm hne)⟩
  exact this.ne' h

theorem refIntegral_sq_zero {r : RefEl} (hr : r = .tria ∨ r = .quad) {f : List ℝ → ℝ}
    (hf : Continuous fun p : ℝ × ℝ => f [p.1, p.2]) (h : refIntegral r (fun x => f x * f x) = 0) (x y : ℝ)
    (hxy : InCell r x y) : f [x, y] = 0 := by
  have hc : Continuous (Function.uncurry fun (y x : ℝ) => f [x, y] * f [x, y]) := by
    have : Continuous fun p : ℝ × ℝ => f [p.2, p.1] := hf.comp (continuous_snd.prodMk continuous_fst)
    exact this.mul this
  have hc1 : ∀ y, Continuous fun x => f [x, y] * f [x, y] := fun y => hc.comp (Continuous.prodMk_right y)
  rcases hr with rfl | rfl
  · have hin : ∀ y ∈ Set.Icc (0 : ℝ) 1, ∫ x in (0 : ℝ)..(1 - y), f [x, y] * f [x, y] = 0 := by
      refine integral_zero_imp one_pos ?_ (fun y hy => ?_) h
      · exact intervalIntegral.continuous_parametric_intervalIntegral_of_continuous hc (by fun_prop)
      · exact intervalIntegral.integral_nonneg (by linarith [hy.2]) fun x _ => mul_self_nonneg _
    have hlt : ∀ x y : ℝ, 0 ≤ x → 0 ≤ y → x + y ≤ 1 → y < 1 → f [x, y] = 0 := by
      intro x y hx hy hs hy1
      exact mul_self_eq_zero.1 (integral_zero_imp (by linarith : (0 : ℝ) < 1 - y) (hc1 y) (fun _ _ => mul_self_nonneg _)
        (hin y ⟨hy, hy1.le⟩) x ⟨hx, by linarith⟩)
    obtain ⟨hx, hy, hs⟩ := hxy
    rcases lt_or_eq_of_le (show y ≤ 1 by linarith) with h1 | h1
    · exact hlt x y hx hy hs h1
    · obtain rfl : x = 0 := by linarith
      subst h1
      have hcont : Continuous fun y : ℝ => f [0, y] := hf.comp (Continuous.prodMk_right 0)
      have hcl : Set.EqOn (fun y : ℝ => f [0, y]) (fun _ => 0) (closure (Set.Ico (0 : ℝ) 1)) :=
        Set.EqOn.closure (fun y hy => hlt 0 y le_rfl hy.1 (by linarith [hy.2]) hy.2) hcont continuous_const
      rw [closure_Ico (by norm_num)] at hcl
      exact hcl ⟨zero_le_one, le_rfl⟩
  · have hin : ∀ y ∈ Set.Icc (0 : ℝ) 1, ∫ x in (0 : ℝ)..1, f [x, y] * f [x, y] = 0 := by
      refine integral_zero_imp one_pos ?_ (fun y hy => ?_) h
      · exact intervalIntegral.continuous_parametric_intervalIntegral_of_continuous hc (by fun_prop)
      · exact intervalIntegral.integral_nonneg zero_le_one fun x _ => mul_self_nonneg _
    obtain ⟨hx, hx1, hy, hy1⟩ := hxy
    exact mul_self_eq_zero.1 (integral_zero_imp one_pos (hc1 y) (fun _ _ => mul_self_nonneg _)
      (hin y ⟨hy, hy1⟩) x ⟨hx, hx1⟩)

/-- The nodes of the Lagrangian elements lie in the reference element. -/
theorem lagrFE_nodes_inCell (p : ℕ) (hp : 1 ≤ p ∧ p ≤ 3) (r : RefEl) (hr : r = .tria ∨ r = .quad) :
    ∀ n ∈ (lagrFE p r : RefFE ℝ).nodes, InCell r (n.getD 0 0) (n.getD 1 0) := by
  obtain ⟨h1, h3⟩ := hp
  interval_cases p <;> rcases hr with rfl | rfl <;>
    simp [lagrFE, lagrO1Tria, lagrO1Quad, lagrO2Tria, lagrO2Quad, lagrO3Tria, lagrO3Quad, InCell] <;> norm_num

/-- The polynomial space: combinations of the shape functions. -/
theorem combine_poly {fe : RefFE ℝ} (hk : fe.ref = .tria ∨ fe.ref = .quad) (hp : fe.Polynomial) (c : Fin fe.num → ℝ) :
    IsPolyOn fe.ref fe.degree (fe.combine c) := by
  have : ∀ n (hn : n ≤ fe.num), IsPolyOn fe.ref fe.degree fun x => ∑ i : Fin n, c ⟨i, i.isLt.trans_le hn⟩ * fe.shape i x := by
    intro n
    induction n with
    | zero =>
      intro _
      simp only [Finset.univ_eq_empty, Finset.sum_empty]
      rcases hk with h | h <;> rw [h] <;> exact ⟨fun _ _ => 0, fun x y => by simp⟩
    | succ n ih =>
      intro hn
      simp only [Fin.sum_univ_castSucc]
      exact IsPolyOn.add hk (ih (by omega)) (IsPolyOn.smul hk _ (hp n (by omega)))
  exact this fe.num le_rfl

/-- A Lagrangian function which vanishes in the cell has coefficients zero. -/
theorem lagr_combine_zero (p : ℕ) (hp : 1 ≤ p ∧ p ≤ 3) {fe : RefFE ℝ} {r : RefEl} (hr : r = .tria ∨ r = .quad)
    (hfe : fe = lagrFE p r) (c : Fin fe.num → ℝ) (h : ∀ x y, InCell r x y → fe.combine c [x, y] = 0) : c = 0 := by
  subst hfe
  have hL := lagrFE_isLagrange p hp r (by rcases hr with h | h <;> rw [h] <;> simp)
  obtain ⟨hl, hd, hc⟩ := hL.cardinal
  have href : (lagrFE p r : RefFE ℝ).ref.dimension = 2 := by
    obtain ⟨h1, h3⟩ := hp
    interval_cases p <;> rcases hr with rfl | rfl <;> rfl
  funext j
  have hj : j.val < (lagrFE p r : RefFE ℝ).nodes.length := j.isLt.trans_eq hl.symm
  have hmem : (lagrFE p r : RefFE ℝ).nodes.getD j.val [] ∈ (lagrFE p r : RefFE ℝ).nodes := by
    rw [List.getD_eq_getElem _ _ hj]
    exact List.getElem_mem _
  have h2 := (hd _ hmem).trans href
  obtain ⟨x, y, hxy⟩ := List.length_eq_two.1 h2
  have hin := lagrFE_nodes_inCell p hp r hr _ hmem
  rw [hxy] at hin
  have := h x y hin
  rw [← hxy, RefFE.combine, Finset.sum_eq_single j] at this
  · rw [hc j.val j.isLt j.val j.isLt, if_pos rfl, mul_one] at this
    exact this
  · intro i _ hne
    rw [hc i.val i.isLt j.val j.isLt, if_neg fun h => hne (Fin.ext h), mul_zero]
  · intro h
    exact absurd (Finset.mem_univ j) h

/-- Derivatives of combinations of shape functions. -/
theorem combine_hasDerivAt {fe : RefFE ℝ} (hg : fe.GradCorrect) (hd : fe.ref.dimension = 2) (c : Fin fe.num → ℝ)
    (x : List ℝ) (hx : x.length = 2) (k : ℕ) (hk : k < 2) :
    HasDerivAt (fun t => fe.combine c (x.set k t)) (∑ i, c i * (fe.gradAt i.val x).getD k 0) (x.getD k 0) := by
  obtain ⟨v, hv, hl, hder⟩ := hg x (hx.trans hd.symm)
  refine HasDerivAt.fun_sum fun i _ => HasDerivAt.const_mul _ ?_
  have := (hder i.val i.isLt).2 k (by omega)
  rw [RefFE.gradAt, hv]
  exact this

/-- If both partial derivatives vanish in the cell, then the function is constant there. -/
theorem combine_const_of_grad {fe : RefFE ℝ} {r : RefEl} (hr : r = .tria ∨ r = .quad) (hg : fe.GradCorrect)
    (hd : fe.ref.dimension = 2) (c : Fin fe.num → ℝ)
    (h : ∀ k < 2, ∀ x y, InCell r x y → ∑ i, c i * (fe.gradAt i.val [x, y]).getD k 0 = 0) (x y : ℝ) (hxy : InCell r x y) :
    fe.combine c [x, y] = fe.combine c [0, 0] := by
  have hx0 : ∀ t ∈ Set.Icc 0 x, InCell r t 0 := by
    intro t ht
    rcases hr with rfl | rfl
    · exact ⟨ht.1, le_rfl, by linarith [ht.2, hxy.2.1, hxy.2.2]⟩
    · exact ⟨ht.1, ht.2.trans hxy.2.1, le_rfl, zero_le_one⟩
  have hy0 : ∀ t ∈ Set.Icc 0 y, InCell r x t := by
    intro t ht
    rcases hr with rfl | rfl
    · exact ⟨hxy.1, ht.1, by linarith [ht.2, hxy.2.2]⟩
    · exact ⟨hxy.1, hxy.2.1, ht.1, ht.2.trans hxy.2.2.2⟩
  have hxn : 0 ≤ x := by rcases hr with rfl | rfl <;> exact hxy.1
  have hyn : 0 ≤ y := by
    rcases hr with rfl | rfl
    · exact hxy.2.1
    · exact hxy.2.2.1
  have d0 : ∀ t, HasDerivAt (fun s => fe.combine c [s, 0]) (∑ i, c i * (fe.gradAt i.val [t, 0]).getD 0 0) t := fun t =>
    combine_hasDerivAt hg hd c [t, 0] rfl 0 (by norm_num)
  have d1 : ∀ t, HasDerivAt (fun s => fe.combine c [x, s]) (∑ i, c i * (fe.gradAt i.val [x, t]).getD 1 0) t := fun t =>
    combine_hasDerivAt hg hd c [x, t] rfl 1 (by norm_num)
  have s1 := constant_of_has_deriv_right_zero (f := fun s => fe.combine c [s, 0]) (a := 0) (b := x)
    (fun t _ => (d0 t).continuousAt.continuousWithinAt) (fun t ht => by
      have := d0 t
      rw [h 0 (by norm_num) t 0 (hx0 t ⟨ht.1, ht.2.le⟩)] at this
      exact this.hasDerivWithinAt) x ⟨hxn, le_rfl⟩
  have s2 := constant_of_has_deriv_right_zero (f := fun s => fe.combine c [x, s]) (a := 0) (b := y)
    (fun t _ => (d1 t).continuousAt.continuousWithinAt) (fun t ht => by
      have := d1 t
      rw [h 1 (by norm_num) x t (hy0 t ⟨ht.1, ht.2.le⟩)] at this
      exact this.hasDerivWithinAt) y ⟨hyn, le_rfl⟩
  exact s2.trans s1

theorem combine_grad_poly {fe : RefFE ℝ} (hk : fe.ref = .tria ∨ fe.ref = .quad) (hp : fe.Polynomial) (hg : fe.GradCorrect)
    (c : Fin fe.num → ℝ) (k : ℕ) (hk2 : k < 2) :
    IsPolyOn fe.ref fe.degree fun x => ∑ i, c i * (fe.gradAt i.val x).getD k 0 :=
  IsPolyOn.deriv hk (combine_poly hk hp c) hk2 fun x hx =>
    combine_hasDerivAt hg (by rcases hk with h | h <;> rw [h] <;> rfl) c x hx k hk2

/-- A Lagrangian function which is constant in the cell has equal coefficients. -/
theorem lagr_combine_const (p : ℕ) (hp : 1 ≤ p ∧ p ≤ 3) {fe : RefFE ℝ} {r : RefEl} (hr : r = .tria ∨ r = .quad)
    (hfe : fe = lagrFE p r) (c : Fin fe.num → ℝ) (K : ℝ) (h : ∀ x y, InCell r x y → fe.combine c [x, y] = K) (j : Fin fe.num) :
    c j = K := by
  have hL : fe.IsLagrange := hfe ▸ lagrFE_isLagrange p hp r (by rcases hr with h | h <;> rw [h] <;> simp)
  have href : fe.ref.dimension = 2 := by
    rw [hfe]
    obtain ⟨h1, h3⟩ := hp
    interval_cases p <;> rcases hr with rfl | rfl <;> rfl
  have := lagr_combine_zero p hp hr hfe (fun i => c i - K) fun x y hxy => by
    have h1 : fe.combine (fun i => c i - K) [x, y] = fe.combine c [x, y] - K * ∑ i : Fin fe.num, fe.shape i.val [x, y] := by
      simp only [RefFE.combine, sub_mul, Finset.sum_sub_distrib, Finset.mul_sum]
    rw [h1, h x y hxy, sum_fin_range fe.num fun i => fe.shape i [x, y], hL.sumsToOne [x, y] (by rw [href]; rfl)]
    ring
  have := congrFun this j
  simp only [Pi.zero_apply] at this
  linarith

theorem pushGrad_inj {w : ℕ} {g : Geo ℝ w} (hd : g.kind.dimension = 2) {x : List ℝ} {cols : List (Vec ℝ w)}
    (hJ : g.jacobian x = some cols) (hr : ((matrix 2 cols).transpose * matrix 2 cols).det ≠ 0) (a b : ℝ)
    (h : g.pushGrad x [a, b] = 0) : a = 0 ∧ b = 0 := by
  have hgen : ∀ n, n = 2 → (matrix n cols * ((matrix n cols).transpose * matrix n cols)⁻¹).mulVec
      (fun k => ([a, b] : List ℝ).getD k.val 0) = 0 → a = 0 ∧ b = 0 := by
    rintro n rfl h0
    have h1 := congrArg (fun v => (matrix 2 cols).transpose.mulVec v) h0
    simp only [Matrix.mulVec_mulVec, Matrix.mulVec_zero] at h1
    rw [← Matrix.mul_assoc, Matrix.mul_nonsing_inv _ (isUnit_iff_ne_zero.2 hr), Matrix.one_mulVec] at h1
    exact ⟨congrFun h1 0, congrFun h1 1⟩
  refine hgen _ hd ?_
  rw [Geo.pushGrad, hJ] at h
  exact h

end Verif
