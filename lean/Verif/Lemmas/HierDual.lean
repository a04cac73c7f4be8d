import Verif.Lemmas.HierGrad
import Verif.Lemmas.PolyFn
import Verif.Lemmas.Quad
import Verif.Spec.Hierarchic

/-!
# Dual functionals of the hierarchic elements
-/

namespace Verif
open HierQuad

theorem fn1D_ortho (i k : ℕ) : ∫ x in (0 : ℝ)..1, legendre (i + 1) x 1 * fn1D k x =
    if k = i + 2 then (1 : ℝ) / (2 * i + 3) else 0 := by
  have h0 : ∫ x in (0 : ℝ)..1, legendre (i + 1) x 1 = 0 := by
    have := legendre_orthogonal (m := i + 1) (n := 0) (by omega)
    simpa [legendre_zero] using this
  match k with
  | 0 =>
    rw [if_neg (by omega)]
    simp only [fn1D]
    rw [intervalIntegral.integral_mul_const, h0, zero_mul]
  | 1 =>
    rw [if_neg (by omega)]
    simp only [fn1D]
    rw [intervalIntegral.integral_mul_const, h0, zero_mul]
  | k + 2 =>
    simp only [fn1D, iLegendreDx]
    rw [show k + 2 - 1 = k + 1 by omega]
    split
    · rename_i h
      obtain rfl : k = i := by omega
      rw [legendre_norm]
      push_cast
      ring
    · exact legendre_orthogonal (by omega)

theorem fn1D_continuous (k : ℕ) : Continuous (fn1D k : ℝ → ℝ) := by
  match k with
  | 0 => exact continuous_const
  | 1 => exact continuous_const
  | k + 2 => exact legendre_continuous (k + 1) 1

theorem PolyFn.fn1 (k p : ℕ) (h : k ≤ p) (hp : 1 ≤ p) : PolyFn p (fn1 k) := by
  match k with
  | 0 => exact (PolyFn.const p 1).sub (PolyFn.id p hp)
  | 1 => exact PolyFn.id p hp
  | k + 2 => exact (PolyFn.iLegendre k 1).mono h

/-- The dual functional in terms of integrals. -/
theorem segDual_eq (q : QuadRule ℝ) (hr : q.ref = .segment) (D : ℕ) (hD : q.ExactFor D)
    (i d : ℕ) (hid : i + d ≤ D) (f f' : ℝ → ℝ) (hf : PolyFn d f) (hd : ∀ x, HasDerivAt f (f' x) x)
    (hc : Continuous f') :
    segDual q (i + 2) (f 0) (f 1) (q.points.map fun x => f (x.getD 0 0)) =
      (2 * i + 3) * ∫ x in (0 : ℝ)..1, legendre (i + 1) x 1 * f' x := by
  have hbp := by_parts 0 1 (fun x => legendre_hasDeriv (i + 1) x 1) hd (legendreDx_continuous (i + 1) 1) hc
  have hint : (List.zipWith (· * ·) (List.zipWith (· * ·) q.weights
      (q.points.map fun x => legendreDx (i + 1) (x.getD 0 0) 1)) (q.points.map fun x => f (x.getD 0 0))).sum =
      ∫ x in (0 : ℝ)..1, legendreDx (i + 1) x 1 * f x := by
    have h1 : PolyFn D fun x => legendreDx (i + 1) x 1 * f x :=
      (PolyFn.legendreDx (i + 1) 1).mul hf (by simpa using hid)
    have h2 := hD (fun p => legendreDx (i + 1) (p.getD 0 0) 1 * f (p.getD 0 0)) (by
      rw [hr]; exact PolyFn.isPolyOn (f := fun p => legendreDx (i + 1) (p.getD 0 0) 1 * f (p.getD 0 0)) h1)
    rw [hr] at h2
    change q.integrate _ = ∫ x in (0 : ℝ)..1, legendreDx (i + 1) x 1 * f x at h2
    rw [← h2, QuadRule.integrate]
    congr 1
    generalize q.weights = w
    generalize q.points = P
    induction P generalizing w with
    | nil => simp
    | cons p P ih =>
      cases w with
      | nil => simp
      | cons a w =>
        simp only [List.map_cons, List.zipWith_cons_cons, ih, mul_assoc]
  unfold segDual
  simp only [iLegendreDx, show i + 2 - 1 = i + 1 by omega]
  rw [hint, hbp]
  rw [show 2 * (i + 2) - 1 = 2 * i + 3 by omega]
  push_cast
  ring

/-- A linear combination of the shape functions on a segment. -/
noncomputable def lin1 (n : ℕ) (c : ℕ → ℝ) (x : ℝ) : ℝ := ∑ i ∈ Finset.range n, c i * fn1 i x

theorem lin1_poly (p : ℕ) (hp : 1 ≤ p) (c : ℕ → ℝ) : PolyFn p (lin1 (p + 1) c) :=
  PolyFn.sum _ fun i hi => (PolyFn.fn1 i p (by rw [Finset.mem_range] at hi; omega) hp).smul (c i)

theorem lin1_hasDeriv (n : ℕ) (c : ℕ → ℝ) (x : ℝ) :
    HasDerivAt (lin1 n c) (∑ i ∈ Finset.range n, c i * fn1D i x) x := by
  unfold lin1
  exact HasDerivAt.fun_sum fun i _ => (fn1_hasDeriv i x).const_mul (c i)

theorem fn1_at_zero (i : ℕ) : fn1 i (0 : ℝ) = if i = 0 then 1 else 0 := by
  match i with
  | 0 => simp [fn1]
  | 1 => simp [fn1]
  | i + 2 => simp [fn1, iLegendre_left]

theorem fn1_at_one (i : ℕ) : fn1 i (1 : ℝ) = if i = 1 then 1 else 0 := by
  match i with
  | 0 => simp [fn1]
  | 1 => simp [fn1]
  | i + 2 => simp [fn1, iLegendre_right]

theorem lin1_zero (p : ℕ) (c : ℕ → ℝ) : lin1 (p + 1) c 0 = c 0 := by
  simp [lin1, fn1_at_zero]

theorem lin1_one (p : ℕ) (hp : 1 ≤ p) (c : ℕ → ℝ) : lin1 (p + 1) c 1 = c 1 := by
  simp [lin1, fn1_at_one]; omega

/-- The functionals are dual to the shape functions. -/
theorem segDual_lin1 (q : QuadRule ℝ) (hr : q.ref = .segment) (D : ℕ) (hD : q.ExactFor D)
    (p i : ℕ) (hi : i + 1 < p) (hid : i + p ≤ D) (c : ℕ → ℝ) :
    segDual q (i + 2) (lin1 (p + 1) c 0) (lin1 (p + 1) c 1) (q.points.map fun x => lin1 (p + 1) c (x.getD 0 0)) =
      c (i + 2) := by
  have hcont : Continuous fun x => ∑ i ∈ Finset.range (p + 1), c i * fn1D i x :=
    continuous_finsetSum _ fun i _ => continuous_const.mul (fn1D_continuous i)
  rw [segDual_eq q hr D hD i p hid _ _ (lin1_poly p (by omega) c) (lin1_hasDeriv _ c) hcont]
  have : ∀ x : ℝ, legendre (i + 1) x 1 * ∑ k ∈ Finset.range (p + 1), c k * fn1D k x =
      ∑ k ∈ Finset.range (p + 1), c k * (legendre (i + 1) x 1 * fn1D k x) := fun x => by
    rw [Finset.mul_sum]
    exact Finset.sum_congr rfl fun k _ => by ring
  simp only [this]
  rw [intervalIntegral.integral_finsetSum fun k _ => ((by
    have := legendre_continuous (i + 1) 1
    have := fn1D_continuous k
    fun_prop : Continuous fun x => c k * (legendre (i + 1) x 1 * fn1D k x)).intervalIntegrable _ _)]
  simp only [intervalIntegral.integral_const_mul, fn1D_ortho]
  rw [Finset.sum_eq_single (i + 2)]
  · rw [if_pos rfl]
    have : (2 * (i : ℝ) + 3) ≠ 0 := by positivity
    field_simp
  · intro k _ hk
    rw [if_neg hk, mul_zero]
  · intro h
    rw [Finset.mem_range] at h
    omega

theorem hierSegment_shape (p : ℕ) (hp : 1 ≤ p) (q : QuadRule ℝ) (i : ℕ) (hi : i ≤ p) (x : ℝ) :
    (hierSegment p q).shape i [x] = fn1 i x := by
  rw [RefFE.shape, hierSegment_eval p hp, Option.getD_some, List.getD_eq_getElem?_getD,
    segShapes_get p x i hi hp]; rfl

theorem hierSegment_dual (p : ℕ) (hp : 1 ≤ p) (q : QuadRule ℝ) (hr : q.ref = .segment) (hw : q.WellFormed)
    (hD : q.ExactFor (2 * (p - 1))) : (hierSegment p q).Dual := by
  intro c hc
  change c.length = p + 1 at hc
  have hpt : ∀ x : List ℝ, x.length = 1 → ∑ i ∈ Finset.range (p + 1), c.getD i 0 * (hierSegment p q).shape i x =
      lin1 (p + 1) (fun i => c.getD i 0) (x.getD 0 0) := by
    intro x hx
    obtain ⟨x, rfl⟩ := List.length_eq_one_iff.mp hx
    refine Finset.sum_congr rfl fun i hi => ?_
    rw [hierSegment_shape p hp q i (by rw [Finset.mem_range] at hi; omega)]
    rfl
  have hnodes : (hierSegment p q).nodes.map (fun x => ∑ i ∈ Finset.range (p + 1),
      c.getD i 0 * (hierSegment p q).shape i x) =
      [lin1 (p + 1) (fun i => c.getD i 0) 0, lin1 (p + 1) (fun i => c.getD i 0) 1] ++
        q.points.map fun x => lin1 (p + 1) (fun i => c.getD i 0) (x.getD 0 0) := by
    change ([[0], [1]] ++ q.points).map _ = _
    rw [List.map_append]
    congr 1
    · simp only [List.map_cons, List.map_nil]
      rw [hpt [0] rfl, hpt [1] rfl]
      rfl
    · apply List.map_congr_left
      intro x hx
      exact hpt x (by have := hw.1 x hx; rwa [hr] at this)
  change (hierSegment p q).toDofs (List.map (fun x => ∑ i ∈ Finset.range (p + 1), _) _) = _
  rw [hnodes, hierSegment_toDofs p hp q _ _ _ (by simp [QuadRule.numPoints])]
  congr 1
  apply List.ext_getElem
  · simp [hc]; omega
  · intro k h1 h2
    match k with
    | 0 => simp [lin1_zero, h2]
    | 1 => simp [lin1_one p hp, h2]
    | k + 2 =>
      simp only [List.cons_append, List.nil_append, List.getElem_cons_succ, List.getElem_map, List.getElem_range]
      rw [segDual_lin1 q hr _ hD p k (by omega) (by omega)]
      simp [h2]

end Verif
