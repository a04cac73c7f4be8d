import Mathlib.Analysis.Calculus.Deriv.Mul
import Mathlib.Analysis.Calculus.Deriv.Add
import Mathlib.Tactic.Ring
import Mathlib.Tactic.NormNum
import Mathlib.Tactic.IntervalCases
import Mathlib.Tactic.FinCases
import Mathlib.Tactic.LinearCombination
import Mathlib.Tactic.FieldSimp
import Mathlib.Data.List.GetD
import Mathlib.Data.List.ProdSigma
import Mathlib.Algebra.BigOperators.Fin
import Verif.Spec.ScalarFE

/-!
# Lemmas for the Lagrangian elements
-/

namespace Verif
open Finset RefFE

/-- Differentiate sums, differences, products of constants and the variable. -/
macro "hasderiv" : tactic => `(tactic|
  repeat' first
    | exact hasDerivAt_const _ _
    | exact hasDerivAt_id' _
    | apply HasDerivAt.fun_mul
    | apply HasDerivAt.fun_add
    | apply HasDerivAt.fun_sub
    | apply HasDerivAt.fun_neg)

/-- Reproduction of monomials implies reproduction of polynomials. -/
theorem RefFE.reproduces_tria (fe : RefFE ℝ) (hr : fe.ref = .tria)
    (hd : fe.toDofs = RefFE.nodalValuesToDofs fe.num) (hn : fe.nodes.length = fe.num)
    (hn2 : ∀ p ∈ fe.nodes, p.length = 2)
    (h : ∀ a b, a + b ≤ fe.degree → ∀ x y,
      ∑ i ∈ range fe.num, (((fe.nodes.getD i []).getD 0 0) ^ a * ((fe.nodes.getD i []).getD 1 0) ^ b) *
        fe.shape i [x, y] = x ^ a * y ^ b) : fe.Reproduces := by
  intro f hf
  refine ⟨fe.nodes.map f, ?_, by simpa using hn, ?_⟩
  · rw [hd]
    simp [RefFE.nodalValuesToDofs, hn]
  · intro X hX
    rw [hr] at hX hf
    obtain ⟨c, hc⟩ := hf
    match X, hX with
    | [x, y], _ =>
      have key : ∀ i ∈ range fe.num, (fe.nodes.map f).getD i 0 * fe.shape i [x, y] =
          ∑ a ∈ range (fe.degree + 1), ∑ b ∈ range (fe.degree + 1 - a), c a b *
            ((((fe.nodes.getD i []).getD 0 0) ^ a * ((fe.nodes.getD i []).getD 1 0) ^ b) *
              fe.shape i [x, y]) := by
        intro i hi
        have hi' : i < fe.nodes.length := by rw [hn]; exact mem_range.mp hi
        have h1 : (fe.nodes.map f).getD i 0 = f (fe.nodes.getD i []) := by
          rw [List.getD_eq_getElem _ _ (by simpa using hi'), List.getD_eq_getElem _ _ hi']
          simp
        have h2 := hn2 _ (List.getElem_mem hi')
        rw [← List.getD_eq_getElem _ [] hi'] at h2
        rw [h1]
        generalize fe.nodes.getD i [] = p at h2 ⊢
        match p, h2 with
        | [p0, p1], _ =>
          rw [hc]
          simp only [sum_mul, List.getD_cons_zero, List.getD_cons_succ]
          exact sum_congr rfl fun a _ => sum_congr rfl fun b _ => by ring
      rw [sum_congr rfl key, sum_comm, hc]
      refine sum_congr rfl fun a ha => ?_
      rw [sum_comm]
      refine sum_congr rfl fun b hb => ?_
      rw [← mul_sum, h a b (by
        have := mem_range.mp ha; have := mem_range.mp hb; omega)]

theorem RefFE.reproduces_quad (fe : RefFE ℝ) (hr : fe.ref = .quad)
    (hd : fe.toDofs = RefFE.nodalValuesToDofs fe.num) (hn : fe.nodes.length = fe.num)
    (hn2 : ∀ p ∈ fe.nodes, p.length = 2)
    (h : ∀ a b, a ≤ fe.degree → b ≤ fe.degree → ∀ x y,
      ∑ i ∈ range fe.num, (((fe.nodes.getD i []).getD 0 0) ^ a * ((fe.nodes.getD i []).getD 1 0) ^ b) *
        fe.shape i [x, y] = x ^ a * y ^ b) : fe.Reproduces := by
  intro f hf
  refine ⟨fe.nodes.map f, ?_, by simpa using hn, ?_⟩
  · rw [hd]
    simp [RefFE.nodalValuesToDofs, hn]
  · intro X hX
    rw [hr] at hX hf
    obtain ⟨c, hc⟩ := hf
    match X, hX with
    | [x, y], _ =>
      have key : ∀ i ∈ range fe.num, (fe.nodes.map f).getD i 0 * fe.shape i [x, y] =
          ∑ a ∈ range (fe.degree + 1), ∑ b ∈ range (fe.degree + 1), c a b *
            ((((fe.nodes.getD i []).getD 0 0) ^ a * ((fe.nodes.getD i []).getD 1 0) ^ b) *
              fe.shape i [x, y]) := by
        intro i hi
        have hi' : i < fe.nodes.length := by rw [hn]; exact mem_range.mp hi
        have h1 : (fe.nodes.map f).getD i 0 = f (fe.nodes.getD i []) := by
          rw [List.getD_eq_getElem _ _ (by simpa using hi'), List.getD_eq_getElem _ _ hi']
          simp
        have h2 := hn2 _ (List.getElem_mem hi')
        rw [← List.getD_eq_getElem _ [] hi'] at h2
        rw [h1]
        generalize fe.nodes.getD i [] = p at h2 ⊢
        match p, h2 with
        | [p0, p1], _ =>
          rw [hc]
          simp only [sum_mul, List.getD_cons_zero, List.getD_cons_succ]
          exact sum_congr rfl fun a _ => sum_congr rfl fun b _ => by ring
      rw [sum_congr rfl key, sum_comm, hc]
      refine sum_congr rfl fun a ha => ?_
      rw [sum_comm]
      refine sum_congr rfl fun b hb => ?_
      rw [← mul_sum, h a b (by have := mem_range.mp ha; omega) (by have := mem_range.mp hb; omega)]

theorem RefFE.reproduces_segment (fe : RefFE ℝ) (hr : fe.ref = .segment)
    (hd : fe.toDofs = RefFE.nodalValuesToDofs fe.num) (hn : fe.nodes.length = fe.num)
    (hn2 : ∀ p ∈ fe.nodes, p.length = 1)
    (h : ∀ a, a ≤ fe.degree → ∀ x,
      ∑ i ∈ range fe.num, (((fe.nodes.getD i []).getD 0 0) ^ a) * fe.shape i [x] = x ^ a) :
    fe.Reproduces := by
  intro f hf
  refine ⟨fe.nodes.map f, ?_, by simpa using hn, ?_⟩
  · rw [hd]
    simp [RefFE.nodalValuesToDofs, hn]
  · intro X hX
    rw [hr] at hX hf
    obtain ⟨c, hc⟩ := hf
    match X, hX with
    | [x], _ =>
      have key : ∀ i ∈ range fe.num, (fe.nodes.map f).getD i 0 * fe.shape i [x] =
          ∑ a ∈ range (fe.degree + 1), c a *
            ((((fe.nodes.getD i []).getD 0 0) ^ a) * fe.shape i [x]) := by
        intro i hi
        have hi' : i < fe.nodes.length := by rw [hn]; exact mem_range.mp hi
        have h1 : (fe.nodes.map f).getD i 0 = f (fe.nodes.getD i []) := by
          rw [List.getD_eq_getElem _ _ (by simpa using hi'), List.getD_eq_getElem _ _ hi']
          simp
        have h2 := hn2 _ (List.getElem_mem hi')
        rw [← List.getD_eq_getElem _ [] hi'] at h2
        rw [h1]
        generalize fe.nodes.getD i [] = p at h2 ⊢
        match p, h2 with
        | [p0], _ =>
          rw [hc]
          simp only [sum_mul, List.getD_cons_zero]
          exact sum_congr rfl fun a _ => by ring
      rw [sum_congr rfl key, sum_comm, hc]
      refine sum_congr rfl fun a ha => ?_
      rw [← mul_sum, h a (by have := mem_range.mp ha; omega)]


/-- A product of two polynomials in one variable each is a polynomial on the quadrilateral. -/
theorem poly_tensor {d : ℕ} {g h f : List ℝ → ℝ} (hg : IsPolyOn .segment d g)
    (hh : IsPolyOn .segment d h) (hf : ∀ x y, f [x, y] = g [x] * h [y]) : IsPolyOn .quad d f := by
  obtain ⟨c, hc⟩ := hg
  obtain ⟨c', hc'⟩ := hh
  refine ⟨fun a b => c a * c' b, fun x y => ?_⟩
  rw [hf, hc, hc', sum_mul_sum]
  exact sum_congr rfl fun a _ => sum_congr rfl fun b _ => by ring
theorem mapM_some_map {α β : Type} (l : List α) (f : α → Option β) (g : α → β)
    (h : ∀ a ∈ l, f a = some (g a)) : l.mapM f = some (l.map g) := by
  induction l with
  | nil => rfl
  | cons a l ih =>
    rw [List.mapM_cons, h a (by simp), ih fun b hb => h b (by simp [hb])]
    rfl

theorem getElem?_getD {α : Type} (l : List α) (i : ℕ) (d : α) (h : i < l.length) :
    l[i]? = some (l.getD i d) := by
  rw [List.getD_eq_getElem _ _ h, List.getElem?_eq_getElem h]

theorem map_getD {α β : Type} (f : α → β) (l : List α) (i : ℕ) (d : β) (d' : α) (h : i < l.length) :
    (l.map f).getD i d = f (l.getD i d') := by
  rw [List.getD_eq_getElem _ _ (by simpa using h), List.getD_eq_getElem _ _ h]
  simp

/-- A tensor product element inherits its properties from the element on the segment. -/
theorem tensor_isLagrange (seg fe : RefFE ℝ) (m : List (ℕ × ℕ)) (hs : seg.IsLagrange)
    (hsr : seg.ref = .segment) (hr : fe.ref = .quad) (hdeg : fe.degree = seg.degree)
    (hnum : fe.num = m.length)
    (hm : m.Perm (List.product (List.range seg.num) (List.range seg.num)))
    (he : fe.eval = tensorFEEval seg m) (hg : fe.grad = tensorFEGrad seg m)
    (hn : fe.nodes = m.map fun p => [(seg.nodes.getD p.1 []).getD 0 0, (seg.nodes.getD p.2 []).getD 0 0])
    (hd : fe.toDofs = RefFE.nodalValuesToDofs fe.num) (hsd : seg.toDofs = RefFE.nodalValuesToDofs seg.num)
    (hc : fe.CountsConsistent) : fe.IsLagrange := by
  have hmem : ∀ p ∈ m, p.1 < seg.num ∧ p.2 < seg.num := by
    intro p hp
    have := hm.mem_iff.mp hp
    rw [show p = (p.1, p.2) from rfl, List.pair_mem_product] at this
    simpa using this
  have hnd : m.Nodup := hm.nodup_iff.mpr (List.Nodup.product List.nodup_range List.nodup_range)
  have hev : ∀ x y, fe.eval [x, y] = some (m.map fun p => seg.shape p.1 [x] * seg.shape p.2 [y]) := by
    intro x y
    obtain ⟨vx, hx, hxl⟩ := hs.evaluates.1 [x] (by rw [hsr]; rfl)
    obtain ⟨vy, hy, hyl⟩ := hs.evaluates.1 [y] (by rw [hsr]; rfl)
    rw [he]
    simp only [tensorFEEval, hx, hy, Option.bind_some]
    rw [tensorEval, mapM_some_map]
    intro p hp
    obtain ⟨h1, h2⟩ := hmem p hp
    rw [getElem?_getD vx p.1 0 (by omega), getElem?_getD vy p.2 0 (by omega)]
    simp [shape, hx, hy]
  have hsh : ∀ i, i < fe.num → ∀ x y, fe.shape i [x, y] =
      seg.shape (m.getD i (0, 0)).1 [x] * seg.shape (m.getD i (0, 0)).2 [y] := by
    intro i hi x y
    rw [shape, hev, Option.getD_some, map_getD _ _ _ _ (0, 0) (by omega)]
  have hin : ∀ i, i < fe.num → (m.getD i (0, 0)).1 < seg.num ∧ (m.getD i (0, 0)).2 < seg.num := by
    intro i hi
    apply hmem
    rw [List.getD_eq_getElem _ _ (by omega)]
    exact List.getElem_mem _
  have hsum : ∀ F : ℕ × ℕ → ℝ, ∑ i ∈ range fe.num, F (m.getD i (0, 0)) =
      ∑ a ∈ range seg.num, ∑ b ∈ range seg.num, F (a, b) := by
    intro F
    have h1 : ∑ i ∈ range fe.num, F (m.getD i (0, 0)) = (m.map F).sum := by
      rw [hnum, ← Fin.sum_univ_eq_sum_range (fun i => F (m.getD i (0, 0))), ← Fin.sum_univ_fun_getElem]
      exact sum_congr rfl fun i _ => by rw [List.getD_eq_getElem _ _ i.2]
    rw [h1, (hm.map F).sum_eq]
    have h2 : ∀ n : ℕ, ∀ f : ℕ → ℝ, ((List.range n).map f).sum = ∑ i ∈ range n, f i := fun n f => rfl
    rw [List.product, List.map_flatMap, List.flatMap, List.sum_flatten, List.map_map, h2]
    refine sum_congr rfl fun a _ => ?_
    simp only [Function.comp, List.map_map]
    exact h2 _ _
  have hnode : ∀ i, i < fe.num → fe.nodes.getD i [] =
      [(seg.nodes.getD (m.getD i (0, 0)).1 []).getD 0 0, (seg.nodes.getD (m.getD i (0, 0)).2 []).getD 0 0] := by
    intro i hi
    rw [hn, map_getD _ _ _ _ (0, 0) (by omega)]
  have hsn : ∀ k, k < seg.num → [(seg.nodes.getD k []).getD 0 0] = seg.nodes.getD k [] := by
    intro k hk
    have hk' : k < seg.nodes.length := by rw [hs.cardinal.1]; exact hk
    have := hs.cardinal.2.1 (seg.nodes.getD k []) (by
      rw [List.getD_eq_getElem _ _ hk']; exact List.getElem_mem _)
    rw [hsr] at this
    generalize seg.nodes.getD k [] = p at this ⊢
    match p, this with
    | [a], _ => rfl
  refine ⟨?_, ?_, ?_, ?_, ?_, ?_, hc⟩
  · constructor
    · intro X hX
      rw [hr] at hX
      match X, hX with
      | [x, y], _ => exact ⟨_, hev x y, by simp [hnum]⟩
    · intro X hX
      rw [hr] at hX
      rw [he]
      match X, hX with
      | [], _ => rfl
      | [_], _ => rfl
      | [_, _], h => exact absurd rfl h
      | _ :: _ :: _ :: _, _ => rfl
  · refine ⟨by rw [hn, hnum]; simp, by
      rw [hn, hr]
      intro p hp
      obtain ⟨q, _, rfl⟩ := List.mem_map.mp hp
      rfl, fun i hi j hj => ?_⟩
    rw [hnode j hj, hsh i hi, hsn _ (hin j hj).1, hsn _ (hin j hj).2,
      hs.cardinal.2.2 _ (hin i hi).1 _ (hin j hj).1, hs.cardinal.2.2 _ (hin i hi).2 _ (hin j hj).2]
    have hinj : m.getD i (0, 0) = m.getD j (0, 0) ↔ i = j := by
      rw [List.getD_eq_getElem _ _ (by omega), List.getD_eq_getElem _ _ (by omega)]
      exact hnd.getElem_inj_iff
    rw [Prod.ext_iff] at hinj
    split_ifs <;> simp_all
  · intro X hX
    rw [hr] at hX
    match X, hX with
    | [x, y], _ =>
      rw [sum_congr rfl fun i hi => hsh i (mem_range.mp hi) x y,
        hsum fun p => seg.shape p.1 [x] * seg.shape p.2 [y]]
      simp only []
      rw [← sum_mul_sum,
        hs.sumsToOne [x] (by rw [hsr]; rfl), hs.sumsToOne [y] (by rw [hsr]; rfl), mul_one]
  · refine RefFE.reproduces_quad fe hr hd (by rw [hn, hnum]; simp) (by
      rw [hn]
      intro p hp
      obtain ⟨q, _, rfl⟩ := List.mem_map.mp hp
      rfl) ?_
    intro a b ha hb x y
    rw [hdeg] at ha hb
    have hmono : ∀ a, a ≤ seg.degree → ∀ x, ∑ i ∈ range seg.num,
        ((seg.nodes.getD i []).getD 0 0) ^ a * seg.shape i [x] = x ^ a := by
      intro a ha x
      obtain ⟨c, hc1, hc2, hc3⟩ := hs.reproduces (fun p => (p.getD 0 0) ^ a) (by
        rw [hsr]
        refine ⟨fun k => if k = a then 1 else 0, fun x => ?_⟩
        simp [ha, Nat.lt_succ_iff])
      have := hc3 [x] (by rw [hsr]; rfl)
      rw [hsd, RefFE.nodalValuesToDofs, if_pos (by simpa using hs.cardinal.1)] at hc1
      cases hc1
      simp only [List.getD_cons_zero] at this
      rw [← this]
      refine sum_congr rfl fun i hi => ?_
      rw [map_getD _ _ _ _ [] (by rw [hs.cardinal.1]; exact mem_range.mp hi)]
    rw [← hmono a ha x, ← hmono b hb y, sum_mul_sum, ← hsum fun p =>
      (((seg.nodes.getD p.1 []).getD 0 0) ^ a * seg.shape p.1 [x]) *
      (((seg.nodes.getD p.2 []).getD 0 0) ^ b * seg.shape p.2 [y])]
    refine sum_congr rfl fun i hi => ?_
    rw [hsh i (mem_range.mp hi), hnode i (mem_range.mp hi)]
    simp only [List.getD_cons_zero, List.getD_cons_succ]
    ring
  · intro i hi
    rw [hr, hdeg]
    have h1 := hs.polynomial _ (hin i hi).1
    have h2 := hs.polynomial _ (hin i hi).2
    rw [hsr] at h1 h2
    exact poly_tensor h1 h2 (hsh i hi)
  · intro X hX
    rw [hr] at hX
    match X, hX with
    | [x, y], _ =>
      obtain ⟨vx, hx, hxl⟩ := hs.evaluates.1 [x] (by rw [hsr]; rfl)
      obtain ⟨vy, hy, hyl⟩ := hs.evaluates.1 [y] (by rw [hsr]; rfl)
      obtain ⟨gx, hgx, hgxl, hgx2⟩ := hs.gradCorrect [x] (by rw [hsr]; rfl)
      obtain ⟨gy, hgy, hgyl, hgy2⟩ := hs.gradCorrect [y] (by rw [hsr]; rfl)
      rw [hsr] at hgx2 hgy2
      have hgr : fe.grad [x, y] = some (m.map fun p =>
          [(gx.getD p.1 []).getD 0 0 * seg.shape p.2 [y], (gy.getD p.2 []).getD 0 0 * seg.shape p.1 [x]]) := by
        rw [hg]
        simp only [tensorFEGrad, hx, hy, hgx, hgy, Option.bind_some]
        rw [tensorGrad, mapM_some_map]
        intro p hp
        obtain ⟨h1, h2⟩ := hmem p hp
        have l1 := (hgx2 p.1 h1).1
        have l2 := (hgy2 p.2 h2).1
        rw [getElem?_getD vx p.1 0 (by omega), getElem?_getD vy p.2 0 (by omega),
          getElem?_getD gx p.1 [] (by omega), getElem?_getD gy p.2 [] (by omega)]
        simp only [Option.bind_some]
        rw [getElem?_getD _ 0 0 (by rw [l1]; decide), getElem?_getD _ 0 0 (by rw [l2]; decide)]
        simp [shape, hx, hy]
      refine ⟨_, hgr, by simp [hnum], fun i hi => ?_⟩
      rw [map_getD _ _ _ _ (0, 0) (by omega), hr]
      refine ⟨rfl, fun k hk => ?_⟩
      change k < 2 at hk
      have d1 := (hgx2 _ (hin i hi).1).2 0 (by decide)
      have d2 := (hgy2 _ (hin i hi).2).2 0 (by decide)
      simp only [List.set_cons_zero, List.getD_cons_zero] at d1 d2
      interval_cases k
      · simp only [List.set_cons_zero, List.getD_cons_zero, hsh i hi]
        exact d1.mul_const _
      · simp only [List.set_cons_succ, List.set_cons_zero, List.getD_cons_zero, List.getD_cons_succ,
          hsh i hi]
        rw [mul_comm]
        exact d2.const_mul _

/-! ### Shape functions one by one -/

theorem lagrO1Segment_shape0 (x : ℝ) : shape lagrO1Segment 0 [x] = 1 - x := rfl
theorem lagrO1Segment_shape1 (x : ℝ) : shape lagrO1Segment 1 [x] = x := rfl
theorem lagrO1Segment_node0 : (lagrO1Segment : RefFE ℝ).nodes.getD 0 [] = [0] := rfl
theorem lagrO1Segment_node1 : (lagrO1Segment : RefFE ℝ).nodes.getD 1 [] = [1] := rfl
theorem lagrO1Tria_shape0 (x y : ℝ) : shape lagrO1Tria 0 [x, y] = 1 - x - y := rfl
theorem lagrO1Tria_shape1 (x y : ℝ) : shape lagrO1Tria 1 [x, y] = x := rfl
theorem lagrO1Tria_shape2 (x y : ℝ) : shape lagrO1Tria 2 [x, y] = y := rfl
theorem lagrO1Tria_node0 : (lagrO1Tria : RefFE ℝ).nodes.getD 0 [] = [0, 0] := rfl
theorem lagrO1Tria_node1 : (lagrO1Tria : RefFE ℝ).nodes.getD 1 [] = [1, 0] := rfl
theorem lagrO1Tria_node2 : (lagrO1Tria : RefFE ℝ).nodes.getD 2 [] = [0, 1] := rfl
theorem lagrO2Segment_shape0 (x : ℝ) : shape lagrO2Segment 0 [x] = 2 * (1 - x) * (1 / 2 - x) := rfl
theorem lagrO2Segment_shape1 (x : ℝ) : shape lagrO2Segment 1 [x] = 2 * x * (x - 1 / 2) := rfl
theorem lagrO2Segment_shape2 (x : ℝ) : shape lagrO2Segment 2 [x] = 4 * (1 - x) * x := rfl
theorem lagrO2Segment_node0 : (lagrO2Segment : RefFE ℝ).nodes.getD 0 [] = [0] := rfl
theorem lagrO2Segment_node1 : (lagrO2Segment : RefFE ℝ).nodes.getD 1 [] = [1] := rfl
theorem lagrO2Segment_node2 : (lagrO2Segment : RefFE ℝ).nodes.getD 2 [] = [1 / 2] := rfl
theorem lagrO2Tria_shape0 (x y : ℝ) : shape lagrO2Tria 0 [x, y] = 2 * (1 - x - y) * (1 / 2 - x - y) := rfl
theorem lagrO2Tria_shape1 (x y : ℝ) : shape lagrO2Tria 1 [x, y] = 2 * x * (x - 1 / 2) := rfl
theorem lagrO2Tria_shape2 (x y : ℝ) : shape lagrO2Tria 2 [x, y] = 2 * y * (y - 1 / 2) := rfl
theorem lagrO2Tria_shape3 (x y : ℝ) : shape lagrO2Tria 3 [x, y] = 4 * (1 - x - y) * x := rfl
theorem lagrO2Tria_shape4 (x y : ℝ) : shape lagrO2Tria 4 [x, y] = 4 * x * y := rfl
theorem lagrO2Tria_shape5 (x y : ℝ) : shape lagrO2Tria 5 [x, y] = 4 * (1 - x - y) * y := rfl
theorem lagrO2Tria_node0 : (lagrO2Tria : RefFE ℝ).nodes.getD 0 [] = [0, 0] := rfl
theorem lagrO2Tria_node1 : (lagrO2Tria : RefFE ℝ).nodes.getD 1 [] = [1, 0] := rfl
theorem lagrO2Tria_node2 : (lagrO2Tria : RefFE ℝ).nodes.getD 2 [] = [0, 1] := rfl
theorem lagrO2Tria_node3 : (lagrO2Tria : RefFE ℝ).nodes.getD 3 [] = [1 / 2, 0] := rfl
theorem lagrO2Tria_node4 : (lagrO2Tria : RefFE ℝ).nodes.getD 4 [] = [1 / 2, 1 / 2] := rfl
theorem lagrO2Tria_node5 : (lagrO2Tria : RefFE ℝ).nodes.getD 5 [] = [0, 1 / 2] := rfl
theorem lagrO3Segment_shape0 (x : ℝ) : shape lagrO3Segment 0 [x] = 9 / 2 * (1 - x) * (1 / 3 - x) * (2 / 3 - x) := rfl
theorem lagrO3Segment_shape1 (x : ℝ) : shape lagrO3Segment 1 [x] = 9 / 2 * x * (x - 1 / 3) * (x - 2 / 3) := rfl
theorem lagrO3Segment_shape2 (x : ℝ) : shape lagrO3Segment 2 [x] = 27 / 2 * x * (1 - x) * (2 / 3 - x) := rfl
theorem lagrO3Segment_shape3 (x : ℝ) : shape lagrO3Segment 3 [x] = 27 / 2 * x * (1 - x) * (x - 1 / 3) := rfl
theorem lagrO3Segment_node0 : (lagrO3Segment : RefFE ℝ).nodes.getD 0 [] = [0] := rfl
theorem lagrO3Segment_node1 : (lagrO3Segment : RefFE ℝ).nodes.getD 1 [] = [1] := rfl
theorem lagrO3Segment_node2 : (lagrO3Segment : RefFE ℝ).nodes.getD 2 [] = [1 / 3] := rfl
theorem lagrO3Segment_node3 : (lagrO3Segment : RefFE ℝ).nodes.getD 3 [] = [2 / 3] := rfl
theorem lagrO3Tria_shape0 (x y : ℝ) : shape lagrO3Tria 0 [x, y] = 9 / 2 * (1 - x - y) * ((1 - x - y) - 1 / 3) * ((1 - x - y) - 2 / 3) := rfl
theorem lagrO3Tria_shape1 (x y : ℝ) : shape lagrO3Tria 1 [x, y] = 9 / 2 * x * (x - 1 / 3) * (x - 2 / 3) := rfl
theorem lagrO3Tria_shape2 (x y : ℝ) : shape lagrO3Tria 2 [x, y] = 9 / 2 * y * (y - 1 / 3) * (y - 2 / 3) := rfl
theorem lagrO3Tria_shape3 (x y : ℝ) : shape lagrO3Tria 3 [x, y] = 27 / 2 * (1 - x - y) * x * ((1 - x - y) - 1 / 3) := rfl
theorem lagrO3Tria_shape4 (x y : ℝ) : shape lagrO3Tria 4 [x, y] = 27 / 2 * (1 - x - y) * x * (x - 1 / 3) := rfl
theorem lagrO3Tria_shape5 (x y : ℝ) : shape lagrO3Tria 5 [x, y] = 27 / 2 * x * y * (x - 1 / 3) := rfl
theorem lagrO3Tria_shape6 (x y : ℝ) : shape lagrO3Tria 6 [x, y] = 27 / 2 * x * y * (y - 1 / 3) := rfl
theorem lagrO3Tria_shape7 (x y : ℝ) : shape lagrO3Tria 7 [x, y] = 27 / 2 * y * (1 - x - y) * (y - 1 / 3) := rfl
theorem lagrO3Tria_shape8 (x y : ℝ) : shape lagrO3Tria 8 [x, y] = 27 / 2 * y * (1 - x - y) * ((1 - x - y) - 1 / 3) := rfl
theorem lagrO3Tria_shape9 (x y : ℝ) : shape lagrO3Tria 9 [x, y] = 27 * (1 - x - y) * x * y := rfl
theorem lagrO3Tria_node0 : (lagrO3Tria : RefFE ℝ).nodes.getD 0 [] = [0, 0] := rfl
theorem lagrO3Tria_node1 : (lagrO3Tria : RefFE ℝ).nodes.getD 1 [] = [1, 0] := rfl
theorem lagrO3Tria_node2 : (lagrO3Tria : RefFE ℝ).nodes.getD 2 [] = [0, 1] := rfl
theorem lagrO3Tria_node3 : (lagrO3Tria : RefFE ℝ).nodes.getD 3 [] = [1 * (1 / 3), 0 * (1 / 3)] := rfl
theorem lagrO3Tria_node4 : (lagrO3Tria : RefFE ℝ).nodes.getD 4 [] = [2 * (1 / 3), 0 * (1 / 3)] := rfl
theorem lagrO3Tria_node5 : (lagrO3Tria : RefFE ℝ).nodes.getD 5 [] = [2 * (1 / 3), 1 * (1 / 3)] := rfl
theorem lagrO3Tria_node6 : (lagrO3Tria : RefFE ℝ).nodes.getD 6 [] = [1 * (1 / 3), 2 * (1 / 3)] := rfl
theorem lagrO3Tria_node7 : (lagrO3Tria : RefFE ℝ).nodes.getD 7 [] = [0 * (1 / 3), 2 * (1 / 3)] := rfl
theorem lagrO3Tria_node8 : (lagrO3Tria : RefFE ℝ).nodes.getD 8 [] = [0 * (1 / 3), 1 * (1 / 3)] := rfl
theorem lagrO3Tria_node9 : (lagrO3Tria : RefFE ℝ).nodes.getD 9 [] = [1 / 3, 1 / 3] := rfl
theorem lagrO1Quad_shape0 (x y : ℝ) : shape lagrO1Quad 0 [x, y] = (1 - x) * (1 - y) := rfl
theorem lagrO1Quad_shape1 (x y : ℝ) : shape lagrO1Quad 1 [x, y] = x * (1 - y) := rfl
theorem lagrO1Quad_shape2 (x y : ℝ) : shape lagrO1Quad 2 [x, y] = x * y := rfl
theorem lagrO1Quad_shape3 (x y : ℝ) : shape lagrO1Quad 3 [x, y] = (1 - x) * y := rfl
theorem lagrO1Quad_node0 : (lagrO1Quad : RefFE ℝ).nodes.getD 0 [] = [0, 0] := rfl
theorem lagrO1Quad_node1 : (lagrO1Quad : RefFE ℝ).nodes.getD 1 [] = [1, 0] := rfl
theorem lagrO1Quad_node2 : (lagrO1Quad : RefFE ℝ).nodes.getD 2 [] = [1, 1] := rfl
theorem lagrO1Quad_node3 : (lagrO1Quad : RefFE ℝ).nodes.getD 3 [] = [0, 1] := rfl

end Verif
