import Verif.Lemmas.HierSpan
import Verif.Props.HierDual

/-!
# C64: hierarchic elements contain all polynomials of their degree
-/

namespace Verif
open HierQuad Geo

/-- Segments, for every degree: the shape functions are polynomials of this degree, and all polynomials of this degree are
reproduced. -/
theorem C64_segment (get : RefEl → ℕ → Option (QuadRule ℝ)) (p : ℕ) (fe : RefFE ℝ)
    (hget : ∀ r d q, get r d = some q → q.ref = r ∧ q.WellFormed ∧ q.ExactFor d)
    (h : makeHierSegment get p = some fe) : fe.Polynomial ∧ fe.Reproduces := by
  have hdual := C47_segment get p fe (fun q hq => hget _ _ _ hq) h
  unfold makeHierSegment at h
  split at h
  · cases h
  rename_i hp
  have hp : 1 ≤ p := by omega
  obtain ⟨q, hq, rfl⟩ := Option.map_eq_some_iff.mp h
  obtain ⟨hr, hw, -⟩ := hget _ _ _ hq
  have hlen : (segShapeFns p).length = p + 1 := by simp [segShapeFns]
  constructor
  · intro i hi
    have hi' : i ≤ p := Nat.lt_succ_iff.1 hi
    refine PolyFn.isPolyOn ?_
    have e : ∀ x, (hierSegment p q).shape i [x] = fn1 i x := by
      intro x
      rw [RefFE.shape, hierSegment_eval p hp q x, Option.getD_some, List.getD, segShapes_get p x i hi' hp]
      rfl
    simp only [e]
    exact fn1_poly i p hi' hp
  · rintro f ⟨c, hc⟩
    have hmem : (fun x => f [x]) ∈ Submodule.span ℝ {g | g ∈ segShapeFns p} := by
      rw [seg_span p hp]
      exact segMonos_span c hc
    obtain ⟨d, hd1, hd2⟩ := mem_span_list _ _ hmem
    rw [hlen] at hd1
    refine hdual.reproduce (n := 1) rfl ?_ hd1 fun x hx => ?_
    · intro x hx
      rcases List.mem_append.1 hx with hx | hx
      · simp only [List.mem_cons, List.not_mem_nil, or_false] at hx
        rcases hx with rfl | rfl <;> rfl
      · have := hw.1 x hx
        rwa [hr] at this
    · obtain ⟨x, rfl⟩ := List.length_eq_one_iff.1 hx
      rw [seg_sum_shapes p hp q hd1, hd2]

/-- Triangles, for all degrees of the interior and of the edges and all orientations: the shape functions are polynomials of
the degree of the element; polynomials of degree at most all these degrees are reproduced.  In particular, if the degrees
are equal, the element contains all polynomials of its degree. -/
theorem C64_tria (get : RefEl → ℕ → Option (QuadRule ℝ)) (p : ℕ) (e : ℕ → ℕ) (o : ℕ → Bool) (F : HierTria ℝ)
    (hget : ∀ r d q, get r d = some q → q.ref = r ∧ q.WellFormed ∧ q.ExactFor d)
    (htop : ∀ d q, get .tria d = some q → ∀ x ∈ q.points, x.getD 1 0 ≠ 1)
    (h : makeHierTria get p e o = some F) :
    F.fe.Polynomial ∧ (∀ m, m ≤ p → (∀ j < 3, m ≤ e j) → F.fe.ReproducesUpTo m) ∧
      ((∀ j < 3, e j = p) → F.fe.degree = p ∧ F.fe.Reproduces ∧ F.fe.num = (p + 1) * (p + 2) / 2) := by
  have hR := makeHierTria_ready get p e o F hget htop h
  have hFp : F.p = p ∧ F.e = e ∧ 1 ≤ p := by
    unfold makeHierTria at h
    split at h
    · cases h
    simp only [Option.bind_eq_some_iff, Option.map_eq_some_iff] at h
    obtain ⟨q0, h0, q1, h1, q2, h2, qt, ht, rfl⟩ := h
    refine ⟨rfl, rfl, ?_⟩
    change 1 ≤ p
    omega
  obtain ⟨rfl, rfl, hp1⟩ := hFp
  have main : ∀ m, m ≤ F.p → (∀ j < 3, m ≤ F.e j) → F.fe.ReproducesUpTo m := by
    intro m hm he f hf
    obtain ⟨d, hd1, hd2⟩ := mem_span_list _ _ (F.span_le m hm hR.deg hp1 he hf)
    rw [F.shapeFns_length] at hd1
    refine (F.dual hR).reproduce (n := 2) rfl (F.nodes_len hR) hd1 fun x hx => ?_
    obtain ⟨x, y, rfl⟩ := two_coords hx
    rw [F.sum_shapes hd1, hd2]
  refine ⟨fun i hi => ?_, main, fun he => ?_⟩
  · have hi' : i < F.shapeFns.length := by
      rw [F.shapeFns_length]
      exact hi
    have e : ∀ x y, F.fe.shape i [x, y] = F.shapeFns[i] (x, y) := by
      intro x y
      have h1 : F.fe.eval [x, y] = some (F.shapes x y) := F.eval_eq x y
      rw [RefFE.shape, h1, Option.getD_some, F.shapes_eq_map, List.getD, List.getElem?_map, List.getElem?_eq_getElem hi']
      rfl
    refine TP.isPolyOn ?_
    simp only [e]
    refine F.shapeFns_poly F.fe.degree ?_ ?_ ?_ _ (List.getElem_mem hi')
    · change 1 ≤ max _ _
      omega
    · change _ ≤ max _ _
      omega
    · intro j hj
      change _ ≤ max _ _
      interval_cases j <;> omega
  · have hdeg : F.fe.degree = F.p := by
      have h0 := he 0 (by omega)
      have h1 := he 1 (by omega)
      have h2 := he 2 (by omega)
      change max _ _ = _
      omega
    refine ⟨hdeg, ?_, ?_⟩
    · have := main F.p le_rfl fun j hj => (he j hj).ge
      unfold RefFE.Reproduces
      rw [hdeg]
      exact this
    · change F.num = _
      rw [HierTria.num, HierTria.numInterior, he 0 (by omega), he 1 (by omega), he 2 (by omega)]
      split
      · rename_i h2
        generalize F.p = q at h2 hp1
        interval_cases q <;> decide
      · obtain ⟨m, hm⟩ : ∃ m, F.p = m + 3 := ⟨F.p - 3, by omega⟩
        rw [hm]
        have e1 : (m + 3 + 1) * (m + 3 + 2) = (m + 3 - 2) * (m + 3 - 1) + (3 * (m + 3)) * 2 := by
          rw [show m + 3 - 2 = m + 1 by omega, show m + 3 - 1 = m + 2 by omega]
          ring
        rw [e1, Nat.add_mul_div_right _ _ (by omega : 0 < 2)]
        omega

/-- Quadrilaterals, likewise with the degree in each variable. -/
theorem C64_quad (get : RefEl → ℕ → Option (QuadRule ℝ)) (p : ℕ) (e : ℕ → ℕ) (o : ℕ → Bool) (F : HierQuad ℝ)
    (hget : ∀ r d q, get r d = some q → q.ref = r ∧ q.WellFormed ∧ q.ExactFor d)
    (h : makeHierQuad get p e o = some F) :
    F.fe.Polynomial ∧ (∀ m, m ≤ p → (∀ j < 4, m ≤ e j) → F.fe.ReproducesUpTo m) ∧
      ((∀ j < 4, e j = p) → F.fe.degree = p ∧ F.fe.Reproduces ∧ F.fe.num = (p + 1) * (p + 1)) := by
  have hdual := C63_quad get p e o F hget h
  have hFp : F.p = p ∧ F.e = e ∧ 1 ≤ p ∧ ∀ j < 4, 1 ≤ e j := by
    unfold makeHierQuad at h
    split at h
    · cases h
    simp only [Option.bind_eq_some_iff, Option.map_eq_some_iff] at h
    obtain ⟨q0, h0, q1, h1, q2, h2, q3, h3, qd, hd, rfl⟩ := h
    refine ⟨rfl, rfl, ?_, fun j hj => ?_⟩
    · change 1 ≤ p
      omega
    · interval_cases j <;> omega
  obtain ⟨rfl, rfl, hp1, hdeg⟩ := hFp
  have hd1 : 1 ≤ F.deg1 := hp1.trans F.le_deg1.1
  have main : ∀ m, m ≤ F.p → (∀ j < 4, m ≤ F.e j) → F.fe.ReproducesUpTo m := by
    intro m hm he f hf
    obtain ⟨d, hc1, hc2⟩ := mem_span_list _ _ (F.span_le m hm hdeg hp1 he hf)
    rw [F.shapeFns_length] at hc1
    refine hdual.reproduce (n := 2) rfl F.nodes_len hc1 fun x hx => ?_
    obtain ⟨x, y, rfl⟩ := two_coords hx
    rw [F.sum_shapes hd1 hc1, hc2]
  refine ⟨fun i hi => ?_, main, fun he => ?_⟩
  · have hi' : i < F.shapeFns.length := by
      rw [F.shapeFns_length]
      exact hi
    have e : ∀ x y, F.fe.shape i [x, y] = F.shapeFns[i] (x, y) := by
      intro x y
      have h1 : F.fe.eval [x, y] = some (F.shapes x y) := F.eval_eq hd1 x y
      rw [RefFE.shape, h1, Option.getD_some, F.shapes_eq_map, List.getD, List.getElem?_map, List.getElem?_eq_getElem hi']
      rfl
    refine QP.isPolyOn ?_
    simp only [e]
    refine F.shapeFns_poly F.deg1 hd1 F.le_deg1.1 (fun j hj => ?_) _ (List.getElem_mem hi')
    have := F.le_deg1
    interval_cases j <;> omega
  · have hdg : F.fe.degree = F.p := by
      have h0 := he 0 (by omega)
      have h1 := he 1 (by omega)
      have h2 := he 2 (by omega)
      have h3 := he 3 (by omega)
      change max _ _ = _
      omega
    refine ⟨hdg, ?_, ?_⟩
    · have := main F.p le_rfl fun j hj => (he j hj).ge
      unfold RefFE.Reproduces
      rw [hdg]
      exact this
    · change F.num = _
      rw [HierQuad.num, HierQuad.numInterior, he 0 (by omega), he 1 (by omega), he 2 (by omega), he 3 (by omega)]
      obtain ⟨m, hm⟩ : ∃ m, F.p = m + 1 := ⟨F.p - 1, by omega⟩
      rw [hm, show m + 1 - 1 = m by omega]
      ring

/-- The hypotheses can be met: degree 4 in the interior, degrees 3, 4, 5 on the edges; cubic polynomials are reproduced. -/
example : ∃ F, makeHierTria eqRules 4 (fun j => j + 3) (fun j => decide (j = 1)) = some F ∧ F.fe.ReproducesUpTo 3 := by
  obtain ⟨F, h⟩ : ∃ F, makeHierTria eqRules 4 (fun j => j + 3) (fun j => decide (j = 1)) = some F := by
    rw [makeHierTria, if_neg (by omega)]; exact ⟨_, rfl⟩
  refine ⟨F, h, (C64_tria eqRules 4 _ _ F eqRules_exact (fun d q hq => ?_) h).2.1 3 (by omega) (fun j _ => by omega)⟩
  cases hq
  exact eqTria_top d

/-- Degree 5 everywhere on a quadrilateral. -/
example : ∃ F, makeHierQuad eqRules 5 (fun _ => 5) (fun j => decide (j = 1)) = some F ∧ F.fe.Reproduces ∧ F.fe.num = 36 := by
  obtain ⟨F, h⟩ : ∃ F, makeHierQuad eqRules 5 (fun _ => 5) (fun j => decide (j = 1)) = some F := by
    rw [makeHierQuad, if_neg (by omega)]; exact ⟨_, rfl⟩
  exact ⟨F, h, ((C64_quad eqRules 5 _ _ F eqRules_exact h).2.2 fun _ _ => rfl).2⟩

/-- Segments of every degree. -/
example (p : ℕ) (hp : 1 ≤ p) : ∃ fe, makeHierSegment eqRules p = some fe ∧ fe.Reproduces := by
  have h : makeHierSegment eqRules p = some (hierSegment p (eqSegment (2 * (p - 1)))) := by
    rw [makeHierSegment, if_neg (by omega)]; rfl
  exact ⟨_, h, (C64_segment eqRules p _ eqRules_exact h).2⟩

end Verif
