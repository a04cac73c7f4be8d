import Verif.Lemmas.HierGrad
import Verif.Spec.Hierarchic

/-!
# C61, C62: evaluation, gradients and counts of the hierarchic elements
-/

namespace Verif

/-! ### C61 -/

theorem C61_segment (get : RefEl → ℕ → Option (QuadRule ℝ)) (p : ℕ) (fe : RefFE ℝ)
    (h : makeHierSegment get p = some fe) : fe.ref = .segment ∧ fe.degree = p ∧ fe.Evaluates ∧ fe.GradCorrect := by
  unfold makeHierSegment at h
  split at h
  · cases h
  · obtain ⟨q, -, rfl⟩ := Option.map_eq_some_iff.mp h
    have hp : 1 ≤ p := by omega
    refine ⟨rfl, rfl, ⟨fun x hx => ?_, fun x hx => ?_⟩, hierSegment_gradCorrect p hp q⟩
    · obtain ⟨x, rfl⟩ := List.length_eq_one_iff.mp hx
      exact ⟨_, hierSegment_eval p hp q x, by simp [segShapes_length p hp, hierSegment]⟩
    · match x, hx with
      | [], _ => rfl
      | [x], hx => exact absurd rfl hx
      | x :: y :: l, _ => rfl

theorem C61_tria (get : RefEl → ℕ → Option (QuadRule ℝ)) (p : ℕ) (e : ℕ → ℕ) (o : ℕ → Bool) (F : HierTria ℝ)
    (h : makeHierTria get p e o = some F) : F.fe.ref = .tria ∧
      F.fe.degree = max p (max (e 0) (max (e 1) (e 2))) ∧ F.fe.Evaluates ∧ F.fe.GradCorrect := by
  unfold makeHierTria at h
  split at h
  · cases h
  · rename_i hn
    simp only [not_or] at hn
    simp only [Option.bind_eq_some_iff, Option.map_eq_some_iff] at h
    obtain ⟨_, -, _, -, _, -, _, -, rfl⟩ := h
    refine ⟨rfl, ?_, ⟨fun x hx => ?_, fun x hx => ?_⟩, HierTria.gradCorrect _⟩
    · simp only [HierTria.fe]; omega
    · match x, hx with
      | [x, y], _ => exact ⟨_, HierTria.eval_eq _ x y, HierTria.shapes_length ..⟩
    · match x, hx with
      | [], _ => rfl
      | [x], hx => rfl
      | [x, y], hx => exact absurd rfl hx
      | x :: y :: z :: l, _ => rfl

theorem C61_quad (get : RefEl → ℕ → Option (QuadRule ℝ)) (p : ℕ) (e : ℕ → ℕ) (o : ℕ → Bool) (F : HierQuad ℝ)
    (h : makeHierQuad get p e o = some F) : F.fe.ref = .quad ∧
      F.fe.degree = max p (max (e 0) (max (e 1) (max (e 2) (e 3)))) ∧ F.fe.Evaluates ∧ F.fe.GradCorrect := by
  unfold makeHierQuad at h
  split at h
  · cases h
  · rename_i hn
    simp only [Option.bind_eq_some_iff, Option.map_eq_some_iff] at h
    obtain ⟨_, -, _, -, _, -, _, -, q, -, rfl⟩ := h
    have hd : ∀ qs, 1 ≤ HierQuad.deg1 ⟨p, e, o, qs, q⟩ := fun qs => by
      simp only [not_or] at hn; simp only [HierQuad.deg1]; omega
    refine ⟨rfl, rfl, ⟨fun x hx => ?_, fun x hx => ?_⟩, HierQuad.gradCorrect _ (hd _)⟩
    · match x, hx with
      | [x, y], _ => exact ⟨_, HierQuad.eval_eq _ (hd _) x y, HierQuad.shapes_length ..⟩
    · match x, hx with
      | [], _ => rfl
      | [x], hx => rfl
      | [x, y], hx => exact absurd rfl hx
      | x :: y :: z :: l, _ => rfl

/-- A triangle and a quadrilateral with different degrees and orientations of the edges. -/
example : (∃ F : HierTria ℝ, makeHierTria (fun r d => some ⟨r, d, [], []⟩) 4 (fun j => j + 2) (fun j => j % 2 == 0) =
      some F ∧ F.fe.num = 12 ∧ F.fe.degree = 4) ∧
    ∃ F : HierQuad ℝ, makeHierQuad (fun r d => some ⟨r, d, [], []⟩) 4 (fun j => j + 2) (fun j => j % 2 == 0) =
      some F ∧ F.fe.num = 23 ∧ F.fe.degree = 5 := by
  refine ⟨⟨_, rfl, rfl, rfl⟩, ⟨_, rfl, rfl, rfl⟩⟩

/-! ### C62 -/

section
variable {K : Type} [Field K]

/-- Triangles: always by sub-entity; `NumRefShapeFunctions(codim)` answers for edges exactly if they have
the same degree, and then all counts agree. -/
theorem C62_tria (F : HierTria K) : F.fe.CountsBySubEntity ∧
    (F.e 0 = F.e 1 ∧ F.e 0 = F.e 2 → F.fe.CountsConsistent) ∧
    (¬ (F.e 0 = F.e 1 ∧ F.e 0 = F.e 2) → F.fe.numCodim 1 = none) := by
  refine ⟨⟨?_, ?_⟩, fun h => ⟨?_, ?_⟩, fun h => ?_⟩
  · intro c hc j hj
    have hc' : c ≤ 2 := hc
    interval_cases c <;> simp [HierTria.fe, RefEl.numSubEntities, RefEl.dimension] at hj ⊢ <;> omega
  · simp [HierTria.fe, RefEl.numSubEntities, RefEl.dimension, Finset.sum_range_succ, HierTria.num]
    omega
  · intro c hc j hj
    have hc' : c ≤ 2 := hc
    interval_cases c <;> simp [HierTria.fe, RefEl.numSubEntities, RefEl.dimension] at hj ⊢
    · exact hj
    · rw [if_pos (by omega), if_pos h]
      refine ⟨?_, h⟩
      interval_cases j <;> simp <;> omega
    · omega
  · simp [HierTria.fe, RefEl.numSubEntities, RefEl.dimension, HierTria.num, Finset.sum_range_succ, if_pos h]
    obtain ⟨h1, h2⟩ := h
    omega
  · simp [HierTria.fe, h]

theorem C62_quad (F : HierQuad K) : F.fe.CountsBySubEntity ∧
    (F.e 0 = F.e 1 ∧ F.e 0 = F.e 2 ∧ F.e 0 = F.e 3 → F.fe.CountsConsistent) ∧
    (¬ (F.e 0 = F.e 1 ∧ F.e 0 = F.e 2 ∧ F.e 0 = F.e 3) → F.fe.numCodim 1 = none) := by
  refine ⟨⟨?_, ?_⟩, fun h => ⟨?_, ?_⟩, fun h => ?_⟩
  · intro c hc j hj
    have hc' : c ≤ 2 := hc
    interval_cases c <;> simp [HierQuad.fe, RefEl.numSubEntities, RefEl.dimension] at hj ⊢ <;> omega
  · simp [HierQuad.fe, RefEl.numSubEntities, RefEl.dimension, Finset.sum_range_succ, HierQuad.num]
    omega
  · intro c hc j hj
    have hc' : c ≤ 2 := hc
    interval_cases c <;> simp [HierQuad.fe, RefEl.numSubEntities, RefEl.dimension] at hj ⊢
    · exact hj
    · rw [if_pos (by omega), if_pos h]
      refine ⟨?_, h⟩
      interval_cases j <;> simp <;> omega
    · omega
  · simp [HierQuad.fe, RefEl.numSubEntities, RefEl.dimension, HierQuad.num, Finset.sum_range_succ, if_pos h]
    obtain ⟨h1, h2, h3⟩ := h
    omega
  · simp [HierQuad.fe, h]

/-- Segments: `NumRefShapeFunctions(1)` and `NumRefShapeFunctions(1, i)` return 2, the number for both
end points, instead of 1; so the counts are inconsistent for every degree. -/
theorem C62_segment_not (p : ℕ) (qr : QuadRule K) :
    ¬ (hierSegment p qr).CountsBySubEntity ∧ ¬ (hierSegment p qr).CountsConsistent := by
  refine ⟨fun h => ?_, fun h => ?_⟩
  · have := h.2
    simp [hierSegment, RefEl.numSubEntities, RefEl.dimension, Finset.sum_range_succ] at this
    omega
  · have := h.2
    simp [hierSegment, RefEl.numSubEntities, RefEl.dimension, Finset.sum_range_succ] at this
    omega

/-- What is right about the counts of segments: the total number and the number in the interior. -/
theorem C62_segment_partial (p : ℕ) (hp : 1 ≤ p) (qr : QuadRule K) :
    (hierSegment p qr).numSub 0 0 = some (p - 1) ∧ (hierSegment p qr).numCodim 0 = some (p - 1) ∧
      (hierSegment p qr).num = (p - 1) + 2 * 1 := by
  refine ⟨rfl, rfl, ?_⟩
  change p + 1 = _
  omega

end
end Verif
