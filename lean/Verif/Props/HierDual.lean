import Verif.Lemmas.HierDual
import Verif.Lemmas.HierTriaDual
import Verif.Lemmas.HierQuadDual
import Verif.Lemmas.ExactRules

/-!
# C47, C63: duality of degrees of freedom and shape functions of the hierarchic elements
-/

namespace Verif

/-- For every degree: if the quadrature rule handed out for degree `2 (p - 1)` is one for segments and
exact for that degree, `NodalValuesToDofs` is dual to the shape functions. -/
theorem C47_segment (get : RefEl → ℕ → Option (QuadRule ℝ)) (p : ℕ) (fe : RefFE ℝ)
    (hget : ∀ q, get .segment (2 * (p - 1)) = some q →
      q.ref = .segment ∧ q.WellFormed ∧ q.ExactFor (2 * (p - 1)))
    (h : makeHierSegment get p = some fe) : fe.Dual := by
  unfold makeHierSegment at h
  split at h
  · cases h
  · obtain ⟨q, hq, rfl⟩ := Option.map_eq_some_iff.mp h
    obtain ⟨h1, h2, h3⟩ := hget q hq
    exact hierSegment_dual p (by omega) q h1 h2 h3

/-- Exact rules exist for every degree, and with them the constructor succeeds. -/
example (p : ℕ) (hp : 1 ≤ p) : ∃ fe, makeHierSegment eqRules p = some fe ∧ fe.num = p + 1 ∧ fe.Dual := by
  have h : makeHierSegment eqRules p = some (hierSegment p (eqSegment (2 * (p - 1)))) := by
    rw [makeHierSegment, if_neg (by omega)]; rfl
  refine ⟨_, h, rfl, C47_segment eqRules p _ (fun q hq => ?_) h⟩
  cases hq
  exact ⟨rfl, eqSegment_wf _, eqSegment_exact _⟩

/-- Degree 2 with the Simpson rule: the coefficients of a linear polynomial and of `x (x - 1)`. -/
example : ∃ fe, makeHierSegment (fun r d => some ⟨r, d, [[0], [1 / 2], [1]], [1 / 6, 2 / 3, 1 / 6]⟩) 2 =
    some fe ∧ fe.num = 3 ∧ fe.nodes = [[0], [1], [0], [1 / 2], [1]] ∧
    (fe.toDofs [3, 5, 3, 4, 5] : Option (List ℚ)) = some [3, 5, 0] ∧
    fe.toDofs [0, 0, 0, -1 / 4, 0] = some [0, 0, 1] := by
  refine ⟨_, rfl, rfl, rfl, by decide +kernel, by decide +kernel⟩

theorem makeHierTria_ready (get : RefEl → ℕ → Option (QuadRule ℝ)) (p : ℕ) (e : ℕ → ℕ) (o : ℕ → Bool)
    (F : HierTria ℝ) (hget : ∀ r d q, get r d = some q → q.ref = r ∧ q.WellFormed ∧ q.ExactFor d)
    (htop : ∀ d q, get .tria d = some q → ∀ x ∈ q.points, x.getD 1 0 ≠ 1)
    (h : makeHierTria get p e o = some F) : F.Ready := by
  unfold makeHierTria at h
  split at h
  · cases h
  rename_i hz
  simp only [Option.bind_eq_some_iff, Option.map_eq_some_iff] at h
  obtain ⟨q0, h0, q1, h1, q2, h2, qt, ht, rfl⟩ := h
  refine ⟨fun j hj => ?_, fun j hj => ?_, hget _ _ _ ht, htop _ _ ht⟩
  · dsimp only; interval_cases j <;> omega
  · interval_cases j
    · exact hget _ _ _ h0
    · exact hget _ _ _ h1
    · exact hget _ _ _ h2

/-- **C63**, triangles, for all degrees of the interior and of the edges and all orientations: if the rules
handed out are exact for the degrees asked for, and the triangle rule has no point at the vertex `y = 1`
(where the code would divide by zero), the degrees of freedom are dual to the shape functions. -/
theorem C63_tria (get : RefEl → ℕ → Option (QuadRule ℝ)) (p : ℕ) (e : ℕ → ℕ) (o : ℕ → Bool) (F : HierTria ℝ)
    (hget : ∀ r d q, get r d = some q → q.ref = r ∧ q.WellFormed ∧ q.ExactFor d)
    (htop : ∀ d q, get .tria d = some q → ∀ x ∈ q.points, x.getD 1 0 ≠ 1)
    (h : makeHierTria get p e o = some F) : F.fe.Dual :=
  HierTria.dual _ (makeHierTria_ready get p e o F hget htop h)

/-- **C63**, quadrilaterals, likewise. -/
theorem C63_quad (get : RefEl → ℕ → Option (QuadRule ℝ)) (p : ℕ) (e : ℕ → ℕ) (o : ℕ → Bool) (F : HierQuad ℝ)
    (hget : ∀ r d q, get r d = some q → q.ref = r ∧ q.WellFormed ∧ q.ExactFor d)
    (h : makeHierQuad get p e o = some F) : F.fe.Dual := by
  unfold makeHierQuad at h
  split at h
  · cases h
  rename_i hz
  simp only [Option.bind_eq_some_iff, Option.map_eq_some_iff] at h
  obtain ⟨q0, h0, q1, h1, q2, h2, q3, h3, qd, hd, rfl⟩ := h
  refine HierQuad.dual _ ⟨fun j hj => ?_, fun j hj => ?_, hget _ _ _ hd⟩
  · dsimp only; interval_cases j <;> omega
  · interval_cases j
    · exact hget _ _ _ h0
    · exact hget _ _ _ h1
    · exact hget _ _ _ h2
    · exact hget _ _ _ h3

theorem eqRules_exact : ∀ r d q, eqRules r d = some q → q.ref = r ∧ q.WellFormed ∧ q.ExactFor d := by
  intro r d q h
  cases r with
  | segment => cases h; exact ⟨rfl, eqSegment_wf _, eqSegment_exact _⟩
  | tria => cases h; exact ⟨rfl, eqTria_wf _, eqTria_exact _⟩
  | _ => simp [eqRules] at h

/-- The hypotheses can be met for every choice of degrees and orientations. -/
example (p : ℕ) (e : ℕ → ℕ) (o : ℕ → Bool) (hp : 1 ≤ p) (he : ∀ j, 1 ≤ e j) :
    ∃ F, makeHierTria eqRules p e o = some F ∧ F.fe.Dual := by
  obtain ⟨F, h⟩ : ∃ F, makeHierTria eqRules p e o = some F := by
    rw [makeHierTria, if_neg (by have := he 0; have := he 1; have := he 2; omega)]; exact ⟨_, rfl⟩
  refine ⟨_, h, C63_tria eqRules p e o _ eqRules_exact (fun d q hq => ?_) h⟩
  cases hq
  exact eqTria_top d

example (p : ℕ) (e : ℕ → ℕ) (o : ℕ → Bool) (hp : 1 ≤ p) (he : ∀ j, 1 ≤ e j) :
    ∃ F, makeHierQuad eqRules p e o = some F ∧ F.fe.Dual := by
  obtain ⟨F, h⟩ : ∃ F, makeHierQuad eqRules p e o = some F := by
    rw [makeHierQuad, if_neg (by have := he 0; have := he 1; have := he 2; have := he 3; omega)]
    exact ⟨_, rfl⟩
  exact ⟨_, h, C63_quad eqRules p e o _ eqRules_exact h⟩

end Verif
