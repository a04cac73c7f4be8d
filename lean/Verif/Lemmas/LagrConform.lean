import Verif.Lemmas.Conform

/-!
# The Lagrangian elements are conforming
-/

namespace Verif
open Geo
variable {K : Type} [Field K] [CharZero K]

section
omit [CharZero K]

theorem sideTria0 (s : K) : sidePoint .tria 0 s = [s, 0] := by
  simp [sidePoint, RefEl.corners, RefEl.numNodes]

theorem sideTria1 (s : K) : sidePoint .tria 1 s = [1 - s, s] := by
  simp [sidePoint, RefEl.corners, RefEl.numNodes]

theorem sideTria2 (s : K) : sidePoint .tria 2 s = [0, 1 - s] := by
  simp [sidePoint, RefEl.corners, RefEl.numNodes]

theorem sideQuad0 (s : K) : sidePoint .quad 0 s = [s, 0] := by
  simp [sidePoint, RefEl.corners, RefEl.numNodes]

theorem sideQuad1 (s : K) : sidePoint .quad 1 s = [1, s] := by
  simp [sidePoint, RefEl.corners, RefEl.numNodes]

theorem sideQuad2 (s : K) : sidePoint .quad 2 s = [1 - s, 1] := by
  simp [sidePoint, RefEl.corners, RefEl.numNodes]

theorem sideQuad3 (s : K) : sidePoint .quad 3 s = [0, 1 - s] := by
  simp [sidePoint, RefEl.corners, RefEl.numNodes]

end

theorem o1Segment_symmetric : (lagrO1Segment : RefFE K).Symmetric 0 := by
  intro a b l hl t
  refine ⟨_, _, rfl, rfl, rfl, rfl, ?_⟩
  match l, hl with
  | [], _ => simp [dotRow]; ring

theorem o2Segment_symmetric : (lagrO2Segment : RefFE K).Symmetric 1 := by
  intro a b l hl t
  refine ⟨_, _, rfl, rfl, rfl, rfl, ?_⟩
  match l, hl with
  | [c], _ => simp [dotRow]; ring

theorem o3Segment_symmetric : (lagrO3Segment : RefFE K).Symmetric 2 := by
  intro a b l hl t
  refine ⟨_, _, rfl, rfl, rfl, rfl, ?_⟩
  match l, hl with
  | [c, d], _ => simp [dotRow]; ring

theorem o1Segment_endPoints : (lagrO1Segment : RefFE K).EndPoints 0 :=
  ⟨_, _, rfl, rfl, rfl, rfl, fun l hl a b => match l, hl with
    | [], _ => by constructor <;> simp [dotRow]⟩

theorem o2Segment_endPoints : (lagrO2Segment : RefFE K).EndPoints 1 :=
  ⟨_, _, rfl, rfl, rfl, rfl, fun l hl a b => match l, hl with
    | [c], _ => by constructor <;> norm_num [dotRow]⟩

theorem o3Segment_endPoints : (lagrO3Segment : RefFE K).EndPoints 2 :=
  ⟨_, _, rfl, rfl, rfl, rfl, fun l hl a b => match l, hl with
    | [c, d], _ => by constructor <;> norm_num [dotRow]⟩

theorem o1Tria_conforms (ori : ℕ → Bool) : (lagrO1Tria : RefFE K).Conforms ori (fun _ => lagrO1Segment)
    (fun _ => 0) 0 := by
  refine RefFE.conforms_of_symmetric _ _ _ _ o1Segment_symmetric ?_ ori
  intro V E I j hj t
  change j < 3 at hj
  change ∃ v w, (lagrO1Tria : RefFE K).eval (sidePoint .tria j t) = some v ∧ _
  interval_cases j <;>
    simp only [sideTria0, sideTria1, sideTria2] <;>
    refine ⟨_, _, by exact rfl, by exact rfl, ?_, ?_, ?_⟩ <;> try rfl
  all_goals
    simp [cellCoeffs, RefEl.numNodes, lagrO1Tria, dotRow, List.range_succ]
    try ring

theorem o1Quad_conforms (ori : ℕ → Bool) : (lagrO1Quad : RefFE K).Conforms ori (fun _ => lagrO1Segment)
    (fun _ => 0) 0 := by
  refine RefFE.conforms_of_symmetric _ _ _ _ o1Segment_symmetric ?_ ori
  intro V E I j hj t
  change j < 4 at hj
  change ∃ v w, (lagrO1Quad : RefFE K).eval (sidePoint .quad j t) = some v ∧ _
  interval_cases j <;>
    simp only [sideQuad0, sideQuad1, sideQuad2, sideQuad3] <;>
    refine ⟨_, _, by exact rfl, by exact rfl, ?_, ?_, ?_⟩ <;> try rfl
  all_goals
    simp [cellCoeffs, RefEl.numNodes, lagrO1Quad, dotRow, List.range_succ]
    try ring

theorem o2Tria_conforms (ori : ℕ → Bool) : (lagrO2Tria : RefFE K).Conforms ori (fun _ => lagrO2Segment)
    (fun _ => 1) 0 := by
  refine RefFE.conforms_of_symmetric _ _ _ _ o2Segment_symmetric ?_ ori
  intro V E I j hj t
  change j < 3 at hj
  change ∃ v w, (lagrO2Tria : RefFE K).eval (sidePoint .tria j t) = some v ∧ _
  interval_cases j <;>
    simp only [sideTria0, sideTria1, sideTria2] <;>
    refine ⟨_, _, by exact rfl, by exact rfl, ?_, ?_, ?_⟩ <;> try rfl
  all_goals
    simp [cellCoeffs, RefEl.numNodes, lagrO2Tria, dotRow, List.range_succ, -mul_eq_mul_right_iff, -mul_eq_mul_left_iff]
    try ring

theorem o2Quad_conforms (ori : ℕ → Bool) : (lagrO2Quad : RefFE K).Conforms ori (fun _ => lagrO2Segment)
    (fun _ => 1) 1 := by
  refine RefFE.conforms_of_symmetric _ _ _ _ o2Segment_symmetric ?_ ori
  intro V E I j hj t
  change j < 4 at hj
  change ∃ v w, (lagrO2Quad : RefFE K).eval (sidePoint .quad j t) = some v ∧ _
  interval_cases j <;>
    simp only [sideQuad0, sideQuad1, sideQuad2, sideQuad3] <;>
    refine ⟨_, _, by exact rfl, by exact rfl, ?_, ?_, ?_⟩ <;> try rfl
  all_goals
    simp [cellCoeffs, RefEl.numNodes, lagrO2Quad, dotRow, List.range_succ]
    try ring

theorem o3Tria_conforms (ori : ℕ → Bool) : (lagrO3Tria : RefFE K).Conforms ori (fun _ => lagrO3Segment)
    (fun _ => 2) 1 := by
  refine RefFE.conforms_of_symmetric _ _ _ _ o3Segment_symmetric ?_ ori
  intro V E I j hj t
  change j < 3 at hj
  change ∃ v w, (lagrO3Tria : RefFE K).eval (sidePoint .tria j t) = some v ∧ _
  interval_cases j <;>
    simp only [sideTria0, sideTria1, sideTria2] <;>
    refine ⟨_, _, by exact rfl, by exact rfl, ?_, ?_, ?_⟩ <;> try rfl
  all_goals
    simp [cellCoeffs, RefEl.numNodes, lagrO3Tria, dotRow, List.range_succ]
    try ring

theorem o3Quad_conforms (ori : ℕ → Bool) : (lagrO3Quad : RefFE K).Conforms ori (fun _ => lagrO3Segment)
    (fun _ => 2) 4 := by
  refine RefFE.conforms_of_symmetric _ _ _ _ o3Segment_symmetric ?_ ori
  intro V E I j hj t
  change j < 4 at hj
  change ∃ v w, (lagrO3Quad : RefFE K).eval (sidePoint .quad j t) = some v ∧ _
  interval_cases j <;>
    simp only [sideQuad0, sideQuad1, sideQuad2, sideQuad3] <;>
    refine ⟨_, _, by exact rfl, by exact rfl, ?_, ?_, ?_⟩ <;> try rfl
  all_goals
    simp [cellCoeffs, RefEl.numNodes, lagrO3Quad, dotRow, List.range_succ]
    try ring

/-! ### The spaces -/

/-- The elements of `FeSpaceLagrangeO1`, `FeSpaceLagrangeO2` and `FeSpaceLagrangeO3`. -/
def lagrFE : ℕ → RefEl → RefFE K
  | p, .point => fePoint p
  | 1, .segment => lagrO1Segment
  | 1, .tria => lagrO1Tria
  | 1, .quad => lagrO1Quad
  | 2, .segment => lagrO2Segment
  | 2, .tria => lagrO2Tria
  | 2, .quad => lagrO2Quad
  | _, .segment => lagrO3Segment
  | _, .tria => lagrO3Tria
  | _, .quad => lagrO3Quad

/-- Number of interior shape functions per type of entity. -/
def lagrangeLayout (p : ℕ) : UniformLayout := ⟨1, p - 1, (p - 1) * (p - 2) / 2, (p - 1) * (p - 1)⟩

omit [CharZero K] in
theorem lagrangeSpace_eq (T : Topo) (p : ℕ) (hp : 1 ≤ p ∧ p ≤ 3) :
    (lagrangeSpace T p : Option (UniformFESpace K)) =
      (uniformDofHandler T (lagrangeLayout p) true).map fun h =>
        { tria := some (lagrFE p .tria), quad := some (lagrFE p .quad), edge := some (lagrFE p .segment),
          point := some (lagrFE p .point), numNode := 1, numEdge := p - 1,
          numTria := (p - 1) * (p - 2) / 2, numQuad := (p - 1) * (p - 1), dofh := h } := by
  obtain ⟨h1, h3⟩ := hp
  interval_cases p <;>
  · rw [lagrangeSpace, UniformFESpace.make, if_pos (by
      simp [UniformFESpace.probe, UniformFESpace.agree, lagrO1Tria, lagrO2Tria, lagrO3Tria, lagrO1Quad,
        lagrO2Quad, lagrO3Quad, lagrO1Segment, lagrO2Segment, lagrO3Segment])]
    rfl

theorem lagrFE_endPoints (p : ℕ) (hp : 1 ≤ p ∧ p ≤ 3) :
    (lagrFE p .segment : RefFE K).EndPoints (p - 1) := by
  obtain ⟨h1, h3⟩ := hp
  interval_cases p
  · exact o1Segment_endPoints
  · exact o2Segment_endPoints
  · exact o3Segment_endPoints

theorem lagrFE_conforms (p : ℕ) (hp : 1 ≤ p ∧ p ≤ 3) (r : RefEl) (hr : r = .tria ∨ r = .quad)
    (ori : ℕ → Bool) : (lagrFE p r : RefFE K).ref = r ∧
      (lagrFE p r : RefFE K).Conforms ori (fun _ => lagrFE p .segment) (fun _ => p - 1)
        ((lagrangeLayout p).interior r) := by
  obtain ⟨h1, h3⟩ := hp
  rcases hr with rfl | rfl <;> interval_cases p
  · exact ⟨rfl, o1Tria_conforms ori⟩
  · exact ⟨rfl, o2Tria_conforms ori⟩
  · exact ⟨rfl, o3Tria_conforms ori⟩
  · exact ⟨rfl, o1Quad_conforms ori⟩
  · exact ⟨rfl, o2Quad_conforms ori⟩
  · exact ⟨rfl, o3Quad_conforms ori⟩

end Verif
