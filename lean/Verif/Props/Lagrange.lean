import Verif.Lemmas.Lagrange

/-!
# C44: the Lagrangian reference elements are cardinal bases
-/

set_option linter.unusedSimpArgs false

namespace Verif
open Finset RefFE

macro "eval2" : tactic => `(tactic|
  exact ⟨fun x hx => match x, hx with | [_, _], _ => ⟨_, rfl, rfl⟩,
    fun x hx => match x, hx with
      | [], _ => rfl | [_], _ => rfl | [_, _], h => absurd rfl h | _ :: _ :: _ :: _, _ => rfl⟩)

macro "eval1" : tactic => `(tactic|
  exact ⟨fun x hx => match x, hx with | [_], _ => ⟨_, rfl, rfl⟩,
    fun x hx => match x, hx with
      | [], _ => rfl | [_], h => absurd rfl h | _ :: _ :: _, _ => rfl⟩)

set_option maxHeartbeats 1000000 in
/-- `FeLagrangeO1Segment`. -/
theorem C44_o1Segment : (lagrO1Segment : RefFE ℝ).IsLagrange where
  evaluates := by eval1
  cardinal := ⟨rfl, by simp [lagrO1Segment, RefEl.dimension], by
    intro i hi j hj
    change i < 2 at hi
    change j < 2 at hj
    interval_cases j <;> simp only [lagrO1Segment_node0, lagrO1Segment_node1] <;> interval_cases i <;>
      simp only [lagrO1Segment_shape0, lagrO1Segment_shape1] <;> norm_num⟩
  sumsToOne := fun x hx => match x, hx with
    | [x], _ => by
      change ∑ i ∈ range 2, _ = _
      simp only [sum_range_succ, sum_range_zero,
        lagrO1Segment_shape0, lagrO1Segment_shape1]
      ring
  reproduces := RefFE.reproduces_segment _ rfl rfl rfl (by simp [lagrO1Segment]) (by
    intro a ha x
    change a ≤ 1 at ha
    change ∑ i ∈ range 2, _ = _
    simp only [sum_range_succ, sum_range_zero, List.getD_cons_zero, List.getD_cons_succ,
        lagrO1Segment_node0, lagrO1Segment_node1,
        lagrO1Segment_shape0, lagrO1Segment_shape1]
    interval_cases a <;> ring)
  polynomial := by
    intro i hi
    change i < 2 at hi
    change IsPolyOn .segment 1 _
    interval_cases i
    · exact ⟨fun a => ([1, -1] : List ℝ).getD a 0, fun x => by
        simp only [sum_range_succ, sum_range_zero, Nat.reduceAdd, Nat.reduceSub, List.getD_cons_zero, List.getD_cons_succ,
        lagrO1Segment_shape0, lagrO1Segment_shape1, List.getD_nil]
        ring⟩
    · exact ⟨fun a => ([0, 1] : List ℝ).getD a 0, fun x => by
        simp only [sum_range_succ, sum_range_zero, Nat.reduceAdd, Nat.reduceSub, List.getD_cons_zero, List.getD_cons_succ,
        lagrO1Segment_shape0, lagrO1Segment_shape1, List.getD_nil]
        ring⟩
  gradCorrect := fun x hx => match x, hx with
    | [x], _ => by
      refine ⟨_, rfl, rfl, fun i hi => ?_⟩
      change i < 2 at hi
      interval_cases i <;> refine ⟨rfl, fun k hk => ?_⟩ <;> change k < 1 at hk <;> interval_cases k <;>
        simp only [List.set_cons_zero, List.set_cons_succ, List.getD_cons_zero, List.getD_cons_succ,
        lagrO1Segment_shape0, lagrO1Segment_shape1] <;>
        (refine HasDerivAt.congr_deriv (by hasderiv) ?_; ring)
  countsConsistent := ⟨by decide, by decide⟩

set_option maxHeartbeats 1000000 in
/-- `FeLagrangeO2Segment`. -/
theorem C44_o2Segment : (lagrO2Segment : RefFE ℝ).IsLagrange where
  evaluates := by eval1
  cardinal := ⟨rfl, by simp [lagrO2Segment, RefEl.dimension], by
    intro i hi j hj
    change i < 3 at hi
    change j < 3 at hj
    interval_cases j <;> simp only [lagrO2Segment_node0, lagrO2Segment_node1, lagrO2Segment_node2] <;> interval_cases i <;>
      simp only [lagrO2Segment_shape0, lagrO2Segment_shape1, lagrO2Segment_shape2] <;> norm_num⟩
  sumsToOne := fun x hx => match x, hx with
    | [x], _ => by
      change ∑ i ∈ range 3, _ = _
      simp only [sum_range_succ, sum_range_zero,
        lagrO2Segment_shape0, lagrO2Segment_shape1, lagrO2Segment_shape2]
      ring
  reproduces := RefFE.reproduces_segment _ rfl rfl rfl (by simp [lagrO2Segment]) (by
    intro a ha x
    change a ≤ 2 at ha
    change ∑ i ∈ range 3, _ = _
    simp only [sum_range_succ, sum_range_zero, List.getD_cons_zero, List.getD_cons_succ,
        lagrO2Segment_node0, lagrO2Segment_node1, lagrO2Segment_node2,
        lagrO2Segment_shape0, lagrO2Segment_shape1, lagrO2Segment_shape2]
    interval_cases a <;> ring)
  polynomial := by
    intro i hi
    change i < 3 at hi
    change IsPolyOn .segment 2 _
    interval_cases i
    · exact ⟨fun a => ([1, -3, 2] : List ℝ).getD a 0, fun x => by
        simp only [sum_range_succ, sum_range_zero, Nat.reduceAdd, Nat.reduceSub, List.getD_cons_zero, List.getD_cons_succ,
        lagrO2Segment_shape0, lagrO2Segment_shape1, lagrO2Segment_shape2, List.getD_nil]
        ring⟩
    · exact ⟨fun a => ([0, -1, 2] : List ℝ).getD a 0, fun x => by
        simp only [sum_range_succ, sum_range_zero, Nat.reduceAdd, Nat.reduceSub, List.getD_cons_zero, List.getD_cons_succ,
        lagrO2Segment_shape0, lagrO2Segment_shape1, lagrO2Segment_shape2, List.getD_nil]
        ring⟩
    · exact ⟨fun a => ([0, 4, -4] : List ℝ).getD a 0, fun x => by
        simp only [sum_range_succ, sum_range_zero, Nat.reduceAdd, Nat.reduceSub, List.getD_cons_zero, List.getD_cons_succ,
        lagrO2Segment_shape0, lagrO2Segment_shape1, lagrO2Segment_shape2, List.getD_nil]
        ring⟩
  gradCorrect := fun x hx => match x, hx with
    | [x], _ => by
      refine ⟨_, rfl, rfl, fun i hi => ?_⟩
      change i < 3 at hi
      interval_cases i <;> refine ⟨rfl, fun k hk => ?_⟩ <;> change k < 1 at hk <;> interval_cases k <;>
        simp only [List.set_cons_zero, List.set_cons_succ, List.getD_cons_zero, List.getD_cons_succ,
        lagrO2Segment_shape0, lagrO2Segment_shape1, lagrO2Segment_shape2] <;>
        (refine HasDerivAt.congr_deriv (by hasderiv) ?_; ring)
  countsConsistent := ⟨by decide, by decide⟩

set_option maxHeartbeats 1000000 in
/-- `FeLagrangeO3Segment`. -/
theorem C44_o3Segment : (lagrO3Segment : RefFE ℝ).IsLagrange where
  evaluates := by eval1
  cardinal := ⟨rfl, by simp [lagrO3Segment, RefEl.dimension], by
    intro i hi j hj
    change i < 4 at hi
    change j < 4 at hj
    interval_cases j <;> simp only [lagrO3Segment_node0, lagrO3Segment_node1, lagrO3Segment_node2, lagrO3Segment_node3] <;> interval_cases i <;>
      simp only [lagrO3Segment_shape0, lagrO3Segment_shape1, lagrO3Segment_shape2, lagrO3Segment_shape3] <;> norm_num⟩
  sumsToOne := fun x hx => match x, hx with
    | [x], _ => by
      change ∑ i ∈ range 4, _ = _
      simp only [sum_range_succ, sum_range_zero,
        lagrO3Segment_shape0, lagrO3Segment_shape1, lagrO3Segment_shape2, lagrO3Segment_shape3]
      ring
  reproduces := RefFE.reproduces_segment _ rfl rfl rfl (by simp [lagrO3Segment]) (by
    intro a ha x
    change a ≤ 3 at ha
    change ∑ i ∈ range 4, _ = _
    simp only [sum_range_succ, sum_range_zero, List.getD_cons_zero, List.getD_cons_succ,
        lagrO3Segment_node0, lagrO3Segment_node1, lagrO3Segment_node2, lagrO3Segment_node3,
        lagrO3Segment_shape0, lagrO3Segment_shape1, lagrO3Segment_shape2, lagrO3Segment_shape3]
    interval_cases a <;> ring)
  polynomial := by
    intro i hi
    change i < 4 at hi
    change IsPolyOn .segment 3 _
    interval_cases i
    · exact ⟨fun a => ([1, -11/2, 9, -9/2] : List ℝ).getD a 0, fun x => by
        simp only [sum_range_succ, sum_range_zero, Nat.reduceAdd, Nat.reduceSub, List.getD_cons_zero, List.getD_cons_succ,
        lagrO3Segment_shape0, lagrO3Segment_shape1, lagrO3Segment_shape2, lagrO3Segment_shape3, List.getD_nil]
        ring⟩
    · exact ⟨fun a => ([0, 1, -9/2, 9/2] : List ℝ).getD a 0, fun x => by
        simp only [sum_range_succ, sum_range_zero, Nat.reduceAdd, Nat.reduceSub, List.getD_cons_zero, List.getD_cons_succ,
        lagrO3Segment_shape0, lagrO3Segment_shape1, lagrO3Segment_shape2, lagrO3Segment_shape3, List.getD_nil]
        ring⟩
    · exact ⟨fun a => ([0, 9, -45/2, 27/2] : List ℝ).getD a 0, fun x => by
        simp only [sum_range_succ, sum_range_zero, Nat.reduceAdd, Nat.reduceSub, List.getD_cons_zero, List.getD_cons_succ,
        lagrO3Segment_shape0, lagrO3Segment_shape1, lagrO3Segment_shape2, lagrO3Segment_shape3, List.getD_nil]
        ring⟩
    · exact ⟨fun a => ([0, -9/2, 18, -27/2] : List ℝ).getD a 0, fun x => by
        simp only [sum_range_succ, sum_range_zero, Nat.reduceAdd, Nat.reduceSub, List.getD_cons_zero, List.getD_cons_succ,
        lagrO3Segment_shape0, lagrO3Segment_shape1, lagrO3Segment_shape2, lagrO3Segment_shape3, List.getD_nil]
        ring⟩
  gradCorrect := fun x hx => match x, hx with
    | [x], _ => by
      refine ⟨_, rfl, rfl, fun i hi => ?_⟩
      change i < 4 at hi
      interval_cases i <;> refine ⟨rfl, fun k hk => ?_⟩ <;> change k < 1 at hk <;> interval_cases k <;>
        simp only [List.set_cons_zero, List.set_cons_succ, List.getD_cons_zero, List.getD_cons_succ,
        lagrO3Segment_shape0, lagrO3Segment_shape1, lagrO3Segment_shape2, lagrO3Segment_shape3] <;>
        (refine HasDerivAt.congr_deriv (by hasderiv) ?_; ring)
  countsConsistent := ⟨by decide, by decide⟩

set_option maxHeartbeats 1000000 in
/-- `FeLagrangeO1Tria`. -/
theorem C44_o1Tria : (lagrO1Tria : RefFE ℝ).IsLagrange where
  evaluates := by eval2
  cardinal := ⟨rfl, by simp [lagrO1Tria, RefEl.dimension], by
    intro i hi j hj
    change i < 3 at hi
    change j < 3 at hj
    interval_cases j <;> simp only [lagrO1Tria_node0, lagrO1Tria_node1, lagrO1Tria_node2] <;> interval_cases i <;>
      simp only [lagrO1Tria_shape0, lagrO1Tria_shape1, lagrO1Tria_shape2] <;> norm_num⟩
  sumsToOne := fun x hx => match x, hx with
    | [x, y], _ => by
      change ∑ i ∈ range 3, _ = _
      simp only [sum_range_succ, sum_range_zero,
        lagrO1Tria_shape0, lagrO1Tria_shape1, lagrO1Tria_shape2]
      ring
  reproduces := RefFE.reproduces_tria _ rfl rfl rfl (by simp [lagrO1Tria]) (by
    intro a b hab x y
    change a + b ≤ 1 at hab
    change ∑ i ∈ range 3, _ = _
    have hb : b ≤ 1 := by omega
    have ha : a ≤ 1 := by omega
    simp only [sum_range_succ, sum_range_zero, List.getD_cons_zero, List.getD_cons_succ,
        lagrO1Tria_node0, lagrO1Tria_node1, lagrO1Tria_node2,
        lagrO1Tria_shape0, lagrO1Tria_shape1, lagrO1Tria_shape2]
    interval_cases a <;> interval_cases b <;> first
      | (exfalso; revert hab; decide)
      | ring)
  polynomial := by
    intro i hi
    change i < 3 at hi
    change IsPolyOn .tria 1 _
    interval_cases i
    · exact ⟨fun a b => (([[1, -1], [-1]] : List (List ℝ)).getD a []).getD b 0,
        fun x y => by
        simp only [sum_range_succ, sum_range_zero, Nat.reduceAdd, Nat.reduceSub, List.getD_cons_zero, List.getD_cons_succ,
        lagrO1Tria_shape0, lagrO1Tria_shape1, lagrO1Tria_shape2, List.getD_nil]
        ring⟩
    · exact ⟨fun a b => (([[0, 0], [1]] : List (List ℝ)).getD a []).getD b 0,
        fun x y => by
        simp only [sum_range_succ, sum_range_zero, Nat.reduceAdd, Nat.reduceSub, List.getD_cons_zero, List.getD_cons_succ,
        lagrO1Tria_shape0, lagrO1Tria_shape1, lagrO1Tria_shape2, List.getD_nil]
        ring⟩
    · exact ⟨fun a b => (([[0, 1], [0]] : List (List ℝ)).getD a []).getD b 0,
        fun x y => by
        simp only [sum_range_succ, sum_range_zero, Nat.reduceAdd, Nat.reduceSub, List.getD_cons_zero, List.getD_cons_succ,
        lagrO1Tria_shape0, lagrO1Tria_shape1, lagrO1Tria_shape2, List.getD_nil]
        ring⟩
  gradCorrect := fun x hx => match x, hx with
    | [x, y], _ => by
      refine ⟨_, rfl, rfl, fun i hi => ?_⟩
      change i < 3 at hi
      interval_cases i <;> refine ⟨rfl, fun k hk => ?_⟩ <;> change k < 2 at hk <;> interval_cases k <;>
        simp only [List.set_cons_zero, List.set_cons_succ, List.getD_cons_zero, List.getD_cons_succ,
        lagrO1Tria_shape0, lagrO1Tria_shape1, lagrO1Tria_shape2] <;>
        (refine HasDerivAt.congr_deriv (by hasderiv) ?_; ring)
  countsConsistent := ⟨by decide, by decide⟩

set_option maxHeartbeats 1000000 in
/-- `FeLagrangeO2Tria`. -/
theorem C44_o2Tria : (lagrO2Tria : RefFE ℝ).IsLagrange where
  evaluates := by eval2
  cardinal := ⟨rfl, by simp [lagrO2Tria, RefEl.dimension], by
    intro i hi j hj
    change i < 6 at hi
    change j < 6 at hj
    interval_cases j <;> simp only [lagrO2Tria_node0, lagrO2Tria_node1, lagrO2Tria_node2, lagrO2Tria_node3, lagrO2Tria_node4,
        lagrO2Tria_node5] <;> interval_cases i <;>
      simp only [lagrO2Tria_shape0, lagrO2Tria_shape1, lagrO2Tria_shape2, lagrO2Tria_shape3,
        lagrO2Tria_shape4, lagrO2Tria_shape5] <;> norm_num⟩
  sumsToOne := fun x hx => match x, hx with
    | [x, y], _ => by
      change ∑ i ∈ range 6, _ = _
      simp only [sum_range_succ, sum_range_zero,
        lagrO2Tria_shape0, lagrO2Tria_shape1, lagrO2Tria_shape2, lagrO2Tria_shape3,
        lagrO2Tria_shape4, lagrO2Tria_shape5]
      ring
  reproduces := RefFE.reproduces_tria _ rfl rfl rfl (by simp [lagrO2Tria]) (by
    intro a b hab x y
    change a + b ≤ 2 at hab
    change ∑ i ∈ range 6, _ = _
    have hb : b ≤ 2 := by omega
    have ha : a ≤ 2 := by omega
    simp only [sum_range_succ, sum_range_zero, List.getD_cons_zero, List.getD_cons_succ,
        lagrO2Tria_node0, lagrO2Tria_node1, lagrO2Tria_node2, lagrO2Tria_node3, lagrO2Tria_node4,
        lagrO2Tria_node5,
        lagrO2Tria_shape0, lagrO2Tria_shape1, lagrO2Tria_shape2, lagrO2Tria_shape3,
        lagrO2Tria_shape4, lagrO2Tria_shape5]
    interval_cases a <;> interval_cases b <;> first
      | (exfalso; revert hab; decide)
      | ring)
  polynomial := by
    intro i hi
    change i < 6 at hi
    change IsPolyOn .tria 2 _
    interval_cases i
    · exact ⟨fun a b => (([[1, -3, 2], [-3, 4], [2]] : List (List ℝ)).getD a []).getD b 0,
        fun x y => by
        simp only [sum_range_succ, sum_range_zero, Nat.reduceAdd, Nat.reduceSub, List.getD_cons_zero, List.getD_cons_succ,
        lagrO2Tria_shape0, lagrO2Tria_shape1, lagrO2Tria_shape2, lagrO2Tria_shape3,
        lagrO2Tria_shape4, lagrO2Tria_shape5, List.getD_nil]
        ring⟩
    · exact ⟨fun a b => (([[0, 0, 0], [-1, 0], [2]] : List (List ℝ)).getD a []).getD b 0,
        fun x y => by
        simp only [sum_range_succ, sum_range_zero, Nat.reduceAdd, Nat.reduceSub, List.getD_cons_zero, List.getD_cons_succ,
        lagrO2Tria_shape0, lagrO2Tria_shape1, lagrO2Tria_shape2, lagrO2Tria_shape3,
        lagrO2Tria_shape4, lagrO2Tria_shape5, List.getD_nil]
        ring⟩
    · exact ⟨fun a b => (([[0, -1, 2], [0, 0], [0]] : List (List ℝ)).getD a []).getD b 0,
        fun x y => by
        simp only [sum_range_succ, sum_range_zero, Nat.reduceAdd, Nat.reduceSub, List.getD_cons_zero, List.getD_cons_succ,
        lagrO2Tria_shape0, lagrO2Tria_shape1, lagrO2Tria_shape2, lagrO2Tria_shape3,
        lagrO2Tria_shape4, lagrO2Tria_shape5, List.getD_nil]
        ring⟩
    · exact ⟨fun a b => (([[0, 0, 0], [4, -4], [-4]] : List (List ℝ)).getD a []).getD b 0,
        fun x y => by
        simp only [sum_range_succ, sum_range_zero, Nat.reduceAdd, Nat.reduceSub, List.getD_cons_zero, List.getD_cons_succ,
        lagrO2Tria_shape0, lagrO2Tria_shape1, lagrO2Tria_shape2, lagrO2Tria_shape3,
        lagrO2Tria_shape4, lagrO2Tria_shape5, List.getD_nil]
        ring⟩
    · exact ⟨fun a b => (([[0, 0, 0], [0, 4], [0]] : List (List ℝ)).getD a []).getD b 0,
        fun x y => by
        simp only [sum_range_succ, sum_range_zero, Nat.reduceAdd, Nat.reduceSub, List.getD_cons_zero, List.getD_cons_succ,
        lagrO2Tria_shape0, lagrO2Tria_shape1, lagrO2Tria_shape2, lagrO2Tria_shape3,
        lagrO2Tria_shape4, lagrO2Tria_shape5, List.getD_nil]
        ring⟩
    · exact ⟨fun a b => (([[0, 4, -4], [0, -4], [0]] : List (List ℝ)).getD a []).getD b 0,
        fun x y => by
        simp only [sum_range_succ, sum_range_zero, Nat.reduceAdd, Nat.reduceSub, List.getD_cons_zero, List.getD_cons_succ,
        lagrO2Tria_shape0, lagrO2Tria_shape1, lagrO2Tria_shape2, lagrO2Tria_shape3,
        lagrO2Tria_shape4, lagrO2Tria_shape5, List.getD_nil]
        ring⟩
  gradCorrect := fun x hx => match x, hx with
    | [x, y], _ => by
      refine ⟨_, rfl, rfl, fun i hi => ?_⟩
      change i < 6 at hi
      interval_cases i <;> refine ⟨rfl, fun k hk => ?_⟩ <;> change k < 2 at hk <;> interval_cases k <;>
        simp only [List.set_cons_zero, List.set_cons_succ, List.getD_cons_zero, List.getD_cons_succ,
        lagrO2Tria_shape0, lagrO2Tria_shape1, lagrO2Tria_shape2, lagrO2Tria_shape3,
        lagrO2Tria_shape4, lagrO2Tria_shape5] <;>
        (refine HasDerivAt.congr_deriv (by hasderiv) ?_; ring)
  countsConsistent := ⟨by decide, by decide⟩

set_option maxHeartbeats 1000000 in
/-- `FeLagrangeO3Tria`. -/
theorem C44_o3Tria : (lagrO3Tria : RefFE ℝ).IsLagrange where
  evaluates := by eval2
  cardinal := ⟨rfl, by simp [lagrO3Tria, RefEl.dimension], by
    intro i hi j hj
    change i < 10 at hi
    change j < 10 at hj
    interval_cases j <;> simp only [lagrO3Tria_node0, lagrO3Tria_node1, lagrO3Tria_node2, lagrO3Tria_node3, lagrO3Tria_node4,
        lagrO3Tria_node5, lagrO3Tria_node6, lagrO3Tria_node7, lagrO3Tria_node8, lagrO3Tria_node9] <;> interval_cases i <;>
      simp only [lagrO3Tria_shape0, lagrO3Tria_shape1, lagrO3Tria_shape2, lagrO3Tria_shape3,
        lagrO3Tria_shape4, lagrO3Tria_shape5, lagrO3Tria_shape6, lagrO3Tria_shape7,
        lagrO3Tria_shape8, lagrO3Tria_shape9] <;> norm_num⟩
  sumsToOne := fun x hx => match x, hx with
    | [x, y], _ => by
      change ∑ i ∈ range 10, _ = _
      simp only [sum_range_succ, sum_range_zero,
        lagrO3Tria_shape0, lagrO3Tria_shape1, lagrO3Tria_shape2, lagrO3Tria_shape3,
        lagrO3Tria_shape4, lagrO3Tria_shape5, lagrO3Tria_shape6, lagrO3Tria_shape7,
        lagrO3Tria_shape8, lagrO3Tria_shape9]
      ring
  reproduces := RefFE.reproduces_tria _ rfl rfl rfl (by simp [lagrO3Tria]) (by
    intro a b hab x y
    change a + b ≤ 3 at hab
    change ∑ i ∈ range 10, _ = _
    have hb : b ≤ 3 := by omega
    have ha : a ≤ 3 := by omega
    simp only [sum_range_succ, sum_range_zero, List.getD_cons_zero, List.getD_cons_succ,
        lagrO3Tria_node0, lagrO3Tria_node1, lagrO3Tria_node2, lagrO3Tria_node3, lagrO3Tria_node4,
        lagrO3Tria_node5, lagrO3Tria_node6, lagrO3Tria_node7, lagrO3Tria_node8, lagrO3Tria_node9,
        lagrO3Tria_shape0, lagrO3Tria_shape1, lagrO3Tria_shape2, lagrO3Tria_shape3,
        lagrO3Tria_shape4, lagrO3Tria_shape5, lagrO3Tria_shape6, lagrO3Tria_shape7,
        lagrO3Tria_shape8, lagrO3Tria_shape9]
    interval_cases a <;> interval_cases b <;> first
      | (exfalso; revert hab; decide)
      | ring)
  polynomial := by
    intro i hi
    change i < 10 at hi
    change IsPolyOn .tria 3 _
    interval_cases i
    · exact ⟨fun a b => (([[1, -11/2, 9, -9/2], [-11/2, 18, -27/2], [9, -27/2], [-9/2]] : List (List ℝ)).getD a []).getD b 0,
        fun x y => by
        simp only [sum_range_succ, sum_range_zero, Nat.reduceAdd, Nat.reduceSub, List.getD_cons_zero, List.getD_cons_succ,
        lagrO3Tria_shape0, lagrO3Tria_shape1, lagrO3Tria_shape2, lagrO3Tria_shape3,
        lagrO3Tria_shape4, lagrO3Tria_shape5, lagrO3Tria_shape6, lagrO3Tria_shape7,
        lagrO3Tria_shape8, lagrO3Tria_shape9, List.getD_nil]
        ring⟩
    · exact ⟨fun a b => (([[0, 0, 0, 0], [1, 0, 0], [-9/2, 0], [9/2]] : List (List ℝ)).getD a []).getD b 0,
        fun x y => by
        simp only [sum_range_succ, sum_range_zero, Nat.reduceAdd, Nat.reduceSub, List.getD_cons_zero, List.getD_cons_succ,
        lagrO3Tria_shape0, lagrO3Tria_shape1, lagrO3Tria_shape2, lagrO3Tria_shape3,
        lagrO3Tria_shape4, lagrO3Tria_shape5, lagrO3Tria_shape6, lagrO3Tria_shape7,
        lagrO3Tria_shape8, lagrO3Tria_shape9, List.getD_nil]
        ring⟩
    · exact ⟨fun a b => (([[0, 1, -9/2, 9/2], [0, 0, 0], [0, 0], [0]] : List (List ℝ)).getD a []).getD b 0,
        fun x y => by
        simp only [sum_range_succ, sum_range_zero, Nat.reduceAdd, Nat.reduceSub, List.getD_cons_zero, List.getD_cons_succ,
        lagrO3Tria_shape0, lagrO3Tria_shape1, lagrO3Tria_shape2, lagrO3Tria_shape3,
        lagrO3Tria_shape4, lagrO3Tria_shape5, lagrO3Tria_shape6, lagrO3Tria_shape7,
        lagrO3Tria_shape8, lagrO3Tria_shape9, List.getD_nil]
        ring⟩
    · exact ⟨fun a b => (([[0, 0, 0, 0], [9, -45/2, 27/2], [-45/2, 27], [27/2]] : List (List ℝ)).getD a []).getD b 0,
        fun x y => by
        simp only [sum_range_succ, sum_range_zero, Nat.reduceAdd, Nat.reduceSub, List.getD_cons_zero, List.getD_cons_succ,
        lagrO3Tria_shape0, lagrO3Tria_shape1, lagrO3Tria_shape2, lagrO3Tria_shape3,
        lagrO3Tria_shape4, lagrO3Tria_shape5, lagrO3Tria_shape6, lagrO3Tria_shape7,
        lagrO3Tria_shape8, lagrO3Tria_shape9, List.getD_nil]
        ring⟩
    · exact ⟨fun a b => (([[0, 0, 0, 0], [-9/2, 9/2, 0], [18, -27/2], [-27/2]] : List (List ℝ)).getD a []).getD b 0,
        fun x y => by
        simp only [sum_range_succ, sum_range_zero, Nat.reduceAdd, Nat.reduceSub, List.getD_cons_zero, List.getD_cons_succ,
        lagrO3Tria_shape0, lagrO3Tria_shape1, lagrO3Tria_shape2, lagrO3Tria_shape3,
        lagrO3Tria_shape4, lagrO3Tria_shape5, lagrO3Tria_shape6, lagrO3Tria_shape7,
        lagrO3Tria_shape8, lagrO3Tria_shape9, List.getD_nil]
        ring⟩
    · exact ⟨fun a b => (([[0, 0, 0, 0], [0, -9/2, 0], [0, 27/2], [0]] : List (List ℝ)).getD a []).getD b 0,
        fun x y => by
        simp only [sum_range_succ, sum_range_zero, Nat.reduceAdd, Nat.reduceSub, List.getD_cons_zero, List.getD_cons_succ,
        lagrO3Tria_shape0, lagrO3Tria_shape1, lagrO3Tria_shape2, lagrO3Tria_shape3,
        lagrO3Tria_shape4, lagrO3Tria_shape5, lagrO3Tria_shape6, lagrO3Tria_shape7,
        lagrO3Tria_shape8, lagrO3Tria_shape9, List.getD_nil]
        ring⟩
    · exact ⟨fun a b => (([[0, 0, 0, 0], [0, -9/2, 27/2], [0, 0], [0]] : List (List ℝ)).getD a []).getD b 0,
        fun x y => by
        simp only [sum_range_succ, sum_range_zero, Nat.reduceAdd, Nat.reduceSub, List.getD_cons_zero, List.getD_cons_succ,
        lagrO3Tria_shape0, lagrO3Tria_shape1, lagrO3Tria_shape2, lagrO3Tria_shape3,
        lagrO3Tria_shape4, lagrO3Tria_shape5, lagrO3Tria_shape6, lagrO3Tria_shape7,
        lagrO3Tria_shape8, lagrO3Tria_shape9, List.getD_nil]
        ring⟩
    · exact ⟨fun a b => (([[0, -9/2, 18, -27/2], [0, 9/2, -27/2], [0, 0], [0]] : List (List ℝ)).getD a []).getD b 0,
        fun x y => by
        simp only [sum_range_succ, sum_range_zero, Nat.reduceAdd, Nat.reduceSub, List.getD_cons_zero, List.getD_cons_succ,
        lagrO3Tria_shape0, lagrO3Tria_shape1, lagrO3Tria_shape2, lagrO3Tria_shape3,
        lagrO3Tria_shape4, lagrO3Tria_shape5, lagrO3Tria_shape6, lagrO3Tria_shape7,
        lagrO3Tria_shape8, lagrO3Tria_shape9, List.getD_nil]
        ring⟩
    · exact ⟨fun a b => (([[0, 9, -45/2, 27/2], [0, -45/2, 27], [0, 27/2], [0]] : List (List ℝ)).getD a []).getD b 0,
        fun x y => by
        simp only [sum_range_succ, sum_range_zero, Nat.reduceAdd, Nat.reduceSub, List.getD_cons_zero, List.getD_cons_succ,
        lagrO3Tria_shape0, lagrO3Tria_shape1, lagrO3Tria_shape2, lagrO3Tria_shape3,
        lagrO3Tria_shape4, lagrO3Tria_shape5, lagrO3Tria_shape6, lagrO3Tria_shape7,
        lagrO3Tria_shape8, lagrO3Tria_shape9, List.getD_nil]
        ring⟩
    · exact ⟨fun a b => (([[0, 0, 0, 0], [0, 27, -27], [0, -27], [0]] : List (List ℝ)).getD a []).getD b 0,
        fun x y => by
        simp only [sum_range_succ, sum_range_zero, Nat.reduceAdd, Nat.reduceSub, List.getD_cons_zero, List.getD_cons_succ,
        lagrO3Tria_shape0, lagrO3Tria_shape1, lagrO3Tria_shape2, lagrO3Tria_shape3,
        lagrO3Tria_shape4, lagrO3Tria_shape5, lagrO3Tria_shape6, lagrO3Tria_shape7,
        lagrO3Tria_shape8, lagrO3Tria_shape9, List.getD_nil]
        ring⟩
  gradCorrect := fun x hx => match x, hx with
    | [x, y], _ => by
      refine ⟨_, rfl, rfl, fun i hi => ?_⟩
      change i < 10 at hi
      interval_cases i <;> refine ⟨rfl, fun k hk => ?_⟩ <;> change k < 2 at hk <;> interval_cases k <;>
        simp only [List.set_cons_zero, List.set_cons_succ, List.getD_cons_zero, List.getD_cons_succ,
        lagrO3Tria_shape0, lagrO3Tria_shape1, lagrO3Tria_shape2, lagrO3Tria_shape3,
        lagrO3Tria_shape4, lagrO3Tria_shape5, lagrO3Tria_shape6, lagrO3Tria_shape7,
        lagrO3Tria_shape8, lagrO3Tria_shape9] <;>
        (refine HasDerivAt.congr_deriv (by hasderiv) ?_; ring)
  countsConsistent := ⟨by decide, by decide⟩

set_option maxHeartbeats 1000000 in
/-- `FeLagrangeO1Quad`. -/
theorem C44_o1Quad : (lagrO1Quad : RefFE ℝ).IsLagrange where
  evaluates := by eval2
  cardinal := ⟨rfl, by simp [lagrO1Quad, RefEl.dimension], by
    intro i hi j hj
    change i < 4 at hi
    change j < 4 at hj
    interval_cases j <;> simp only [lagrO1Quad_node0, lagrO1Quad_node1, lagrO1Quad_node2, lagrO1Quad_node3] <;> interval_cases i <;>
      simp only [lagrO1Quad_shape0, lagrO1Quad_shape1, lagrO1Quad_shape2, lagrO1Quad_shape3] <;> norm_num⟩
  sumsToOne := fun x hx => match x, hx with
    | [x, y], _ => by
      change ∑ i ∈ range 4, _ = _
      simp only [sum_range_succ, sum_range_zero,
        lagrO1Quad_shape0, lagrO1Quad_shape1, lagrO1Quad_shape2, lagrO1Quad_shape3]
      ring
  reproduces := RefFE.reproduces_quad _ rfl rfl rfl (by simp [lagrO1Quad]) (by
    intro a b ha hb x y
    change a ≤ 1 at ha
    change b ≤ 1 at hb
    change ∑ i ∈ range 4, _ = _
    simp only [sum_range_succ, sum_range_zero, List.getD_cons_zero, List.getD_cons_succ,
        lagrO1Quad_node0, lagrO1Quad_node1, lagrO1Quad_node2, lagrO1Quad_node3,
        lagrO1Quad_shape0, lagrO1Quad_shape1, lagrO1Quad_shape2, lagrO1Quad_shape3]
    interval_cases a <;> interval_cases b <;> ring)
  polynomial := by
    intro i hi
    change i < 4 at hi
    change IsPolyOn .quad 1 _
    interval_cases i
    · exact poly_tensor (C44_o1Segment.polynomial 0 (by decide))
        (C44_o1Segment.polynomial 0 (by decide)) fun x y => rfl
    · exact poly_tensor (C44_o1Segment.polynomial 1 (by decide))
        (C44_o1Segment.polynomial 0 (by decide)) fun x y => rfl
    · exact poly_tensor (C44_o1Segment.polynomial 1 (by decide))
        (C44_o1Segment.polynomial 1 (by decide)) fun x y => rfl
    · exact poly_tensor (C44_o1Segment.polynomial 0 (by decide))
        (C44_o1Segment.polynomial 1 (by decide)) fun x y => rfl
  gradCorrect := fun x hx => match x, hx with
    | [x, y], _ => by
      refine ⟨_, rfl, rfl, fun i hi => ?_⟩
      change i < 4 at hi
      interval_cases i <;> refine ⟨rfl, fun k hk => ?_⟩ <;> change k < 2 at hk <;> interval_cases k <;>
        simp only [List.set_cons_zero, List.set_cons_succ, List.getD_cons_zero, List.getD_cons_succ,
        lagrO1Quad_shape0, lagrO1Quad_shape1, lagrO1Quad_shape2, lagrO1Quad_shape3] <;>
        (refine HasDerivAt.congr_deriv (by hasderiv) ?_; ring)
  countsConsistent := ⟨by decide, by decide⟩

/-- `FeLagrangeO2Quad`. -/
theorem C44_o2Quad : (lagrO2Quad : RefFE ℝ).IsLagrange :=
  tensor_isLagrange lagrO2Segment _ o2Mapping C44_o2Segment rfl rfl rfl rfl (by decide) rfl rfl
    (by simp [lagrO2Quad, o2Mapping, lagrO2Segment]) rfl rfl
    ⟨by decide, by decide⟩

/-- `FeLagrangeO3Quad`. -/
theorem C44_o3Quad : (lagrO3Quad : RefFE ℝ).IsLagrange :=
  tensor_isLagrange lagrO3Segment _ o3Mapping C44_o3Segment rfl rfl rfl rfl (by decide) rfl rfl
    (by simp [lagrO3Quad, o3Mapping, lagrO3Segment] <;> norm_num) rfl rfl
    ⟨by decide, by decide⟩

/-- The element for points: a single shape function with value one. -/
theorem C44_point (p : ℕ) : (fePoint p : RefFE ℝ).Evaluates ∧ (fePoint p : RefFE ℝ).Cardinal ∧
    (fePoint p : RefFE ℝ).SumsToOne ∧ (fePoint p : RefFE ℝ).Reproduces := by
  refine ⟨⟨fun x hx => ?_, fun x hx => ?_⟩, ⟨rfl, by simp [fePoint, RefEl.dimension], ?_⟩, ?_, ?_⟩
  · cases x with
    | nil => exact ⟨[1], rfl, rfl⟩
    | cons a l => simp [fePoint, RefEl.dimension] at hx
  · cases x with
    | nil => exact absurd rfl hx
    | cons a l => rfl
  · intro i hi j hj
    change i < 1 at hi
    change j < 1 at hj
    interval_cases i
    interval_cases j
    simp [shape, fePoint]
  · intro x hx
    cases x with
    | nil => simp [shape, fePoint]
    | cons a l => simp [fePoint, RefEl.dimension] at hx
  · intro f _
    refine ⟨[f []], rfl, rfl, fun x hx => ?_⟩
    cases x with
    | nil => simp [shape, fePoint]
    | cons a l => simp [fePoint, RefEl.dimension] at hx

/-- A polynomial of degree two, its nodal values, and its value at a point by way of them. -/
example : IsPolyOn .tria 2 (fun p => 1 + p.getD 0 0 * p.getD 1 0) ∧
    ∑ i ∈ range 6, ([1, 1, 1, 1, 5 / 4, 1] : List ℝ).getD i 0 * shape lagrO2Tria i [1 / 5, 1 / 2] = 11 / 10 := by
  constructor
  · refine ⟨fun a b => if a = 0 ∧ b = 0 then 1 else if a = 1 ∧ b = 1 then 1 else 0, fun x y => ?_⟩
    simp [sum_range_succ]
  · norm_num [sum_range_succ, shape, lagrO2Tria]

end Verif
