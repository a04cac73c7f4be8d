import Verif.Lemmas.LagrConform
import Verif.Props.DofHandler

/-!
# C45: Lagrangian finite element functions are continuous
-/

namespace Verif
open Geo
variable {K : Type} [Field K]

/-- The Lagrangian spaces can be constructed on every mesh, and their dof handler is the uniform one with
`p - 1` dofs per edge and `(p - 1) (p - 2) / 2` and `(p - 1)²` dofs in the interior of cells. -/
theorem C45_constructible (T : Topo) (hT : T.WF) (p : ℕ) (hp : 1 ≤ p ∧ p ≤ 3) :
    ∃ U : UniformFESpace K, lagrangeSpace T p = some U ∧
      uniformDofHandler T ⟨1, p - 1, (p - 1) * (p - 2) / 2, (p - 1) * (p - 1)⟩ true = some U.dofh := by
  obtain ⟨h, hh, -⟩ := C09_uniform T hT (lagrangeLayout p) true
  rw [lagrangeSpace_eq T p hp, hh]
  exact ⟨_, rfl, hh⟩

theorem lagr_conforming [CharZero K] (T : Topo) (hT : T.WF) (p : ℕ) (hp : 1 ≤ p ∧ p ≤ 3)
    (U : UniformFESpace K) (hU : lagrangeSpace T p = some U) :
    ∃ cnt, Conforming (U.space T) cnt := by
  obtain ⟨h, hh, -, -, hcnt⟩ := C09_uniform T hT (lagrangeLayout p) true
  rw [lagrangeSpace_eq T p hp, hh] at hU
  cases hU
  obtain ⟨a1, a2, a3⟩ := C11_uniform T hT _ h hh
  have hent : ∀ e, T.IsEnt e → ∃ r, T.refEl e = some r := by
    rintro ⟨k, i⟩ ⟨hk, hi⟩
    simp only at hk hi
    interval_cases k
    · have := hT.cell_len i hi
      simp only [Topo.refEl, if_pos hi]
      rcases this with h | h <;> simp [h]
    · exact ⟨.segment, by simp only [Topo.refEl, if_pos hi]; simp⟩
    · exact ⟨.point, by simp only [Topo.refEl, if_pos hi]; simp⟩
  have hnode : ∀ v, v < T.numNodes → T.refEl (2, v) = some .point := fun v hv => by
    rw [Topo.refEl, if_pos (show v < T.num 2 from hv)]; simp
  have hedge : ∀ e, e < T.numEdges → T.refEl (1, e) = some .segment := fun e he => by
    rw [Topo.refEl, if_pos (show e < T.num 1 from he)]; simp
  refine ⟨fun e => match e with
    | (0, i) => ((T.refEl (0, i)).map (lagrangeLayout p).interior).getD 0
    | (1, _) => p - 1
    | _ => 1, hT, a1, a2, a3, ?_, fun v => rfl, ?_, ?_, ?_⟩
  · rintro ⟨k, i⟩ he
    obtain ⟨r, hr⟩ := hent _ he
    have := hcnt _ r he hr
    rw [show UniformFESpace.space _ T = (⟨T, h, _⟩ : FeSpace K) from rfl]
    simp only
    rw [this]
    obtain ⟨hk, hi⟩ := he
    simp only at hk hi
    interval_cases k
    · simp [hr]
    · rw [hedge i hi] at hr; cases hr; rfl
    · rw [hnode i hi] at hr; cases hr; rfl
  · intro v hv
    refine ⟨lagrFE p .point, ?_, ?_⟩
    · change (T.refEl (2, v)).bind _ = _
      rw [hnode v hv]
      rfl
    · simp [lagrFE, fePoint]
  · intro e he
    refine ⟨lagrFE p .segment, ?_, lagrFE_endPoints p hp⟩
    change (T.refEl (1, e)).bind _ = _
    rw [hedge e he]
    rfl
  · intro c r hr
    obtain ⟨hc, hn⟩ := Topo.refEl_cell hT hr
    have hr' : r = .tria ∨ r = .quad := by
      have := hT.cell_len c hc
      rw [← hn] at this
      revert this
      cases r <;> simp [RefEl.numNodes]
    obtain ⟨b1, b2⟩ := lagrFE_conforms (K := K) p hp r hr' (fun j => (T.cell c).ori.getD j false)
    refine ⟨lagrFE p r, fun _ => lagrFE p .segment, ?_, b1, ?_, ?_⟩
    · change (T.refEl (0, c)).bind _ = _
      have hr2 : T.refEl (0, c) = some r := hr
      rw [hr2]
      rcases hr' with rfl | rfl <;> rfl
    · intro j hj
      change (T.refEl (1, (T.cell c).edges.getD j 0)).bind _ = _
      rw [hedge]
      · rfl
      · apply hT.cell_edges c hc
        rw [List.getD_eq_getElem _ _ (by rw [hT.cell_edges_len c hc]; omega)]
        exact List.getElem_mem _
    · have hr2 : T.refEl (0, c) = some r := hr
      simp only [hr2, Option.map_some, Option.getD_some]
      exact b2

/-- For the Lagrangian spaces of order 1, 2 and 3, any coefficient vector and any mesh: evaluation of the
finite element function on two cells sharing an edge gives the same values on the edge, for any local
position and orientation of the edge, and the same as evaluation on the edge itself; and all agree with
the evaluation at nodes. -/
theorem C45_continuous [CharZero K] (T : Topo) (hT : T.WF) (p : ℕ) (hp : 1 ≤ p ∧ p ≤ 3)
    (U : UniformFESpace K) (hU : lagrangeSpace T p = some U) :
    (U.space T).ContinuousAcrossEdges ∧ (U.space T).MatchesEdges ∧ (U.space T).MatchesNodes := by
  obtain ⟨cnt, h⟩ := lagr_conforming T hT p hp U hU
  exact ⟨h.matchesEdges.continuous, h.matchesEdges, h.matchesNodes⟩

/-- A triangle and a quadrilateral that see their common edge in opposite directions: on the edge a
cubic finite element function, which is not constant there. -/
example : ∃ U : UniformFESpace ℚ, lagrangeSpace sampleTopo 3 = some U ∧ U.dofh.numDofs = 22 ∧
    (let u := (List.range 22).map fun i => (i : ℚ) ^ 2
     (U.space sampleTopo).evalFE u (0, 0) (sampleTopo.onSide .tria 0 1 (1 / 4)) = some (2461 / 64) ∧
     (U.space sampleTopo).evalFE u (0, 1) (sampleTopo.onSide .quad 1 0 (1 / 4)) = some (2461 / 64) ∧
     (U.space sampleTopo).evalFE u (1, 1) [1 / 4] = some (2461 / 64)) := by
  refine ⟨_, rfl, by decide +kernel, by decide +kernel, by decide +kernel, by decide +kernel⟩

end Verif
