import Verif.Props.EllBvp
import Verif.Props.GalerkinEx

/-!
# C78: a concrete boundary value problem meets all hypotheses

The mesh of `Verif.Props.GalerkinEx` with Dirichlet conditions on edge 0, impedance conditions on edge 4 and Neumann
conditions on the edges 2, 3 and 5.
-/

namespace Verif
open Geo Finset Matrix

noncomputable def demoBase : QuadBase ℝ where
  legendre _ := ([zeta0, zeta1], [1 / 2, 1 / 2])
  jacobi10 _ := ([], [])
  hard _ := ⟨.tria, 2, [[1 / 2, 0], [1 / 2, 1 / 2], [0, 1 / 2]], [1 / 6, 1 / 6, 1 / 6]⟩

def demoPos (v : ℕ) : Vec ℝ 2 := ([![0, 0], ![2, 0], ![0, 1], ![3, 2], ![1, 3]] : List (Vec ℝ 2)).getD v 0

noncomputable def demoGeo (e : Ent) : Geo ℝ 2 :=
  if e.1 = 0 then (demoData e).geo else segO1 (demoPos (sampleTopo.edge e.2).1) (demoPos (sampleTopo.edge e.2).2)

noncomputable def demoRules : RefEl → QuadRule ℝ
  | .segment => ⟨.segment, 3, [[zeta0], [zeta1]], [1 / 2, 1 / 2]⟩
  | .tria => ⟨.tria, 2, [[1 / 2, 0], [1 / 2, 1 / 2], [0, 1 / 2]], [1 / 6, 1 / 6, 1 / 6]⟩
  | _ => gauss22

noncomputable def demoBvp : EllBvp 2 where
  α _ _ := .scalar 1
  γ _ _ := 0
  f _ x := x.getD 0 0
  η _ _ := 1
  h _ x := 1 - x.getD 0 0
  g _ x := x.getD 0 0
  bd e := e != 1
  dir e := e == 0
  neu e := e == 2 || e == 3 || e == 5
  imp e := e == 4

theorem demoSeg_wf : (demoRules .segment).WellFormed := by simp [QuadRule.WellFormed, demoRules, RefEl.dimension]

theorem demoSeg_exact : (demoRules .segment).ExactFor 2 := by
  refine seg_exact rfl 2 (fun a ha f hf => ?_) demoSeg_wf
  have h1 := zeta_moment a (by omega)
  simp only [QuadRule.integrate, demoRules, List.zipWith_cons_cons, List.zipWith_nil_right, List.sum_cons, List.sum_nil, hf]
  linarith

theorem demo_mesh : BvpMesh demoBase sampleTopo 1 (fun e => some (demoGeo e)) demoGeo demoRules := by
  obtain ⟨q, hq, -, hqw, -⟩ := C42_triaEdgeMidpoint
  rw [demo_tria] at hq
  cases hq
  refine ⟨?_, ?_, ?_, ?_⟩
  · rintro r (rfl | rfl | rfl)
    · refine ⟨?_, rfl, demoSeg_wf⟩
      simp [makeQuadRule, demoBase, QuadRule.make, RefEl.dimension, demoRules]
    · exact ⟨rfl, rfl, hqw⟩
    · refine ⟨?_, rfl, gauss22_wf⟩
      simp only [makeQuadRule, demoBase, QuadRule.make, RefEl.dimension, demoRules, gauss22, kron, replicateRow, fromRows]
      simp
      norm_num
  · rintro ⟨k, i⟩ ⟨h1, h2⟩ hk
    refine ⟨rfl, ?_⟩
    change k ≤ 1 at hk
    interval_cases k
    · change i < 2 at h2
      interval_cases i <;> rfl
    · rw [edge_refEl h2]
      rfl
  · intro c hc
    change c < 2 at hc
    interval_cases c
    · intro x hx
      refine ⟨_, constJacobian_tria _ _ _ x (hqw.1 x hx), ?_⟩
      rw [gram_two]
      simp [dot, Fin.sum_univ_two]
    · intro x hx
      refine ⟨_, constJacobian_parallelogram _ _ _ _ x (gauss22_wf.1 x hx), ?_⟩
      rw [gram_two]
      simp [dot, Fin.sum_univ_two]
      norm_num
  · intro e he x hx
    have hx' : x ∈ (demoRules .segment).points := hx
    have hl : x.length = 1 := demoSeg_wf.1 x hx'
    obtain ⟨t, rfl⟩ := List.length_eq_one_iff.1 hl
    exact ⟨⟨_, rfl⟩, ⟨_, rfl⟩⟩

/-- All assumptions of `C78_unique` are met: there is exactly one solution of the linear system and of the discrete
variational problem. -/
example : ∃ U : UniformFESpace ℝ, lagrangeSpace sampleTopo 1 = some U ∧ U.dofh.numDofs = 5 ∧
    ∃ A b D, demoBvp.system demoBase U sampleTopo (fun e => some (demoGeo e)) = some (A, b) ∧ A.makeDense = some D ∧
      ∃ x : List ℝ, x.length = 5 ∧ Solves D b (fun i => x.getD i 0) ∧
        ∀ y : List ℝ, y.length = 5 → (Solves D b (fun i => y.getD i 0) ∨ demoBvp.DiscreteSolution (U.space sampleTopo)
          (fun e => some (demoGeo e)) (bvpData 1 demoGeo demoRules) 1 y) → y = x := by
  obtain ⟨U, hU, h5, -, ha, hb⟩ := demo_meets
  obtain ⟨q, hq, -, -, -, hqe, -⟩ := C42_triaEdgeMidpoint
  rw [demo_tria] at hq
  cases hq
  have he0 : U.dofh.all (1, 0) = [0, 1] := by
    have : ∀ h, uniformDofHandler sampleTopo (lagrangeLayout 1) true = some h → h.all (1, 0) = [0, 1] := by
      have : (uniformDofHandler sampleTopo (lagrangeLayout 1) true).all fun h => decide (h.all (1, 0) = [0, 1]) := by
        decide +kernel
      intro h hh
      rw [hh] at this
      simpa using this
    rw [lagrangeSpace_eq sampleTopo 1 (by norm_num)] at hU
    obtain ⟨dh, hdh, rfl⟩ := Option.map_eq_some_iff.mp hU
    exact this dh hdh
  have hdir : ∀ e, demoBvp.onDir e = true ↔ e = 0 := by
    intro e
    simp only [EllBvp.onDir, demoBvp, Bool.and_eq_true, bne_iff_ne, beq_iff_eq]
    omega
  obtain ⟨A, b, D, h1, h2, -, -, -, -, x, h3, h4, -, h6⟩ := C78_unique demoBase sampleTopo sampleTopo_WF 1 (by norm_num) U hU
    (by rw [h5]; norm_num) (fun e => some (demoGeo e)) demoGeo demoRules demo_mesh demoBvp
    (by
      rintro r (rfl | rfl | rfl)
      · refine ⟨fun a ha => ?_, demoSeg_exact⟩
        simp [demoRules] at ha
        rw [ha]; norm_num
      · refine ⟨fun a ha => ?_, hqe⟩
        simp [demoRules] at ha
        rw [ha]; norm_num
      · refine ⟨fun a ha => ?_, fun f hf => gauss22_exact f (QP.mono (f := fun x y => f [x, y]) hf (by decide))⟩
        simp [demoRules, gauss22] at ha
        rw [ha]; norm_num)
    ⟨fun c hc x hx v hv => by
      change 0 < v ⬝ᵥ ((1 : ℝ) • (1 : Matrix (Fin 2) (Fin 2) ℝ)).mulVec v
      rw [one_smul, Matrix.one_mulVec]
      refine lt_of_le_of_ne ?_ fun h => hv ?_
      · exact Finset.sum_nonneg fun i _ => mul_self_nonneg _
      · funext i
        have h' := (Finset.sum_eq_zero_iff_of_nonneg fun i _ => mul_self_nonneg (v i)).1 h.symm i (Finset.mem_univ i)
        exact mul_self_eq_zero.1 h',
    fun _ _ _ _ => le_refl _, fun _ _ _ _ _ => zero_le_one⟩
    (by
      intro d hd
      rw [h5] at hd
      have e0 : ((0, 0) : Ent) ∈ (U.space sampleTopo).entities 0 :=
        List.mem_map.2 ⟨0, List.mem_range.2 (show _ < 2 by norm_num), rfl⟩
      have e1 : ((0, 1) : Ent) ∈ (U.space sampleTopo).entities 0 :=
        List.mem_map.2 ⟨1, List.mem_range.2 (show _ < 2 by norm_num), rfl⟩
      refine ⟨1, Or.inl ⟨0, show 0 < 6 by norm_num, (hdir 0).2 rfl, by rw [he0]; simp⟩, Relation.ReflTransGen.single ?_⟩
      by_cases h : d ≤ 2
      · refine ⟨(0, 0), e0, ?_, by rw [ha]; simp⟩
        rw [ha]
        interval_cases d <;> simp
      · refine ⟨(0, 1), e1, ?_, by rw [hb]; simp⟩
        rw [hb]
        interval_cases d <;> simp)
    ⟨[0, 1, 0, 0, 0], by rw [h5]; rfl, fun e he hd => by
      obtain rfl := (hdir e).1 hd
      rw [takes_iff sampleTopo_WF (by norm_num) hU (by rw [h5]; norm_num) (by rw [h5]; rfl) 0 (show 0 < 6 by norm_num), he0]
      intro j hj
      change j < 2 at hj
      interval_cases j <;> simp [demoBvp, lagrFE, lagrO1Segment]⟩
  rw [h5] at h3 h6
  exact ⟨U, hU, h5, A, b, D, h1, h2, x, h3, h4, h6⟩

end Verif
