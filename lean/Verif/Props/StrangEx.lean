import Verif.Props.Strang
import Verif.Props.EllBvpEx

/-!
# C94: the hypotheses of `C94_assembled` are met by a mesh with a triangle and a quadrilateral
-/

namespace Verif
open Geo Fisher Matrix

/-- A space of linear Lagrangian finite elements with five dofs on a mesh with a triangle and a quadrilateral, with
diffusion coefficient one and without flux through the boundary. -/
example : ∃ U : UniformFESpace ℝ, lagrangeSpace sampleTopo 1 = some U ∧ U.dofh.numDofs = 5 ∧ ∃ A M s,
    assembleGalerkinMatrices demoBase U sampleTopo (fun e => some (demoGeo e)) (fun _ => true) (fun _ _ => 1) (fun _ _ => 0) 0
      = some (A, M) ∧
    strangSplit demoBase U sampleTopo (fun e => some (demoGeo e)) (fun _ => true) 1 10 3 (fun _ _ => 1) (fun _ _ => 0) 0
      = some s ∧ SemiDefinite A ∧ Definite M ∧ A *ᵥ (fun _ => 1) = 0 := by
  obtain ⟨U, hU, h5, -, ha, hb⟩ := demo_meets
  obtain ⟨q, hq, -, -, -, hqe, -⟩ := C42_triaEdgeMidpoint
  rw [demo_tria] at hq
  cases hq
  obtain ⟨A, M, s, h1, h2, h3, h4, h6, -⟩ := C94_assembled demoBase sampleTopo sampleTopo_WF 1 (by norm_num) U hU
    (by rw [h5]; norm_num) (fun e => some (demoGeo e)) demoGeo demoRules demo_mesh
    (by
      rintro r (rfl | rfl | rfl)
      · refine ⟨fun a ha => ?_, demoSeg_exact⟩
        simp [demoRules] at ha
        rw [ha]; norm_num
      · refine ⟨fun a ha => ?_, hqe⟩
        simp [demoRules] at ha
        rw [ha]; norm_num
      · refine ⟨fun a ha => ?_, fun f hf => gauss22_exact f (QP.mono (f := fun x y => f [x, y]) hf (by decide))⟩
        simp [demoRules, gauss22] at ha
        rw [ha]; norm_num)
    (by
      intro d hd
      rw [h5] at hd
      by_cases h : d ≤ 2
      · refine ⟨0, show 0 < 2 by norm_num, ?_⟩
        rw [ha]
        interval_cases d <;> simp
      · refine ⟨1, show 1 < 2 by norm_num, ?_⟩
        rw [hb]
        interval_cases d <;> simp)
    (fun _ => true) (fun _ _ => 1) (fun _ _ => 0) (fun _ _ _ _ => zero_le_one) (fun _ _ _ _ _ => le_rfl) 1 zero_le_one 10
    (by norm_num) 3
  exact ⟨U, hU, h5, A, M, s, h1, h2, h3, h4, h6 fun _ _ _ _ _ => rfl⟩

end Verif
