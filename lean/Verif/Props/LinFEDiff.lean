import Verif.Props.LocCompExact
import Verif.Props.LinFE

/-!
# C68: `LinearFELaplaceElementMatrix` and `DiffusionElementMatrixProvider` agree
-/

namespace Verif
open Geo Finset Matrix

theorem bary_push (v : Fin 3 → Vec ℝ 2) (hd : det2 (v 1 - v 0) (v 2 - v 0) ≠ 0) (x y : ℝ) :
    IsBary v (fun i => (if i = 0 then 1 else 0) - dot ((triaO1 (v 0) (v 1) (v 2)).pushGrad [x, y]
      ((lagrO1Tria : RefFE ℝ).gradAt i.val [x, y])) (v 0))
      fun i => (triaO1 (v 0) (v 1) (v 2)).pushGrad [x, y] ((lagrO1Tria : RefFE ℝ).gradAt i.val [x, y]) := by
  have hp := fun d => pushGrad_two (g := triaO1 (v 0) (v 1) (v 2)) (x := [x, y]) (d := d) rfl rfl hd
  have hD : entry (v 1 - v 0) 0 * entry (v 2 - v 0) 1 - entry (v 2 - v 0) 0 * entry (v 1 - v 0) 1 ≠ 0 := hd
  intro i j
  simp only [hp, dot_two, det2]
  fin_cases i <;> fin_cases j <;>
    simp [RefFE.gradAt, lagrO1Tria, vec2, entry] at hD ⊢ <;> field_simp <;> ring

/-- **C68**, triangles: on all triangles whose corners do not lie on a line, `LinearFELaplaceElementMatrix` and
`DiffusionElementMatrixProvider` with the coefficient `1`, for linear finite elements and any quadrature rule
with the degree of exactness asked for, return the same entries. -/
theorem C68_tria (get : RefEl → ℕ → Option (QuadRule ℝ)) (S : FeSpace ℝ) (geo : Ent → Option (Geo ℝ 2)) (e : Ent)
    (v : Fin 3 → Vec ℝ 2) (hd : det2 (v 1 - v 0) (v 2 - v 0) ≠ 0) {q : QuadRule ℝ}
    (hg : geo e = some (triaO1 (v 0) (v 1) (v 2))) (hl : S.layout e = some lagrO1Tria)
    (hr : S.mesh.refEl e = some .tria) (hq : get .tria 2 = some q) (hqr : q.ref = .tria) (hqw : q.WellFormed)
    (hqe : q.ExactFor 2) :
    ∃ (M : Matrix (Fin 4) (Fin 4) ℝ) (D : Matrix (Fin 3) (Fin 3) ℝ),
      linearFELaplace (triaO1 (v 0) (v 1) (v 2)) = some M ∧
      diffusionElementMatrix get S geo (fun _ pts => some (pts.map fun _ => .scalar 1)) e = some ⟨3, D⟩ ∧
      ∀ i j : Fin 3, M i.castSucc j.castSucc = D i j := by
  have hJ := constJacobian_tria (v 0) (v 1) (v 2)
  have hL : (lagrO1Tria : RefFE ℝ).IsLagrange := C44_o1Tria
  have hgram : ((matrix 2 [v 1 - v 0, v 2 - v 0]).transpose * matrix 2 [v 1 - v 0, v 2 - v 0]).det =
      det2 (v 1 - v 0) (v 2 - v 0) * det2 (v 1 - v 0) (v 2 - v 0) := by rw [gram_two, det2_sq]
  obtain ⟨D, t, hD, ht0, ht2, hij⟩ := C67_diffusion get S geo e hg hl hr hq (Or.inl rfl) hJ rfl hqr hqw hqe
    hL.polynomial hL.gradCorrect (by rw [hgram]; exact mul_ne_zero hd hd)
    (fun _ pts => some (pts.map fun _ => .scalar 1)) (.scalar 1) (fun _ => rfl)
  have ht : t = |det2 (v 1 - v 0) (v 2 - v 0)| := by
    rw [hgram, ← abs_mul_abs_self, ← sq] at ht2
    exact (pow_left_inj₀ ht0.le (abs_nonneg _) two_ne_zero).mp ht2
  have hM := (corners_tria (g := triaO1 (v 0) (v 1) (v 2)) (v := v) rfl (by simp [kind, RefEl.corners, global])).trans
    (laplaceTria_bary (bary_push v hd 0 0) (by rwa [triaX_det]))
  refine ⟨_, D, hM, hD, fun i j => ?_⟩
  rw [block33_cast, hij i j]
  have hc : ∀ (i : Fin 3) (x y : ℝ), (triaO1 (v 0) (v 1) (v 2)).pushGrad [x, y]
      ((lagrO1Tria : RefFE ℝ).gradAt i.val [x, y]) = (triaO1 (v 0) (v 1) (v 2)).pushGrad [0, 0]
      ((lagrO1Tria : RefFE ℝ).gradAt i.val [0, 0]) := fun i x y => rfl
  have hI : refIntegral (lagrO1Tria : RefFE ℝ).ref (fun x => t *
      dot ((triaO1 (v 0) (v 1) (v 2)).pushGrad x ((lagrO1Tria : RefFE ℝ).gradAt i.val x))
        ((DiffCoeff.scalar 1).toMatrix.mulVec
          ((triaO1 (v 0) (v 1) (v 2)).pushGrad x ((lagrO1Tria : RefFE ℝ).gradAt j.val x)))) =
      refIntegral .tria fun _ => t * dot ((triaO1 (v 0) (v 1) (v 2)).pushGrad [0, 0]
        ((lagrO1Tria : RefFE ℝ).gradAt i.val [0, 0])) ((triaO1 (v 0) (v 1) (v 2)).pushGrad [0, 0]
        ((lagrO1Tria : RefFE ℝ).gradAt j.val [0, 0])) := by
    simp only [refIntegral, lagrO1Tria]
    congr 1
    funext y
    congr 1
    funext x
    have h1 := hc i x y
    have h2 := hc j x y
    simp only [DiffCoeff.toMatrix, one_smul, Matrix.one_mulVec]
    rfl
  rw [hI, ht, ← triaX_det]
  simp only [refIntegral, intervalIntegral.integral_const, sub_zero, smul_eq_mul,
    intervalIntegral.integral_mul_const, int_one_sub, Matrix.of_apply]

/-- `make_QuadRule` returns the Gauss rule with four points, if the one-dimensional Gauss rule with two points
is the right one. -/
theorem makeQuadRule_gauss22 (B : QuadBase ℝ) (hB : B.legendre 2 = ([zeta0, zeta1], [1 / 2, 1 / 2])) :
    makeQuadRule B .quad 2 = some gauss22 := by
  simp [makeQuadRule, hB, fromRows, kron, replicateRow, QuadRule.make, gauss22, RefEl.dimension]
  norm_num

/-- **C68**, quadrilaterals: on all quadrilaterals whose metric factor does not vanish in the quadrature points,
`LinearFELaplaceElementMatrix` and `DiffusionElementMatrixProvider` with the coefficient `1`, for bilinear finite
elements, return the same matrix. -/
theorem C68_quad (B : QuadBase ℝ) (hB : B.legendre 2 = ([zeta0, zeta1], [1 / 2, 1 / 2])) (S : FeSpace ℝ)
    (geo : Ent → Option (Geo ℝ 2)) (e : Ent) (a b c d : Vec ℝ 2)
    (hd : ∀ p ∈ gauss22.points, (quadO1 a b c d).integrationElement p ≠ some 0)
    (hg : geo e = some (quadO1 a b c d)) (hl : S.layout e = some lagrO1Quad) (hr : S.mesh.refEl e = some .quad) :
    ∃ M : Matrix (Fin 4) (Fin 4) ℝ, linearFELaplace (quadO1 a b c d) = some M ∧
      diffusionElementMatrix (makeQuadRule B) S geo (fun _ pts => some (pts.map fun _ => .scalar 1)) e =
        some ⟨4, M⟩ := by
  have hL : (lagrO1Quad : RefFE ℝ).IsLagrange := C44_o1Quad
  obtain ⟨M, hM, hij⟩ := C52_quad (quadO1 a b c d) rfl a b c d (by simp [kind, RefEl.corners, global]) hd
  have hcg : ComputableGrad (quadO1 a b c d) lagrO1Quad gauss22
      (fun x => ((quadO1 a b c d).integrationElement x).getD 0) := by
    refine ⟨rfl, rfl, fun p hp => ?_, fun p hp => ?_, fun p hp => ?_⟩
    · obtain ⟨x, y, rfl⟩ := two_coords (gauss22_wf.1 p hp)
      rw [integrationElement_quadO1]
      rfl
    · obtain ⟨x, y, rfl⟩ := two_coords (gauss22_wf.1 p hp)
      exact ⟨_, rfl, rfl, by simp⟩
    · obtain ⟨x, y, rfl⟩ := two_coords (gauss22_wf.1 p hp)
      refine ⟨[quadA a b c d y, quadB a b c d x], rfl, ?_⟩
      rw [gram_two, det2_sq]
      have : det2 (quadA a b c d y) (quadB a b c d x) ≠ 0 := fun h0 =>
        hd _ hp (by rw [integrationElement_quadO1, h0, abs_zero])
      exact mul_ne_zero this this
  obtain ⟨D, hD, hD'⟩ := C53_diffusion (makeQuadRule B) S geo e hg hl hr (makeQuadRule_gauss22 B hB) hcg
    (fun _ pts => some (pts.map fun _ => .scalar 1)) (fun _ => .scalar 1) rfl
  have : D = M := by
    ext i j
    rw [hD' i j, hij i j, diffusionForm]
    refine integrate_congr _ fun p _ => ?_
    simp only [DiffCoeff.toMatrix, one_smul, Matrix.one_mulVec]
    rfl
  exact ⟨M, hM, this ▸ hD⟩

/-- The hypotheses of `C68_tria` can be met, with the rule of `exampleBase`; those of `C68_quad` on the cell are
met by the quadrilaterals shown for `C52_quad`. -/
example (h : DofHandler) : ∃ (M : Matrix (Fin 4) (Fin 4) ℝ) (D : Matrix (Fin 3) (Fin 3) ℝ),
    linearFELaplace (triaO1 ![0, 0] ![2, 0] ![1, 1]) = some M ∧
    diffusionElementMatrix (makeQuadRule exampleBase) ⟨sampleTopo, h, fun _ => some lagrO1Tria⟩
      (fun _ => some (triaO1 ![0, 0] ![2, 0] ![1, 1])) (fun _ pts => some (pts.map fun _ => .scalar 1)) (0, 0) =
      some ⟨3, D⟩ ∧ ∀ i j : Fin 3, M i.castSucc j.castSucc = D i j :=
  C68_tria (makeQuadRule exampleBase) ⟨sampleTopo, h, fun _ => some lagrO1Tria⟩ _ (0, 0)
    ![![0, 0], ![2, 0], ![1, 1]] (by simp [det2, entry]) rfl rfl rfl rfl rfl (eqTria_wf 2) (eqTria_exact 2)

end Verif
