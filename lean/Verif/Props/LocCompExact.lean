import Verif.Props.LocCompU
import Verif.Lemmas.QuadPoly
import Verif.Lemmas.ExactRules
import Verif.Props.Lagrange
import Verif.Props.FeTools

/-!
# C67: exactness of element matrices and vectors on affine cells
-/

namespace Verif
open Geo Finset Matrix

variable {w : ℕ}

/-- A cell with the same Jacobian everywhere. -/
def Geo.ConstJacobian (g : Geo ℝ w) (A B : Vec ℝ w) : Prop := ∀ x : List ℝ, x.length = 2 → g.jacobian x = some [A, B]

theorem constJacobian_tria (a b c : Vec ℝ w) : (triaO1 a b c).ConstJacobian (b - a) (c - a) := by
  intro x hx
  obtain ⟨x, y, rfl⟩ := two_coords hx
  rfl

theorem constJacobian_parallelogram (a b c d : Vec ℝ w) :
    (parallelogram a b c d).ConstJacobian (b - a) (d - a) := by
  intro x hx
  obtain ⟨x, y, rfl⟩ := two_coords hx
  rfl

section
variable {g : Geo ℝ w} {fe : RefFE ℝ} {q : QuadRule ℝ} {A B : Vec ℝ w}
  (hk : fe.ref = .tria ∨ fe.ref = .quad) (hJ : g.ConstJacobian A B) (hgk : g.kind = fe.ref) (hqr : q.ref = fe.ref)
  (hqw : q.WellFormed)
include hk

theorem dim_two : fe.ref.dimension = 2 := by rcases hk with h | h <;> rw [h] <;> rfl

include hgk hqr hqw hJ

theorem constMetric : ∃ t, 0 ≤ t ∧ t ^ 2 = ((matrix 2 [A, B]).transpose * matrix 2 [A, B]).det ∧
    ∀ x : List ℝ, x.length = 2 → g.integrationElement x = some t := by
  have hd : g.kind.dimension = 2 := hgk ▸ dim_two hk
  have key : ∀ x : List ℝ, x.length = 2 → ∃ t, g.integrationElement x = some t ∧ 0 ≤ t ∧
      t ^ 2 = ((matrix 2 [A, B]).transpose * matrix 2 [A, B]).det := fun x hx => by
    have := C38_integration_element g x [A, B] (hJ x hx)
    rwa [hd] at this
  obtain ⟨t, -, h0, h2⟩ := key [0, 0] rfl
  refine ⟨t, h0, h2, fun x hx => ?_⟩
  obtain ⟨s, hs, hs0, hs2⟩ := key x hx
  rw [hs]
  congr 1
  exact (pow_left_inj₀ hs0 h0 two_ne_zero).mp (hs2.trans h2.symm)

theorem affine_computable (hev : fe.Evaluates) {t : ℝ}
    (ht : ∀ x : List ℝ, x.length = 2 → g.integrationElement x = some t) : Computable g fe q fun _ => t := by
  have hp : ∀ x ∈ q.points, x.length = 2 := fun x hx => (hqw.1 x hx).trans (hqr ▸ dim_two hk)
  exact ⟨hqw.2, fun x hx => ht x (hp x hx), fun x hx => hev.1 x ((hp x hx).trans (dim_two hk).symm)⟩

theorem affine_computableGrad (hgr : fe.GradCorrect) {t : ℝ}
    (ht : ∀ x : List ℝ, x.length = 2 → g.integrationElement x = some t)
    (hr : ((matrix 2 [A, B]).transpose * matrix 2 [A, B]).det ≠ 0) : ComputableGrad g fe q fun _ => t := by
  have hp : ∀ x ∈ q.points, x.length = 2 := fun x hx => (hqw.1 x hx).trans (hqr ▸ dim_two hk)
  refine ⟨hgk ▸ dim_two hk, hqw.2, fun x hx => ht x (hp x hx), fun x hx => ?_, fun x hx => ⟨_, hJ x (hp x hx), hr⟩⟩
  obtain ⟨v, hv, hl, hd⟩ := hgr x ((hp x hx).trans (dim_two hk).symm)
  refine ⟨v, hv, hl, fun d hd' => ?_⟩
  obtain ⟨i, hi, rfl⟩ := List.getElem_of_mem hd'
  have := (hd i (hl ▸ hi)).1
  rw [List.getD_eq_getElem _ _ hi] at this
  exact this.trans (dim_two hk)

end

section
variable (get : RefEl → ℕ → Option (QuadRule ℝ)) (S : FeSpace ℝ) (geo : Ent → Option (Geo ℝ w)) (e : Ent)
  {g : Geo ℝ w} {fe : RefFE ℝ} {q : QuadRule ℝ} {A B : Vec ℝ w}
  (hg : geo e = some g) (hl : S.layout e = some fe) (hr : S.mesh.refEl e = some fe.ref)
  (hq : get fe.ref (2 * fe.degree) = some q)
  (hk : fe.ref = .tria ∨ fe.ref = .quad) (hJ : g.ConstJacobian A B) (hgk : g.kind = fe.ref) (hqr : q.ref = fe.ref)
  (hqw : q.WellFormed) (hqe : q.ExactFor (2 * fe.degree)) (hpoly : fe.Polynomial)
include hg hl hr hq hk hJ hgk hqr hqw hqe hpoly

/-- **C67**: on all affine cells, for all finite elements with polynomial shape functions and quadrature rules
with the degree of exactness asked for, and for constant coefficients, the mass element matrix is exact: it
holds the integrals of the products of shape functions over the cell, where `t` is the metric factor. -/
theorem C67_mass (hev : fe.Evaluates) (gamma : MeshFn ℝ ℝ) (K : ℝ)
    (hγ : ∀ pts, gamma e pts = some (pts.map fun _ => K)) :
    ∃ (M : Matrix (Fin fe.num) (Fin fe.num) ℝ) (t : ℝ), massElementMatrix get S geo gamma e = some ⟨fe.num, M⟩ ∧
      0 ≤ t ∧ t ^ 2 = ((matrix 2 [A, B]).transpose * matrix 2 [A, B]).det ∧
      ∀ i j, M i j = refIntegral fe.ref fun x => t * (K * (fe.shape j.val x * fe.shape i.val x)) := by
  obtain ⟨t, h0, h2, ht⟩ := constMetric hk hJ hgk hqr hqw
  obtain ⟨M, hM, hij⟩ := C53_mass get S geo e hg hl hr hq (hgk ▸ dim_two hk)
    (affine_computable hk hJ hgk hqr hqw hev ht) gamma (fun _ => K) (hγ _)
  refine ⟨M, t, hM, h0, h2, fun i j => ?_⟩
  rw [hij, massForm, hqe _ ?_, hqr]
  rw [hqr]
  exact ((IsPolyOn.mul hk (hpoly _ j.isLt) (hpoly _ i.isLt) (by omega)).smul hk _).smul hk _

/-- **C67**: likewise the element load vector is exact if the source function is, in local coordinates, a
polynomial of the degree of the finite element. -/
theorem C67_load (hev : fe.Evaluates) (f : MeshFn ℝ ℝ) (F : List ℝ → ℝ)
    (hf : ∀ pts, f e pts = some (pts.map F)) (hF : IsPolyOn fe.ref fe.degree F) :
    ∃ (v : Fin fe.num → ℝ) (t : ℝ), loadElementVector get S geo f e = some ⟨fe.num, v⟩ ∧
      0 ≤ t ∧ t ^ 2 = ((matrix 2 [A, B]).transpose * matrix 2 [A, B]).det ∧
      ∀ i, v i = refIntegral fe.ref fun x => t * (F x * fe.shape i.val x) := by
  obtain ⟨t, h0, h2, ht⟩ := constMetric hk hJ hgk hqr hqw
  obtain ⟨v, hv, hi⟩ := C53_load get S geo e hg hl hr hq (hgk ▸ dim_two hk)
    (affine_computable hk hJ hgk hqr hqw hev ht) f F (hf _)
  refine ⟨v, t, hv, h0, h2, fun i => ?_⟩
  rw [hi, loadForm, hqe _ ?_, hqr]
  rw [hqr]
  exact (IsPolyOn.mul hk hF (hpoly _ i.isLt) (by omega)).smul hk _

/-- **C67**: likewise, if the columns of the Jacobian are linearly independent and the finite element returns
correct gradients, the diffusion element matrix is exact for constant coefficients. -/
theorem C67_diffusion (hgr : fe.GradCorrect) (hrk : ((matrix 2 [A, B]).transpose * matrix 2 [A, B]).det ≠ 0)
    (alpha : MeshFn ℝ (DiffCoeff w)) (a : DiffCoeff w) (hα : ∀ pts, alpha e pts = some (pts.map fun _ => a)) :
    ∃ (M : Matrix (Fin fe.num) (Fin fe.num) ℝ) (t : ℝ),
      diffusionElementMatrix get S geo alpha e = some ⟨fe.num, M⟩ ∧
      0 < t ∧ t ^ 2 = ((matrix 2 [A, B]).transpose * matrix 2 [A, B]).det ∧
      ∀ i j, M i j = refIntegral fe.ref fun x => t *
        dot (g.pushGrad x (fe.gradAt i.val x)) (a.toMatrix.mulVec (g.pushGrad x (fe.gradAt j.val x))) := by
  obtain ⟨t, h0, h2, ht⟩ := constMetric hk hJ hgk hqr hqw
  have hcg := affine_computableGrad hk hJ hgk hqr hqw hgr ht hrk
  obtain ⟨M, hM, hij⟩ := C53_diffusion get S geo e hg hl hr hq hcg alpha (fun _ => a) (hα _)
  have hd2 := dim_two hk
  have ht0 : t ≠ 0 := fun h => hrk (by rw [← h2, h]; norm_num)
  refine ⟨M, t, hM, lt_of_le_of_ne h0 ht0.symm, h2, fun i j => ?_⟩
  have hgp : ∀ i : Fin fe.num, ∀ k < 2, IsPolyOn fe.ref fe.degree fun x => (fe.gradAt i.val x).getD k 0 := by
    intro i k hk2
    refine IsPolyOn.deriv hk (hpoly i.val i.isLt) hk2 fun x hx => ?_
    obtain ⟨v, hv, -, hd⟩ := hgr x (hx.trans hd2.symm)
    have := (hd i.val i.isLt).2 k (by omega)
    rw [RefFE.gradAt, hv]
    exact this
  -- the transformed gradient is a fixed linear combination
  obtain ⟨P, Q, hPQ⟩ : ∃ P Q : Vec ℝ w, ∀ x : List ℝ, x.length = 2 → ∀ d : List ℝ,
      g.pushGrad x d = d.getD 0 0 • P + d.getD 1 0 • Q := by
    have hgen : ∀ (n : ℕ), n = 2 → ∃ P Q : Vec ℝ w, ∀ d : List ℝ,
        (matrix n [A, B] * ((matrix n [A, B]).transpose * matrix n [A, B])⁻¹).mulVec (fun k => d.getD k.val 0) =
          d.getD 0 0 • P + d.getD 1 0 • Q := by
      rintro n rfl
      refine ⟨fun r => (matrix 2 [A, B] * ((matrix 2 [A, B]).transpose * matrix 2 [A, B])⁻¹) r 0,
        fun r => (matrix 2 [A, B] * ((matrix 2 [A, B]).transpose * matrix 2 [A, B])⁻¹) r 1, fun d => ?_⟩
      funext r
      simp only [Matrix.mulVec, dotProduct, Fin.sum_univ_two, Pi.add_apply, Pi.smul_apply, smul_eq_mul]
      simp only [Fin.val_zero, Fin.val_one]
      ring
    obtain ⟨P, Q, h⟩ := hgen g.kind.dimension (hgk ▸ hd2)
    refine ⟨P, Q, fun x hx d => ?_⟩
    rw [← h, pushGrad, hJ x hx]
    rfl
  rw [hij, diffusionForm, hqe _ ?_, hqr]
  rw [hqr]
  refine IsPolyOn.smul hk t (IsPolyOn.congr hk
    (f := fun x => dot P (a.toMatrix.mulVec P) * ((fe.gradAt i.val x).getD 0 0 * (fe.gradAt j.val x).getD 0 0) +
      dot P (a.toMatrix.mulVec Q) * ((fe.gradAt i.val x).getD 0 0 * (fe.gradAt j.val x).getD 1 0) +
      (dot Q (a.toMatrix.mulVec P) * ((fe.gradAt i.val x).getD 1 0 * (fe.gradAt j.val x).getD 0 0) +
      dot Q (a.toMatrix.mulVec Q) * ((fe.gradAt i.val x).getD 1 0 * (fe.gradAt j.val x).getD 1 0))) ?_ ?_)
  · have hm := fun k hk2 l hl2 => IsPolyOn.mul hk (hgp i k hk2) (hgp j l hl2) (n := 2 * fe.degree) (by omega)
    exact (((hm 0 (by norm_num) 0 (by norm_num)).smul hk _).add hk ((hm 0 (by norm_num) 1 (by norm_num)).smul hk _)).add hk
      (((hm 1 (by norm_num) 0 (by norm_num)).smul hk _).add hk ((hm 1 (by norm_num) 1 (by norm_num)).smul hk _))
  · intro x hx
    rw [hPQ x hx, hPQ x hx, Matrix.mulVec_add, Matrix.mulVec_smul, Matrix.mulVec_smul]
    simp only [dot_eq, add_dotProduct, dotProduct_add, smul_dotProduct, dotProduct_smul, smul_eq_mul]
    ring

end

/-- A concrete case for the hypotheses: a triangle in space, linear finite elements and a rule of degree two. -/
noncomputable def exampleBase : QuadBase ℝ where
  legendre _ := ([], [])
  jacobi10 _ := ([], [])
  hard := eqTria

noncomputable def exampleGeo : Ent → Option (Geo ℝ 3) := fun _ => some (triaO1 ![0, 0, 0] ![2, 0, 1] ![0, 1, 0])

example : ∃ (U : UniformFESpace ℝ) (q : QuadRule ℝ) (t : ℝ), lagrangeSpace sampleTopo 1 = some U ∧
    sampleTopo.refEl (0, 0) = some .tria ∧ U.layout .tria = some lagrO1Tria ∧
    makeQuadRule exampleBase .tria 2 = some q ∧ q.ref = .tria ∧ q.WellFormed ∧ q.ExactFor 2 ∧
    (lagrO1Tria : RefFE ℝ).Polynomial ∧ (lagrO1Tria : RefFE ℝ).GradCorrect ∧ (lagrO1Tria : RefFE ℝ).SumsToOne ∧
    Computable (triaO1 ![0, 0, 0] ![2, 0, 1] ![0, 1, 0] : Geo ℝ 3) lagrO1Tria q (fun _ => t) ∧
    ComputableGrad (triaO1 ![0, 0, 0] ![2, 0, 1] ![0, 1, 0] : Geo ℝ 3) lagrO1Tria q (fun _ => t) := by
  have hL : (lagrO1Tria : RefFE ℝ).IsLagrange := C44_o1Tria
  have hJ := constJacobian_tria (w := 3) ![0, 0, 0] ![2, 0, 1] ![0, 1, 0]
  obtain ⟨t, h0, h2, ht⟩ := constMetric (fe := lagrO1Tria) (q := eqTria 2) (Or.inl rfl) hJ rfl rfl (eqTria_wf 2)
  have hU : ∃ U : UniformFESpace ℝ, lagrangeSpace sampleTopo 1 = some U ∧ U.layout .tria = some lagrO1Tria := by
    obtain ⟨U, hU⟩ := Option.isSome_iff_exists.mp (show (lagrangeSpace sampleTopo 1 : Option (UniformFESpace ℝ)).isSome
      from by decide +kernel)
    refine ⟨U, hU, ?_⟩
    rw [lagrangeSpace, UniformFESpace.make] at hU
    simp only at hU
    split at hU
    · rw [Option.map_eq_some_iff] at hU
      obtain ⟨_, _, rfl⟩ := hU
      rfl
    · cases hU
  obtain ⟨U, hU, hU'⟩ := hU
  refine ⟨U, eqTria 2, t, hU, by decide, hU', rfl, rfl, eqTria_wf 2, eqTria_exact 2, hL.polynomial, hL.gradCorrect,
    hL.sumsToOne, affine_computable (Or.inl rfl) hJ rfl rfl (eqTria_wf 2) hL.evaluates ht,
    affine_computableGrad (Or.inl rfl) hJ rfl rfl (eqTria_wf 2) hL.gradCorrect ht ?_⟩
  rw [gram_two]
  simp [dot, Fin.sum_univ_three, Matrix.cons_val]
  norm_num

/-- A parallelogram with the Gauss rule with four points meets them as well. -/
example : (parallelogram ![0, 0] ![2, 0] ![3, 1] ![1, 1] : Geo ℝ 2).ConstJacobian ![2, 0] ![1, 1] ∧
    gauss22.WellFormed ∧ gauss22.ExactFor (2 * (lagrO1Quad : RefFE ℝ).degree) ∧
    (lagrO1Quad : RefFE ℝ).IsLagrange ∧
    ((matrix 2 [![2, 0], ![1, 1]]).transpose * matrix 2 [(![2, 0] : Vec ℝ 2), ![1, 1]]).det ≠ 0 := by
  refine ⟨?_, gauss22_wf, fun f hf => gauss22_exact f (QP.mono (f := fun x y => f [x, y]) hf (by decide)), C44_o1Quad,
    ?_⟩
  · have := constJacobian_parallelogram (w := 2) ![0, 0] ![2, 0] ![3, 1] ![1, 1]
    have h1 : (![2, 0] - ![0, 0] : Vec ℝ 2) = ![2, 0] := by funext i; fin_cases i <;> simp
    have h2 : (![1, 1] - ![0, 0] : Vec ℝ 2) = ![1, 1] := by funext i; fin_cases i <;> simp
    rwa [h1, h2] at this
  · rw [gram_two]
    norm_num [dot, Fin.sum_univ_two]

end Verif
