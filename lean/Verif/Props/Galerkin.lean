import Verif.Lemmas.Galerkin
import Verif.Props.LocCompU
import Verif.Props.LocCompExact
import Verif.Props.Conform
import Verif.Props.FeTools

/-!
# C77: assembled matrices and vectors represent bilinear and linear forms on finite element functions
-/

namespace Verif
open Geo Finset Matrix

variable {w : ℕ}

section
variable (get : RefEl → ℕ → Option (QuadRule ℝ)) (S : FeSpace ℝ) (geo : Ent → Option (Geo ℝ w)) (hS : S.DofsOk)
  (active : Ent → Bool) (X : Ent → EntData w)

section Cells
variable (hX : ∀ e ∈ (S.entities 0).filter active, (X e).Describes get S geo e ∧ (X e).geo.kind.dimension = 2)
include hS hX

/-- **C77**, mass matrix: let `A` be any matrix whose size is the number of dofs (initially zero, or the result of
previous calls).  For all meshes, finite element spaces, selections of cells, coefficients and quadrature rules,
assembling with `MassElementMatrixProvider` adds to `A` the matrix of the bilinear form `∫ γ v u`: if `ν` and `μ` are the
coefficients of the finite element functions `v` and `u`, the value `νᵀ A μ` grows by the value of the quadrature formula
for this integral over all selected cells. -/
theorem C77_mass (hC : ∀ e ∈ (S.entities 0).filter active, Computable (X e).geo (X e).fe (X e).rule (X e).detJ)
    (gamma : MeshFn ℝ ℝ) (γ : Ent → List ℝ → ℝ)
    (hγ : ∀ e ∈ (S.entities 0).filter active, gamma e (X e).rule.points = some ((X e).rule.points.map (γ e)))
    (A : Coo ℝ) (D : Dense ℝ) (hA : A.makeDense = some D) (hr : D.rows = S.dofh.numDofs) (hc : D.cols = S.dofh.numDofs) :
    ∃ A' D', assembleMatrixFE S 0 active (massElementMatrix get S geo gamma) A = some A' ∧ A'.makeDense = some D' ∧
      D'.rows = S.dofh.numDofs ∧ D'.cols = S.dofh.numDofs ∧
      ∀ ν μ : List ℝ, ν.length = S.dofh.numDofs → μ.length = S.dofh.numDofs →
        D'.form ν μ = D.form ν μ + massSum S X ((S.entities 0).filter active) γ ν μ := by
  obtain ⟨A', D', h1, h2, h3, h4, h5⟩ := assembleMatrixFE_rep hS 0 (by omega) active (massElementMatrix get S geo gamma)
    (fun e => (X e).fe) (fun e he => (hX e he).1.num)
    (fun e c d => (X e).rule.integrate fun x => (X e).detJ x * (γ e x * ((X e).fe.combine c x * (X e).fe.combine d x)))
    (fun e he => by
      obtain ⟨M, hM, -, hf, -⟩ := C53_mass_form get S geo e (hX e he).1.geo (hX e he).1.layout (hX e he).1.kind
        (hX e he).1.rule (hX e he).2 (hC e he) gamma (γ e) (hγ e he)
      exact ⟨M, hM, hf⟩) A D hA hr hc
  refine ⟨A', D', h1, h2, h3, h4, fun ν μ hν hμ => ?_⟩
  rw [h5, massSum]
  congr 2
  refine List.map_congr_left fun e he => integrate_congr _ fun x hx => ?_
  have hent := FeSpace.mem_entities (by omega) (List.mem_filter.1 he).1
  rw [FeSpace.value, FeSpace.value, evalFE_loc hS hent (hX e he).1.layout (hX e he).1.num hν ((hC e he).shapes x hx),
    evalFE_loc hS hent (hX e he).1.layout (hX e he).1.num hμ ((hC e he).shapes x hx)]
  rfl

/-- **C77**, diffusion matrix: likewise for `∫ grad v · α grad u` and `DiffusionElementMatrixProvider`, with the
gradients which `MeshFunctionGradFE` returns. -/
theorem C77_diffusion
    (hC : ∀ e ∈ (S.entities 0).filter active, ComputableGrad (X e).geo (X e).fe (X e).rule (X e).detJ)
    (alpha : MeshFn ℝ (DiffCoeff w)) (α : Ent → List ℝ → DiffCoeff w)
    (hα : ∀ e ∈ (S.entities 0).filter active, alpha e (X e).rule.points = some ((X e).rule.points.map (α e)))
    (A : Coo ℝ) (D : Dense ℝ) (hA : A.makeDense = some D) (hr : D.rows = S.dofh.numDofs) (hc : D.cols = S.dofh.numDofs) :
    ∃ A' D', assembleMatrixFE S 0 active (diffusionElementMatrix get S geo alpha) A = some A' ∧ A'.makeDense = some D' ∧
      D'.rows = S.dofh.numDofs ∧ D'.cols = S.dofh.numDofs ∧
      ∀ ν μ : List ℝ, ν.length = S.dofh.numDofs → μ.length = S.dofh.numDofs →
        D'.form ν μ = D.form ν μ +
          diffusionSum S X ((S.entities 0).filter active) geo (fun e x => (α e x).toMatrix) ν μ := by
  obtain ⟨A', D', h1, h2, h3, h4, h5⟩ := assembleMatrixFE_rep hS 0 (by omega) active
    (diffusionElementMatrix get S geo alpha) (fun e => (X e).fe) (fun e he => (hX e he).1.num)
    (fun e c d => (X e).rule.integrate fun x => (X e).detJ x * dot ((X e).geo.pushGrad x ((X e).fe.combineGrad c x))
        ((α e x).toMatrix.mulVec ((X e).geo.pushGrad x ((X e).fe.combineGrad d x))))
    (fun e he => by
      obtain ⟨M, hM, -, hf, -⟩ := C53_diffusion_form get S geo e (hX e he).1.geo (hX e he).1.layout (hX e he).1.kind
        (hX e he).1.rule (hC e he) alpha (α e) (hα e he)
      exact ⟨M, hM, hf⟩) A D hA hr hc
  refine ⟨A', D', h1, h2, h3, h4, fun ν μ hν hμ => ?_⟩
  rw [h5, diffusionSum]
  congr 2
  refine List.map_congr_left fun e he => integrate_congr _ fun x hx => ?_
  have hent := FeSpace.mem_entities (by omega) (List.mem_filter.1 he).1
  rw [FeSpace.gradient, FeSpace.gradient, gradFE_loc hS hent (hX e he).1.geo (hX e he).1.kind (hX e he).1.layout
    (hX e he).1.num hν (hC e he) hx, gradFE_loc hS hent (hX e he).1.geo (hX e he).1.kind (hX e he).1.layout
    (hX e he).1.num hμ (hC e he) hx]
  rfl

/-- **C77**, load vector: likewise `ScalarLoadElementVectorProvider` yields the linear form `∫ f v`. -/
theorem C77_load (hC : ∀ e ∈ (S.entities 0).filter active, Computable (X e).geo (X e).fe (X e).rule (X e).detJ)
    (f : MeshFn ℝ ℝ) (F : Ent → List ℝ → ℝ)
    (hf : ∀ e ∈ (S.entities 0).filter active, f e (X e).rule.points = some ((X e).rule.points.map (F e)))
    (b : List ℝ) (hb : b.length = S.dofh.numDofs) :
    ∃ b', assembleVectorFE S 0 active (loadElementVector get S geo f) b = some b' ∧ b'.length = S.dofh.numDofs ∧
      ∀ ν : List ℝ, ν.length = S.dofh.numDofs →
        dotList ν b' = dotList ν b + loadSum S X ((S.entities 0).filter active) F ν := by
  obtain ⟨b', h1, h2, h3⟩ := assembleVectorFE_rep hS 0 (by omega) active (loadElementVector get S geo f)
    (fun e => (X e).fe) (fun e he => (hX e he).1.num)
    (fun e c => (X e).rule.integrate fun x => (X e).detJ x * (F e x * (X e).fe.combine c x))
    (fun e he => by
      obtain ⟨v, hv, hi⟩ := C53_load get S geo e (hX e he).1.geo (hX e he).1.layout (hX e he).1.kind
        (hX e he).1.rule (hX e he).2 (hC e he) f (F e) (hf e he)
      refine ⟨v, hv, fun c => ?_⟩
      simp only [dotProduct, hi, loadForm, ← integrate_smul]
      rw [← integrate_sum]
      refine integrate_congr _ fun x _ => ?_
      rw [RefFE.combine, Finset.mul_sum, Finset.mul_sum]
      exact Finset.sum_congr rfl fun i _ => by ring) b hb
  refine ⟨b', h1, h2, fun ν hν => ?_⟩
  rw [h3, loadSum]
  congr 2
  refine List.map_congr_left fun e he => integrate_congr _ fun x hx => ?_
  have hent := FeSpace.mem_entities (by omega) (List.mem_filter.1 he).1
  rw [FeSpace.value, evalFE_loc hS hent (hX e he).1.layout (hX e he).1.num hν ((hC e he).shapes x hx)]
  rfl

end Cells

section Edges
variable (hX : ∀ e ∈ (S.entities 1).filter active, (X e).Describes get S geo e)
  (hC : ∀ e ∈ (S.entities 1).filter active, Computable (X e).geo (X e).fe (X e).rule (X e).detJ)
include hS hX hC

/-- **C77** for `MassEdgeMatrixProvider`: likewise for the bilinear form `∫ γ v u` over selected edges. -/
theorem C77_mass_edge (gamma : MeshFn ℝ ℝ) (γ : Ent → List ℝ → ℝ)
    (hγ : ∀ e ∈ (S.entities 1).filter active, gamma e (X e).rule.points = some ((X e).rule.points.map (γ e)))
    (A : Coo ℝ) (D : Dense ℝ) (hA : A.makeDense = some D) (hr : D.rows = S.dofh.numDofs) (hc : D.cols = S.dofh.numDofs) :
    ∃ A' D', assembleMatrixFE S 1 active (massEdgeMatrix get S geo gamma) A = some A' ∧ A'.makeDense = some D' ∧
      D'.rows = S.dofh.numDofs ∧ D'.cols = S.dofh.numDofs ∧
      ∀ ν μ : List ℝ, ν.length = S.dofh.numDofs → μ.length = S.dofh.numDofs →
        D'.form ν μ = D.form ν μ + massSum S X ((S.entities 1).filter active) γ ν μ := by
  obtain ⟨A', D', h1, h2, h3, h4, h5⟩ := assembleMatrixFE_rep hS 1 (by omega) active (massEdgeMatrix get S geo gamma)
    (fun e => (X e).fe) (fun e he => (hX e he).num)
    (fun e c d => (X e).rule.integrate fun x => (X e).detJ x * (γ e x * ((X e).fe.combine c x * (X e).fe.combine d x)))
    (fun e he => by
      obtain ⟨M, hM, -, hf, -⟩ := C53_mass_edge_form get S geo e (hX e he).geo (hX e he).layout (hX e he).kind
        (hX e he).rule (hC e he) gamma (γ e) (hγ e he)
      exact ⟨M, hM, hf⟩) A D hA hr hc
  refine ⟨A', D', h1, h2, h3, h4, fun ν μ hν hμ => ?_⟩
  rw [h5, massSum]
  congr 2
  refine List.map_congr_left fun e he => integrate_congr _ fun x hx => ?_
  have hent := FeSpace.mem_entities (by omega) (List.mem_filter.1 he).1
  rw [FeSpace.value, FeSpace.value, evalFE_loc hS hent (hX e he).layout (hX e he).num hν ((hC e he).shapes x hx),
    evalFE_loc hS hent (hX e he).layout (hX e he).num hμ ((hC e he).shapes x hx)]
  rfl

/-- **C77** for `ScalarLoadEdgeVectorProvider`: likewise for the linear form `∫ f v` over selected edges. -/
theorem C77_load_edge (hd : ∀ e ∈ (S.entities 1).filter active, (X e).geo.kind.dimension = 1)
    (f : MeshFn ℝ ℝ) (F : Ent → List ℝ → ℝ)
    (hf : ∀ e ∈ (S.entities 1).filter active, f e (X e).rule.points = some ((X e).rule.points.map (F e)))
    (b : List ℝ) (hb : b.length = S.dofh.numDofs) :
    ∃ b', assembleVectorFE S 1 active (loadEdgeVector get S geo f) b = some b' ∧ b'.length = S.dofh.numDofs ∧
      ∀ ν : List ℝ, ν.length = S.dofh.numDofs →
        dotList ν b' = dotList ν b + loadSum S X ((S.entities 1).filter active) F ν := by
  obtain ⟨b', h1, h2, h3⟩ := assembleVectorFE_rep hS 1 (by omega) active (loadEdgeVector get S geo f)
    (fun e => (X e).fe) (fun e he => (hX e he).num)
    (fun e c => (X e).rule.integrate fun x => (X e).detJ x * (F e x * (X e).fe.combine c x))
    (fun e he => by
      obtain ⟨v, hv, hi⟩ := C53_load_edge get S geo e (hX e he).geo (hX e he).layout (hX e he).kind
        (hX e he).rule (hd e he) (hC e he) f (F e) (hf e he)
      refine ⟨v, hv, fun c => ?_⟩
      simp only [dotProduct, hi, loadForm, ← integrate_smul]
      rw [← integrate_sum]
      refine integrate_congr _ fun x _ => ?_
      rw [RefFE.combine, Finset.mul_sum, Finset.mul_sum]
      exact Finset.sum_congr rfl fun i _ => by ring) b hb
  refine ⟨b', h1, h2, fun ν hν => ?_⟩
  rw [h3, loadSum]
  congr 2
  refine List.map_congr_left fun e he => integrate_congr _ fun x hx => ?_
  have hent := FeSpace.mem_entities (by omega) (List.mem_filter.1 he).1
  rw [FeSpace.value, evalFE_loc hS hent (hX e he).layout (hX e he).num hν ((hC e he).shapes x hx)]
  rfl

end Edges

include hS in
/-- **C77**: the sums above are made of proper values, i.e. evaluating finite element functions and their gradients
succeeds in all quadrature points. -/
theorem C77_values (hX : ∀ e ∈ (S.entities 0).filter active, (X e).Describes get S geo e)
    (u : List ℝ) (hu : u.length = S.dofh.numDofs) (e : Ent) (he : e ∈ (S.entities 0).filter active)
    (x : List ℝ) (hx : x ∈ (X e).rule.points) :
    (Computable (X e).geo (X e).fe (X e).rule (X e).detJ → S.evalFE u e x = some (S.value u e x)) ∧
    (ComputableGrad (X e).geo (X e).fe (X e).rule (X e).detJ → S.gradFE geo u e x = some (S.gradient geo u e x)) := by
  have hent := FeSpace.mem_entities (by omega) (List.mem_filter.1 he).1
  refine ⟨fun hC => ?_, fun hC => ?_⟩
  · rw [FeSpace.value, evalFE_loc hS hent (hX e he).layout (hX e he).num hu (hC.shapes x hx)]
    rfl
  · rw [FeSpace.gradient, gradFE_loc hS hent (hX e he).geo (hX e he).kind (hX e he).layout (hX e he).num hu hC hx]
    rfl

end

/-! ## Consequences -/

section
variable (S : FeSpace ℝ) (X : Ent → EntData w) (es : List Ent)

/-- The forms are symmetric and, for positive coefficients and weights, positive semi-definite. -/
theorem massSum_comm (γ : Ent → List ℝ → ℝ) (ν μ : List ℝ) : massSum S X es γ ν μ = massSum S X es γ μ ν := by
  unfold massSum
  congr 1
  refine List.map_congr_left fun e _ => integrate_congr _ fun x _ => ?_
  ring

theorem diffusionSum_comm (geo : Ent → Option (Geo ℝ w)) (α : Ent → List ℝ → Matrix (Fin w) (Fin w) ℝ)
    (hα : ∀ e ∈ es, ∀ x ∈ (X e).rule.points, (α e x).transpose = α e x) (ν μ : List ℝ) :
    diffusionSum S X es geo α ν μ = diffusionSum S X es geo α μ ν := by
  unfold diffusionSum
  congr 1
  refine List.map_congr_left fun e he => integrate_congr _ fun x hx => ?_
  congr 1
  rw [dot_eq, dot_eq, Matrix.dotProduct_mulVec, ← Matrix.mulVec_transpose, hα e he x hx, dotProduct_comm]

theorem massSum_nonneg (γ : Ent → List ℝ → ℝ) (hw : ∀ e ∈ es, ∀ a ∈ (X e).rule.weights, 0 ≤ a)
    (hd : ∀ e ∈ es, ∀ x ∈ (X e).rule.points, 0 ≤ (X e).detJ x) (hγ : ∀ e ∈ es, ∀ x ∈ (X e).rule.points, 0 ≤ γ e x)
    (ν : List ℝ) : 0 ≤ massSum S X es γ ν ν := by
  refine List.sum_nonneg fun a ha => ?_
  obtain ⟨e, he, rfl⟩ := List.mem_map.1 ha
  exact integrate_nonneg _ (hw e he) fun x hx =>
    mul_nonneg (hd e he x hx) (mul_nonneg (hγ e he x hx) (mul_self_nonneg _))

theorem diffusionSum_nonneg (geo : Ent → Option (Geo ℝ w)) (α : Ent → List ℝ → Matrix (Fin w) (Fin w) ℝ)
    (hw : ∀ e ∈ es, ∀ a ∈ (X e).rule.weights, 0 ≤ a) (hd : ∀ e ∈ es, ∀ x ∈ (X e).rule.points, 0 ≤ (X e).detJ x)
    (hα : ∀ e ∈ es, ∀ x ∈ (X e).rule.points, ∀ v, 0 ≤ v ⬝ᵥ (α e x).mulVec v)
    (ν : List ℝ) : 0 ≤ diffusionSum S X es geo α ν ν := by
  refine List.sum_nonneg fun a ha => ?_
  obtain ⟨e, he, rfl⟩ := List.mem_map.1 ha
  exact integrate_nonneg _ (hw e he) fun x hx => mul_nonneg (hd e he x hx) (hα e he x hx _)

end

theorem form_zero (N : ℕ) (ν μ : List ℝ) : (⟨N, N, fun _ _ => 0⟩ : Dense ℝ).form ν μ = 0 := by simp [Dense.form]

theorem empty_dense (N : ℕ) : ∃ D : Dense ℝ, (Coo.mk' N N : Coo ℝ).makeDense = some D ∧ D.rows = N ∧ D.cols = N ∧
    ∀ ν μ, D.form ν μ = 0 := by
  have := makeDense_eq (Coo.mk' N N : Coo ℝ) (by intro t ht; simp [Coo.mk'] at ht)
  refine ⟨_, this, rfl, rfl, fun ν μ => ?_⟩
  simp [Dense.form, Coo.mk']

section
variable (B : QuadBase ℝ) (U : UniformFESpace ℝ) (T : Topo) (geo : Ent → Option (Geo ℝ w)) (hS : (U.space T).DofsOk)
  (active : Ent → Bool) (X : Ent → EntData w)
include hS

/-- **C77** for `ReactionDiffusionElementMatrixProvider`, starting from an empty matrix: the result is the matrix of the
bilinear form `∫ grad v · α grad u + γ v u`.  It is symmetric if `α` is, and positive semi-definite if `α`, `γ` and the
quadrature weights are. -/
theorem C77_reaction_diffusion
    (hX : ∀ e ∈ ((U.space T).entities 0).filter active, (X e).Describes (makeQuadRule B) (U.space T) geo e ∧
      ((X e).geo.kind = .tria ∨ (X e).geo.kind = .quad) ∧ U.layout (X e).geo.kind = some (X e).fe ∧
      Computable (X e).geo (X e).fe (X e).rule (X e).detJ ∧ ComputableGrad (X e).geo (X e).fe (X e).rule (X e).detJ)
    (alpha : MeshFn ℝ (DiffCoeff w)) (α : Ent → List ℝ → DiffCoeff w) (gamma : MeshFn ℝ ℝ) (γ : Ent → List ℝ → ℝ)
    (hα : ∀ e ∈ ((U.space T).entities 0).filter active, alpha e (X e).rule.points = some ((X e).rule.points.map (α e)))
    (hγ : ∀ e ∈ ((U.space T).entities 0).filter active, gamma e (X e).rule.points = some ((X e).rule.points.map (γ e))) :
    ∃ A D, assembleMatrixFE (U.space T) 0 active
        (reactionDiffusionElementMatrix (fun ref => (precompute U (builtinRule B) ref).join) T geo alpha gamma)
        (Coo.mk' U.dofh.numDofs U.dofh.numDofs) = some A ∧ A.makeDense = some D ∧
      D.rows = U.dofh.numDofs ∧ D.cols = U.dofh.numDofs ∧
      (∀ ν μ : List ℝ, ν.length = U.dofh.numDofs → μ.length = U.dofh.numDofs → D.form ν μ =
        diffusionSum (U.space T) X (((U.space T).entities 0).filter active) geo (fun e x => (α e x).toMatrix) ν μ +
        massSum (U.space T) X (((U.space T).entities 0).filter active) γ ν μ) ∧
      ((∀ e ∈ ((U.space T).entities 0).filter active, ∀ x ∈ (X e).rule.points,
          (α e x).toMatrix.transpose = (α e x).toMatrix) →
        ∀ r < U.dofh.numDofs, ∀ c < U.dofh.numDofs, D.entry r c = D.entry c r) ∧
      ((∀ e ∈ ((U.space T).entities 0).filter active, (∀ a ∈ (X e).rule.weights, 0 ≤ a) ∧
          ∀ x ∈ (X e).rule.points, 0 ≤ γ e x ∧ ∀ v, 0 ≤ v ⬝ᵥ (α e x).toMatrix.mulVec v) →
        ∀ ν : List ℝ, ν.length = U.dofh.numDofs → 0 ≤ D.form ν ν) := by
  obtain ⟨D0, hD0, hr0, hc0, hz⟩ := empty_dense U.dofh.numDofs
  obtain ⟨A, D, h1, h2, h3, h4, h5⟩ := assembleMatrixFE_rep hS 0 (by omega) active
    (reactionDiffusionElementMatrix (fun ref => (precompute U (builtinRule B) ref).join) T geo alpha gamma)
    (fun e => (X e).fe) (fun e he => (hX e he).1.num)
    (fun e c d => ((X e).rule.integrate fun x => (X e).detJ x * dot ((X e).geo.pushGrad x ((X e).fe.combineGrad c x))
        ((α e x).toMatrix.mulVec ((X e).geo.pushGrad x ((X e).fe.combineGrad d x)))) +
      (X e).rule.integrate fun x => (X e).detJ x * (γ e x * ((X e).fe.combine c x * (X e).fe.combine d x)))
    (fun e he => by
      obtain ⟨hD, hk, hl, hc, hcg⟩ := hX e he
      obtain ⟨A, M, v, hA, hM, hAM, -⟩ := C66 B U T geo e hD.geo hD.kind hk hl hD.rule hc hcg alpha gamma (α e) (γ e)
        (hα e he) (hγ e he)
      obtain ⟨A', hA', -, hfA, -⟩ := C53_diffusion_form (makeQuadRule B) (U.space T) geo e hD.geo hD.layout hD.kind
        hD.rule hcg alpha (α e) (hα e he)
      obtain ⟨M', hM', -, hfM, -⟩ := C53_mass_form (makeQuadRule B) (U.space T) geo e hD.geo hD.layout hD.kind
        hD.rule hcg.dim hc gamma (γ e) (hγ e he)
      rw [hA] at hA'
      rw [hM] at hM'
      simp only [Option.some.injEq, Sigma.mk.injEq, heq_eq_eq, true_and] at hA' hM'
      subst hA'
      subst hM'
      refine ⟨A + M, hAM, fun c d => ?_⟩
      rw [Matrix.add_mulVec, dotProduct_add, hfA, hfM]) _ D0 hD0 hr0 hc0
  have hform : ∀ ν μ : List ℝ, ν.length = U.dofh.numDofs → μ.length = U.dofh.numDofs → D.form ν μ =
        diffusionSum (U.space T) X (((U.space T).entities 0).filter active) geo (fun e x => (α e x).toMatrix) ν μ +
        massSum (U.space T) X (((U.space T).entities 0).filter active) γ ν μ := by
    intro ν μ hν hμ
    rw [h5, hz, zero_add, diffusionSum, massSum, ← List.sum_map_add]
    congr 1
    refine List.map_congr_left fun e he => ?_
    obtain ⟨hD, hk, hl, hc, hcg⟩ := hX e he
    have hent := FeSpace.mem_entities (by omega) (List.mem_filter.1 he).1
    congr 1
    · refine integrate_congr _ fun x hx => ?_
      rw [FeSpace.gradient, FeSpace.gradient, gradFE_loc hS hent hD.geo hD.kind hD.layout hD.num hν hcg hx,
        gradFE_loc hS hent hD.geo hD.kind hD.layout hD.num hμ hcg hx]
      rfl
    · refine integrate_congr _ fun x hx => ?_
      rw [FeSpace.value, FeSpace.value, evalFE_loc hS hent hD.layout hD.num hν (hc.shapes x hx),
        evalFE_loc hS hent hD.layout hD.num hμ (hc.shapes x hx)]
      rfl
  replace h3 : D.rows = U.dofh.numDofs := h3
  replace h4 : D.cols = U.dofh.numDofs := h4
  refine ⟨A, D, h1, h2, h3, h4, hform, fun hs r hr c hc => ?_, fun hw ν hν => ?_⟩
  · rw [← form_unit h3 h4 hr hc, ← form_unit h3 h4 hc hr, hform _ _ (unitList_length _ _) (unitList_length _ _),
      hform _ _ (unitList_length _ _) (unitList_length _ _), massSum_comm, diffusionSum_comm _ _ _ _ _ hs]
  · rw [hform ν ν hν hν]
    have hdet : ∀ e ∈ ((U.space T).entities 0).filter active, ∀ x ∈ (X e).rule.points, 0 ≤ (X e).detJ x :=
      fun e he x hx => integrationElement_nonneg _ ((hX e he).2.2.2.1.metric x hx)
    exact add_nonneg ((diffusionSum_nonneg _ _ _ _ _ (fun e he => (hw e he).1) hdet fun e he x hx => ((hw e he).2 x hx).2) ν)
      ((massSum_nonneg _ _ _ _ (fun e he => (hw e he).1) hdet fun e he x hx => ((hw e he).2 x hx).1) ν)

end

/-- **C77**, constants: if the shape functions on the selected cells sum up to one and their gradients are correct, then all
rows and all columns of the diffusion matrix sum up to zero. -/
theorem C77_constants (get : RefEl → ℕ → Option (QuadRule ℝ)) (S : FeSpace ℝ) (geo : Ent → Option (Geo ℝ w))
    (hS : S.DofsOk) (active : Ent → Bool) (X : Ent → EntData w)
    (hX : ∀ e ∈ (S.entities 0).filter active, (X e).Describes get S geo e ∧ (X e).geo.kind.dimension = 2)
    (hC : ∀ e ∈ (S.entities 0).filter active, ComputableGrad (X e).geo (X e).fe (X e).rule (X e).detJ)
    (hF : ∀ e ∈ (S.entities 0).filter active, (X e).fe.SumsToOne ∧ (X e).fe.GradCorrect ∧ (X e).fe.ref.dimension = 2 ∧
      ∀ x ∈ (X e).rule.points, x.length = 2)
    (alpha : MeshFn ℝ (DiffCoeff w)) (α : Ent → List ℝ → DiffCoeff w)
    (hα : ∀ e ∈ (S.entities 0).filter active, alpha e (X e).rule.points = some ((X e).rule.points.map (α e))) :
    ∃ A D, assembleMatrixFE S 0 active (diffusionElementMatrix get S geo alpha)
        (Coo.mk' S.dofh.numDofs S.dofh.numDofs) = some A ∧ A.makeDense = some D ∧
      ∀ r < S.dofh.numDofs, ∑ c ∈ range S.dofh.numDofs, D.entry r c = 0 ∧
        ∑ c ∈ range S.dofh.numDofs, D.entry c r = 0 := by
  obtain ⟨D0, hD0, hr0, hc0, hz⟩ := empty_dense S.dofh.numDofs
  obtain ⟨A, D, h1, h2, h3, h4, h5⟩ := C77_diffusion get S geo hS active X hX hC alpha α hα _ D0 hD0 hr0 hc0
  refine ⟨A, D, h1, h2, fun r hr => ?_⟩
  set N := S.dofh.numDofs with hN
  set one : List ℝ := List.replicate N 1 with hone
  have hol : one.length = N := by simp [hone]
  have hog : ∀ i < N, one.getD i 0 = 1 := fun i hi => by simp [hone, hi]
  have hgrad : ∀ e ∈ (S.entities 0).filter active, ∀ x ∈ (X e).rule.points, S.gradient geo one e x = 0 := by
    intro e he x hx
    have hent := FeSpace.mem_entities (by omega) (List.mem_filter.1 he).1
    obtain ⟨hs, hg, hd, hp⟩ := hF e he
    rw [FeSpace.gradient, gradFE_loc hS hent (hX e he).1.geo (hX e he).1.kind (hX e he).1.layout (hX e he).1.num hol
      (hC e he) hx, Option.getD_some, combineGrad_const hg hd _ 1 (fun y hy => ?_) x (hp x hx), pushGrad_zero]
    have hloc : ∀ i, S.loc one e (X e).fe.num i = 1 := fun i => hog _ (by
      refine (hS.range e hent).1 _ ?_
      have : i.val < (S.dofh.all e).length := i.isLt.trans_eq (hX e he).1.num.symm
      simp [this])
    simp only [RefFE.combine, hloc, one_mul]
    rw [sum_fin_range (X e).fe.num fun i => (X e).fe.shape i y]
    exact hs y (hy.trans hd.symm)
  have hzero : ∀ ν : List ℝ, ν.length = N → D.form ν one = 0 ∧ D.form one ν = 0 := by
    intro ν hν
    rw [h5 ν one hν hol, h5 one ν hol hν, hz, hz, zero_add, zero_add, diffusionSum, diffusionSum]
    constructor <;>
    · refine List.sum_eq_zero fun a ha => ?_
      obtain ⟨e, he, rfl⟩ := List.mem_map.1 ha
      rw [← integrate_zero (X e).rule]
      refine integrate_congr _ fun x hx => ?_
      rw [hgrad e he x hx]
      simp [dot]
  obtain ⟨z1, z2⟩ := hzero (unitList N r) (unitList_length N r)
  unfold Dense.form at z1 z2
  rw [h3, h4] at z1 z2
  constructor
  · rw [Finset.sum_eq_single_of_mem r (Finset.mem_range.2 hr)] at z1
    · rw [← z1]
      refine Finset.sum_congr rfl fun c hc => ?_
      rw [unitList_getD hr, if_pos rfl, hog c (Finset.mem_range.1 hc)]
      ring
    · intro i hi hne
      rw [unitList_getD (Finset.mem_range.1 hi), if_neg hne]
      simp
  · rw [← z2]
    refine Finset.sum_congr rfl fun c hc => ?_
    rw [Finset.sum_eq_single_of_mem r (Finset.mem_range.2 hr), unitList_getD hr, if_pos rfl,
      hog c (Finset.mem_range.1 hc)]
    · ring
    · intro i hi hne
      rw [unitList_getD (Finset.mem_range.1 hi), if_neg hne]
      simp

end Verif
