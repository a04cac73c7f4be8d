import Verif.Lemmas.LocCompForm

/-!
# C53: element matrices and element vectors of the providers in `lf::fe` and `lf::uscalfe`
-/

namespace Verif
open Geo Finset Matrix

variable {w : ℕ}

section Fe
variable (get : RefEl → ℕ → Option (QuadRule ℝ)) (S : FeSpace ℝ) (geo : Ent → Option (Geo ℝ w)) (e : Ent)
  {g : Geo ℝ w} {fe : RefFE ℝ} {q : QuadRule ℝ} {detJ : List ℝ → ℝ} {r : RefEl}
  (hg : geo e = some g) (hl : S.layout e = some fe) (hr : S.mesh.refEl e = some r)
  (hq : get r (2 * fe.degree) = some q)
include hg hl hr hq

/-- **C53**: for all cells, finite elements, rules and coefficients the mass element matrix holds the values
of the quadrature rule for the bilinear form applied to the shape functions. -/
theorem C53_mass (hd : g.kind.dimension = 2) (h : Computable g fe q detJ) (gamma : MeshFn ℝ ℝ) (γ : List ℝ → ℝ)
    (hγ : gamma e q.points = some (q.points.map γ)) :
    ∃ M : Matrix (Fin fe.num) (Fin fe.num) ℝ, massElementMatrix get S geo gamma e = some ⟨fe.num, M⟩ ∧
      ∀ i j, M i j = massForm fe q detJ γ i.val j.val := by
  refine ⟨∑ k ∈ range q.numPoints, (q.weights.getD k 0 * detJ (q.points.getD k [])) • Matrix.of
    fun i j => (γ (q.points.getD k []) * fe.shape i.val (q.points.getD k [])) *
      fe.shape j.val (q.points.getD k []), ?_, fun i j => ?_⟩
  · simp only [massElementMatrix, hg, Option.bind_some, hd, hl, hr, hq, h.dets, hγ, h.rsf, ne_eq, not_true_eq_false,
      if_false]
    rw [foldlM_add]
    · rfl
    · intro k hk m
      rw [get_self q.weights (h.rule ▸ hk) 0, get_map _ _ hk [], get_map _ _ hk [], get_map _ _ hk []]
      simp only [Option.bind_some]
      rw [if_pos (h.col hk)]
      rfl
  · rw [massForm, integrate_eq_sum _ h.rule, Matrix.sum_apply]
    refine Finset.sum_congr rfl fun k _ => ?_
    simp only [Matrix.smul_apply, Matrix.of_apply, smul_eq_mul]
    ring

/-- **C53**: the same for the mass matrix of an edge. -/
theorem C53_mass_edge (h : Computable g fe q detJ) (gamma : MeshFn ℝ ℝ) (γ : List ℝ → ℝ)
    (hγ : gamma e q.points = some (q.points.map γ)) :
    ∃ M : Matrix (Fin fe.num) (Fin fe.num) ℝ, massEdgeMatrix get S geo gamma e = some ⟨fe.num, M⟩ ∧
      ∀ i j, M i j = massForm fe q detJ γ i.val j.val := by
  refine ⟨∑ k ∈ range q.numPoints, (q.weights.getD k 0 * detJ (q.points.getD k []) * γ (q.points.getD k [])) •
    Matrix.of fun i j => fe.shape i.val (q.points.getD k []) *
      fe.shape j.val (q.points.getD k []), ?_, fun i j => ?_⟩
  · simp only [massEdgeMatrix, hg, Option.bind_some, hl, hr, hq, h.dets, hγ, h.rsf, List.length_map]
    rw [foldlM_add]
    · rfl
    · intro k hk m
      rw [get_self q.weights (h.rule ▸ hk) 0, get_map _ _ hk [], get_map _ _ hk [], get_map _ _ hk []]
      simp only [Option.bind_some]
      rw [if_pos (h.col hk)]
      rfl
  · rw [massForm, integrate_eq_sum _ h.rule, Matrix.sum_apply]
    refine Finset.sum_congr rfl fun k _ => ?_
    simp only [Matrix.smul_apply, Matrix.of_apply, smul_eq_mul]
    ring

/-- **C53**: for all cells, finite elements, rules and coefficients, with numbers or matrices as values, the
diffusion element matrix holds the values of the quadrature rule for the bilinear form applied to the shape
functions. -/
theorem C53_diffusion (h : ComputableGrad g fe q detJ) (alpha : MeshFn ℝ (DiffCoeff w)) (α : List ℝ → DiffCoeff w)
    (hα : alpha e q.points = some (q.points.map α)) :
    ∃ M : Matrix (Fin fe.num) (Fin fe.num) ℝ, diffusionElementMatrix get S geo alpha e = some ⟨fe.num, M⟩ ∧
      ∀ i j, M i j = diffusionForm g fe q detJ (fun x => (α x).toMatrix) i.val j.val := by
  refine ⟨∑ k ∈ range q.numPoints, (q.weights.getD k 0 * detJ (q.points.getD k [])) • Matrix.of
    fun i j => dot (g.pushGrad (q.points.getD k []) (fe.gradAt i.val (q.points.getD k [])))
      ((α (q.points.getD k [])).toMatrix.mulVec
        (g.pushGrad (q.points.getD k []) (fe.gradAt j.val (q.points.getD k [])))), ?_, fun i j => ?_⟩
  · simp only [diffusionElementMatrix, hg, Option.bind_some, h.dim, hl, hr, hq, h.dets, hα, h.grsf, h.jinvT, ne_eq,
      not_true_eq_false, if_false]
    rw [foldlM_add]
    · rfl
    · intro k hk m
      rw [get_self q.weights (h.rule ▸ hk) 0, get_map _ _ hk [], get_map _ _ hk [], get_map _ _ hk [],
        get_map _ _ hk []]
      simp only [Option.bind_some]
      rw [if_pos (h.fit (getD_mem_list _ hk []))]
      simp only [h.trf (getD_mem_list _ hk []), DiffCoeff.act_eq]
  · rw [diffusionForm, integrate_eq_sum _ h.rule, Matrix.sum_apply]
    refine Finset.sum_congr rfl fun k _ => ?_
    simp only [Matrix.smul_apply, Matrix.of_apply, smul_eq_mul]
    ring

/-- **C53**: for all cells, finite elements, rules and source functions the element load vector holds the
values of the quadrature rule for the source function times the shape functions. -/
theorem C53_load (hd : g.kind.dimension = 2) (h : Computable g fe q detJ) (f : MeshFn ℝ ℝ) (F : List ℝ → ℝ)
    (hf : f e q.points = some (q.points.map F)) :
    ∃ v : Fin fe.num → ℝ, loadElementVector get S geo f e = some ⟨fe.num, v⟩ ∧
      ∀ i, v i = loadForm fe q detJ F i.val := by
  refine ⟨∑ k ∈ range q.numPoints, (q.weights.getD k 0 * detJ (q.points.getD k []) * F (q.points.getD k [])) •
    fun i : Fin fe.num => fe.shape i.val (q.points.getD k []), ?_, fun i => ?_⟩
  · simp only [loadElementVector, hg, Option.bind_some, hd, hl, hr, hq, h.dets, hf, h.rsf, List.length_map, ne_eq,
      not_true_eq_false, if_false]
    rw [foldlM_add]
    · rfl
    · intro k hk m
      rw [get_self q.weights (h.rule ▸ hk) 0, get_map _ _ hk [], get_map _ _ hk [], get_map _ _ hk []]
      simp only [Option.bind_some]
      rw [if_pos (h.col hk)]
      rfl
  · rw [loadForm, integrate_eq_sum _ h.rule, Finset.sum_apply]
    refine Finset.sum_congr rfl fun k _ => ?_
    simp only [Pi.smul_apply, smul_eq_mul]
    ring

/-- **C53**: the same for the load vector of an edge. -/
theorem C53_load_edge (hd : g.kind.dimension = 1) (h : Computable g fe q detJ) (f : MeshFn ℝ ℝ) (F : List ℝ → ℝ)
    (hf : f e q.points = some (q.points.map F)) :
    ∃ v : Fin fe.num → ℝ, loadEdgeVector get S geo f e = some ⟨fe.num, v⟩ ∧
      ∀ i, v i = loadForm fe q detJ F i.val := by
  refine ⟨∑ k ∈ range q.numPoints, (q.weights.getD k 0 * detJ (q.points.getD k []) * F (q.points.getD k [])) •
    fun i : Fin fe.num => fe.shape i.val (q.points.getD k []), ?_, fun i => ?_⟩
  · simp only [loadEdgeVector, hg, Option.bind_some, hd, hl, hr, hq, h.dets, hf, h.rsf, ne_eq,
      not_true_eq_false, if_false]
    rw [foldlM_add]
    · rfl
    · intro k hk m
      rw [get_self q.weights (h.rule ▸ hk) 0, get_map _ _ hk [], get_map _ _ hk [], get_map _ _ hk []]
      simp only [Option.bind_some]
      rw [if_pos (h.col hk)]
      rfl
  · rw [loadForm, integrate_eq_sum _ h.rule, Finset.sum_apply]
    refine Finset.sum_congr rfl fun k _ => ?_
    simp only [Pi.smul_apply, smul_eq_mul]
    ring

/-- **C53**: the mass element matrix is symmetric, its bilinear form is the quadrature formula for the bilinear
form on functions, and for non-negative coefficients and quadrature weights it is positive semi-definite.  If
weights, coefficient and metric factors are positive, its form vanishes exactly for the functions which vanish
in all quadrature points. -/
theorem C53_mass_form (hd : g.kind.dimension = 2) (h : Computable g fe q detJ) (gamma : MeshFn ℝ ℝ) (γ : List ℝ → ℝ)
    (hγ : gamma e q.points = some (q.points.map γ)) :
    ∃ M : Matrix (Fin fe.num) (Fin fe.num) ℝ, massElementMatrix get S geo gamma e = some ⟨fe.num, M⟩ ∧
      M.transpose = M ∧
      (∀ c d, c ⬝ᵥ M.mulVec d = q.integrate fun x => detJ x * (γ x * (fe.combine c x * fe.combine d x))) ∧
      ((∀ a ∈ q.weights, 0 ≤ a) → (∀ x ∈ q.points, 0 ≤ γ x) → ∀ c, 0 ≤ c ⬝ᵥ M.mulVec c) ∧
      ((∀ a ∈ q.weights, 0 < a) → (∀ x ∈ q.points, 0 < γ x ∧ detJ x ≠ 0) →
        ∀ c, c ⬝ᵥ M.mulVec c = 0 ↔ ∀ x ∈ q.points, fe.combine c x = 0) := by
  obtain ⟨M, hM, hij⟩ := C53_mass get S geo e hg hl hr hq hd h gamma γ hγ
  have hform := massForm_form γ M hij
  have hdet : ∀ x ∈ q.points, 0 ≤ detJ x := fun x hx => integrationElement_nonneg g (h.metric x hx)
  refine ⟨M, hM, ?_, hform, fun hw hγ0 c => ?_, fun hw hγ0 c => ?_⟩
  · ext i j
    rw [Matrix.transpose_apply, hij, hij, massForm_comm]
  · rw [hform]
    exact integrate_nonneg q hw fun x hx => mul_nonneg (hdet x hx) (mul_nonneg (hγ0 x hx) (mul_self_nonneg _))
  · rw [hform, integrate_eq_zero q h.rule hw fun x hx =>
      mul_nonneg (hdet x hx) (mul_nonneg (hγ0 x hx).1.le (mul_self_nonneg _))]
    refine forall₂_congr fun x hx => ?_
    rw [mul_eq_zero, or_iff_right (hγ0 x hx).2, mul_eq_zero, or_iff_right (hγ0 x hx).1.ne', mul_self_eq_zero]

/-- **C53**: the same for the mass matrix of an edge. -/
theorem C53_mass_edge_form (h : Computable g fe q detJ) (gamma : MeshFn ℝ ℝ) (γ : List ℝ → ℝ)
    (hγ : gamma e q.points = some (q.points.map γ)) :
    ∃ M : Matrix (Fin fe.num) (Fin fe.num) ℝ, massEdgeMatrix get S geo gamma e = some ⟨fe.num, M⟩ ∧
      M.transpose = M ∧
      (∀ c d, c ⬝ᵥ M.mulVec d = q.integrate fun x => detJ x * (γ x * (fe.combine c x * fe.combine d x))) ∧
      ((∀ a ∈ q.weights, 0 ≤ a) → (∀ x ∈ q.points, 0 ≤ γ x) → ∀ c, 0 ≤ c ⬝ᵥ M.mulVec c) := by
  obtain ⟨M, hM, hij⟩ := C53_mass_edge get S geo e hg hl hr hq h gamma γ hγ
  have hform := massForm_form γ M hij
  have hdet : ∀ x ∈ q.points, 0 ≤ detJ x := fun x hx => integrationElement_nonneg g (h.metric x hx)
  refine ⟨M, hM, ?_, hform, fun hw hγ0 c => ?_⟩
  · ext i j
    rw [Matrix.transpose_apply, hij, hij, massForm_comm]
  · rw [hform]
    exact integrate_nonneg q hw fun x hx => mul_nonneg (hdet x hx) (mul_nonneg (hγ0 x hx) (mul_self_nonneg _))

/-- **C53**: the diffusion element matrix is symmetric for symmetric coefficients, its bilinear form is the
quadrature formula for the bilinear form on functions, and it is positive semi-definite for non-negative
quadrature weights and positive semi-definite coefficients. -/
theorem C53_diffusion_form (h : ComputableGrad g fe q detJ) (alpha : MeshFn ℝ (DiffCoeff w)) (α : List ℝ → DiffCoeff w)
    (hα : alpha e q.points = some (q.points.map α)) :
    ∃ M : Matrix (Fin fe.num) (Fin fe.num) ℝ, diffusionElementMatrix get S geo alpha e = some ⟨fe.num, M⟩ ∧
      ((∀ x ∈ q.points, (α x).toMatrix.transpose = (α x).toMatrix) → M.transpose = M) ∧
      (∀ c d, c ⬝ᵥ M.mulVec d = q.integrate fun x => detJ x * dot (g.pushGrad x (fe.combineGrad c x))
        ((α x).toMatrix.mulVec (g.pushGrad x (fe.combineGrad d x)))) ∧
      ((∀ a ∈ q.weights, 0 ≤ a) → (∀ x ∈ q.points, ∀ v, 0 ≤ v ⬝ᵥ (α x).toMatrix.mulVec v) →
        ∀ c, 0 ≤ c ⬝ᵥ M.mulVec c) := by
  obtain ⟨M, hM, hij⟩ := C53_diffusion get S geo e hg hl hr hq h alpha α hα
  have hform := diffusionForm_form h.dim _ M hij
  have hdet : ∀ x ∈ q.points, 0 ≤ detJ x := fun x hx => integrationElement_nonneg g (h.metric x hx)
  refine ⟨M, hM, fun hs => ?_, hform, fun hw hα0 c => ?_⟩
  · ext i j
    rw [Matrix.transpose_apply, hij, hij, diffusionForm_comm _ hs]
  · rw [hform]
    exact integrate_nonneg q hw fun x hx => mul_nonneg (hdet x hx) (hα0 x hx _)

/-- **C53**: if the finite element returns correct gradients, the diffusion matrix annihilates, from the left and
from the right, the coefficient vectors of constants; by the second claim this concerns the vector of ones
if the shape functions sum up to one. -/
theorem C53_diffusion_constants (h : ComputableGrad g fe q detJ) (alpha : MeshFn ℝ (DiffCoeff w))
    (α : List ℝ → DiffCoeff w) (hα : alpha e q.points = some (q.points.map α)) (hgr : fe.GradCorrect)
    (hd : fe.ref.dimension = 2) (hp : ∀ x ∈ q.points, x.length = 2) :
    ∃ M : Matrix (Fin fe.num) (Fin fe.num) ℝ, diffusionElementMatrix get S geo alpha e = some ⟨fe.num, M⟩ ∧
      (∀ c K, (∀ x, x.length = 2 → fe.combine c x = K) → M.mulVec c = 0 ∧ M.vecMul c = 0) ∧
      (fe.SumsToOne → ∀ i, ∑ j, M i j = 0 ∧ ∑ j, M j i = 0) := by
  obtain ⟨M, hM, -, hform, -⟩ := C53_diffusion_form get S geo e hg hl hr hq h alpha α hα
  have hz : ∀ c K, (∀ x, x.length = 2 → fe.combine c x = K) → M.mulVec c = 0 ∧ M.vecMul c = 0 := by
    intro c K hc
    have hgz : ∀ x ∈ q.points, g.pushGrad x (fe.combineGrad c x) = 0 := fun x hx => by
      rw [combineGrad_const hgr hd c K hc x (hp x hx), pushGrad_zero]
    constructor
    · funext i
      have : (Pi.single i 1 : Fin fe.num → ℝ) ⬝ᵥ M.mulVec c = M.mulVec c i := by simp
      rw [← this, hform, Pi.zero_apply, ← integrate_zero q]
      refine integrate_congr q fun x hx => ?_
      rw [hgz x hx]
      simp [dot]
    · funext i
      have : c ⬝ᵥ M.mulVec (Pi.single i 1 : Fin fe.num → ℝ) = M.vecMul c i := by
        rw [Matrix.dotProduct_mulVec]; simp
      rw [← this, hform, Pi.zero_apply, ← integrate_zero q]
      refine integrate_congr q fun x hx => ?_
      rw [hgz x hx]
      simp [dot]
  refine ⟨M, hM, hz, fun hs i => ?_⟩
  obtain ⟨h1, h2⟩ := hz (fun _ => 1) 1 fun x hx => by
    rw [RefFE.combine]
    simp only [one_mul]
    rw [sum_fin_range fe.num fun i => fe.shape i x]
    exact hs x (hx.trans hd.symm)
  have h1 := congrFun h1 i
  have h2 := congrFun h2 i
  simp only [Matrix.mulVec, Matrix.vecMul, dotProduct, mul_one, one_mul, Pi.zero_apply] at h1 h2
  exact ⟨h1, h2⟩

/-- **C53**: if the shape functions sum up to one, all entries of the mass matrix sum up to the value of the
quadrature rule for the coefficient, and all entries of the load vector to that for the source function. -/
theorem C53_total (hd : g.kind.dimension = 2) (h : Computable g fe q detJ) (gamma : MeshFn ℝ ℝ) (γ : List ℝ → ℝ)
    (hγ : gamma e q.points = some (q.points.map γ)) (hs : fe.SumsToOne)
    (hp : ∀ x ∈ q.points, x.length = fe.ref.dimension) :
    ∃ (M : Matrix (Fin fe.num) (Fin fe.num) ℝ) (v : Fin fe.num → ℝ),
      massElementMatrix get S geo gamma e = some ⟨fe.num, M⟩ ∧
      loadElementVector get S geo gamma e = some ⟨fe.num, v⟩ ∧
      ∑ i, ∑ j, M i j = q.integrate (fun x => detJ x * γ x) ∧ ∑ i, v i = q.integrate fun x => detJ x * γ x := by
  obtain ⟨M, hM, -, hform, -⟩ := C53_mass_form get S geo e hg hl hr hq hd h gamma γ hγ
  obtain ⟨v, hv, hi⟩ := C53_load get S geo e hg hl hr hq hd h gamma γ hγ
  have hone : ∀ x ∈ q.points, fe.combine (fun _ => 1) x = 1 := fun x hx => by
    rw [RefFE.combine]
    simp only [one_mul]
    rw [sum_fin_range fe.num fun i => fe.shape i x]
    exact hs x (hp x hx)
  refine ⟨M, v, hM, hv, ?_, ?_⟩
  · have : ∑ i, ∑ j, M i j = (fun _ : Fin fe.num => (1 : ℝ)) ⬝ᵥ M.mulVec fun _ => 1 := by
      simp [dotProduct, Matrix.mulVec]
    rw [this, hform]
    refine integrate_congr q fun x hx => ?_
    rw [hone x hx]
    ring
  · simp only [hi, loadForm]
    rw [← integrate_sum]
    refine integrate_congr q fun x hx => ?_
    have := hone x hx
    rw [RefFE.combine] at this
    simp only [one_mul] at this
    rw [← Finset.mul_sum, ← Finset.mul_sum, this, mul_one]

end Fe
end Verif
