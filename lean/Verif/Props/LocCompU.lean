import Verif.Props.LocComp

/-!
# C53, C66: the providers of `lf::uscalfe`
-/

namespace Verif
open Geo Finset Matrix

variable {w : ℕ} {g : Geo ℝ w} {fe : RefFE ℝ} {q : QuadRule ℝ} {detJ : List ℝ → ℝ} {r : RefEl}

theorem precomp_make (h : Computable g fe q detJ)
    (hgr : ∀ x ∈ q.points, ∃ v, fe.grad x = some v) :
    PrecompFE.make fe q = some ⟨fe, q, q.points.map fun x => (fe.eval x).getD [],
      q.points.map fun x => (fe.grad x).getD []⟩ := by
  rw [PrecompFE.make, h.rsf, Option.bind_some, mapM_eq_map fe.grad (fun x => (fe.grad x).getD []) _
    fun x hx => by obtain ⟨v, hv⟩ := hgr x hx; rw [hv]; rfl]
  rfl

/-- The entry which the constructors of the providers for cells store. -/
theorem precompute_eq (U : UniformFESpace ℝ) (rule : RefEl → RefFE ℝ → Option (Option (QuadRule ℝ)))
    (hr : r = .tria ∨ r = .quad) (hl : U.layout r = some fe) (hq : rule r fe = some (some q))
    (h : Computable g fe q detJ) (hgr : ∀ x ∈ q.points, ∃ v, fe.grad x = some v) :
    precompute U rule r = some (some ⟨fe, q, q.points.map fun x => (fe.eval x).getD [],
      q.points.map fun x => (fe.grad x).getD []⟩) := by
  rw [precompute, if_pos hr, hl]
  simp only [hq, Option.bind_some, precomp_make h hgr, Option.map_some]

theorem PrecompFE.make_eq {pfe : PrecompFE} (h : Computable g fe q detJ)
    (hm : PrecompFE.make fe q = some pfe) : pfe.fe = fe ∧ pfe.qr = q ∧
      pfe.rsf = (q.points.map fun x => (fe.eval x).getD []) := by
  simp only [PrecompFE.make, h.rsf, Option.bind_some, Option.map_eq_some_iff] at hm
  obtain ⟨_, _, rfl⟩ := hm
  exact ⟨rfl, rfl, rfl⟩

section Cell
variable (U : UniformFESpace ℝ) (rule : RefEl → RefFE ℝ → Option (Option (QuadRule ℝ))) (T : Topo)
  (geo : Ent → Option (Geo ℝ w)) (e : Ent) (hg : geo e = some g) (hr : T.refEl e = some r)
  (hcell : r = .tria ∨ r = .quad) (hl : U.layout r = some fe) (hq : rule r fe = some (some q))
include hg hr hcell hl hq

/-- **C53**: for all cells, finite elements, coefficients and quadrature rules, whichever constructor has
provided them, the matrix of `ReactionDiffusionElementMatrixProvider` holds the sum of the values of the
quadrature rule for the diffusion form and the mass form. -/
theorem C53_reaction_diffusion (h : Computable g fe q detJ) (h' : ComputableGrad g fe q detJ)
    (alpha : MeshFn ℝ (DiffCoeff w)) (gamma : MeshFn ℝ ℝ) (α : List ℝ → DiffCoeff w) (γ : List ℝ → ℝ)
    (hα : alpha e q.points = some (q.points.map α)) (hγ : gamma e q.points = some (q.points.map γ)) :
    ∃ M : Matrix (Fin fe.num) (Fin fe.num) ℝ,
      reactionDiffusionElementMatrix (fun ref => (precompute U rule ref).join) T geo alpha gamma e =
        some ⟨fe.num, M⟩ ∧
      ∀ i j, M i j = diffusionForm g fe q detJ (fun x => (α x).toMatrix) i.val j.val +
        massForm fe q detJ γ i.val j.val := by
  have hgr : ∀ x ∈ q.points, ∃ v, fe.grad x = some v := fun x hx =>
    (h'.grads x hx).imp fun _ hv => hv.1
  refine ⟨∑ k ∈ range q.numPoints, (q.weights.getD k 0 * detJ (q.points.getD k [])) • ((Matrix.of
    fun i j => dot (g.pushGrad (q.points.getD k []) (fe.gradAt i.val (q.points.getD k [])))
      ((α (q.points.getD k [])).toMatrix.mulVec
        (g.pushGrad (q.points.getD k []) (fe.gradAt j.val (q.points.getD k []))))) +
    Matrix.of fun i j => (γ (q.points.getD k []) * fe.shape i.val (q.points.getD k [])) *
      fe.shape j.val (q.points.getD k [])), ?_, fun i j => ?_⟩
  · rw [reactionDiffusionElementMatrix, hr, Option.bind_some]
    beta_reduce
    rw [precompute_eq U rule hcell hl hq h hgr, Option.join_some, Option.bind_some]
    beta_reduce
    rw [hg, Option.bind_some]
    beta_reduce
    rw [if_neg (by simp [h'.dim])]
    dsimp only
    rw [h.dets, h'.jinvT, hα, hγ]
    simp only [Option.bind_some]
    rw [foldlM_add]
    · rfl
    · intro k hk m
      rw [get_self q.weights (h.rule ▸ hk) 0, get_map _ _ hk [], get_map _ _ hk [], get_map _ _ hk [],
        get_map _ _ hk [], get_map _ _ hk [], get_map _ _ hk []]
      simp only [Option.bind_some]
      rw [if_pos ⟨h'.fit (getD_mem_list _ hk []), h.col hk⟩]
      simp only [h'.trf (getD_mem_list _ hk []), DiffCoeff.act_eq]
      rfl
  · rw [diffusionForm, massForm, ← integrate_add, integrate_eq_sum _ h.rule, Matrix.sum_apply]
    refine Finset.sum_congr rfl fun k _ => ?_
    simp only [Matrix.smul_apply, Matrix.add_apply, Matrix.of_apply, smul_eq_mul]
    ring

/-- **C53**: the same for the element load vectors of `lf::uscalfe`. -/
theorem C53_uload (hd : g.kind.dimension = 2) (h : Computable g fe q detJ)
    (hgr : ∀ x ∈ q.points, ∃ v, fe.grad x = some v) (f : MeshFn ℝ ℝ) (F : List ℝ → ℝ)
    (hf : f e q.points = some (q.points.map F)) :
    ∃ v : Fin fe.num → ℝ,
      uLoadElementVector (fun ref => (precompute U rule ref).join) T geo f e = some ⟨fe.num, v⟩ ∧
      ∀ i, v i = loadForm fe q detJ F i.val := by
  refine ⟨∑ k ∈ range q.numPoints, (q.weights.getD k 0 * detJ (q.points.getD k []) * F (q.points.getD k [])) •
    fun i : Fin fe.num => fe.shape i.val (q.points.getD k []), ?_, fun i => ?_⟩
  · simp only [uLoadElementVector, hr, Option.bind_some, precompute_eq U rule hcell hl hq h hgr,
      Option.join_some, hg, hd, h.dets, hf, List.length_map, ne_eq, not_true_eq_false, if_false]
    rw [foldlM_add]
    · rfl
    · intro k hk m
      rw [get_self q.weights (h.rule ▸ hk) 0, get_map _ _ hk [], get_map _ _ hk [], get_map _ _ hk []]
      simp only [Option.bind_some]
      rw [if_pos (h.col hk)]
      rfl
  · rw [loadForm, integrate_eq_sum _ h.rule, Finset.sum_apply]
    refine Finset.sum_congr rfl fun k _ => ?_
    simp only [Pi.smul_apply, smul_eq_mul]
    ring

end Cell

section Edge
variable (T : Topo) (geo : Ent → Option (Geo ℝ w)) (e : Ent) (pfe : PrecompFE)
  (hg : geo e = some g) (hr : T.refEl e = some .segment) (hm : PrecompFE.make fe q = some pfe)
  (h : Computable g fe q detJ)
include hg hr hm h

/-- **C53**: the same for the edge mass matrices of `lf::uscalfe`. -/
theorem C53_umass_edge (gamma : MeshFn ℝ ℝ) (γ : List ℝ → ℝ)
    (hγ : gamma e q.points = some (q.points.map γ)) :
    ∃ M : Matrix (Fin fe.num) (Fin fe.num) ℝ, uMassEdgeMatrix T geo pfe gamma e = some ⟨fe.num, M⟩ ∧
      ∀ i j, M i j = massForm fe q detJ γ i.val j.val := by
  obtain ⟨rfl, rfl, hs⟩ := PrecompFE.make_eq h hm
  refine ⟨∑ k ∈ range pfe.qr.numPoints, (pfe.qr.weights.getD k 0 * detJ (pfe.qr.points.getD k []) *
    γ (pfe.qr.points.getD k [])) • Matrix.of fun i j => pfe.fe.shape i.val (pfe.qr.points.getD k []) *
      pfe.fe.shape j.val (pfe.qr.points.getD k []), ?_, fun i j => ?_⟩
  · simp only [uMassEdgeMatrix, hg, Option.bind_some, hr, h.dets, hγ, hs, List.length_map, ne_eq,
      not_true_eq_false, if_false]
    rw [foldlM_add]
    · rfl
    · intro k hk m
      rw [get_self pfe.qr.weights (h.rule ▸ hk) 0, get_map _ _ hk [], get_map _ _ hk [], get_map _ _ hk []]
      simp only [Option.bind_some]
      rw [if_pos (h.col hk)]
      rfl
  · rw [massForm, integrate_eq_sum _ h.rule, Matrix.sum_apply]
    refine Finset.sum_congr rfl fun k _ => ?_
    simp only [Matrix.smul_apply, Matrix.of_apply, smul_eq_mul]
    ring

/-- **C53**: the same for the edge load vectors of `lf::uscalfe`. -/
theorem C53_uload_edge (hglob : ∀ x ∈ q.points, ∃ y, g.global x = some y) (f : MeshFn ℝ ℝ) (F : List ℝ → ℝ)
    (hf : f e q.points = some (q.points.map F)) :
    ∃ v : Fin fe.num → ℝ, uLoadEdgeVector T geo pfe f e = some ⟨fe.num, v⟩ ∧
      ∀ i, v i = loadForm fe q detJ F i.val := by
  obtain ⟨rfl, rfl, hs⟩ := PrecompFE.make_eq h hm
  refine ⟨∑ k ∈ range pfe.qr.numPoints, (pfe.qr.weights.getD k 0 * detJ (pfe.qr.points.getD k []) *
    F (pfe.qr.points.getD k [])) • fun i : Fin pfe.fe.num => pfe.fe.shape i.val (pfe.qr.points.getD k []),
    ?_, fun i => ?_⟩
  · simp only [uLoadEdgeVector, hg, Option.bind_some, hr, h.dets, hf, hs, ne_eq,
      not_true_eq_false, if_false]
    rw [mapM_eq_map g.global (fun x => (g.global x).getD 0) _ fun x hx => by
      obtain ⟨y, hy⟩ := hglob x hx; rw [hy]; rfl]
    simp only [Option.bind_some]
    rw [foldlM_add]
    · rfl
    · intro k hk m
      rw [get_self pfe.qr.weights (h.rule ▸ hk) 0, get_map _ _ hk [], get_map _ _ hk [], get_map _ _ hk []]
      simp only [Option.bind_some]
      rw [if_pos (h.col hk)]
      rfl
  · rw [loadForm, integrate_eq_sum _ h.rule, Finset.sum_apply]
    refine Finset.sum_congr rfl fun k _ => ?_
    simp only [Pi.smul_apply, smul_eq_mul]
    ring

end Edge

/-- **C66**: on uniform finite element spaces `ReactionDiffusionElementMatrixProvider` of `lf::uscalfe` returns
the sum of the matrices of the providers `DiffusionElementMatrixProvider` and `MassElementMatrixProvider` of
`lf::fe`, and both providers of load vectors return the same vector. -/
theorem C66 (B : QuadBase ℝ) (U : UniformFESpace ℝ) (T : Topo) (geo : Ent → Option (Geo ℝ w)) (e : Ent)
    (hg : geo e = some g) (hr : T.refEl e = some r) (hcell : r = .tria ∨ r = .quad)
    (hl : U.layout r = some fe) (hq : makeQuadRule B r (2 * fe.degree) = some q)
    (h : Computable g fe q detJ) (h' : ComputableGrad g fe q detJ)
    (alpha : MeshFn ℝ (DiffCoeff w)) (gamma : MeshFn ℝ ℝ) (α : List ℝ → DiffCoeff w) (γ : List ℝ → ℝ)
    (hα : alpha e q.points = some (q.points.map α)) (hγ : gamma e q.points = some (q.points.map γ)) :
    ∃ (A M : Matrix (Fin fe.num) (Fin fe.num) ℝ) (v : Fin fe.num → ℝ),
      diffusionElementMatrix (makeQuadRule B) (U.space T) geo alpha e = some ⟨fe.num, A⟩ ∧
      massElementMatrix (makeQuadRule B) (U.space T) geo gamma e = some ⟨fe.num, M⟩ ∧
      reactionDiffusionElementMatrix (fun ref => (precompute U (builtinRule B) ref).join) T geo alpha gamma e =
        some ⟨fe.num, A + M⟩ ∧
      loadElementVector (makeQuadRule B) (U.space T) geo gamma e = some ⟨fe.num, v⟩ ∧
      uLoadElementVector (fun ref => (precompute U (builtinRule B) ref).join) T geo gamma e =
        some ⟨fe.num, v⟩ := by
  have hl' : (U.space T).layout e = some fe := by
    show (T.refEl e).bind U.layout = _
    rw [hr]; exact hl
  have hq' : builtinRule B r fe = some (some q) := by rw [builtinRule, hq]; rfl
  have hgr : ∀ x ∈ q.points, ∃ v, fe.grad x = some v := fun x hx =>
    (h'.grads x hx).imp fun _ hv => hv.1
  obtain ⟨A, hA, hA'⟩ := C53_diffusion (makeQuadRule B) (U.space T) geo e hg hl' hr hq h' alpha α hα
  obtain ⟨M, hM, hM'⟩ := C53_mass (makeQuadRule B) (U.space T) geo e hg hl' hr hq h'.dim h gamma γ hγ
  obtain ⟨R, hR, hR'⟩ := C53_reaction_diffusion U (builtinRule B) T geo e hg hr hcell hl hq' h h' alpha gamma
    α γ hα hγ
  obtain ⟨v, hv, hv'⟩ := C53_load (makeQuadRule B) (U.space T) geo e hg hl' hr hq h'.dim h gamma γ hγ
  obtain ⟨u, hu, hu'⟩ := C53_uload U (builtinRule B) T geo e hg hr hcell hl hq' h'.dim h hgr gamma γ hγ
  have e1 : R = A + M := by
    ext i j
    rw [hR', Matrix.add_apply, hA', hM']
  have e2 : u = v := funext fun i => (hu' i).trans (hv' i).symm
  exact ⟨A, M, v, hA, hM, e1 ▸ hR, hv, e2 ▸ hu⟩

end Verif
