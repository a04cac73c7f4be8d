import Verif.Props.GalerkinSpaces
import Verif.Lemmas.GalerkinDef

/-!
# C77: definiteness of the matrices of Lagrangian finite elements
-/

namespace Verif
open Geo Finset Matrix

variable {w : ℕ}

theorem sum_map_eq_zero {α : Type} {l : List α} {f : α → ℝ} (h0 : ∀ a ∈ l, 0 ≤ f a) :
    (l.map f).sum = 0 ↔ ∀ a ∈ l, f a = 0 := by
  induction l with
  | nil => simp
  | cons a l ih =>
    have h1 := h0 a (by simp)
    have h2 : 0 ≤ (l.map f).sum := List.sum_nonneg fun b hb => by
      obtain ⟨c, hc, rfl⟩ := List.mem_map.1 hb
      exact h0 c (by simp [hc])
    rw [List.map_cons, List.sum_cons, add_eq_zero_iff_of_nonneg h1 h2, ih fun b hb => h0 b (by simp [hb])]
    simp

/-- A combination of polynomial shape functions whose square is annihilated by a positive rule of sufficient degree. -/
theorem poly_zero_of_points {r : RefEl} (hr : r = .tria ∨ r = .quad) {q : QuadRule ℝ} {d : ℕ} (hq : q.ref = r)
    (he : q.ExactFor (2 * d)) {f : List ℝ → ℝ} (hf : IsPolyOn r d f) (h : ∀ x ∈ q.points, f x = 0) (x y : ℝ)
    (hxy : InCell r x y) : f [x, y] = 0 := by
  refine refIntegral_sq_zero hr (hf.continuous hr) ?_ x y hxy
  rw [← hq, ← he _ (by rw [hq]; exact IsPolyOn.mul hr hf hf (by omega)), ← integrate_zero q]
  exact integrate_congr _ fun x hx => by rw [h x hx, mul_zero]

theorem loc_all {S : FeSpace ℝ} {u : List ℝ} {e : Ent} {n : ℕ} (hn : (S.dofh.all e).length = n) (P : ℝ → Prop) :
    (∀ i, P (S.loc u e n i)) ↔ ∀ d ∈ S.dofh.all e, P (u.getD d 0) := by
  subst hn
  constructor
  · intro h d hd
    obtain ⟨i, hi, rfl⟩ := List.getElem_of_mem hd
    have := h ⟨i, hi⟩
    rwa [FeSpace.loc, List.getD_eq_getElem _ _ hi] at this
  · intro h i
    refine h _ ?_
    rw [List.getD_eq_getElem _ _ i.isLt]
    exact List.getElem_mem _

/-- What `C77_lagrange` provides for a cell. -/
structure LagrCell (get : RefEl → ℕ → Option (QuadRule ℝ)) (S : FeSpace ℝ) (geo : Ent → Option (Geo ℝ w)) (p : ℕ)
    (X : EntData w) (e : Ent) : Prop where
  ent : S.mesh.IsEnt e
  desc : X.Describes get S geo e
  fe : X.fe = lagrFE p X.geo.kind
  kind : X.geo.kind = .tria ∨ X.geo.kind = .quad
  comp : Computable X.geo X.fe X.rule X.detJ
  compG : ComputableGrad X.geo X.fe X.rule X.detJ
  lagr : X.fe.IsLagrange
  ref : X.fe.ref = X.geo.kind
  deg : X.fe.degree = p
  ruleRef : X.rule.ref = X.geo.kind
  ruleWf : X.rule.WellFormed
  regular : ∀ x ∈ X.rule.points, ∃ cols, X.geo.jacobian x = some cols ∧
    ((matrix 2 cols).transpose * matrix 2 cols).det ≠ 0
  weights : ∀ a ∈ X.rule.weights, 0 < a
  exact : X.rule.ExactFor (2 * p)

section
variable {get : RefEl → ℕ → Option (QuadRule ℝ)} {S : FeSpace ℝ} {geo : Ent → Option (Geo ℝ w)} {p : ℕ} {X : EntData w}
  {e : Ent} (h : LagrCell get S geo p X e) (hp : 1 ≤ p ∧ p ≤ 3) (hS : S.DofsOk) {ν : List ℝ} (hν : ν.length = S.dofh.numDofs)
include h

theorem LagrCell.dim : X.geo.kind.dimension = 2 := by rcases h.kind with h | h <;> rw [h] <;> rfl

theorem LagrCell.det_pos : ∀ x ∈ X.rule.points, 0 < X.detJ x := by
  intro x hx
  obtain ⟨cols, hc, hne⟩ := h.regular x hx
  obtain ⟨t, ht, h0, h2⟩ := C38_integration_element X.geo x cols hc
  rw [h.comp.metric x hx] at ht
  cases ht
  refine lt_of_le_of_ne h0 fun h' => ?_
  rw [h.dim, ← h'] at h2
  exact hne (by rw [← h2]; norm_num)

include hp hS hν

/-- The quadrature value of `∫ γ u u` over a cell is zero only if all coefficients of the cell are zero. -/
theorem LagrCell.mass_zero {γ : List ℝ → ℝ} (hpos : ∀ x ∈ X.rule.points, 0 < γ x) :
    (X.rule.integrate fun x => X.detJ x * (γ x * (S.value ν e x * S.value ν e x))) = 0 ↔
      ∀ d ∈ S.dofh.all e, ν.getD d 0 = 0 := by
  have hval : ∀ x ∈ X.rule.points, S.value ν e x = X.fe.combine (S.loc ν e X.fe.num) x := fun x hx => by
    rw [FeSpace.value, evalFE_loc hS h.ent h.desc.layout h.desc.num hν (h.comp.shapes x hx)]
    rfl
  rw [integrate_eq_zero _ h.comp.rule h.weights fun x hx =>
    mul_nonneg (h.det_pos x hx).le (mul_nonneg (hpos x hx).le (mul_self_nonneg _))]
  constructor
  · intro h0
    have hz : S.loc ν e X.fe.num = 0 := by
      refine lagr_combine_zero p hp h.kind h.fe _ ?_
      refine poly_zero_of_points h.kind h.ruleRef (d := p) h.exact ?_ fun x hx => ?_
      · have := combine_poly (by rw [h.ref]; exact h.kind) h.lagr.polynomial (S.loc ν e X.fe.num)
        rwa [h.ref, h.deg] at this
      · have := h0 x hx
        rw [mul_eq_zero, or_iff_right (h.det_pos x hx).ne', mul_eq_zero, or_iff_right (hpos x hx).ne', mul_self_eq_zero,
          hval x hx] at this
        exact this
    exact (loc_all h.desc.num (· = 0)).1 fun i => congrFun hz i
  · intro h0 x hx
    have hz : S.loc ν e X.fe.num = 0 := by
      funext i
      exact (loc_all (u := ν) h.desc.num (· = 0)).2 h0 i
    rw [hval x hx, hz]
    simp [RefFE.combine]

/-- The quadrature value of `∫ grad u · α grad u` over a cell is zero only if all coefficients of the cell are equal. -/
theorem LagrCell.diffusion_zero {α : List ℝ → Matrix (Fin w) (Fin w) ℝ}
    (hpos : ∀ x ∈ X.rule.points, ∀ v, v ≠ 0 → 0 < v ⬝ᵥ (α x).mulVec v) :
    (X.rule.integrate fun x => X.detJ x * dot (S.gradient geo ν e x) ((α x).mulVec (S.gradient geo ν e x))) = 0 ↔
      ∀ d ∈ S.dofh.all e, ∀ d' ∈ S.dofh.all e, ν.getD d 0 = ν.getD d' 0 := by
  have hk' : X.fe.ref = .tria ∨ X.fe.ref = .quad := by rw [h.ref]; exact h.kind
  have hd' : X.fe.ref.dimension = 2 := by rw [h.ref]; exact h.dim
  have hpl : ∀ x ∈ X.rule.points, x.length = 2 := fun x hx => by rw [h.ruleWf.1 x hx, h.ruleRef, h.dim]
  have hval : ∀ x ∈ X.rule.points, S.gradient geo ν e x =
      X.geo.pushGrad x (X.fe.combineGrad (S.loc ν e X.fe.num) x) := fun x hx => by
    rw [FeSpace.gradient, gradFE_loc hS h.ent h.desc.geo h.desc.kind h.desc.layout h.desc.num hν h.compG hx]
    rfl
  have hα1 : ∀ x ∈ X.rule.points, ∀ v, 0 ≤ dot v ((α x).mulVec v) := fun x hx v => by
    by_cases hv : v = 0
    · simp [hv, dot]
    · exact (hpos x hx v hv).le
  rw [integrate_eq_zero _ h.comp.rule h.weights fun x hx => mul_nonneg (h.det_pos x hx).le (hα1 x hx _)]
  constructor
  · intro h0
    have hg0 : ∀ x ∈ X.rule.points, ∀ k < 2, ∑ i, S.loc ν e X.fe.num i * (X.fe.gradAt i.val x).getD k 0 = 0 := by
      intro x hx k hk2
      have hx0 : S.gradient geo ν e x = 0 := by
        by_contra hne
        have := h0 x hx
        rw [mul_eq_zero, or_iff_right (h.det_pos x hx).ne'] at this
        exact (hpos x hx _ hne).ne' this
      rw [hval x hx] at hx0
      obtain ⟨cols, hc, hne⟩ := h.regular x hx
      obtain ⟨a0, a1⟩ := pushGrad_inj h.dim hc hne _ _ hx0
      interval_cases k
      · exact a0
      · exact a1
    have hconst := combine_const_of_grad h.kind h.lagr.gradCorrect hd' (S.loc ν e X.fe.num) fun k hk2 =>
      poly_zero_of_points h.kind h.ruleRef (d := p) h.exact (f := fun x =>
        ∑ i, S.loc ν e X.fe.num i * (X.fe.gradAt i.val x).getD k 0) (by
        have := combine_grad_poly hk' h.lagr.polynomial h.lagr.gradCorrect (S.loc ν e X.fe.num) k hk2
        rwa [h.ref, h.deg] at this) fun x hx => hg0 x hx k hk2
    have hloc := lagr_combine_const p hp h.kind h.fe (S.loc ν e X.fe.num) _ hconst
    intro d hd1 d' hd2
    have := (loc_all (u := ν) h.desc.num (· = X.fe.combine (S.loc ν e X.fe.num) [0, 0])).1 hloc
    exact (this d hd1).trans (this d' hd2).symm
  · intro h0 x hx
    have hz : ∃ K, ∀ i, S.loc ν e X.fe.num i = K := by
      rcases hl0 : S.dofh.all e with _ | ⟨d0, l⟩
      · refine ⟨0, fun i => ?_⟩
        have : X.fe.num = 0 := by rw [← h.desc.num, hl0]; rfl
        exact absurd i.isLt (by omega)
      · refine ⟨ν.getD d0 0, (loc_all (u := ν) h.desc.num (· = ν.getD d0 0)).2 fun d hd1 => h0 d hd1 d0 (by rw [hl0]; simp)⟩
    obtain ⟨K, hK⟩ := hz
    rw [hval x hx, combineGrad_const h.lagr.gradCorrect hd' _ K (fun y hy => ?_) x (hpl x hx), pushGrad_zero]
    · simp [dot]
    · simp only [RefFE.combine, hK, ← Finset.mul_sum]
      rw [sum_fin_range X.fe.num fun i => X.fe.shape i y, h.lagr.sumsToOne y (hy.trans hd'.symm), mul_one]

end

section
variable (get : RefEl → ℕ → Option (QuadRule ℝ)) (T : Topo) (hT : T.WF) (p : ℕ) (hp : 1 ≤ p ∧ p ≤ 3)
    (U : UniformFESpace ℝ) (hU : lagrangeSpace T p = some U) (hfit : U.dofh.numDofs < 2 ^ 31)
    (geo : Ent → Option (Geo ℝ w)) (active : Ent → Bool) (X : Ent → EntData w)
    (hX : GoodCells get T geo (((U.space T).entities 0).filter active) X)
    (hfe : ∀ e ∈ ((U.space T).entities 0).filter active, (X e).fe = lagrFE p (X e).geo.kind)
    (hw : ∀ e ∈ ((U.space T).entities 0).filter active, (∀ a ∈ (X e).rule.weights, 0 < a) ∧ (X e).rule.ExactFor (2 * p))
include hT hp hU hfit hX hfe hw

theorem lagrCell (e : Ent) (he : e ∈ ((U.space T).entities 0).filter active) :
    LagrCell get (U.space T) geo p (X e) e := by
  obtain ⟨hS, hall⟩ := C77_lagrange get T hT p hp U hU hfit geo active X hX hfe
  obtain ⟨hDe, hk, hd, hl, hC, hCG, hL, href, hdeg⟩ := hall e he
  exact ⟨FeSpace.mem_entities (by omega) (List.mem_filter.1 he).1, hDe, hfe e he, hk, hC, hCG, hL, href, hdeg,
    hX.ref e he, hX.wf e he, hX.regular e he, (hw e he).1, (hw e he).2⟩

/-- **C77**, the mass matrix is definite: for Lagrangian finite elements on all meshes with regular cells, all quadrature
rules with positive weights which are exact for products of shape functions, and positive coefficients `γ`, the quadratic
form of the assembled mass matrix is zero only for functions which vanish on all selected cells, i.e. all their
coefficients there are zero. -/
theorem C77_mass_definite (gamma : MeshFn ℝ ℝ) (γ : Ent → List ℝ → ℝ)
    (hγ : ∀ e ∈ ((U.space T).entities 0).filter active, gamma e (X e).rule.points = some ((X e).rule.points.map (γ e)))
    (hpos : ∀ e ∈ ((U.space T).entities 0).filter active, ∀ x ∈ (X e).rule.points, 0 < γ e x) :
    ∃ A D, assembleMatrixFE (U.space T) 0 active (massElementMatrix get (U.space T) geo gamma)
        (Coo.mk' U.dofh.numDofs U.dofh.numDofs) = some A ∧ A.makeDense = some D ∧
      D.rows = U.dofh.numDofs ∧ D.cols = U.dofh.numDofs ∧
      ∀ ν : List ℝ, ν.length = U.dofh.numDofs → 0 ≤ D.form ν ν ∧
        (D.form ν ν = 0 ↔ ∀ e ∈ ((U.space T).entities 0).filter active, ∀ d ∈ U.dofh.all e, ν.getD d 0 = 0) := by
  obtain ⟨hS, hall⟩ := C77_lagrange get T hT p hp U hU hfit geo active X hX hfe
  obtain ⟨D0, hD0, hr0, hc0, hz⟩ := empty_dense U.dofh.numDofs
  obtain ⟨A, D, h1, h2, h3, h4, h5⟩ := C77_mass get (U.space T) geo hS active X
    (fun e he => ⟨(hall e he).1, (hall e he).2.2.1⟩) (fun e he => (hall e he).2.2.2.2.1) gamma γ hγ _ D0 hD0 hr0 hc0
  refine ⟨A, D, h1, h2, h3, h4, fun ν hν => ?_⟩
  have hdet : ∀ e ∈ ((U.space T).entities 0).filter active, ∀ x ∈ (X e).rule.points, 0 ≤ (X e).detJ x :=
    fun e he x hx => integrationElement_nonneg _ ((hall e he).2.2.2.2.1.metric x hx)
  rw [h5 ν ν hν hν, hz, zero_add]
  have hnn := massSum_nonneg (U.space T) X _ γ (fun e he a ha => ((hw e he).1 a ha).le) hdet
    (fun e he x hx => (hpos e he x hx).le) ν
  refine ⟨hnn, ?_⟩
  rw [massSum, sum_map_eq_zero fun e he => integrate_nonneg _ (fun a ha => ((hw e he).1 a ha).le) fun x hx =>
    mul_nonneg (hdet e he x hx) (mul_nonneg (hpos e he x hx).le (mul_self_nonneg _))]
  refine forall₂_congr fun e he => ?_
  exact (lagrCell get T hT p hp U hU hfit geo active X hX hfe hw e he).mass_zero hp hS hν (hpos e he)

/-- **C77**, the kernel of the diffusion matrix: likewise, for positive definite coefficients `α`, the quadratic form of
the assembled diffusion matrix is zero exactly for the functions which are constant on each of the selected cells, i.e. for
which all coefficients belonging to the same cell are equal. -/
theorem C77_diffusion_kernel (alpha : MeshFn ℝ (DiffCoeff w)) (α : Ent → List ℝ → DiffCoeff w)
    (hα : ∀ e ∈ ((U.space T).entities 0).filter active, alpha e (X e).rule.points = some ((X e).rule.points.map (α e)))
    (hpos : ∀ e ∈ ((U.space T).entities 0).filter active, ∀ x ∈ (X e).rule.points, ∀ v, v ≠ 0 →
      0 < v ⬝ᵥ (α e x).toMatrix.mulVec v) :
    ∃ A D, assembleMatrixFE (U.space T) 0 active (diffusionElementMatrix get (U.space T) geo alpha)
        (Coo.mk' U.dofh.numDofs U.dofh.numDofs) = some A ∧ A.makeDense = some D ∧
      D.rows = U.dofh.numDofs ∧ D.cols = U.dofh.numDofs ∧
      ∀ ν : List ℝ, ν.length = U.dofh.numDofs → 0 ≤ D.form ν ν ∧
        (D.form ν ν = 0 ↔ ∀ e ∈ ((U.space T).entities 0).filter active, ∀ d ∈ U.dofh.all e, ∀ d' ∈ U.dofh.all e,
          ν.getD d 0 = ν.getD d' 0) := by
  obtain ⟨hS, hall⟩ := C77_lagrange get T hT p hp U hU hfit geo active X hX hfe
  obtain ⟨D0, hD0, hr0, hc0, hz⟩ := empty_dense U.dofh.numDofs
  obtain ⟨A, D, h1, h2, h3, h4, h5⟩ := C77_diffusion get (U.space T) geo hS active X
    (fun e he => ⟨(hall e he).1, (hall e he).2.2.1⟩) (fun e he => (hall e he).2.2.2.2.2.1) alpha α hα _ D0 hD0 hr0 hc0
  refine ⟨A, D, h1, h2, h3, h4, fun ν hν => ?_⟩
  have hdet : ∀ e ∈ ((U.space T).entities 0).filter active, ∀ x ∈ (X e).rule.points, 0 ≤ (X e).detJ x :=
    fun e he x hx => integrationElement_nonneg _ ((hall e he).2.2.2.2.1.metric x hx)
  have hα0 : ∀ e ∈ ((U.space T).entities 0).filter active, ∀ x ∈ (X e).rule.points, ∀ v,
      0 ≤ v ⬝ᵥ (α e x).toMatrix.mulVec v := fun e he x hx v => by
    by_cases hv : v = 0
    · simp [hv]
    · exact (hpos e he x hx v hv).le
  rw [h5 ν ν hν hν, hz, zero_add]
  have hnn := diffusionSum_nonneg (U.space T) X _ geo (fun e x => (α e x).toMatrix)
    (fun e he a ha => ((hw e he).1 a ha).le) hdet hα0 ν
  refine ⟨hnn, ?_⟩
  have hα1 : ∀ e ∈ ((U.space T).entities 0).filter active, ∀ x ∈ (X e).rule.points, ∀ v,
      0 ≤ dot v ((α e x).toMatrix.mulVec v) := hα0
  rw [diffusionSum, sum_map_eq_zero fun e he => integrate_nonneg _ (fun a ha => ((hw e he).1 a ha).le) fun x hx =>
    mul_nonneg (hdet e he x hx) (hα1 e he x hx _)]
  refine forall₂_congr fun e he => ?_
  exact (lagrCell get T hT p hp U hU hfit geo active X hX hfe hw e he).diffusion_zero hp hS hν
    (α := fun x => (α e x).toMatrix) (hpos e he)

end

/-- Two dofs are neighbours if they belong to a common selected cell. -/
def Neighbours (U : UniformFESpace ℝ) (es : List Ent) (d d' : ℕ) : Prop :=
  ∃ e ∈ es, d ∈ U.dofh.all e ∧ d' ∈ U.dofh.all e

/-- A function which is constant on each cell is zero if every dof is linked to a dof with coefficient zero. -/
theorem zero_of_linked {U : UniformFESpace ℝ} {es : List Ent} {ν : List ℝ} {fixed : ℕ → Prop}
    (hν : ∀ d, fixed d → ν.getD d 0 = 0)
    (hc : ∀ e ∈ es, ∀ d ∈ U.dofh.all e, ∀ d' ∈ U.dofh.all e, ν.getD d 0 = ν.getD d' 0) (d : ℕ)
    (hd : ∃ d', fixed d' ∧ Relation.ReflTransGen (Neighbours U es) d d') : ν.getD d 0 = 0 := by
  obtain ⟨d', hf, hl⟩ := hd
  induction hl using Relation.ReflTransGen.head_induction_on with
  | refl => exact hν _ hf
  | head hab _ ih =>
    obtain ⟨e, he, h1, h2⟩ := hab
    exact (hc e he _ h1 _ h2).trans ih

end Verif
