import Verif.Props.Galerkin

/-!
# C77 for the Lagrangian and the hierarchic spaces; exactness on affine meshes
-/

namespace Verif
open Geo Finset Matrix

variable {w : ℕ}

/-- The metric factor which `IntegrationElement` returns. -/
noncomputable def Geo.metric (g : Geo ℝ w) (x : List ℝ) : ℝ := (g.integrationElement x).getD 0

/-- On cells with regular Jacobian everything can be computed. -/
theorem cell_computable {g : Geo ℝ w} {fe : RefFE ℝ} {q : QuadRule ℝ} (hk : fe.ref = g.kind)
    (hd : g.kind.dimension = 2) (hev : fe.Evaluates) (hgr : fe.GradCorrect) (hqr : q.ref = g.kind) (hqw : q.WellFormed)
    (hJ : ∀ x ∈ q.points, ∃ cols, g.jacobian x = some cols ∧ ((matrix 2 cols).transpose * matrix 2 cols).det ≠ 0) :
    Computable g fe q g.metric ∧ ComputableGrad g fe q g.metric := by
  have hp : ∀ x ∈ q.points, x.length = fe.ref.dimension := fun x hx => by rw [hqw.1 x hx, hqr, hk]
  have hm : ∀ x ∈ q.points, g.integrationElement x = some (g.metric x) := fun x hx => by
    obtain ⟨cols, hc, -⟩ := hJ x hx
    obtain ⟨t, ht, -⟩ := C38_integration_element g x cols hc
    rw [metric, ht]
    rfl
  refine ⟨⟨hqw.2, hm, fun x hx => hev.1 x (hp x hx)⟩, ⟨hd, hqw.2, hm, fun x hx => ?_, hJ⟩⟩
  obtain ⟨v, hv, hl, hder⟩ := hgr x (hp x hx)
  refine ⟨v, hv, hl, fun d hd' => ?_⟩
  obtain ⟨i, hi, rfl⟩ := List.getElem_of_mem hd'
  have := (hder i (hl ▸ hi)).1
  rw [List.getD_eq_getElem _ _ hi] at this
  rw [this, hk, hd]

/-- What is asked of the cells of a mesh and of the quadrature rules: the geometries fit the mesh, the rules fit the
reference elements, and the Jacobian has full rank in all quadrature points. -/
structure GoodCells (get : RefEl → ℕ → Option (QuadRule ℝ)) (T : Topo) (geo : Ent → Option (Geo ℝ w)) (es : List Ent)
    (X : Ent → EntData w) : Prop where
  geo : ∀ e ∈ es, geo e = some (X e).geo
  kind : ∀ e ∈ es, T.refEl e = some (X e).geo.kind
  rule : ∀ e ∈ es, get (X e).geo.kind (2 * (X e).fe.degree) = some (X e).rule
  ref : ∀ e ∈ es, (X e).rule.ref = (X e).geo.kind
  wf : ∀ e ∈ es, (X e).rule.WellFormed
  detJ : ∀ e ∈ es, (X e).detJ = (X e).geo.metric
  regular : ∀ e ∈ es, ∀ x ∈ (X e).rule.points, ∃ cols, (X e).geo.jacobian x = some cols ∧
    ((matrix 2 cols).transpose * matrix 2 cols).det ≠ 0

theorem cell_kind {T : Topo} (hT : T.WF) {e : Ent} (he : e ∈ (List.range (T.num 0)).map fun i => ((0, i) : Ent)) {r : RefEl}
    (h : T.refEl e = some r) : r = .tria ∨ r = .quad := by
  obtain ⟨i, hi, rfl⟩ := List.mem_map.1 he
  rw [List.mem_range] at hi
  rw [Topo.refEl, if_pos hi] at h
  rcases hT.cell_len i hi with h' | h' <;> simp [h'] at h <;> simp [← h]

/-- **C77** for the Lagrangian spaces of order 1, 2, 3 on all meshes: the assumptions of the theorems above are met for all
selections of cells. -/
theorem C77_lagrange (get : RefEl → ℕ → Option (QuadRule ℝ)) (T : Topo) (hT : T.WF) (p : ℕ) (hp : 1 ≤ p ∧ p ≤ 3)
    (U : UniformFESpace ℝ) (hU : lagrangeSpace T p = some U) (hfit : U.dofh.numDofs < 2 ^ 31)
    (geo : Ent → Option (Geo ℝ w)) (active : Ent → Bool) (X : Ent → EntData w)
    (hX : GoodCells get T geo (((U.space T).entities 0).filter active) X)
    (hfe : ∀ e ∈ ((U.space T).entities 0).filter active, (X e).fe = lagrFE p (X e).geo.kind) :
    (U.space T).DofsOk ∧ ∀ e ∈ ((U.space T).entities 0).filter active, (X e).Describes get (U.space T) geo e ∧
      ((X e).geo.kind = .tria ∨ (X e).geo.kind = .quad) ∧ (X e).geo.kind.dimension = 2 ∧
      U.layout (X e).geo.kind = some (X e).fe ∧ Computable (X e).geo (X e).fe (X e).rule (X e).detJ ∧
      ComputableGrad (X e).geo (X e).fe (X e).rule (X e).detJ ∧ (X e).fe.IsLagrange ∧ (X e).fe.ref = (X e).geo.kind ∧
      (X e).fe.degree = p := by
  obtain ⟨cnt, h⟩ := lagr_conforming T hT p hp U hU
  refine ⟨⟨h.answers, h.range, hfit⟩, fun e he => ?_⟩
  have hk := cell_kind hT (List.mem_filter.1 he).1 (hX.kind e he)
  have hd : (X e).geo.kind.dimension = 2 := by rcases hk with h | h <;> rw [h] <;> rfl
  have hL : (X e).fe.IsLagrange := by
    rw [hfe e he]
    exact lagrFE_isLagrange p hp _ (by rcases hk with h | h <;> rw [h] <;> simp)
  have href : (X e).fe.ref = (X e).geo.kind := by
    rw [hfe e he]
    obtain ⟨h1, h3⟩ := hp
    interval_cases p <;> rcases hk with h | h <;> rw [h] <;> rfl
  have hdeg : (X e).fe.degree = p := by
    rw [hfe e he]
    obtain ⟨h1, h3⟩ := hp
    interval_cases p <;> rcases hk with h | h <;> rw [h] <;> rfl
  have hlay : U.layout (X e).geo.kind = some (X e).fe := by
    rw [lagrangeSpace_eq T p hp] at hU
    obtain ⟨dh, -, rfl⟩ := Option.map_eq_some_iff.mp hU
    rw [hfe e he]
    rcases hk with h | h <;> rw [h] <;> rfl
  have hlay' : (U.space T).layout e = some (X e).fe := by
    change (T.refEl e).bind U.layout = _
    rw [hX.kind e he]
    exact hlay
  have hnum : ((U.space T).dofh.all e).length = (X e).fe.num := by
    obtain ⟨i, hi, rfl⟩ := List.mem_map.1 (List.mem_filter.1 he).1
    exact h.num_cell (hX.kind _ he) hlay' hL.evaluates
  obtain ⟨c1, c2⟩ := cell_computable href hd hL.evaluates hL.gradCorrect (hX.ref e he) (hX.wf e he) (hX.regular e he)
  exact ⟨⟨hX.geo e he, hlay', hX.kind e he, hX.rule e he, hnum⟩, hk, hd, hlay, hX.detJ e he ▸ c1, hX.detJ e he ▸ c2, hL,
    href, hdeg⟩

/-- **C77** for the hierarchic spaces on all meshes: likewise. -/
theorem C77_hierarchic (get get' : RefEl → ℕ → Option (QuadRule ℝ)) (T : Topo) (hT : T.WF) (degree : Ent → ℕ)
    (S : FeSpace ℝ) (hS : hierSpace get' T degree = some S) (hfit : S.dofh.numDofs < 2 ^ 31)
    (geo : Ent → Option (Geo ℝ w)) (active : Ent → Bool) (X : Ent → EntData w)
    (hX : GoodCells get T geo ((S.entities 0).filter active) X)
    (hfe : ∀ e ∈ (S.entities 0).filter active, S.layout e = some (X e).fe) :
    S.DofsOk ∧ ∀ e ∈ (S.entities 0).filter active, (X e).Describes get S geo e ∧
      ((X e).geo.kind = .tria ∨ (X e).geo.kind = .quad) ∧ (X e).geo.kind.dimension = 2 ∧
      Computable (X e).geo (X e).fe (X e).rule (X e).detJ ∧
      ComputableGrad (X e).geo (X e).fe (X e).rule (X e).detJ ∧ (X e).fe.ref = (X e).geo.kind := by
  have h := hier_conforming get' T hT degree S hS
  refine ⟨⟨h.answers, h.range, hfit⟩, fun e he => ?_⟩
  obtain ⟨dh, hh, -⟩ := C09_dynamic T hT (hierCount T degree)
  rw [hierSpace, hh, Option.bind_some] at hS
  split at hS
  swap
  · cases hS
  cases hS
  have hk := cell_kind hT (List.mem_filter.1 he).1 (hX.kind e he)
  have hd : (X e).geo.kind.dimension = 2 := by rcases hk with h | h <;> rw [h] <;> rfl
  have hfe' := hfe e he
  obtain ⟨i, hi, rfl⟩ := List.mem_map.1 (List.mem_filter.1 he).1
  change hierLayout get' T degree (0, i) = _ at hfe'
  rw [hierLayout, hX.kind _ he, Option.bind_some] at hfe'
  have hall : (X (0, i)).fe.ref = (X (0, i)).geo.kind ∧ (X (0, i)).fe.Evaluates ∧ (X (0, i)).fe.GradCorrect := by
    rcases hk with hgk | hgk <;> rw [hgk] at hfe'
    · obtain ⟨F, hF, hFe⟩ := Option.map_eq_some_iff.mp hfe'
      obtain ⟨a, -, b, c⟩ := C61_tria get' _ _ _ F hF
      rw [← hFe]
      exact ⟨by rw [a, hgk], b, c⟩
    · obtain ⟨F, hF, hFe⟩ := Option.map_eq_some_iff.mp hfe'
      obtain ⟨a, -, b, c⟩ := C61_quad get' _ _ _ F hF
      rw [← hFe]
      exact ⟨by rw [a, hgk], b, c⟩
  obtain ⟨href, hev, hgr⟩ := hall
  obtain ⟨c1, c2⟩ := cell_computable href hd hev hgr (hX.ref _ he) (hX.wf _ he) (hX.regular _ he)
  exact ⟨⟨hX.geo _ he, hfe _ he, hX.kind _ he, hX.rule _ he, h.num_cell (hX.kind _ he) (hfe _ he) hev⟩, hk, hd,
    hX.detJ _ he ▸ c1, hX.detJ _ he ▸ c2, href⟩

end Verif
