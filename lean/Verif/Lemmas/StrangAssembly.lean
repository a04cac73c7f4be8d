import Verif.Lemmas.Strang
import Verif.Props.EllBvp

/-!
# Lemmas: the Galerkin matrices of the Fisher/KPP equation
-/

namespace Verif.Fisher
open Verif Geo Matrix Finset

variable {w : ℕ}

theorem form_matrix {D : Dense ℝ} {N : ℕ} (hr : D.rows = N) (hc : D.cols = N) (x y : Fin N → ℝ) :
    D.form (List.ofFn x) (List.ofFn y) = x ⬝ᵥ (fun i j => D.entry i j : Matrix (Fin N) (Fin N) ℝ) *ᵥ y := by
  have hx : ∀ (z : Fin N → ℝ) (i : Fin N), (List.ofFn z).getD i.val 0 = z i := fun z i => by simp
  unfold Dense.form
  rw [hr, hc, ← sum_fin_range N fun r => ∑ c ∈ range N, (List.ofFn x).getD r 0 * (D.entry r c * (List.ofFn y).getD c 0)]
  simp only [dotProduct, mulVec]
  refine Finset.sum_congr rfl fun i _ => ?_
  rw [← sum_fin_range N fun c => (List.ofFn x).getD i.val 0 * (D.entry i.val c * (List.ofFn y).getD c 0), Finset.mul_sum]
  refine Finset.sum_congr rfl fun j _ => ?_
  rw [hx, hx]

theorem toMatrix_some {D : Dense ℝ} {N : ℕ} (hr : D.rows = N) (hc : D.cols = N) :
    toMatrix N D = some (fun i j => D.entry i j : Matrix (Fin N) (Fin N) ℝ) := if_pos ⟨hr, hc⟩

theorem scalar_toMatrix (c : ℝ) : (DiffCoeff.scalar c : DiffCoeff w).toMatrix = c • (1 : Matrix (Fin w) (Fin w) ℝ) := by
  rfl

theorem dot_self_zero {v : Vec ℝ w} (h : dot v v = 0) : v = 0 := by
  have := (Finset.sum_eq_zero_iff_of_nonneg fun i _ => mul_self_nonneg (v i)).1 (show ∑ i, v i * v i = 0 from h)
  funext i
  exact mul_self_eq_zero.1 (this i (Finset.mem_univ i))

section
variable {B : QuadBase ℝ} {T : Topo} (hT : T.WF) {p : ℕ} (hp : 1 ≤ p ∧ p ≤ 3) {U : UniformFESpace ℝ}
  (hU : lagrangeSpace T p = some U) (hfit : U.dofh.numDofs < 2 ^ 31) {geo : Ent → Option (Geo ℝ w)} {g : Ent → Geo ℝ w}
  {rules : RefEl → QuadRule ℝ} (hM : BvpMesh B T p geo g rules)
include hT hp hU hfit hM

/-- The mass matrix. -/
theorem mass_matrix : ∃ A D, massCoo B U T geo = some A ∧ A.makeDense = some D ∧
    D.rows = U.dofh.numDofs ∧ D.cols = U.dofh.numDofs ∧
    ∀ ν μ : List ℝ, ν.length = U.dofh.numDofs → μ.length = U.dofh.numDofs →
      D.form ν μ = massSum (U.space T) (bvpData p g rules) ((U.space T).entities 0) (fun _ _ => 1) ν μ := by
  have hS := lagr_dofsOk hT hp hU hfit
  obtain ⟨-, hall⟩ := C77_lagrange (makeQuadRule B) T hT p hp U hU hfit geo (fun _ => true) (bvpData p g rules)
    (bvp_goodCells hT hp hM _) fun _ _ => rfl
  obtain ⟨A, D, h1, h2, h3, h4, h5, -⟩ := C77_reaction_diffusion B U T geo hS (fun _ => true) (bvpData p g rules)
    (fun e he => by
      obtain ⟨a1, a2, a3, a4, a5, a6, -⟩ := hall e he
      exact ⟨a1, a2, a4, a5, a6⟩) (pointwise fun _ _ => .scalar 0) (fun _ _ => .scalar 0) (pointwise fun _ _ => 1)
    (fun _ _ => 1) (fun _ _ => rfl) (fun _ _ => rfl)
  refine ⟨A, D, ?_, h2, h3, h4, fun ν μ hν hμ => ?_⟩
  · rw [massCoo, bvp_cellPrecomp hT hp hU hM, Option.bind_some, h1]
  · rw [h5 ν μ hν hμ, List.filter_true]
    convert zero_add _ using 2
    rw [diffusionSum]
    refine List.sum_eq_zero fun a ha => ?_
    obtain ⟨e, he, rfl⟩ := List.mem_map.1 ha
    refine (integrate_congr _ fun x hx => ?_).trans (integrate_zero (bvpData p g rules e).rule)
    rw [scalar_toMatrix, zero_smul, zero_mulVec]
    simp [dot]

variable (hR : ∀ r, r = .segment ∨ r = .tria ∨ r = .quad → (∀ a ∈ (rules r).weights, 0 < a) ∧ (rules r).ExactFor (2 * p))
include hR

theorem bvp_lagrCell : ∀ e ∈ (U.space T).entities 0, LagrCell (makeQuadRule B) (U.space T) geo p (bvpData p g rules e) e := by
  intro e he
  refine lagrCell (makeQuadRule B) T hT p hp U hU hfit geo (fun _ => true) _ (bvp_goodCells hT hp hM _) (fun _ _ => rfl)
    (fun e he => ?_) e (by rw [List.filter_true]; exact he)
  obtain ⟨c, hc, rfl⟩ := cell_ent (List.mem_filter.1 he).1
  have h2 := (hM.geo (0, c) ⟨by simp, hc⟩ (by simp)).2
  exact hR _ (Or.inr (cell_kind hT (List.mem_filter.1 he).1 h2))

/-- The gradient of a constant function is zero. -/
theorem gradient_one : ∀ e ∈ (U.space T).entities 0, ∀ x ∈ (bvpData p g rules e).rule.points,
    (U.space T).gradient geo (List.ofFn fun _ : Fin U.dofh.numDofs => (1 : ℝ)) e x = 0 := by
  intro e he x hx
  have hS := lagr_dofsOk hT hp hU hfit
  have hc := bvp_lagrCell hT hp hU hfit hM hR e he
  have hent := FeSpace.mem_entities (by omega) he
  have hone : ∀ d ∈ (U.space T).dofh.all e, (List.ofFn fun _ : Fin U.dofh.numDofs => (1 : ℝ)).getD d 0 = 1 := fun d hd => by
    have : d < U.dofh.numDofs := (hS.range e hent).1 d hd
    simp [this]
  have h0 := (hc.diffusion_zero hp hS (ν := List.ofFn fun _ : Fin U.dofh.numDofs => (1 : ℝ)) (by simp; rfl) (α := fun _ => 1)
    (fun x hx v hv => by
      rw [one_mulVec]
      exact lt_of_le_of_ne (Finset.sum_nonneg fun i _ => mul_self_nonneg _) fun h => hv (dot_self_zero h.symm))).2
    fun d hd d' hd' => by rw [hone d hd, hone d' hd']
  have hnn : ∀ v : Vec ℝ w, 0 ≤ dot v v := fun v => Finset.sum_nonneg fun i _ => mul_self_nonneg _
  simp only [one_mulVec] at h0
  rw [integrate_eq_zero _ hc.comp.rule hc.weights fun x hx => mul_nonneg (hc.det_pos x hx).le (hnn _)] at h0
  have := h0 x hx
  rw [mul_eq_zero, or_iff_right (hc.det_pos x hx).ne'] at this
  exact dot_self_zero this

/-- The mass matrix is symmetric and positive definite. -/
theorem mass_definite (hcov : ∀ d < U.dofh.numDofs, ∃ c < T.numCells, d ∈ U.dofh.all (0, c)) {D : Dense ℝ}
    (hr : D.rows = U.dofh.numDofs) (hc : D.cols = U.dofh.numDofs)
    (hD : ∀ ν μ : List ℝ, ν.length = U.dofh.numDofs → μ.length = U.dofh.numDofs →
      D.form ν μ = massSum (U.space T) (bvpData p g rules) ((U.space T).entities 0) (fun _ _ => 1) ν μ) :
    Definite (fun i j => D.entry i j : Matrix (Fin U.dofh.numDofs) (Fin U.dofh.numDofs) ℝ) := by
  have hS := lagr_dofsOk hT hp hU hfit
  have hcell := bvp_lagrCell hT hp hU hfit hM hR
  refine ⟨fun i j => ?_, fun x hx => ?_⟩
  · rw [← form_unit hr hc i.isLt j.isLt, ← form_unit hr hc j.isLt i.isLt, hD _ _ (unitList_length _ _) (unitList_length _ _),
      hD _ _ (unitList_length _ _) (unitList_length _ _), massSum_comm]
  · rw [← form_matrix hr hc, hD _ _ (by simp) (by simp)]
    have hnn := massSum_nonneg (U.space T) (bvpData p g rules) ((U.space T).entities 0) (fun _ _ => 1)
      (fun e he a ha => ((hcell e he).weights a ha).le) (fun e he x hx => ((hcell e he).det_pos x hx).le)
      (fun _ _ _ _ => zero_le_one) (List.ofFn x)
    refine lt_of_le_of_ne hnn fun h0 => hx ?_
    rw [eq_comm, massSum, sum_map_eq_zero fun e he => integrate_nonneg _ (fun a ha => ((hcell e he).weights a ha).le)
      fun x hx => mul_nonneg ((hcell e he).det_pos x hx).le (mul_nonneg zero_le_one (mul_self_nonneg _))] at h0
    funext d
    obtain ⟨c, hc', hd⟩ := hcov d d.isLt
    have he : ((0, c) : Ent) ∈ (U.space T).entities 0 := List.mem_map.2 ⟨c, List.mem_range.2 hc', rfl⟩
    have := ((hcell _ he).mass_zero hp hS (by simp; rfl) (γ := fun _ => 1) fun _ _ => one_pos).1 (h0 _ he) d hd
    simpa using this

/-- The matrix of diffusion and boundary terms is symmetric and positive semi-definite. -/
theorem stiff_semidefinite {bd : ℕ → Bool} {c h : Ent → List ℝ → ℝ}
    (hc0 : ∀ k < T.numCells, ∀ x ∈ (bvpData p g rules (0, k)).rule.points, 0 ≤ c (0, k) x)
    (hh0 : ∀ e < T.numEdges, bd e = true → ∀ x ∈ (bvpData p g rules (1, e)).rule.points, 0 ≤ h (1, e) x) {D : Dense ℝ}
    (hr : D.rows = U.dofh.numDofs) (hc : D.cols = U.dofh.numDofs)
    (hD : ∀ ν μ : List ℝ, ν.length = U.dofh.numDofs → μ.length = U.dofh.numDofs →
      D.form ν μ = (fisherBvp bd c h).a (U.space T) geo (bvpData p g rules) ν μ) :
    SemiDefinite (fun i j => D.entry i j : Matrix (Fin U.dofh.numDofs) (Fin U.dofh.numDofs) ℝ) ∧
    ((∀ e < T.numEdges, bd e = true → ∀ x ∈ (bvpData p g rules (1, e)).rule.points, h (1, e) x = 0) →
      ∀ j, ∑ i, (fun i j => D.entry i j : Matrix (Fin U.dofh.numDofs) (Fin U.dofh.numDofs) ℝ) i j = 0) := by
  have hS := lagr_dofsOk hT hp hU hfit
  have hcell := bvp_lagrCell hT hp hU hfit hM hR
  have hedge : ∀ e ∈ ((U.space T).entities 1).filter fun e => (fisherBvp bd c h : EllBvp w).bd e.2 && (fisherBvp bd c h : EllBvp w).imp e.2, ∃ k < T.numEdges,
      e = (1, k) ∧ bd k = true := fun e he => by
    obtain ⟨k, hk, rfl⟩ := edge_ent (List.mem_filter.1 he).1
    have := (List.mem_filter.1 he).2
    simp only [fisherBvp, Bool.and_true] at this
    exact ⟨k, hk, rfl, this⟩
  have hsym : ∀ ν μ : List ℝ, (fisherBvp bd c h).a (U.space T) geo (bvpData p g rules) ν μ =
      (fisherBvp bd c h).a (U.space T) geo (bvpData p g rules) μ ν := fun ν μ => by
    rw [EllBvp.a, EllBvp.a, massSum_comm, massSum_comm _ _ (List.filter _ _),
      diffusionSum_comm _ _ _ _ _ fun e he x hx => ?_]
    change (DiffCoeff.scalar _ : DiffCoeff w).toMatrix.transpose = (DiffCoeff.scalar _ : DiffCoeff w).toMatrix
    rw [scalar_toMatrix, transpose_smul, transpose_one]
  refine ⟨⟨fun i j => ?_, fun x => ?_⟩, fun hz j => ?_⟩
  · rw [← form_unit hr hc i.isLt j.isLt, ← form_unit hr hc j.isLt i.isLt, hD _ _ (unitList_length _ _) (unitList_length _ _),
      hD _ _ (unitList_length _ _) (unitList_length _ _), hsym]
  · rw [← form_matrix hr hc, hD _ _ (by simp) (by simp)]
    have n1 := diffusionSum_nonneg (U.space T) (bvpData p g rules) ((U.space T).entities 0) geo
      (fun e x => ((fisherBvp bd c h : EllBvp w).α e x).toMatrix)
      (fun e he a ha => ((hcell e he).weights a ha).le) (fun e he x hx => ((hcell e he).det_pos x hx).le)
      (fun e he x hx v => by
        obtain ⟨k, hk, rfl⟩ := cell_ent he
        change 0 ≤ v ⬝ᵥ (DiffCoeff.scalar (c (0, k) x) : DiffCoeff w).toMatrix.mulVec v
        rw [scalar_toMatrix, smul_mulVec, one_mulVec, dotProduct_smul]
        exact mul_nonneg (hc0 k hk x hx) (Finset.sum_nonneg fun i _ => mul_self_nonneg _)) (List.ofFn x)
    have n2 := massSum_nonneg (U.space T) (bvpData p g rules) ((U.space T).entities 0) (fisherBvp bd c h : EllBvp w).γ
      (fun e he a ha => ((hcell e he).weights a ha).le) (fun e he x hx => ((hcell e he).det_pos x hx).le)
      (fun e he x hx => le_rfl) (List.ofFn x)
    have hrule : ∀ k < T.numEdges, (bvpData p g rules (1, k)).rule = rules .segment := fun k hk =>
      (bvp_edge hT hp hU hM hk).2.2.2.1
    have n3 := massSum_nonneg (U.space T) (bvpData p g rules)
      (((U.space T).entities 1).filter fun e => (fisherBvp bd c h : EllBvp w).bd e.2 && (fisherBvp bd c h : EllBvp w).imp e.2) (fisherBvp bd c h : EllBvp w).η
      (fun e he a ha => by
        obtain ⟨k, hk, rfl, -⟩ := hedge e he
        rw [hrule k hk] at ha
        exact ((hR _ (Or.inl rfl)).1 a ha).le)
      (fun e he x hx => by
        obtain ⟨k, hk, rfl, -⟩ := hedge e he
        exact integrationElement_nonneg _ ((bvp_edge hT hp hU hM hk).2.2.2.2.metric x hx))
      (fun e he x hx => by
        obtain ⟨k, hk, rfl, hb⟩ := hedge e he
        exact hh0 k hk hb x hx) (List.ofFn x)
    unfold EllBvp.a
    linarith
  · have h1 : ∀ y : Fin U.dofh.numDofs → ℝ, (fun _ => (1 : ℝ)) ⬝ᵥ
        (fun i j => D.entry i j : Matrix (Fin U.dofh.numDofs) (Fin U.dofh.numDofs) ℝ) *ᵥ y = 0 := fun y => by
      rw [← form_matrix hr hc, hD _ _ (by simp) (by simp), EllBvp.a]
      have z1 : diffusionSum (U.space T) (bvpData p g rules) ((U.space T).entities 0) geo
          (fun e x => ((fisherBvp bd c h : EllBvp w).α e x).toMatrix) (List.ofFn fun _ : Fin U.dofh.numDofs => (1 : ℝ))
          (List.ofFn y) = 0 := by
        rw [diffusionSum]
        refine List.sum_eq_zero fun a ha => ?_
        obtain ⟨e, he, rfl⟩ := List.mem_map.1 ha
        rw [← integrate_zero (bvpData p g rules e).rule]
        refine integrate_congr _ fun x hx => ?_
        rw [gradient_one hT hp hU hfit hM hR e he x hx]
        simp [dot]
      have z2 : massSum (U.space T) (bvpData p g rules) ((U.space T).entities 0) (fisherBvp bd c h : EllBvp w).γ
          (List.ofFn fun _ : Fin U.dofh.numDofs => (1 : ℝ)) (List.ofFn y) = 0 := by
        rw [massSum]
        refine List.sum_eq_zero fun a ha => ?_
        obtain ⟨e, he, rfl⟩ := List.mem_map.1 ha
        rw [← integrate_zero (bvpData p g rules e).rule]
        refine integrate_congr _ fun x hx => ?_
        simp [fisherBvp]
      have z3 : massSum (U.space T) (bvpData p g rules)
          (((U.space T).entities 1).filter fun e => (fisherBvp bd c h : EllBvp w).bd e.2 && (fisherBvp bd c h : EllBvp w).imp e.2) (fisherBvp bd c h : EllBvp w).η
          (List.ofFn fun _ : Fin U.dofh.numDofs => (1 : ℝ)) (List.ofFn y) = 0 := by
        rw [massSum]
        refine List.sum_eq_zero fun a ha => ?_
        obtain ⟨e, he, rfl⟩ := List.mem_map.1 ha
        rw [← integrate_zero (bvpData p g rules e).rule]
        refine integrate_congr _ fun x hx => ?_
        obtain ⟨k, hk, rfl, hb⟩ := hedge e he
        change _ * (h (1, k) x * _) = _
        rw [hz k hk hb x hx]
        simp
      rw [z1, z2, z3]
      simp
    have := h1 (Pi.single j 1)
    simpa [dotProduct, mulVec, Pi.single_apply] using this

end

end Verif.Fisher
