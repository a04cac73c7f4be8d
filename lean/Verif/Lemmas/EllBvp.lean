import Verif.Spec.EllBvp
import Verif.Props.FixDof
import Verif.Props.GalerkinDef

/-!
# Lemmas: the linear system of an elliptic boundary value problem
-/

namespace Verif
open Geo Finset Matrix

variable {w : ℕ}

section Edge
variable {T : Topo} (hT : T.WF) {p : ℕ} (hp : 1 ≤ p ∧ p ≤ 3) {U : UniformFESpace ℝ} (hU : lagrangeSpace T p = some U)

theorem lagrSeg_isLagrange {p : ℕ} (hp : 1 ≤ p ∧ p ≤ 3) : (lagrFE p .segment : RefFE ℝ).IsLagrange :=
  lagrFE_isLagrange p hp .segment (by simp)

theorem lagrFE_ref {p : ℕ} (hp : 1 ≤ p ∧ p ≤ 3) (r : RefEl) (hr : r ≠ .point) : (lagrFE p r : RefFE ℝ).ref = r ∧
    (lagrFE p r : RefFE ℝ).degree = p := by
  obtain ⟨h1, h3⟩ := hp
  interval_cases p <;> cases r <;> first | exact absurd rfl hr | exact ⟨rfl, rfl⟩

include hp hU in
theorem lagr_layout {r : RefEl} (hr : r ≠ .point) : U.layout r = some (lagrFE p r) := by
  rw [lagrangeSpace_eq T p hp] at hU
  obtain ⟨dh, -, rfl⟩ := Option.map_eq_some_iff.mp hU
  cases r
  · exact absurd rfl hr
  all_goals rfl

theorem edge_refEl {e : ℕ} (he : e < T.numEdges) : T.refEl (1, e) = some .segment := by
  rw [Topo.refEl, if_pos (show e < T.num 1 from he)]
  rfl

include hp hU in
theorem lagr_edge_layout {e : ℕ} (he : e < T.numEdges) : (U.space T).layout (1, e) = some (lagrFE p .segment) := by
  change (T.refEl (1, e)).bind U.layout = _
  rw [edge_refEl he]
  exact lagr_layout hp hU (r := .segment) (by simp)

include hT hp hU

theorem lagr_edge_num {e : ℕ} (he : e < T.numEdges) :
    ((U.space T).dofh.all (1, e)).length = (lagrFE p .segment : RefFE ℝ).num := by
  obtain ⟨fe, h1, -, -, -, h2⟩ := (lagr_unisolvent T hT p hp U hU).2 e he
  rw [lagr_edge_layout hp hU he] at h1
  cases h1
  exact h2

theorem lagr_dofsOk (hfit : U.dofh.numDofs < 2 ^ 31) : (U.space T).DofsOk := by
  obtain ⟨cnt, h⟩ := lagr_conforming T hT p hp U hU
  exact ⟨h.answers, h.range, hfit⟩

/-- Values on an edge in terms of the coefficients of the edge. -/
theorem lagr_edge_value (hfit : U.dofh.numDofs < 2 ^ 31) {e : ℕ} (he : e < T.numEdges) {u : List ℝ}
    (hu : u.length = U.dofh.numDofs) {x : List ℝ} (hx : x.length = 1) :
    (U.space T).evalFE u (1, e) x = some ((lagrFE p .segment : RefFE ℝ).combine
      ((U.space T).loc u (1, e) (lagrFE p .segment : RefFE ℝ).num) x) := by
  refine evalFE_loc (lagr_dofsOk hT hp hU hfit) ⟨one_le_two, he⟩ (lagr_edge_layout hp hU he) (lagr_edge_num hT hp hU he) hu ?_
  exact (lagrSeg_isLagrange hp).evaluates.1 x (by rw [(lagrFE_ref hp .segment (by simp)).1]; exact hx)

theorem lagr_node_value (hfit : U.dofh.numDofs < 2 ^ 31) {e : ℕ} (he : e < T.numEdges) {u : List ℝ}
    (hu : u.length = U.dofh.numDofs) {j : ℕ} (hj : j < (lagrFE p .segment : RefFE ℝ).num) :
    (U.space T).evalFE u (1, e) ((lagrFE p .segment : RefFE ℝ).nodes.getD j []) =
      some (u.getD ((U.dofh.all (1, e)).getD j 0) 0) := by
  obtain ⟨hc1, hc2, hc3⟩ := (lagrSeg_isLagrange hp).cardinal
  have hx : ((lagrFE p .segment : RefFE ℝ).nodes.getD j []).length = 1 := by
    rw [List.getD_eq_getElem _ _ (by omega), hc2 _ (List.getElem_mem _), (lagrFE_ref hp .segment (by simp)).1]
    rfl
  rw [lagr_edge_value hT hp hU hfit he hu hx, RefFE.combine, Finset.sum_eq_single ⟨j, hj⟩]
  · rw [hc3 j hj j hj, if_pos rfl, mul_one]
    rfl
  · intro i _ hi
    rw [hc3 i i.isLt j hj, if_neg fun h => hi (Fin.ext h), mul_zero]
  · intro h
    exact absurd (Finset.mem_univ _) h

/-- A function with zero coefficients on an edge is zero there. -/
theorem lagr_edge_zero (hfit : U.dofh.numDofs < 2 ^ 31) {e : ℕ} (he : e < T.numEdges) {u : List ℝ}
    (hu : u.length = U.dofh.numDofs) (h0 : ∀ d ∈ U.dofh.all (1, e), u.getD d 0 = 0) {x : List ℝ} (hx : x.length = 1) :
    (U.space T).value u (1, e) x = 0 := by
  rw [FeSpace.value, lagr_edge_value hT hp hU hfit he hu hx, Option.getD_some, RefFE.combine]
  refine Finset.sum_eq_zero fun i _ => ?_
  rw [(loc_all (S := U.space T) (lagr_edge_num hT hp hU he) (· = 0)).2 h0 i, zero_mul]

/-- Boundary values in terms of coefficients. -/
theorem takes_iff (hfit : U.dofh.numDofs < 2 ^ 31) {x : List ℝ} (hx : x.length = U.dofh.numDofs) (e : ℕ)
    (he : e < T.numEdges) (v : List ℝ → ℝ) :
    (∀ y ∈ (lagrFE p .segment : RefFE ℝ).nodes, (U.space T).value x (1, e) y = v y) ↔
      ∀ j < (lagrFE p .segment : RefFE ℝ).num,
        x.getD ((U.dofh.all (1, e)).getD j 0) 0 = v ((lagrFE p .segment : RefFE ℝ).nodes.getD j []) := by
  have hc1 := (lagrSeg_isLagrange hp).cardinal.1
  constructor
  · intro h j hj
    have := h ((lagrFE p .segment : RefFE ℝ).nodes.getD j []) (by
      rw [List.getD_eq_getElem _ _ (by omega)]; exact List.getElem_mem _)
    rwa [FeSpace.value, lagr_node_value hT hp hU hfit he hx hj] at this
  · intro h y hy
    obtain ⟨j, hj, rfl⟩ := List.getElem_of_mem hy
    have hj' : j < (lagrFE p .segment : RefFE ℝ).num := by omega
    have := h j hj'
    have h2 := lagr_node_value hT hp hU hfit he hx hj'
    rw [List.getD_eq_getElem _ _ hj] at this h2
    rw [FeSpace.value, h2]
    exact this

theorem zero_iff (hfit : U.dofh.numDofs < 2 ^ 31) {P : EllBvp w} {x : List ℝ} (hx : x.length = U.dofh.numDofs) :
    P.ZeroOnDirichlet (U.space T) p x ↔
      ∀ e < T.numEdges, P.onDir e = true → ∀ d ∈ U.dofh.all (1, e), x.getD d 0 = 0 := by
  refine forall₃_congr fun e he _ => ?_
  rw [takes_iff hT hp hU hfit hx e he fun _ => 0]
  have hn := lagr_edge_num hT hp hU he
  replace hn : (U.dofh.all (1, e)).length = _ := hn
  constructor
  · intro h d hd
    obtain ⟨j, hj, rfl⟩ := List.getElem_of_mem hd
    have := h j (hn ▸ hj)
    rwa [List.getD_eq_getElem _ _ hj] at this
  · intro h j hj
    exact h _ (by rw [List.getD_eq_getElem _ _ (hn ▸ hj)]; exact List.getElem_mem _)

/-- Flags and values: dofs on Dirichlet edges, with the coefficients of any function which takes the boundary values. -/
theorem essential_result (hfit : U.dofh.numDofs < 2 ^ 31) {P : EllBvp w} {u : List ℝ} (hu : u.length = U.dofh.numDofs)
    (h : P.TakesBoundaryValues (U.space T) p u) :
    ∃ F, initEssentialCondition (U.space T) P.onDir (pointwise P.g) = some F ∧ ∀ d < U.dofh.numDofs,
      ((F.getD d (false, 0)).1 = true ↔ ∃ e < T.numEdges, P.onDir e = true ∧ d ∈ U.dofh.all (1, e)) ∧
      ((F.getD d (false, 0)).1 = true → (F.getD d (false, 0)).2 = u.getD d 0) := by
  obtain ⟨F, h1, h2, h3⟩ := C51_lagrange T hT p hp U hU u hu P.onDir
  obtain ⟨cnt, hC⟩ := lagr_conforming T hT p hp U hU
  have hlaid := hC.laid.2.1
  refine ⟨F, ?_, fun d hd => ⟨?_, (h3 d hd).2⟩⟩
  · rw [← h1, initEssentialCondition, initEssentialCondition]
    have : ∀ (l : List ℕ) (v : List (Bool × ℝ)), (∀ e ∈ l, e < T.numEdges) →
        l.foldlM (essentialEdge (U.space T) P.onDir (pointwise P.g)) v =
        l.foldlM (essentialEdge (U.space T) P.onDir ((U.space T).meshFunction u)) v := by
      intro l
      induction l with
      | nil => intro v _; rfl
      | cons e l ih =>
        intro v hl
        rw [List.foldlM_cons, List.foldlM_cons]
        have he := hl e (by simp)
        have : essentialEdge (U.space T) P.onDir (pointwise P.g) v e =
            essentialEdge (U.space T) P.onDir ((U.space T).meshFunction u) v e := by
          unfold essentialEdge
          by_cases hd : P.onDir e = true
          · rw [if_pos hd, if_pos hd, lagr_edge_layout hp hU he, Option.bind_some, Option.bind_some]
            have : pointwise P.g (1, e) (lagrFE p .segment : RefFE ℝ).nodes =
                (U.space T).meshFunction u (1, e) (lagrFE p .segment : RefFE ℝ).nodes := by
              rw [FeSpace.meshFunction, mapM_eq_map _ (P.g (1, e)), pointwise]
              intro y hy
              have hv := h e he hd y hy
              obtain ⟨j, hj, rfl⟩ := List.getElem_of_mem hy
              have hc1 := (lagrSeg_isLagrange hp).cardinal.1
              have h2 := lagr_node_value hT hp hU hfit he hu (j := j) (by omega)
              rw [List.getD_eq_getElem _ _ hj] at h2
              rw [FeSpace.value, h2, Option.getD_some] at hv
              rw [h2, hv]
            rw [this]
          · rw [if_neg hd, if_neg hd]
        rw [this]
        refine bind_congr fun v' => ih v' fun e' he' => hl e' (by simp [he'])
    exact this _ _ fun e he => List.mem_range.1 he
  · rw [(h3 d hd).1]
    refine exists_congr fun e => and_congr_right fun he => and_congr_right fun _ => ?_
    have := hlaid e he
    replace this : U.dofh.all (1, e) = _ := this
    rw [this, List.mem_append, List.mem_append]
    change _ ↔ (d ∈ U.dofh.own (2, (T.edge e).1) ∨ d ∈ U.dofh.own (2, (T.edge e).2)) ∨ d ∈ U.dofh.own (1, e)
    tauto

end Edge

section System
variable {B : QuadBase ℝ} {T : Topo} (hT : T.WF) {p : ℕ} (hp : 1 ≤ p ∧ p ≤ 3) {U : UniformFESpace ℝ}
  (hU : lagrangeSpace T p = some U) (hfit : U.dofh.numDofs < 2 ^ 31) {geo : Ent → Option (Geo ℝ w)} {g : Ent → Geo ℝ w}
  {rules : RefEl → QuadRule ℝ} (hM : BvpMesh B T p geo g rules)

theorem cell_ent {T : Topo} {e : Ent} (he : e ∈ (List.range (T.num 0)).map fun i => ((0, i) : Ent)) :
    ∃ c < T.numCells, e = (0, c) := by
  obtain ⟨i, hi, rfl⟩ := List.mem_map.1 he
  exact ⟨i, List.mem_range.1 hi, rfl⟩

theorem edge_ent {T : Topo} {e : Ent} (he : e ∈ (List.range (T.num 1)).map fun i => ((1, i) : Ent)) :
    ∃ c < T.numEdges, e = (1, c) := by
  obtain ⟨i, hi, rfl⟩ := List.mem_map.1 he
  exact ⟨i, List.mem_range.1 hi, rfl⟩

include hT hp hM

theorem bvp_goodCells (active : Ent → Bool) :
    GoodCells (makeQuadRule B) T geo (((U.space T).entities 0).filter active) (bvpData p g rules) := by
  have key : ∀ e ∈ ((U.space T).entities 0).filter active, ∃ c < T.numCells, e = (0, c) ∧
      ((g e).kind = .tria ∨ (g e).kind = .quad) ∧ geo e = some (g e) ∧ T.refEl e = some (g e).kind := by
    intro e he
    obtain ⟨c, hc, rfl⟩ := cell_ent (List.mem_filter.1 he).1
    obtain ⟨h1, h2⟩ := hM.geo (0, c) ⟨by simp, hc⟩ (by simp)
    exact ⟨c, hc, rfl, cell_kind hT (List.mem_filter.1 he).1 h2, h1, h2⟩
  have hdeg : ∀ r : RefEl, (r = .tria ∨ r = .quad) → (lagrFE p r : RefFE ℝ).degree = p := fun r hr =>
    (lagrFE_ref hp r (by rcases hr with rfl | rfl <;> simp)).2
  refine ⟨fun e he => ?_, fun e he => ?_, fun e he => ?_, fun e he => ?_, fun e he => ?_, fun e he => rfl,
    fun e he => ?_⟩
  all_goals obtain ⟨c, hc, rfl, hk, h1, h2⟩ := key e he
  · exact h1
  · exact h2
  · change makeQuadRule B (g (0, c)).kind (2 * (lagrFE p (g (0, c)).kind : RefFE ℝ).degree) = some (rules (g (0, c)).kind)
    rw [hdeg _ hk]
    exact (hM.rule _ (Or.inr hk)).1
  · exact (hM.rule _ (Or.inr hk)).2.1
  · exact (hM.rule _ (Or.inr hk)).2.2
  · exact hM.regular c hc

include hU

theorem bvp_edge {e : ℕ} (he : e < T.numEdges) :
    (bvpData p g rules (1, e)).Describes (makeQuadRule B) (U.space T) geo (1, e) ∧ (g (1, e)).kind = .segment ∧
    (bvpData p g rules (1, e)).fe = lagrFE p .segment ∧ (bvpData p g rules (1, e)).rule = rules .segment ∧
    Computable (bvpData p g rules (1, e)).geo (bvpData p g rules (1, e)).fe (bvpData p g rules (1, e)).rule
      (bvpData p g rules (1, e)).detJ := by
  obtain ⟨h1, h2⟩ := hM.geo (1, e) ⟨by simp, he⟩ (by simp)
  have hk : (g (1, e)).kind = .segment := by
    rw [edge_refEl he] at h2
    exact (Option.some.inj h2).symm
  have hL := lagrSeg_isLagrange hp
  obtain ⟨hr1, hr2, hr3⟩ := hM.rule .segment (Or.inl rfl)
  have hfe : (bvpData p g rules (1, e)).fe = lagrFE p .segment := by
    change lagrFE p (g (1, e)).kind = _
    rw [hk]
  have hru : (bvpData p g rules (1, e)).rule = rules .segment := by
    change rules (g (1, e)).kind = _
    rw [hk]
  refine ⟨⟨h1, ?_, h2, ?_, ?_⟩, hk, hfe, hru, ⟨?_, fun x hx => ?_, fun x hx => ?_⟩⟩
  · rw [hfe]; exact lagr_edge_layout hp hU he
  · rw [hfe, hru, (lagrFE_ref hp .segment (by simp)).2]
    change makeQuadRule B (g (1, e)).kind _ = _
    rw [hk]; exact hr1
  · rw [hfe]; exact lagr_edge_num hT hp hU he
  · rw [hru]; exact hr3.2
  · obtain ⟨⟨cols, hc⟩, -⟩ := hM.edge e he x hx
    obtain ⟨t, ht, -⟩ := C38_integration_element (g (1, e)) x cols hc
    change (g (1, e)).integrationElement x = some (((g (1, e)).integrationElement x).getD 0)
    rw [ht]
    rfl
  · rw [hfe]
    rw [hru] at hx
    refine hL.evaluates.1 x ?_
    rw [hr3.1 x hx, hr2, (lagrFE_ref hp .segment (by simp)).1]

theorem bvp_cellPrecomp : cellPrecomp B U = some fun ref => (precompute U (builtinRule B) ref).join := by
  have : ∀ r, r = RefEl.tria ∨ r = RefEl.quad → (precompute U (builtinRule B) r).isSome := by
    intro r hr
    obtain ⟨h1, h2, h3⟩ := hM.rule r (Or.inr hr)
    have hne : r ≠ .point := by rcases hr with rfl | rfl <;> simp
    have hL := lagrFE_isLagrange p hp r hne
    have hpt : ∀ x ∈ (rules r).points, x.length = (lagrFE p r : RefFE ℝ).ref.dimension := fun x hx => by
      rw [h3.1 x hx, h2, (lagrFE_ref hp r hne).1]
    have hrs : ∃ l, (rules r).points.mapM (lagrFE p r : RefFE ℝ).eval = some l :=
      ⟨_, mapM_eq_map _ (fun x => ((lagrFE p r : RefFE ℝ).eval x).getD []) _ fun x hx => by
        obtain ⟨v, hv, -⟩ := hL.evaluates.1 x (hpt x hx); rw [hv]; rfl⟩
    have hgr : ∃ l, (rules r).points.mapM (lagrFE p r : RefFE ℝ).grad = some l :=
      ⟨_, mapM_eq_map _ (fun x => ((lagrFE p r : RefFE ℝ).grad x).getD []) _ fun x hx => by
        obtain ⟨v, hv, -⟩ := hL.gradCorrect x (hpt x hx); rw [hv]; rfl⟩
    obtain ⟨l1, hl1⟩ := hrs
    obtain ⟨l2, hl2⟩ := hgr
    rw [precompute, if_pos hr, lagr_layout hp hU hne]
    simp only [builtinRule, (lagrFE_ref hp r hne).2, h1, Option.map_some, Option.bind_some, PrecompFE.make, hl1, hl2]
    rfl
  rw [cellPrecomp, if_pos ⟨this _ (Or.inl rfl), this _ (Or.inr rfl)⟩]

theorem bvp_edgePrecomp : ∃ pfe, edgePrecomp B U = some pfe ∧
    PrecompFE.make (lagrFE p .segment) (rules .segment) = some pfe := by
  obtain ⟨h1, h2, h3⟩ := hM.rule .segment (Or.inl rfl)
  have hL := lagrSeg_isLagrange hp
  have hpt : ∀ x ∈ (rules .segment).points, x.length = (lagrFE p .segment : RefFE ℝ).ref.dimension := fun x hx => by
    rw [h3.1 x hx, h2, (lagrFE_ref hp .segment (by simp)).1]
  have : ∃ pfe, PrecompFE.make (lagrFE p .segment) (rules .segment) = some pfe := by
    rw [PrecompFE.make, mapM_eq_map _ (fun x => ((lagrFE p .segment : RefFE ℝ).eval x).getD []) _ fun x hx => by
        obtain ⟨v, hv, -⟩ := hL.evaluates.1 x (hpt x hx); rw [hv]; rfl, Option.bind_some,
      mapM_eq_map _ (fun x => ((lagrFE p .segment : RefFE ℝ).grad x).getD []) _ fun x hx => by
        obtain ⟨v, hv, -⟩ := hL.gradCorrect x (hpt x hx); rw [hv]; rfl]
    exact ⟨_, rfl⟩
  obtain ⟨pfe, hpfe⟩ := this
  refine ⟨pfe, ?_, hpfe⟩
  rw [edgePrecomp, lagr_layout hp hU (r := .segment) (by simp), Option.bind_some, (lagrFE_ref hp .segment (by simp)).2, h1,
    Option.bind_some, hpfe]

include hfit

/-- The Galerkin matrix before fixing dofs. -/
theorem bvp_matrix (P : EllBvp w) : ∃ A D, P.galerkinMatrix B U T geo = some A ∧ A.makeDense = some D ∧
    D.rows = U.dofh.numDofs ∧ D.cols = U.dofh.numDofs ∧
    ∀ ν μ : List ℝ, ν.length = U.dofh.numDofs → μ.length = U.dofh.numDofs →
      D.form ν μ = P.a (U.space T) geo (bvpData p g rules) ν μ := by
  have hS := lagr_dofsOk hT hp hU hfit
  obtain ⟨-, hall⟩ := C77_lagrange (makeQuadRule B) T hT p hp U hU hfit geo (fun _ => true) (bvpData p g rules)
    (bvp_goodCells hT hp hM _) fun _ _ => rfl
  obtain ⟨A, D, h1, h2, h3, h4, h5, -⟩ := C77_reaction_diffusion B U T geo hS (fun _ => true) (bvpData p g rules)
    (fun e he => by
      obtain ⟨a1, a2, a3, a4, a5, a6, -⟩ := hall e he
      exact ⟨a1, a2, a4, a5, a6⟩) (pointwise P.α) P.α (pointwise P.γ) P.γ (fun _ _ => rfl) (fun _ _ => rfl)
  obtain ⟨pfe, hpfe, hmk⟩ := bvp_edgePrecomp hT hp hU hM
  have hedge : ∀ e ∈ ((U.space T).entities 1).filter fun e => P.onImp e.2, ∃ c < T.numEdges, e = (1, c) := fun e he =>
    edge_ent (List.mem_filter.1 he).1
  obtain ⟨A', D', g1, g2, g3, g4, g5⟩ := assembleMatrixFE_rep hS 1 (by omega) (fun e => P.onImp e.2)
    (uMassEdgeMatrix T geo pfe (pointwise P.η)) (fun e => (bvpData p g rules e).fe)
    (fun e he => by
      obtain ⟨c, hc, rfl⟩ := hedge e he
      exact (bvp_edge hT hp hU hM hc).1.num)
    (fun e c d => (bvpData p g rules e).rule.integrate fun x => (bvpData p g rules e).detJ x *
      (P.η e x * ((bvpData p g rules e).fe.combine c x * (bvpData p g rules e).fe.combine d x)))
    (fun e he => by
      obtain ⟨c, hc, rfl⟩ := hedge e he
      obtain ⟨hd, hk, hfe, hru, hcomp⟩ := bvp_edge hT hp hU hM hc
      obtain ⟨M, hM1, hM2⟩ := C53_umass_edge T geo (1, c) pfe hd.geo (edge_refEl hc) (by rw [hfe, hru]; exact hmk) hcomp
        (pointwise P.η) (P.η (1, c)) rfl
      refine ⟨M, hM1, fun a b => ?_⟩
      exact massForm_form _ _ hM2 a b) A D h2 h3 h4
  refine ⟨A', D', ?_, g2, g3, g4, fun ν μ hν hμ => ?_⟩
  · rw [EllBvp.galerkinMatrix, bvp_cellPrecomp hT hp hU hM, Option.bind_some, h1, Option.bind_some, hpfe, Option.bind_some, g1]
  · rw [g5, h5 ν μ hν hμ, EllBvp.a, List.filter_true]
    congr 1
    rw [massSum]
    congr 1
    refine List.map_congr_left fun e he => integrate_congr _ fun x hx => ?_
    obtain ⟨c, hc, rfl⟩ := hedge e he
    obtain ⟨hd, hk, hfe, hru, hcomp⟩ := bvp_edge hT hp hU hM hc
    have hent : (U.space T).mesh.IsEnt (1, c) := ⟨one_le_two, hc⟩
    rw [FeSpace.value, FeSpace.value, evalFE_loc hS hent hd.layout hd.num hν (hcomp.shapes x hx),
      evalFE_loc hS hent hd.layout hd.num hμ (hcomp.shapes x hx)]
    rfl

/-- The right-hand side before fixing dofs, tested with functions which are zero on the Dirichlet edges. -/
theorem bvp_rhs (P : EllBvp w) : ∃ b, P.rhs B U T geo = some b ∧ b.length = U.dofh.numDofs ∧
    ∀ ν : List ℝ, ν.length = U.dofh.numDofs → P.ZeroOnDirichlet (U.space T) p ν →
      dotList ν b = P.ℓ (U.space T) (bvpData p g rules) ν := by
  have hS := lagr_dofsOk hT hp hU hfit
  obtain ⟨-, hall⟩ := C77_lagrange (makeQuadRule B) T hT p hp U hU hfit geo (fun _ => true) (bvpData p g rules)
    (bvp_goodCells hT hp hM _) fun _ _ => rfl
  have hload : ∀ (fe : RefFE ℝ) (q : QuadRule ℝ) (detJ F : List ℝ → ℝ) (v : Fin fe.num → ℝ),
      (∀ i, v i = loadForm fe q detJ F i.val) → ∀ c, c ⬝ᵥ v = q.integrate fun x => detJ x * (F x * fe.combine c x) := by
    intro fe q detJ F v hi c
    simp only [dotProduct, hi, loadForm, ← integrate_smul]
    rw [← integrate_sum]
    refine integrate_congr _ fun x _ => ?_
    rw [RefFE.combine, Finset.mul_sum, Finset.mul_sum]
    exact Finset.sum_congr rfl fun i _ => by ring
  obtain ⟨b, h1, h2, h3⟩ := assembleVectorFE_rep hS 0 (by omega) (fun _ => true)
    (uLoadElementVector (fun ref => (precompute U (builtinRule B) ref).join) T geo (pointwise P.f))
    (fun e => (bvpData p g rules e).fe) (fun e he => (hall e he).1.num)
    (fun e c => (bvpData p g rules e).rule.integrate fun x => (bvpData p g rules e).detJ x *
      (P.f e x * (bvpData p g rules e).fe.combine c x))
    (fun e he => by
      obtain ⟨a1, a2, a3, a4, a5, a6, -⟩ := hall e he
      obtain ⟨v, hv, hi⟩ := C53_uload U (builtinRule B) T geo e a1.geo a1.kind a2 a4
        (by rw [builtinRule, a1.rule]; rfl) a3 a5 (fun x hx => (a6.grads x hx).imp fun _ hv => hv.1) (pointwise P.f) (P.f e) rfl
      exact ⟨v, hv, hload _ _ _ _ v hi⟩) (List.replicate U.dofh.numDofs 0) (by simp; rfl)
  have hb0 : ∀ ν, dotList ν (List.replicate U.dofh.numDofs 0) = 0 := fun ν => by simp [dotList, List.getD_replicate]
  have hcells : ∀ ν : List ℝ, ν.length = U.dofh.numDofs →
      dotList ν b = loadSum (U.space T) (bvpData p g rules) ((U.space T).entities 0) P.f ν := by
    intro ν hν
    rw [h3, hb0, zero_add, loadSum, List.filter_true]
    congr 1
    refine List.map_congr_left fun e he => integrate_congr _ fun x hx => ?_
    obtain ⟨a1, a2, a3, a4, a5, a6, -⟩ := hall e (by rw [List.filter_true]; exact he)
    rw [FeSpace.value, evalFE_loc hS (FeSpace.mem_entities (by omega) he) a1.layout a1.num hν (a5.shapes x hx)]
    rfl
  have hedge : ∀ e ∈ ((U.space T).entities 1).filter fun e => P.onLoad e.2, ∃ c < T.numEdges, e = (1, c) ∧
      P.onLoad c = true := fun e he => by
    obtain ⟨c, hc, rfl⟩ := edge_ent (List.mem_filter.1 he).1
    exact ⟨c, hc, rfl, (List.mem_filter.1 he).2⟩
  by_cases hcond : ((List.range T.numEdges).any fun e => P.bd e && !P.dir e) = true
  · obtain ⟨pfe, hpfe, hmk⟩ := bvp_edgePrecomp hT hp hU hM
    obtain ⟨b', g1, g2, g3⟩ := assembleVectorFE_rep hS 1 (by omega) (fun e => P.onLoad e.2)
      (uLoadEdgeVector T geo pfe (pointwise P.h)) (fun e => (bvpData p g rules e).fe)
      (fun e he => by
        obtain ⟨c, hc, rfl, -⟩ := hedge e he
        exact (bvp_edge hT hp hU hM hc).1.num)
      (fun e c => (bvpData p g rules e).rule.integrate fun x => (bvpData p g rules e).detJ x *
        (P.h e x * (bvpData p g rules e).fe.combine c x))
      (fun e he => by
        obtain ⟨c, hc, rfl, -⟩ := hedge e he
        obtain ⟨hd, hk, hfe, hru, hcomp⟩ := bvp_edge hT hp hU hM hc
        obtain ⟨v, hv, hi⟩ := C53_uload_edge T geo (1, c) pfe hd.geo (edge_refEl hc) (by rw [hfe, hru]; exact hmk) hcomp
          (fun x hx => (hM.edge c hc x hx).2) (pointwise P.h) (P.h (1, c)) rfl
        exact ⟨v, hv, hload _ _ _ _ v hi⟩) b h2
    refine ⟨b', ?_, g2, fun ν hν hz => ?_⟩
    · rw [EllBvp.rhs, bvp_cellPrecomp hT hp hU hM, Option.bind_some, h1, Option.bind_some, if_pos hcond, hpfe,
        Option.bind_some, g1]
    · rw [g3, hcells ν hν, EllBvp.ℓ]
      congr 1
      rw [loadSum]
      congr 1
      refine List.map_congr_left fun e he => integrate_congr _ fun x hx => ?_
      obtain ⟨c, hc, rfl, -⟩ := hedge e he
      obtain ⟨hd, hk, hfe, hru, hcomp⟩ := bvp_edge hT hp hU hM hc
      have hent : (U.space T).mesh.IsEnt (1, c) := ⟨one_le_two, hc⟩
      rw [FeSpace.value, evalFE_loc hS hent hd.layout hd.num hν (hcomp.shapes x hx)]
      rfl
  · refine ⟨b, ?_, h2, fun ν hν hz => ?_⟩
    · rw [EllBvp.rhs, bvp_cellPrecomp hT hp hU hM, Option.bind_some, h1, Option.bind_some, if_neg hcond]
    · rw [hcells ν hν, EllBvp.ℓ, eq_comm, add_eq_left, loadSum]
      refine List.sum_eq_zero fun a ha => ?_
      obtain ⟨e, he, rfl⟩ := List.mem_map.1 ha
      obtain ⟨c, hc, rfl, hl⟩ := hedge e he
      obtain ⟨hd, hk, hfe, hru, hcomp⟩ := bvp_edge hT hp hU hM hc
      have hdir : P.onDir c = true := by
        rw [Bool.not_eq_true, List.any_eq_false] at hcond
        have := hcond c (List.mem_range.2 hc)
        rw [EllBvp.onLoad, Bool.and_eq_true] at hl
        rw [EllBvp.onDir, Bool.and_eq_true]
        refine ⟨hl.1, ?_⟩
        simpa [hl.1] using this
      rw [← integrate_zero]
      refine integrate_congr _ fun x hx => ?_
      rw [lagr_edge_zero hT hp hU hfit hc hν ((zero_iff hT hp hU hfit hν).1 hz c hc hdir), mul_zero, mul_zero]
      obtain ⟨hr1, hr2, hr3⟩ := hM.rule .segment (Or.inl rfl)
      rw [hru] at hx
      rw [hr3.1 x hx, hr2]
      rfl

/-- The system after fixing dofs, in terms of the one before. -/
theorem bvp_system (P : EllBvp w) (u : List ℝ) (hu : u.length = U.dofh.numDofs)
    (hbv : P.TakesBoundaryValues (U.space T) p u) :
    ∃ A D b A' D' b', ∃ sel : ℕ → Bool × ℝ, GoodSystem A D b ∧ D.rows = U.dofh.numDofs ∧
      (∀ ν μ : List ℝ, ν.length = U.dofh.numDofs → μ.length = U.dofh.numDofs →
        D.form ν μ = P.a (U.space T) geo (bvpData p g rules) ν μ) ∧
      (∀ ν : List ℝ, ν.length = U.dofh.numDofs → P.ZeroOnDirichlet (U.space T) p ν →
        dotList ν b = P.ℓ (U.space T) (bvpData p g rules) ν) ∧
      (∀ d < U.dofh.numDofs,
        ((sel d).1 = true ↔ ∃ e < T.numEdges, P.onDir e = true ∧ d ∈ U.dofh.all (1, e)) ∧
        ((sel d).1 = true → (sel d).2 = u.getD d 0)) ∧
      P.system B U T geo = some (A', b') ∧ A'.makeDense = some D' ∧ D'.rows = U.dofh.numDofs ∧
      D'.cols = U.dofh.numDofs ∧ (∀ x, Solves D' b' x ↔ ConstrainedSolution sel D b x) ∧
      ((∀ i < D.rows, ∀ j < D.rows, D.entry i j = D.entry j i) →
        ∀ i < D.rows, ∀ j < D.rows, D'.entry i j = D'.entry j i) ∧
      ((∀ x : ℕ → ℝ, (∀ k < D.cols, (sel k).1 = true → x k = 0) → (∃ k < D.cols, x k ≠ 0) → 0 < quadForm D x) →
        ∀ x : ℕ → ℝ, (∃ k < D.cols, x k ≠ 0) → 0 < quadForm D' x) := by
  obtain ⟨A, D, a1, a2, a3, a4, a5⟩ := bvp_matrix hT hp hU hfit hM P
  obtain ⟨b, b1, b2, b3⟩ := bvp_rhs hT hp hU hfit hM P
  have hgood : GoodSystem A D b := ⟨a2, a3.trans a4.symm, b2.trans a4.symm, a4 ▸ hfit⟩
  by_cases hany : (List.range T.numEdges).any P.onDir = true
  · obtain ⟨F, f1, f2⟩ := essential_result hT hp hU hfit hu hbv
    obtain ⟨A', b', D', c1, c2, c3, c4, c5⟩ := C03_fixFlaggedSolutionComponents (fun d => F.getD d (false, 0)) A D b hgood
    refine ⟨A, D, b, A', D', b', fun d => F.getD d (false, 0), hgood, a3, a5, b3, f2, ?_, c2, c3.trans a3, c4.trans a4, c5,
      fun hs => ?_, fun hs => ?_⟩
    · rw [EllBvp.system, a1, Option.bind_some, b1, Option.bind_some, if_pos hany, f1, Option.bind_some, c1]
    · obtain ⟨A2, b2, D2, e1, e2, e3⟩ := C05_symmetric (fun d => F.getD d (false, 0)) A D b hgood hs
      rw [c1] at e1
      cases e1
      rw [c2] at e2
      cases e2
      exact e3
    · obtain ⟨A2, b2, D2, e1, e2, e3⟩ := C05_posDef (fun d => F.getD d (false, 0)) A D b hgood hs
      rw [c1] at e1
      cases e1
      rw [c2] at e2
      cases e2
      exact e3
  · refine ⟨A, D, b, A, D, b, fun _ => (false, 0), hgood, a3, a5, b3, fun d hd => ⟨⟨by simp, ?_⟩, by simp⟩, ?_, a2, a3, a4,
      fun x => ?_, fun h => h, fun h x hx => h x (by simp) hx⟩
    · rintro ⟨e, he, h1, -⟩
      exact absurd (List.any_eq_true.2 ⟨e, List.mem_range.2 he, h1⟩) hany
    · rw [EllBvp.system, a1, Option.bind_some, b1, Option.bind_some, if_neg hany]
    · unfold Solves ConstrainedSolution RowHolds
      simp

end System

end Verif
