import Verif.Lemmas.EllBvp
import Verif.Lemmas.PolyFn

/-!
# C78: the linear system of an elliptic boundary value problem
-/

namespace Verif
open Geo Finset Matrix

variable {w : ℕ}

section
variable (B : QuadBase ℝ) (T : Topo) (hT : T.WF) (p : ℕ) (hp : 1 ≤ p ∧ p ≤ 3) (U : UniformFESpace ℝ)
  (hU : lagrangeSpace T p = some U) (hfit : U.dofh.numDofs < 2 ^ 31) (geo : Ent → Option (Geo ℝ w)) (g : Ent → Geo ℝ w)
  (rules : RefEl → QuadRule ℝ) (hM : BvpMesh B T p geo g rules) (P : EllBvp w)

theorem dotList_unit {N i : ℕ} (hi : i < N) (b : List ℝ) (hb : b.length = N) : dotList (unitList N i) b = b.getD i 0 := by
  unfold dotList
  rw [hb, Finset.sum_eq_single_of_mem i (Finset.mem_range.2 hi), unitList_getD hi]
  · simp
  · intro j hj hne
    rw [unitList_getD (Finset.mem_range.1 hj), if_neg hne, zero_mul]

theorem form_rows (D : Dense ℝ) (ν μ : List ℝ) : D.form ν μ =
    ∑ i ∈ range D.rows, ν.getD i 0 * ∑ j ∈ range D.cols, D.entry i j * μ.getD j 0 := by
  unfold Dense.form
  refine Finset.sum_congr rfl fun i _ => ?_
  rw [Finset.mul_sum]

theorem form_unit_row {D : Dense ℝ} {N i : ℕ} (hr : D.rows = N) (hi : i < N) (μ : List ℝ) :
    D.form (unitList N i) μ = ∑ j ∈ range D.cols, D.entry i j * μ.getD j 0 := by
  rw [form_rows, hr, Finset.sum_eq_single_of_mem i (Finset.mem_range.2 hi), unitList_getD hi]
  · simp
  · intro j hj hne
    rw [unitList_getD (Finset.mem_range.1 hj), if_neg hne, zero_mul]

theorem quadForm_list (D : Dense ℝ) (x : List ℝ) : quadForm D (fun i => x.getD i 0) = D.form x x := by
  unfold quadForm Dense.form
  refine Finset.sum_congr rfl fun i _ => Finset.sum_congr rfl fun j _ => ?_
  ring

include hT hp hU hfit hM

/-- **C78**: for all meshes, Lagrangian finite elements of degree 1, 2, 3 and all data for which boundary values can be
taken at all (there is a finite element function with these values on the Dirichlet edges), setting up the linear system
succeeds, it has one equation and one unknown per dof, and its solutions are exactly the coefficient vectors of the
solutions of the discrete variational problem. -/
theorem C78_weak (hbv : ∃ u : List ℝ, u.length = U.dofh.numDofs ∧ P.TakesBoundaryValues (U.space T) p u) :
    ∃ A b D, P.system B U T geo = some (A, b) ∧ A.makeDense = some D ∧ D.rows = U.dofh.numDofs ∧
      D.cols = U.dofh.numDofs ∧ ∀ x : List ℝ, x.length = U.dofh.numDofs →
        (Solves D b (fun i => x.getD i 0) ↔ P.DiscreteSolution (U.space T) geo (bvpData p g rules) p x) := by
  obtain ⟨u, hu, hbv⟩ := hbv
  obtain ⟨A, D, b, A', D', b', sel, hg, h1, h2, h3, h4, h5, h6, h7, h8, h9, -⟩ := bvp_system hT hp hU hfit hM P u hu hbv
  have hcols : D.cols = U.dofh.numDofs := hg.square ▸ h1
  refine ⟨A', b', D', h5, h6, h7, h8, fun x hx => ?_⟩
  rw [h9, ConstrainedSolution]
  have hlt : ∀ e < T.numEdges, ∀ d ∈ U.dofh.all (1, e), d < U.dofh.numDofs := fun e he d hd =>
    ((lagr_dofsOk hT hp hU hfit).range (1, e) ⟨one_le_two, he⟩).1 d hd
  have hb1 : (∀ k < D.cols, (sel k).1 = true → x.getD k 0 = (sel k).2) ↔ P.TakesBoundaryValues (U.space T) p x := by
    constructor
    · intro h e he hd
      rw [takes_iff hT hp hU hfit hx e he]
      intro j hj
      have hmem : (U.dofh.all (1, e)).getD j 0 ∈ U.dofh.all (1, e) := by
        have hn := lagr_edge_num hT hp hU he
        replace hn : (U.dofh.all (1, e)).length = _ := hn
        rw [List.getD_eq_getElem _ _ (hn ▸ hj)]
        exact List.getElem_mem _
      have hlt' := hlt e he _ hmem
      have hs := (h4 _ hlt').1.2 ⟨e, he, hd, hmem⟩
      rw [h _ (hcols ▸ hlt') hs, (h4 _ hlt').2 hs]
      exact (takes_iff hT hp hU hfit hu e he _).1 (hbv e he hd) j hj
    · intro h k hk hs
      rw [hcols] at hk
      obtain ⟨e, he, hd, hmem⟩ := (h4 k hk).1.1 hs
      rw [(h4 k hk).2 hs]
      obtain ⟨j, hj, rfl⟩ := List.getElem_of_mem hmem
      have hj' : j < (lagrFE p .segment : RefFE ℝ).num := by
        have hn := lagr_edge_num hT hp hU he
        replace hn : (U.dofh.all (1, e)).length = _ := hn
        omega
      have a1 := (takes_iff hT hp hU hfit hx e he _).1 (h e he hd) j hj'
      have a2 := (takes_iff hT hp hU hfit hu e he _).1 (hbv e he hd) j hj'
      rw [List.getD_eq_getElem _ _ hj] at a1 a2
      rw [a1, a2]
  refine and_congr hb1 ?_
  constructor
  · intro h ν hν hz
    rw [← h2 ν x hν hx, ← h3 ν hν hz, form_rows, dotList, hg.rhs, hg.square]
    refine Finset.sum_congr rfl fun i hi => ?_
    have hi' := Finset.mem_range.1 hi
    rcases hs : (sel i).1 with _ | _
    · have := h i (hg.square ▸ hi') hs
      unfold RowHolds at this
      rw [this]
    · obtain ⟨e, he, hd, hmem⟩ := (h4 i (hcols ▸ hi')).1.1 hs
      rw [(zero_iff hT hp hU hfit hν).1 hz e he hd i hmem, zero_mul, zero_mul]
  · intro h i hi hs
    rw [h1] at hi
    have hz : P.ZeroOnDirichlet (U.space T) p (unitList U.dofh.numDofs i) := by
      rw [zero_iff hT hp hU hfit (unitList_length _ _)]
      intro e he hd d hmem
      rw [unitList_getD (hlt e he d hmem), if_neg]
      rintro rfl
      rw [(h4 d hi).1.2 ⟨e, he, hd, hmem⟩] at hs
      cases hs
    have := h (unitList U.dofh.numDofs i) (unitList_length _ _) hz
    rw [← h2 _ x (unitList_length _ _) hx, ← h3 _ (unitList_length _ _) hz, form_unit_row h1 hi,
      dotList_unit hi b (hg.rhs.trans hcols)] at this
    exact this

end

/-! ## Uniqueness -/

/-- A dof is anchored if it belongs to a Dirichlet edge, to a cell on which `γ` is positive, or to an impedance edge on
which `η` is positive. -/
def EllBvp.Anchored (P : EllBvp w) (T : Topo) (U : UniformFESpace ℝ) (X : Ent → EntData w) (d : ℕ) : Prop :=
  (∃ e < T.numEdges, (P.bd e && P.dir e) = true ∧ d ∈ U.dofh.all (1, e)) ∨
  (∃ c < T.numCells, (∀ x ∈ (X (0, c)).rule.points, 0 < P.γ (0, c) x) ∧ d ∈ U.dofh.all (0, c)) ∨
  ∃ e < T.numEdges, (P.bd e && P.imp e) = true ∧
    (∀ x ∈ (X (1, e)).rule.points, 0 < P.η (1, e) x ∧ 0 < (X (1, e)).detJ x) ∧ d ∈ U.dofh.all (1, e)

/-- The boundary value problem is elliptic: the coefficient `α` is positive definite, `γ` and `η` are not negative. -/
structure EllBvp.Elliptic (P : EllBvp w) (T : Topo) (X : Ent → EntData w) : Prop where
  α : ∀ c < T.numCells, ∀ x ∈ (X (0, c)).rule.points, ∀ v, v ≠ 0 → 0 < v ⬝ᵥ (P.α (0, c) x).toMatrix.mulVec v
  γ : ∀ c < T.numCells, ∀ x ∈ (X (0, c)).rule.points, 0 ≤ P.γ (0, c) x
  η : ∀ e < T.numEdges, (P.bd e && P.imp e) = true → ∀ x ∈ (X (1, e)).rule.points, 0 ≤ P.η (1, e) x

theorem seg_polyFn {d : ℕ} {f : List ℝ → ℝ} (h : IsPolyOn .segment d f) : PolyFn d fun x => f [x] := by
  obtain ⟨c, hc⟩ := h
  refine ⟨∑ a ∈ range (d + 1), Polynomial.C (c a) * Polynomial.X ^ a, ?_, fun x => ?_⟩
  · refine Polynomial.natDegree_sum_le_of_forall_le _ _ fun a ha => ?_
    exact (Polynomial.natDegree_C_mul_X_pow_le _ _).trans (Nat.lt_succ_iff.1 (Finset.mem_range.1 ha))
  · change f [x] = _
    rw [hc, Polynomial.eval_finset_sum]
    simp

/-- A function on a segment which is zero at the points of an exact rule has zero coefficients. -/
theorem seg_combine_zero {p : ℕ} (hp : 1 ≤ p ∧ p ≤ 3) {q : QuadRule ℝ} (hq : q.ref = .segment) (he : q.ExactFor (2 * p))
    (c : Fin (lagrFE p .segment : RefFE ℝ).num → ℝ)
    (h : ∀ x ∈ q.points, (lagrFE p .segment : RefFE ℝ).combine c x = 0) : c = 0 := by
  have hL := lagrSeg_isLagrange hp
  obtain ⟨hr, hd⟩ := lagrFE_ref hp .segment (by simp)
  have hpoly : PolyFn p fun x => (lagrFE p .segment : RefFE ℝ).combine c [x] := by
    unfold RefFE.combine
    refine PolyFn.sum _ fun i _ => PolyFn.smul _ (seg_polyFn ?_)
    have := hL.polynomial i i.isLt
    rwa [hr, hd] at this
  have hint : ∫ x in (0 : ℝ)..1, (lagrFE p .segment : RefFE ℝ).combine c [x] *
      (lagrFE p .segment : RefFE ℝ).combine c [x] = 0 := by
    have := he (fun x => (lagrFE p .segment : RefFE ℝ).combine c x * (lagrFE p .segment : RefFE ℝ).combine c x)
      (by rw [hq]; exact (hpoly.mul hpoly (by omega)).isPolyOn)
    rw [hq] at this
    rw [refIntegral] at this
    rw [← this, ← integrate_zero q]
    exact integrate_congr _ fun x hx => by rw [h x hx, mul_zero]
  have hcont : Continuous fun x => (lagrFE p .segment : RefFE ℝ).combine c [x] := by
    obtain ⟨P, -, hP⟩ := hpoly
    rw [funext hP]
    exact P.continuous
  have hz := integral_zero_imp one_pos (hcont.mul hcont) (fun _ _ => mul_self_nonneg _) hint
  obtain ⟨hc1, hc2, hc3⟩ := hL.cardinal
  have hnodes : ∀ n ∈ (lagrFE p .segment : RefFE ℝ).nodes, ∃ t ∈ Set.Icc (0 : ℝ) 1, n = [t] := by
    obtain ⟨h1, h3⟩ := hp
    interval_cases p <;> simp [lagrFE, lagrO1Segment, lagrO2Segment, lagrO3Segment] <;> norm_num
  funext j
  have hj : j.val < (lagrFE p .segment : RefFE ℝ).nodes.length := by rw [hc1]; exact j.isLt
  obtain ⟨t, ht, hn⟩ := hnodes ((lagrFE p .segment : RefFE ℝ).nodes.getD j []) (by
    rw [List.getD_eq_getElem _ _ hj]; exact List.getElem_mem _)
  have h0 : (lagrFE p .segment : RefFE ℝ).combine c [t] = 0 := mul_self_eq_zero.1 (hz t ht)
  rw [← hn, RefFE.combine, Finset.sum_eq_single j] at h0
  · rwa [hc3 j j.isLt j j.isLt, if_pos rfl, mul_one] at h0
  · intro i _ hi
    rw [hc3 i i.isLt j j.isLt, if_neg fun h => hi (Fin.ext h), mul_zero]
  · intro h
    exact absurd (Finset.mem_univ _) h

section
variable (B : QuadBase ℝ) (T : Topo) (hT : T.WF) (p : ℕ) (hp : 1 ≤ p ∧ p ≤ 3) (U : UniformFESpace ℝ)
  (hU : lagrangeSpace T p = some U) (hfit : U.dofh.numDofs < 2 ^ 31) (geo : Ent → Option (Geo ℝ w)) (g : Ent → Geo ℝ w)
  (rules : RefEl → QuadRule ℝ) (hM : BvpMesh B T p geo g rules) (P : EllBvp w)
  (hR : ∀ r, r = .segment ∨ r = .tria ∨ r = .quad → (∀ a ∈ (rules r).weights, 0 < a) ∧ (rules r).ExactFor (2 * p))
  (hE : P.Elliptic T (bvpData p g rules))
  (hA : ∀ d < U.dofh.numDofs, ∃ d', P.Anchored T U (bvpData p g rules) d' ∧
    Relation.ReflTransGen (Neighbours U ((U.space T).entities 0)) d d')
include hT hp hU hfit hM hR hE hA

/-- The bilinear form is definite on functions which are zero on the Dirichlet edges. -/
theorem bvp_definite (ν : List ℝ) (hν : ν.length = U.dofh.numDofs)
    (h0 : ∀ e < T.numEdges, (P.bd e && P.dir e) = true → ∀ d ∈ U.dofh.all (1, e), ν.getD d 0 = 0) :
    0 ≤ P.a (U.space T) geo (bvpData p g rules) ν ν ∧
      (P.a (U.space T) geo (bvpData p g rules) ν ν = 0 → ∀ d < U.dofh.numDofs, ν.getD d 0 = 0) := by
  have hS := lagr_dofsOk hT hp hU hfit
  set X := bvpData p g rules with hXdef
  have hcell : ∀ e ∈ (U.space T).entities 0, LagrCell (makeQuadRule B) (U.space T) geo p (X e) e := by
    intro e he
    refine lagrCell (makeQuadRule B) T hT p hp U hU hfit geo (fun _ => true) X (bvp_goodCells hT hp hM _) (fun _ _ => rfl)
      (fun e he => ?_) e (by rw [List.filter_true]; exact he)
    obtain ⟨c, hc, rfl⟩ := cell_ent (List.mem_filter.1 he).1
    have h2 := (hM.geo (0, c) ⟨by simp, hc⟩ (by simp)).2
    exact hR _ (Or.inr (cell_kind hT (List.mem_filter.1 he).1 h2))
  have hα0 : ∀ e ∈ (U.space T).entities 0, ∀ x ∈ (X e).rule.points, ∀ v, v ≠ 0 →
      0 < v ⬝ᵥ (P.α e x).toMatrix.mulVec v := fun e he => by
    obtain ⟨c, hc, rfl⟩ := cell_ent he
    exact hE.α c hc
  have hα1 : ∀ e ∈ (U.space T).entities 0, ∀ x ∈ (X e).rule.points, ∀ v, 0 ≤ v ⬝ᵥ (P.α e x).toMatrix.mulVec v :=
    fun e he x hx v => by
      by_cases hv : v = 0
      · simp [hv]
      · exact (hα0 e he x hx v hv).le
  have hα2 : ∀ e ∈ (U.space T).entities 0, ∀ x ∈ (X e).rule.points, ∀ v, 0 ≤ dot v ((P.α e x).toMatrix.mulVec v) := hα1
  have hγ0 : ∀ e ∈ (U.space T).entities 0, ∀ x ∈ (X e).rule.points, 0 ≤ P.γ e x := fun e he => by
    obtain ⟨c, hc, rfl⟩ := cell_ent he
    exact hE.γ c hc
  have hdet : ∀ e ∈ (U.space T).entities 0, ∀ x ∈ (X e).rule.points, 0 ≤ (X e).detJ x := fun e he x hx =>
    ((hcell e he).det_pos x hx).le
  have hedge : ∀ e ∈ ((U.space T).entities 1).filter fun e => P.bd e.2 && P.imp e.2, ∃ c < T.numEdges, e = (1, c) ∧
      (P.bd c && P.imp c) = true := fun e he => by
    obtain ⟨c, hc, rfl⟩ := edge_ent (List.mem_filter.1 he).1
    exact ⟨c, hc, rfl, (List.mem_filter.1 he).2⟩
  have hrule : ∀ c < T.numEdges, (X (1, c)).rule = rules .segment := fun c hc => (bvp_edge hT hp hU hM hc).2.2.2.1
  have hdetE : ∀ e ∈ ((U.space T).entities 1).filter fun e => P.bd e.2 && P.imp e.2, ∀ x ∈ (X e).rule.points, 0 ≤ (X e).detJ x :=
    fun e he x hx => by
      obtain ⟨c, hc, rfl, -⟩ := hedge e he
      exact integrationElement_nonneg _ ((bvp_edge hT hp hU hM hc).2.2.2.2.metric x hx)
  have hwE : ∀ e ∈ ((U.space T).entities 1).filter fun e => P.bd e.2 && P.imp e.2, ∀ a ∈ (X e).rule.weights, 0 < a := fun e he => by
    obtain ⟨c, hc, rfl, -⟩ := hedge e he
    rw [hrule c hc]
    exact (hR _ (Or.inl rfl)).1
  have hηE : ∀ e ∈ ((U.space T).entities 1).filter fun e => P.bd e.2 && P.imp e.2, ∀ x ∈ (X e).rule.points, 0 ≤ P.η e x :=
    fun e he => by
      obtain ⟨c, hc, rfl, hi⟩ := hedge e he
      exact hE.η c hc hi
  have n1 := diffusionSum_nonneg (U.space T) X ((U.space T).entities 0) geo (fun e x => (P.α e x).toMatrix)
    (fun e he a ha => ((hcell e he).weights a ha).le) hdet hα1 ν
  have n2 := massSum_nonneg (U.space T) X ((U.space T).entities 0) P.γ (fun e he a ha => ((hcell e he).weights a ha).le) hdet
    hγ0 ν
  have n3 := massSum_nonneg (U.space T) X (((U.space T).entities 1).filter fun e => P.bd e.2 && P.imp e.2) P.η
    (fun e he a ha => (hwE e he a ha).le) hdetE hηE ν
  refine ⟨by unfold EllBvp.a; linarith, fun hz d hd => ?_⟩
  unfold EllBvp.a at hz
  have z1 : diffusionSum (U.space T) X ((U.space T).entities 0) geo (fun e x => (P.α e x).toMatrix) ν ν = 0 := by linarith
  have z2 : massSum (U.space T) X ((U.space T).entities 0) P.γ ν ν = 0 := by linarith
  have z3 : massSum (U.space T) X (((U.space T).entities 1).filter fun e => P.bd e.2 && P.imp e.2) P.η ν ν = 0 := by linarith
  rw [diffusionSum, sum_map_eq_zero fun e he => integrate_nonneg _ (fun a ha => ((hcell e he).weights a ha).le) fun x hx =>
    mul_nonneg (hdet e he x hx) (hα2 e he x hx _)] at z1
  rw [massSum, sum_map_eq_zero fun e he => integrate_nonneg _ (fun a ha => ((hcell e he).weights a ha).le) fun x hx =>
    mul_nonneg (hdet e he x hx) (mul_nonneg (hγ0 e he x hx) (mul_self_nonneg _))] at z2
  rw [massSum, sum_map_eq_zero fun e he => integrate_nonneg _ (fun a ha => (hwE e he a ha).le) fun x hx =>
    mul_nonneg (hdetE e he x hx) (mul_nonneg (hηE e he x hx) (mul_self_nonneg _))] at z3
  refine zero_of_linked (es := (U.space T).entities 0) (fixed := P.Anchored T U X) (fun d' hd' => ?_) (fun e he => ?_) d
    (hA d hd)
  · rcases hd' with ⟨e, he, hdir, hmem⟩ | ⟨c, hc, hpos, hmem⟩ | ⟨e, he, himp, hpos, hmem⟩
    · exact h0 e he hdir d' hmem
    · have he : ((0, c) : Ent) ∈ (U.space T).entities 0 := List.mem_map.2 ⟨c, List.mem_range.2 hc, rfl⟩
      exact ((hcell _ he).mass_zero hp hS hν hpos).1 (z2 _ he) d' hmem
    · have hin : ((1, e) : Ent) ∈ ((U.space T).entities 1).filter fun e => P.bd e.2 && P.imp e.2 :=
        List.mem_filter.2 ⟨List.mem_map.2 ⟨e, List.mem_range.2 he, rfl⟩, himp⟩
      have := z3 _ hin
      obtain ⟨hD, hk, hfe, hru, hC⟩ := bvp_edge hT hp hU hM he
      rw [integrate_eq_zero _ hC.rule (hwE _ hin) fun x hx =>
        mul_nonneg (hdetE _ hin x hx) (mul_nonneg (hηE _ hin x hx) (mul_self_nonneg _))] at this
      obtain ⟨hr1, hr2, hr3⟩ := hM.rule .segment (Or.inl rfl)
      have hc0 : (U.space T).loc ν (1, e) (lagrFE p .segment : RefFE ℝ).num = 0 := by
        refine seg_combine_zero hp hr2 (hR _ (Or.inl rfl)).2 _ fun x hx => ?_
        have hx' : x ∈ (X (1, e)).rule.points := by rw [hrule e he]; exact hx
        have hv := this x hx'
        rw [mul_eq_zero, or_iff_right (hpos x hx').2.ne', mul_eq_zero, or_iff_right (hpos x hx').1.ne', mul_self_eq_zero,
          FeSpace.value, lagr_edge_value hT hp hU hfit he hν (by rw [hr3.1 x hx, hr2]; rfl)] at hv
        exact hv
      exact (loc_all (S := U.space T) (lagr_edge_num hT hp hU he) (· = 0)).1 (fun i => congrFun hc0 i) d' hmem
  · exact ((hcell e he).diffusion_zero hp hS hν (α := fun x => (P.α e x).toMatrix) (hα0 e he)).1 (z1 e he)

/-- **C78**, unique solvability: if in addition the boundary value problem is elliptic, the quadrature weights are positive
and the rules exact for products of shape functions, and every dof is linked, through cells, with an anchored one, then the
matrix of the linear system is positive definite (and symmetric if `α` is, so that Cholesky factorizations apply), and there
is exactly one solution of the linear system; it is the only solution of the discrete variational problem. -/
theorem C78_unique (hbv : ∃ u : List ℝ, u.length = U.dofh.numDofs ∧ P.TakesBoundaryValues (U.space T) p u) :
    ∃ A b D, P.system B U T geo = some (A, b) ∧ A.makeDense = some D ∧ D.rows = U.dofh.numDofs ∧
      D.cols = U.dofh.numDofs ∧
      (∀ x : ℕ → ℝ, (∃ k < U.dofh.numDofs, x k ≠ 0) → 0 < quadForm D x) ∧
      ((∀ c < T.numCells, ∀ x ∈ (rules (g (0, c)).kind).points,
          (P.α (0, c) x).toMatrix.transpose = (P.α (0, c) x).toMatrix) →
        ∀ i < U.dofh.numDofs, ∀ j < U.dofh.numDofs, D.entry i j = D.entry j i) ∧
      ∃ x : List ℝ, x.length = U.dofh.numDofs ∧ Solves D b (fun i => x.getD i 0) ∧
        P.DiscreteSolution (U.space T) geo (bvpData p g rules) p x ∧
        ∀ y : List ℝ, y.length = U.dofh.numDofs → (Solves D b (fun i => y.getD i 0) ∨
          P.DiscreteSolution (U.space T) geo (bvpData p g rules) p y) → y = x := by
  obtain ⟨A2, b2, D2, k1, k2, k3, k4, hweak⟩ := C78_weak B T hT p hp U hU hfit geo g rules hM P hbv
  obtain ⟨u, hu, hbv⟩ := hbv
  obtain ⟨A, D, b, A', D', b', sel, hg, h1, h2, h3, h4, h5, h6, h7, h8, h9, h10, h11⟩ :=
    bvp_system hT hp hU hfit hM P u hu hbv
  obtain ⟨rfl, rfl⟩ : A' = A2 ∧ b' = b2 := by
    rw [h5] at k1
    simpa using k1
  obtain rfl : D' = D2 := by
    rw [h6] at k2
    simpa using k2
  set N := U.dofh.numDofs with hN
  have hcols : D.cols = N := hg.square ▸ h1
  have hlt : ∀ e < T.numEdges, ∀ d ∈ U.dofh.all (1, e), d < N := fun e he d hd =>
    ((lagr_dofsOk hT hp hU hfit).range (1, e) ⟨one_le_two, he⟩).1 d hd
  have hpd : ∀ x : ℕ → ℝ, (∃ k < N, x k ≠ 0) → 0 < quadForm D' x := by
    rw [← hcols]
    refine h11 fun x hx0 ⟨k, hk, hne⟩ => ?_
    rw [hcols] at hk hx0
    set ν : List ℝ := (List.range N).map x with hνdef
    have hνl : ν.length = N := by simp [hνdef]
    have hνg : ∀ i < N, ν.getD i 0 = x i := fun i hi => by simp [hνdef, hi]
    have hq : quadForm D x = D.form ν ν := by
      rw [← quadForm_list]
      unfold quadForm
      rw [h1, hcols]
      refine Finset.sum_congr rfl fun i hi => Finset.sum_congr rfl fun j hj => ?_
      beta_reduce
      rw [hνg i (Finset.mem_range.1 hi), hνg j (Finset.mem_range.1 hj)]
    obtain ⟨d1, d2⟩ := bvp_definite B T hT p hp U hU hfit geo g rules hM P hR hE hA ν hνl fun e he hd d hmem => by
      rw [hνg d (hlt e he d hmem)]
      exact hx0 d (hlt e he d hmem) ((h4 d (hlt e he d hmem)).1.2 ⟨e, he, hd, hmem⟩)
    rw [hq, h2 ν ν hνl hνl]
    refine lt_of_le_of_ne d1 fun hz => hne ?_
    rw [← hνg k hk]
    exact d2 hz.symm k hk
  refine ⟨A', b', D', h5, h6, h7, h8, hpd, fun hs => ?_, ?_⟩
  · rw [← h1]
    refine h10 fun i hi j hj => ?_
    rw [h1] at hi hj
    rw [← form_unit h1 hcols hi hj, ← form_unit h1 hcols hj hi, h2 _ _ (unitList_length _ _) (unitList_length _ _),
      h2 _ _ (unitList_length _ _) (unitList_length _ _), EllBvp.a, EllBvp.a, massSum_comm, diffusionSum_comm, add_assoc,
      add_assoc, massSum_comm _ _ (List.filter _ _)]
    intro e he
    obtain ⟨c, hc, rfl⟩ := cell_ent he
    exact hs c hc
  · let M : Matrix (Fin N) (Fin N) ℝ := Matrix.of fun i j => D'.entry i j
    have hinj : Function.Injective M.mulVec := by
      intro v v' hvv
      by_contra hne
      have hz : M.mulVec (v - v') = 0 := by rw [Matrix.mulVec_sub, hvv, sub_self]
      obtain ⟨k, hk⟩ := Function.ne_iff.1 (sub_ne_zero.2 hne)
      have := hpd (fun i => if h : i < N then (v - v') ⟨i, h⟩ else 0) ⟨k, k.isLt, by simpa using hk⟩
      refine this.ne' ?_
      unfold quadForm
      rw [h7, h8, ← Fin.sum_univ_eq_sum_range fun i => ∑ j ∈ range N, _]
      refine Finset.sum_eq_zero fun i _ => ?_
      have hi := congrFun hz i
      rw [Matrix.mulVec, dotProduct] at hi
      rw [← Fin.sum_univ_eq_sum_range fun j => _ * D'.entry i j * (if h : j < N then (v - v') ⟨j, h⟩ else 0)]
      simp only [Fin.is_lt, dite_true, Fin.eta, mul_assoc, ← Finset.mul_sum]
      rw [show ∑ j : Fin N, D'.entry i j * (v - v') j = 0 from hi, mul_zero]
    have hsurj := (LinearMap.injective_iff_surjective (f := Matrix.mulVecLin M)).1 hinj
    obtain ⟨v, hv⟩ := hsurj fun i : Fin N => b'.getD i.val 0
    have hsol : ∀ y : List ℝ, y.length = N → (Solves D' b' (fun i => y.getD i 0) ↔
        M.mulVec (fun i => y.getD i.val 0) = fun i => b'.getD i.val 0) := by
      intro y hy
      unfold Solves
      rw [h7, h8]
      constructor
      · intro h
        funext i
        rw [← h i i.isLt, ← Fin.sum_univ_eq_sum_range fun j => D'.entry i j * y.getD j 0]
        rfl
      · intro h i hi
        have := congrFun h ⟨i, hi⟩
        rw [Matrix.mulVec, dotProduct] at this
        rw [← Fin.sum_univ_eq_sum_range fun j => D'.entry i j * y.getD j 0]
        exact this
    have hxl : (List.ofFn v).length = N := by simp
    have hxs : Solves D' b' fun i => (List.ofFn v).getD i 0 := by
      rw [hsol _ hxl]
      have : (fun i : Fin N => (List.ofFn v).getD i 0) = v := by
        funext i
        simp
      rw [this]
      exact hv
    refine ⟨List.ofFn v, hxl, hxs, (hweak _ hxl).1 hxs, fun y hy hys => ?_⟩
    have hys' : Solves D' b' fun i => y.getD i 0 := hys.elim id fun h => (hweak y hy).2 h
    have := hinj (((hsol y hy).1 hys').trans ((hsol _ hxl).1 hxs).symm)
    refine List.ext_getElem (hy.trans hxl.symm) fun i hi hi' => ?_
    have hi2 := congrFun this ⟨i, hy ▸ hi⟩
    simp only [List.getD_eq_getElem?_getD, List.getElem?_eq_getElem hi, List.getElem?_eq_getElem hi', Option.getD_some] at hi2
    exact hi2

/-- **C78**, reproduction: under the same assumptions, if a finite element function is a solution of the discrete
variational problem (for instance, a solution of the boundary value problem which lies in the finite element space, if the
quadrature is exact for the data), every solution of the linear system has its coefficients. -/
theorem C78_reproduces (u : List ℝ) (hu : u.length = U.dofh.numDofs)
    (hsol : P.DiscreteSolution (U.space T) geo (bvpData p g rules) p u) :
    ∃ A b D, P.system B U T geo = some (A, b) ∧ A.makeDense = some D ∧ ∀ x : List ℝ, x.length = U.dofh.numDofs →
      (Solves D b (fun i => x.getD i 0) ↔ x = u) := by
  obtain ⟨A, b, D, h1, h2, -, -, -, -, x, hx, h3, h4, h5⟩ := C78_unique B T hT p hp U hU hfit geo g rules hM P hR hE hA
    ⟨u, hu, hsol.1⟩
  have hux := h5 u hu (Or.inr hsol)
  subst hux
  exact ⟨A, b, D, h1, h2, fun y hy => ⟨fun h => h5 y hy (Or.inl h), fun h => h ▸ h3⟩⟩

end

end Verif
