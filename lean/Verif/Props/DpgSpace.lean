import Verif.Lemmas.DpgTrace
import Verif.Lemmas.MeshFunction

/-!
# C87, C88: product spaces, their factory, and essential conditions on two components
-/

namespace Verif
open Geo Dpg

variable {K : Type} [Field K]

/-! ## C87 -/

/-- **C87**, histories of a new factory: the indices returned by the methods adding components count from zero, and in
the space that is built afterwards the component with such an index is the one that was added. -/
theorem C87_indices (T : Topo) (l : List (Kind × ℕ)) (F : SpaceFactory K) (is : List ℕ)
    (h : (SpaceFactory.new T).addAll l = some (F, is)) :
    is = List.range l.length ∧
    ∀ F' S, F.build = some (F', S) → S.mesh = T ∧ S.comps.length = l.length ∧
      ∀ (i : ℕ) (k : Kind) (p : ℕ), l[i]? = some (k, p) → ∃ c, S.comps[i]? = some c ∧ compSpec k p = some c := by
  obtain ⟨cs, e1, rfl, rfl⟩ := addAll_spec _ _ _ _ h
  refine ⟨by simp [SpaceFactory.new, List.range_eq_range'], fun F' S hb => ?_⟩
  simp only [SpaceFactory.new, SpaceFactory.build, List.nil_append, Option.map_eq_some_iff, Prod.mk.injEq] at hb
  obtain ⟨S', hS, -, rfl⟩ := hb
  obtain ⟨rfl, rfl, -⟩ := ProductSpace.make_spec hS
  have hf := mapM_forall₂ _ _ _ e1
  refine ⟨rfl, hf.length_eq.symm, fun i k p hi => ?_⟩
  obtain ⟨c, h1, h2⟩ := forall₂_get hf hi
  exact ⟨c, h1, h2⟩

/-- **C87**, all sequences of supported components: they can be added, and the space can be built; its components have
the dof handlers of the respective spaces of polynomials. -/
theorem C87_build (T : Topo) (hT : T.WF) (l : List (Kind × ℕ)) (hl : l ≠ []) (hs : ∀ kp ∈ l, kp.1.supports kp.2) :
    ∃ (F F' : SpaceFactory K) (is : List ℕ) (S : ProductSpace K), (SpaceFactory.new T).addAll l = some (F, is) ∧
      F.build = some (F', S) ∧ S.data.comps.length = l.length ∧
      (∀ (i : ℕ) (k : Kind) (p : ℕ), l[i]? = some (k, p) → ∃ h, S.data.comps[i]? = some h ∧ uniformDofHandler T (k.dofs p) true = some h) ∧
      (S.data.handler T).numDofs = (S.data.comps.map DofHandler.numDofs).sum := by
  obtain ⟨cs, e1, e2⟩ := mapM_of_forall (fun kp : Kind × ℕ => compSpec (K := K) kp.1 kp.2)
    (fun kp c => c.layout = some (kp.1.dofs kp.2)) l fun kp hkp => compSpec_layout kp.1 kp.2 (hs kp hkp)
  obtain ⟨F, is, hF⟩ := addAll_some (SpaceFactory.new T) l cs e1
  obtain ⟨cs', e1', rfl, rfl⟩ := addAll_spec _ _ _ _ hF
  rw [e1] at e1'; cases e1'
  have hm : cs.mapM CompSpec.layout = some (l.map fun kp => kp.1.dofs kp.2) := by
    clear e1 hF hl hs
    induction e2 with
    | nil => rfl
    | cons hab _ ih => simp [List.mapM_cons, hab, ih]
  obtain ⟨hsome, hspec⟩ := C15_construct T hT (l.map fun kp => kp.1.dofs kp.2)
  obtain ⟨D, hD⟩ := Option.isSome_iff_exists.1 (hsome.1 (by simpa using hl))
  obtain ⟨d1, d2, -, d4⟩ := hspec D hD
  have hlen : cs.length ≠ 0 := by
    rw [← e2.length_eq]
    simpa using hl
  refine ⟨_, ⟨T, [], 0 + l.length⟩, _, ⟨T, cs, D⟩, hF, ?_, by simpa using d1, ?_, d4⟩
  · simp only [SpaceFactory.build, SpaceFactory.new, List.nil_append, ProductSpace.make, if_neg hlen, hm, Option.bind_some, hD,
      Option.map_some]
  · intro i k p hi
    exact d2 i _ (by rw [List.getElem?_map, hi]; rfl)

/-- Components of other degrees cannot be added, and a space with a trace component of degree zero cannot be built. -/
theorem C87_unsupported (F : SpaceFactory K) (k : Kind) (p : ℕ) (h : ¬ k.supports p) :
    F.add k p = none ∨
    k = .trace ∧ p = 0 ∧ ∃ F' i, F.add k p = some (F', i) ∧ F'.build = none := by
  have key : ∀ r : RefEl, r ≠ .point → 3 < p → (referenceFE r p : Option (RefFE K)) = none := by
    intro r hr hp
    match p, hp with
    | p + 4, _ => cases r <;> first | rfl | exact absurd rfl hr
  by_cases h3 : 3 < p
  · left
    have h1 := key .tria (by decide) h3
    have h2 := key .segment (by decide) h3
    cases k <;> simp [SpaceFactory.add, compSpec, h1, h2]
  · have h3' : p ≤ 3 := by omega
    cases k with
    | h1 =>
      left
      have : p = 0 := by simp only [Kind.supports] at h; omega
      simp [SpaceFactory.add, compSpec, this]
    | l2 => exact absurd h3' h
    | flux => exact absurd h3' h
    | trace =>
      right
      have : p = 0 := by simp only [Kind.supports] at h; omega
      subst this
      refine ⟨rfl, rfl, _, _, rfl, ?_⟩
      simp only [SpaceFactory.build, Option.map_eq_none_iff, ProductSpace.make]
      rw [if_neg (by simp)]
      simp only [List.mapM_append, Option.bind_eq_bind, Option.bind_eq_none_iff]
      intro ls h
      exfalso
      simp only [List.mapM_cons, Option.bind_eq_bind, Option.bind_eq_some_iff, List.mapM_nil] at h
      obtain ⟨a, -, b, ⟨c, hc, -⟩, -⟩ := h
      have : CompSpec.layout (K := K) _ = none := (rfl : CompSpec.layout (K := K) ⟨traceFE (constFE .tria [1 / 3, 1 / 3]),
        traceFE (constFE .quad [1 / 2, 1 / 2]), some (constFE .segment [1 / 2]), none⟩ = none)
      exact absurd (this.symm.trans hc) (by simp)

/-- The property fails for a factory which is used again after `Build()`: the new space does not contain the old
components, but the returned indices go on counting, so that the `i`-th new component has the returned index
`n + i` if `n` components were added for the first space. -/
theorem C87_reuse_not (T : Topo) (l l' : List (Kind × ℕ)) (F F1 F2 F3 : SpaceFactory K) (is is' : List ℕ) (S S' : ProductSpace K)
    (h : (SpaceFactory.new T).addAll l = some (F, is)) (hb : F.build = some (F1, S))
    (h' : F1.addAll l' = some (F2, is')) (hb' : F2.build = some (F3, S')) :
    S'.comps.length = l'.length ∧ is' = (List.range l'.length).map (l.length + ·) := by
  obtain ⟨cs, e1, rfl, rfl⟩ := addAll_spec _ _ _ _ h
  simp only [SpaceFactory.build, Option.map_eq_some_iff, Prod.mk.injEq] at hb
  obtain ⟨_, -, rfl, -⟩ := hb
  obtain ⟨cs', e1', rfl, rfl⟩ := addAll_spec _ _ _ _ h'
  simp only [SpaceFactory.build, List.nil_append, Option.map_eq_some_iff, Prod.mk.injEq] at hb'
  obtain ⟨S2, hS, -, rfl⟩ := hb'
  obtain ⟨-, hc, -⟩ := ProductSpace.make_spec hS
  refine ⟨?_, ?_⟩
  · rw [hc]; exact (mapM_forall₂ _ _ _ e1').length_eq.symm
  · simp [SpaceFactory.new, List.range'_eq_map_range]

/-- **C87**, the space of a component: whenever `ComponentFESpace` returns, its dof handler numbers the dofs like
the product space does, up to the offset. -/
theorem C87_component_handler (T : Topo) (hT : T.WF) (comps : List (CompSpec K)) (S : ProductSpace K)
    (hS : ProductSpace.make T comps = some S) (i : ℕ) (U : UniformFESpace K) (hU : S.componentFESpace i = some U) :
    S.data.comps[i]? = some U.dofh ∧
      ∃ off, S.data.offset i = some off ∧ off + U.dofh.numDofs ≤ (S.data.handler T).numDofs := by
  obtain ⟨rfl, rfl, ls, h1, h2⟩ := ProductSpace.make_spec hS
  unfold ProductSpace.componentFESpace at hU
  rw [Option.bind_eq_some_iff] at hU
  obtain ⟨c, hc, hm⟩ := hU
  obtain ⟨l, hl, hd, -⟩ := make_layout hm
  obtain ⟨l', hl', e⟩ := forall₂_get (mapM_forall₂ _ _ _ h1) hc
  rw [hl] at e; cases e
  obtain ⟨d1, d2, d3, d4⟩ := (C15_construct S.mesh hT ls).2 _ h2
  obtain ⟨h, g1, g2⟩ := d2 i l hl'
  rw [hd] at g2; cases g2
  refine ⟨g1, _, d3 i ?_, ?_⟩
  · exact (List.getElem?_eq_some_iff.1 hl').1.le
  · rw [d4, ← List.take_append_drop i S.data.comps, List.map_append, List.sum_append]
    obtain ⟨hi, hi'⟩ := List.getElem?_eq_some_iff.1 g1
    rw [List.take_append_of_le_length (by simp; omega), List.take_take, Nat.min_self, List.drop_eq_getElem_cons hi, hi',
      List.map_cons, List.sum_cons]
    omega

/-- **C87** for the components made by the factory, except fluxes: `ComponentFESpace` returns. -/
theorem C87_component_partial (T : Topo) (hT : T.WF) (S : ProductSpace K) (hm : S.mesh = T) (i : ℕ) (k : Kind) (p : ℕ)
    (hk : k ≠ .flux) (hs : k.supports p) (hc : S.comps[i]? = compSpec k p) :
    ∃ U, S.componentFESpace i = some U ∧ uniformDofHandler T (k.dofs p) true = some U.dofh := by
  obtain ⟨h, hh, -⟩ := C09_uniform T hT (k.dofs p) true
  obtain ⟨c, hc1, hc2⟩ := compSpec_layout (K := K) k p hs
  rw [hc1] at hc
  have : ∃ U, UniformFESpace.make T c.tria c.quad c.edge c.point = some U := by
    refine componentMake_some hc2 hh ?_
    cases k with
    | flux => exact absurd rfl hk
    | h1 => obtain ⟨a, b⟩ := hs; interval_cases p <;> cases hc1 <;> rfl
    | l2 => simp only [Kind.supports] at hs; interval_cases p <;> cases hc1 <;> rfl
    | trace => obtain ⟨a, b⟩ := hs; interval_cases p <;> cases hc1 <;> rfl
  obtain ⟨U, hU⟩ := this
  obtain ⟨l, e1, e2, -⟩ := make_layout hU
  rw [hc2] at e1; cases e1
  refine ⟨U, ?_, e2⟩
  rw [ProductSpace.componentFESpace, hc, hm]
  exact hU

/-- The property fails for fluxes: `ComponentFESpace` throws, on every mesh. -/
theorem C87_flux_not (S : ProductSpace K) (i p : ℕ) (hs : p ≤ 3) (hc : S.comps[i]? = compSpec .flux p) :
    S.componentFESpace i = none := by
  rw [ProductSpace.componentFESpace, hc]
  interval_cases p <;> rfl

/-- **C87**, traces: on the boundary of the reference cell the shape functions that are dropped by the trace element
vanish, and the others are those of the continuous element of the same degree. -/
theorem C87_trace [CharZero K] (p : ℕ) (hp : 1 ≤ p ∧ p ≤ 3) (r : RefEl) (hr : r = .tria ∨ r = .quad) (j : ℕ)
    (hj : j < r.numNodes) (s : K) :
    ∃ fe t v v', referenceFE r p = some fe ∧ traceFE fe = some t ∧ fe.eval (sidePoint r j s) = some v ∧
      t.eval (sidePoint r j s) = some v' ∧ v'.length = t.num ∧ t.num = r.numNodes * p ∧
      v = v' ++ List.replicate (fe.num - t.num) 0 := by
  obtain ⟨h1, h3⟩ := hp
  rcases hr with rfl | rfl <;> change j < _ at hj <;> simp only [RefEl.numNodes] at hj <;> interval_cases p <;>
    interval_cases j <;>
    simp only [sideTria0, sideTria1, sideTria2, sideQuad0, sideQuad1, sideQuad2, sideQuad3] <;>
    refine ⟨_, _, _, _, rfl, rfl, rfl, rfl, rfl, rfl, ?_⟩
  all_goals
    simp [lagrO1Tria, lagrO2Tria, lagrO3Tria, lagrO1Quad, lagrO2Quad, lagrO3Quad]

/-- **C87**, continuity: functions of a continuous component, and of a trace component on the boundaries of cells, have
the same values on an edge whether they are evaluated on the edge or on one of the adjacent cells. -/
theorem C87_conforming [CharZero K] (T : Topo) (hT : T.WF) (S : ProductSpace K) (hm : S.mesh = T) (i : ℕ) (k : Kind) (p : ℕ)
    (hk : k = .h1 ∨ k = .trace) (hs : k.supports p) (hc : S.comps[i]? = compSpec k p) :
    ∃ U, S.componentFESpace i = some U ∧ (U.space T).MatchesEdges ∧ (U.space T).ContinuousAcrossEdges := by
  obtain ⟨U, hU, hd⟩ := C87_component_partial T hT S hm i k p (by rcases hk with rfl | rfl <;> decide) hs hc
  have hU' := hU
  rw [ProductSpace.componentFESpace, hc, hm] at hU'
  have hp : 1 ≤ p ∧ p ≤ 3 := by rcases hk with rfl | rfl <;> exact hs
  have hme : (U.space T).MatchesEdges := by
    refine matchesEdges_point T hT U (some (lagrFE p .point)) ?_
    have hr := fun r => referenceFE_lagr (K := K) p hp r
    rw [Option.bind_eq_some_iff] at hU'
    obtain ⟨c, hc1, hc2⟩ := hU'
    obtain ⟨-, -, -, ut, uq, ue, -⟩ := make_layout hc2
    rcases hk with rfl | rfl
    · simp only [compSpec, if_pos (show p > 0 by omega), hr, Option.bind_some] at hc1
      cases hc1
      obtain ⟨cnt, hcf⟩ := uniform_conforming T hT _ U.dofh hd { U with point := some (lagrFE p .point) } rfl rfl _ _ _ _
        rfl ue ut uq (by simp [lagrFE, fePoint]) (lagrFE_endPoints p hp) (fun ori => lagrFE_conforms p hp .tria (.inl rfl) ori)
        (fun ori => lagrFE_conforms p hp .quad (.inr rfl) ori)
      exact hcf.matchesEdges
    · simp only [compSpec, hr, Option.bind_some] at hc1
      rw [Option.bind_eq_some_iff] at hc1
      obtain ⟨t, ht, hc1⟩ := hc1
      rw [Option.bind_eq_some_iff] at hc1
      obtain ⟨q, hq, hc1⟩ := hc1
      cases hc1
      obtain ⟨cnt, hcf⟩ := uniform_conforming T hT _ U.dofh hd { U with point := some (lagrFE p .point) } rfl rfl _ _ _ _
        rfl ue ut uq (by simp [lagrFE, fePoint]) (lagrFE_endPoints p hp)
        (fun ori => traceFE_conforms p hp .tria (.inl rfl) ori t ht)
        (fun ori => traceFE_conforms p hp .quad (.inr rfl) ori q hq)
      exact hcf.matchesEdges
  exact ⟨U, hU, hme, hme.continuous⟩

/-- A factory history: a continuous component, a flux, a trace and a discontinuous component. -/
example : ∃ (F F' : SpaceFactory ℚ) (S : ProductSpace ℚ),
    (SpaceFactory.new sampleTopo).addAll [(.h1, 2), (.flux, 1), (.trace, 2), (.l2, 0)] = some (F, [0, 1, 2, 3]) ∧
    F.build = some (F', S) ∧ (S.data.handler sampleTopo).numDofs = 37 ∧ S.data.offset 2 = some 24 ∧
    (S.componentFESpace 2).isSome ∧ (S.componentFESpace 1).isNone ∧
    (F'.addAll [(.h1, 1)]).map (fun r => (r.1.comps.length, r.2)) = some (1, [4]) := by
  refine ⟨_, _, _, rfl, rfl, by decide +kernel, by decide +kernel, by decide +kernel, by decide +kernel, by decide +kernel⟩

/-! ## C88 -/

/-- **C88**, for all meshes, product spaces, components, selections of edges and functions for which the component spaces
and the conditions on them can be computed: there is one entry for each dof of the product space; those of the trace
component are the entries computed for the first condition on the component space, those of the flux component are the
entries computed for the second one, and no other dof is flagged. -/
theorem C88_partial (T : Topo) (hT : T.WF) (comps : List (CompSpec K)) (S : ProductSpace K)
    (hS : ProductSpace.make T comps = some S) (i j : ℕ) (hij : i ≠ j) (U V : UniformFESpace K)
    (hU : S.componentFESpace i = some U) (hV : S.componentFESpace j = some V) (dirichlet neumann : ℕ → Bool)
    (g h : MeshFn K K) (F G : List (Bool × K))
    (hF : initEssentialCondition (U.space T) dirichlet g = some F)
    (hG : initEssentialCondition (V.space T) neumann h = some G) :
    ∃ R, initEssentialConditions S i j dirichlet neumann g h = some R ∧
      R.length = (S.data.handler T).numDofs ∧
      ∀ k o dh, S.data.offset k = some o → S.data.comps[k]? = some dh → ∀ d < dh.numDofs,
        R[o + d]? = if k = i then F[d]? else if k = j then G[d]? else some (false, 0) := by
  have hFl : F.length = U.dofh.numDofs := initEssentialCondition_length hF
  have hGl : G.length = V.dofh.numDofs := initEssentialCondition_length hG
  obtain ⟨u1, oi, u2, u3⟩ := C87_component_handler T hT comps S hS i U hU
  obtain ⟨v1, oj, v2, v3⟩ := C87_component_handler T hT comps S hS j V hV
  obtain ⟨rfl, rfl, ls, h1, h2⟩ := ProductSpace.make_spec hS
  obtain ⟨R1, a1, a2, a3⟩ := copy_spec F oi (List.replicate (S.data.handler S.mesh).numDofs (false, 0)) U.dofh.numDofs
    hFl.ge (by simpa using u3)
  obtain ⟨R2, b1, b2, b3⟩ := copy_spec G oj R1 V.dofh.numDofs hGl.ge (by rw [a2]; simpa using v3)
  refine ⟨R2, ?_, by rw [b2, a2]; simp, ?_⟩
  · unfold initEssentialConditions
    rw [if_pos hij, hU, Option.bind_some, hV, Option.bind_some, hF, Option.bind_some, hG, Option.bind_some, u2,
      Option.bind_some, v2, Option.bind_some, a1, Option.bind_some, b1]
  · intro k o dh ho hk d hd
    obtain ⟨d1, -, d3, d4⟩ := (C15_construct S.mesh hT ls).2 _ h2
    have hkl : ∀ {m : ℕ} {dm : DofHandler}, S.data.comps[m]? = some dm → m < S.data.comps.length := fun hm =>
      (List.getElem?_eq_some_iff.1 hm).1
    have hlt : o + d < (S.data.handler S.mesh).numDofs := by
      have := d3 k (by have := hkl hk; omega)
      rw [ho] at this; cases this
      obtain ⟨hi, hi'⟩ := List.getElem?_eq_some_iff.1 hk
      rw [d4, ← List.take_append_drop k S.data.comps, List.map_append, List.sum_append,
        List.take_append_of_le_length (by simp; omega), List.take_take, Nat.min_self, List.drop_eq_getElem_cons hi, hi',
        List.map_cons, List.sum_cons]
      omega
    obtain ⟨kk, hh, oo, -, c2, c3, c4, c5, c6⟩ := C15_component S.mesh hT ls S.data h2 (o + d) hlt
    have hkk : k = kk := c6 k dh o hk ho (by omega) (by omega)
    subst hkk
    -- the ranges of the components are disjoint
    have key : ∀ {m : ℕ} {dm : DofHandler} {om : ℕ}, S.data.comps[m]? = some dm → S.data.offset m = some om →
        ((om ≤ o + d ∧ o + d < om + dm.numDofs) ↔ k = m) := by
      intro m dm om hm1 hm2
      constructor
      · rintro ⟨x, y⟩
        exact (c6 m dm om hm1 hm2 x (by omega)).symm
      · rintro rfl
        rw [hk] at hm1; cases hm1
        rw [ho] at hm2; cases hm2
        omega
    rw [b3, a3]
    by_cases hki : k = i
    · subst hki
      rw [if_neg (by rw [key v1 v2]; exact hij), if_pos ((key u1 u2).2 rfl), if_pos rfl]
      rw [ho] at u2; cases u2
      rw [Nat.add_sub_cancel_left]
    · rw [if_neg (show ¬ (oi ≤ o + d ∧ o + d < oi + U.dofh.numDofs) by rw [key u1 u2]; exact hki), if_neg hki]
      by_cases hkj : k = j
      · subst hkj
        rw [if_pos ((key v1 v2).2 rfl), if_pos rfl]
        rw [ho] at v2; cases v2
        rw [Nat.add_sub_cancel_left]
      · rw [if_neg (by rw [key v1 v2]; exact hkj), if_neg hkj]
        simp [hlt]

/-- The two components have to be different. -/
theorem C88_same (S : ProductSpace K) (i : ℕ) (dirichlet neumann : ℕ → Bool) (g h : MeshFn K K) :
    initEssentialConditions S i i dirichlet neumann g h = none := by
  simp [initEssentialConditions]

/-- The property fails where it is needed: if the flux component was made by `AddFluxComponent`, the call throws, whatever
the mesh, the other components, the selected edges and the functions are. -/
theorem C88_flux_not (S : ProductSpace K) (i j p : ℕ) (hp : p ≤ 3) (hj : S.comps[j]? = compSpec .flux p)
    (dirichlet neumann : ℕ → Bool) (g h : MeshFn K K) :
    initEssentialConditions S i j dirichlet neumann g h = none := by
  unfold initEssentialConditions
  split_ifs with hij
  · cases S.componentFESpace i with
    | none => rfl
    | some U => rw [Option.bind_some, C87_flux_not S j p hp hj]; rfl
  · rfl

/-- With two trace components the conditions can be computed: the function `1` on the edges 0 and 1 for one component
and the function `2` on edge 2 for the other one. -/
example : ∃ (F F' : SpaceFactory ℚ) (S : ProductSpace ℚ),
    (SpaceFactory.new sampleTopo).addAll [(.l2, 0), (.trace, 1), (.trace, 2)] = some (F, [0, 1, 2]) ∧
    F.build = some (F', S) ∧
    initEssentialConditions S 1 2 (fun e => e == 0 || e == 1) (fun e => e == 2)
      (fun _ xs => some (xs.map fun _ => 1)) (fun _ xs => some (xs.map fun _ => 2)) =
    some ((List.range 18).map fun d => if d ∈ [2, 3, 4] then (true, 1) else if d ∈ [7, 9, 14] then (true, 2) else
      (false, 0)) := by
  refine ⟨_, _, _, rfl, rfl, by decide +kernel⟩

end Verif
