import Verif.Spec.DpgFlux
import Verif.Props.DpgExact
import Mathlib.Analysis.SpecialFunctions.Integrals.Basic

/-!
# C92: are fluxes on the edges of a mesh single-valued?
-/

namespace Verif
open Geo Finset Dpg

private theorem side_part (T : Topo) (hT : T.WF) (p : ℕ) (h : DofHandler)
    (hh : uniformDofHandler T (Kind.flux.dofs p) true = some h) (c : ℕ) (hc : c < T.numCells) (s : ℕ)
    (hs : s < (T.cell c).edges.length) (u : ℕ → ℝ) :
    (h.own (1, (T.cell c).edges.getD s 0)).length = p + 1 ∧
    sidePart (p + 1) ((h.all (0, c)).map u) s = (h.edgeSection T c s).map u := by
  obtain ⟨h', e1, -, -, e2⟩ := C09_uniform T hT (Kind.flux.dofs p) true
  rw [hh] at e1
  cases e1
  have hnode : ∀ v ∈ (T.cell c).nodes, (h.own (2, v)).length = 0 := fun v hv => by
    have hv' : v < T.numNodes := hT.cell_nodes c hc v hv
    exact e2 (2, v) .point ⟨le_rfl, hv'⟩ (by simp only [Topo.refEl]; exact if_pos hv')
  have hedge : ∀ e ∈ (T.cell c).edges, (h.own (1, e)).length = p + 1 := fun e he => by
    have he' : e < T.numEdges := hT.cell_edges c hc e he
    exact e2 (1, e) .segment ⟨by simp, he'⟩ (by simp only [Topo.refEl]; exact if_pos he')
  have hmem : (T.cell c).edges.getD s 0 ∈ (T.cell c).edges := by
    rw [List.getD_eq_getElem _ _ hs]
    exact List.getElem_mem hs
  refine ⟨hedge _ hmem, ?_⟩
  have k1 : ((T.cell c).nodes.map fun v => (h.own (2, v)).length).sum = 0 := by
    refine List.sum_eq_zero fun x hx => ?_
    rw [List.mem_map] at hx
    obtain ⟨v, hv, rfl⟩ := hx
    exact hnode v hv
  have k2 : (((T.cell c).edges.take s).map fun e => (h.own (1, e)).length).sum = s * (p + 1) := by
    have : ((T.cell c).edges.take s).map (fun e => (h.own (1, e)).length) = List.replicate s (p + 1) := by
      rw [List.eq_replicate_iff]
      refine ⟨by simp; omega, fun x hx => ?_⟩
      rw [List.mem_map] at hx
      obtain ⟨e, he, rfl⟩ := hx
      exact hedge e (List.mem_of_mem_take he)
    rw [this, List.sum_replicate, smul_eq_mul]
  rw [sidePart, DofHandler.edgeSection, k1, k2, zero_add, hedge _ hmem, List.map_take, List.map_drop]

/-- What a cell sees of a flux in the direction of the edge. -/
private theorem flux_walk (T : Topo) (hT : T.WF) (p : ℕ) (h : DofHandler)
    (hh : uniformDofHandler T (Kind.flux.dofs p) true = some h) (fe : RefFE ℝ) (hn : fe.num = p + 1) (c : ℕ) (hc : c < T.numCells)
    (s : ℕ) (hs : s < (T.cell c).edges.length) (u : ℕ → ℝ) (t : ℝ) :
    fluxAt h fe u c s t = comb fe (if (T.cell c).ori.getD s false then (h.own (1, (T.cell c).edges.getD s 0)).map u
      else ((h.own (1, (T.cell c).edges.getD s 0)).map u).reverse) [t] := by
  rw [fluxAt, hn, (side_part T hT p h hh c hc s hs u).2]
  have := (C12_uniform T hT _ h hh).2 c hc s hs
  rw [DofHandler.edgeWalk] at this
  cases ho : (T.cell c).ori.getD s false with
  | true =>
    rw [ho, if_pos rfl] at this
    rw [this, if_pos rfl]
  | false =>
    rw [ho, if_neg (by simp)] at this
    rw [if_neg (by simp), ← this, List.map_reverse, List.reverse_reverse]

private theorem flux_elements (p : ℕ) (cs : CompSpec ℝ) (hp : compSpec .flux p = some cs) (fe : RefFE ℝ) (hf : cs.edge = some fe) :
    p = 0 ∧ fe = discontinuousFE (constFE .segment [1 / 2]) ∨ p = 1 ∧ fe = discontinuousFE lagrO1Segment ∨
    p = 2 ∧ fe = discontinuousFE lagrO2Segment ∨ p = 3 ∧ fe = discontinuousFE lagrO3Segment := by
  match p, hp with
  | 0, hp => cases hp; cases hf; exact .inl ⟨rfl, rfl⟩
  | 1, hp => cases hp; cases hf; exact .inr (.inl ⟨rfl, rfl⟩)
  | 2, hp => cases hp; cases hf; exact .inr (.inr (.inl ⟨rfl, rfl⟩))
  | 3, hp => cases hp; cases hf; exact .inr (.inr (.inr ⟨rfl, rfl⟩))

private theorem comb_one (a b t : ℝ) : comb (discontinuousFE lagrO1Segment) [a, b] [t] = a * (1 - t) + b * t := by
  change (∑ i : Fin 2, [a, b].getD i.val 0 * (discontinuousFE lagrO1Segment).shape i.val [t]) = _
  rw [Fin.sum_univ_two]
  rfl

private theorem comb_two (a b c t : ℝ) : comb (discontinuousFE lagrO2Segment) [a, b, c] [t] =
    a * (2 * (1 - t) * (1 / 2 - t)) + b * (2 * t * (t - 1 / 2)) + c * (4 * (1 - t) * t) := by
  change (∑ i : Fin 3, [a, b, c].getD i.val 0 * (discontinuousFE lagrO2Segment).shape i.val [t]) = _
  rw [Fin.sum_univ_three]
  rfl

private theorem comb_three (a b c d t : ℝ) : comb (discontinuousFE lagrO3Segment) [a, b, c, d] [t] =
    a * (9 / 2 * (1 - t) * (1 / 3 - t) * (2 / 3 - t)) + b * (9 / 2 * t * (t - 1 / 3) * (t - 2 / 3)) +
      c * (27 / 2 * t * (1 - t) * (2 / 3 - t)) + d * (27 / 2 * t * (1 - t) * (t - 1 / 3)) := by
  change (∑ i : Fin 4, [a, b, c, d].getD i.val 0 * (discontinuousFE lagrO3Segment).shape i.val [t]) = _
  rw [Fin.sum_univ_four]
  rfl

private theorem int_cubic (f : ℝ → ℝ) (a b c d : ℝ) (h : ∀ x, f x = a + b * x + c * x ^ 2 + d * x ^ 3) :
    ∫ x in (0 : ℝ)..1, f x = a + b / 2 + c / 3 + d / 4 := by
  have e : f = fun x => ∑ i ∈ range 4, [a, b, c, d].getD i 0 * x ^ i := by
    funext x
    rw [h, sum_range_succ, sum_range_succ, sum_range_succ, sum_range_succ, sum_range_zero]
    simp
  rw [e, intervalIntegral.integral_finsetSum fun a _ => (by fun_prop : Continuous _).intervalIntegrable _ _]
  simp_rw [intervalIntegral.integral_const_mul, int_pow]
  rw [sum_range_succ, sum_range_succ, sum_range_succ, sum_range_succ, sum_range_zero]
  simp
  ring

private theorem comb_rev (p : ℕ) (hp1 : p ≤ 1) (cs : CompSpec ℝ) (hp : compSpec .flux p = some cs) (fe : RefFE ℝ)
    (hf : cs.edge = some fe) (l : List ℝ) (hl : l.length = p + 1) (t : ℝ) : comb fe l.reverse [1 - t] = comb fe l [t] := by
  rcases flux_elements p cs hp fe hf with ⟨rfl, rfl⟩ | ⟨rfl, rfl⟩ | ⟨rfl, -⟩ | ⟨rfl, -⟩
  · match l, hl with
    | [a], _ => rfl
  · match l, hl with
    | [a, b], _ =>
      change comb _ [b, a] [1 - t] = _
      rw [comb_one, comb_one]
      ring
  · omega
  · omega

private theorem signs_opposite (m : MeshObj) (hT : m.topo.Conforming) (hN : m.topo.numCells ≤ 2 ^ 31) (c : ℕ)
    (hc : c < m.topo.numCells) (c' : ℕ) (hc' : c' < m.topo.numCells) (hne : c ≠ c') (s : ℕ)
    (hs : s < (m.topo.cell c).edges.length) (s' : ℕ) (hs' : s' < (m.topo.cell c').edges.length)
    (he : (m.topo.cell c).edges.getD s 0 = (m.topo.cell c').edges.getD s' 0) :
    edgeSign m.topo c ((m.topo.cell c).edges.getD s 0) + edgeSign m.topo c' ((m.topo.cell c').edges.getD s' 0) = 0 := by
  obtain ⟨d, h1, h2⟩ := C85_sign m hT.wf hN
  obtain ⟨d', h1', h2'⟩ := C85_opposite m hT hN
  rw [h1] at h1'
  cases h1'
  have hm : (m.topo.cell c).edges.getD s 0 ∈ (m.topo.cell c).edges := by
    rw [List.getD_eq_getElem _ _ hs]; exact List.getElem_mem hs
  have hm' : (m.topo.cell c').edges.getD s' 0 ∈ (m.topo.cell c').edges := by
    rw [List.getD_eq_getElem _ _ hs']; exact List.getElem_mem hs'
  have key : ∀ c < m.topo.numCells, ∀ e ∈ (m.topo.cell c).edges,
      prescribedSign d ⟨m.id, (0, c)⟩ ⟨m.id, (1, e)⟩ = some (edgeSign m.topo c e) := by
    intro c hc e he
    obtain ⟨σ, hσ, ⟨rfl, k⟩ | ⟨rfl, k, k1, k2, k3⟩⟩ := h2 c hc e he
    · rw [hσ, edgeSign, if_neg]
      rintro ⟨k', k1, k2, k3⟩
      have := k k' k1 k2
      omega
    · rw [hσ, edgeSign, if_pos ⟨k, k1, k2, k3⟩]
  rw [← he] at hm' ⊢
  obtain ⟨σ, σ', e1, e2, e3⟩ := h2' c hc c' hc' hne _ hm hm'
  rw [key c hc _ hm] at e1
  rw [key c' hc' _ hm'] at e2
  cases e1
  cases e2
  rcases e3 with ⟨e3, e4⟩ | ⟨e3, e4⟩ <;> rw [e3, e4] <;> rfl

/-- **C92**, for fluxes of degree zero and one: on all meshes, adjacent cells see the same flux in all points of the common
edge.  This is false for degrees two and three, see `C92_not`. -/
theorem C92_single_valued_partial (T : Topo) (hT : T.WF) (p : ℕ) (hp1 : p ≤ 1) (cs : CompSpec ℝ) (hp : compSpec .flux p = some cs)
    (fe : RefFE ℝ) (hf : cs.edge = some fe) (h : DofHandler) (hh : uniformDofHandler T (Kind.flux.dofs p) true = some h) :
    FluxSingleValued T h fe := by
  have hn : fe.num = p + 1 := by
    rcases flux_elements p cs hp fe hf with ⟨rfl, rfl⟩ | ⟨rfl, rfl⟩ | ⟨rfl, rfl⟩ | ⟨rfl, rfl⟩ <;> rfl
  have key : ∀ c < T.numCells, ∀ s < (T.cell c).edges.length, ∀ u t, fluxAt h fe u c s (sideParam T c s t) =
      comb fe ((h.own (1, (T.cell c).edges.getD s 0)).map u) [t] := by
    intro c hc s hs u t
    rw [flux_walk T hT p h hh fe hn c hc s hs u, sideParam]
    cases (T.cell c).ori.getD s false with
    | true => rfl
    | false =>
      refine comb_rev p hp1 cs hp fe hf _ ?_ t
      rw [List.length_map]
      exact (side_part T hT p h hh c hc s hs u).1
  intro c hc c' hc' s hs s' hs' he u t
  rw [key c hc s hs, key c' hc' s' hs', he]

/-- **C92**, negation of the full property: for fluxes of degree two and three, whenever two cells traverse a common edge in
different directions, they see different fluxes for some coefficients. -/
theorem C92_not (T : Topo) (hT : T.WF) (p : ℕ) (hp2 : 2 ≤ p) (cs : CompSpec ℝ) (hp : compSpec .flux p = some cs)
    (fe : RefFE ℝ) (hf : cs.edge = some fe) (h : DofHandler) (hh : uniformDofHandler T (Kind.flux.dofs p) true = some h)
    (c : ℕ) (hc : c < T.numCells) (c' : ℕ) (hc' : c' < T.numCells) (s : ℕ) (hs : s < (T.cell c).edges.length) (s' : ℕ)
    (hs' : s' < (T.cell c').edges.length) (he : (T.cell c).edges.getD s 0 = (T.cell c').edges.getD s' 0)
    (ho : (T.cell c).ori.getD s false ≠ (T.cell c').ori.getD s' false) :
    ¬ FluxSingleValued T h fe ∧
    ∃ u, ∫ t in (0 : ℝ)..1, fluxAt h fe u c s t ≠ ∫ t in (0 : ℝ)..1, fluxAt h fe u c' s' t := by
  have hn : fe.num = p + 1 := by
    rcases flux_elements p cs hp fe hf with ⟨rfl, rfl⟩ | ⟨rfl, rfl⟩ | ⟨rfl, rfl⟩ | ⟨rfl, rfl⟩ <;> rfl
  -- in one direction and in the other
  have hmem : (1, (T.cell c).edges.getD s 0).2 < T.numEdges := hT.cell_edges c hc _ (by
    rw [List.getD_eq_getElem _ _ hs]; exact List.getElem_mem hs)
  have hnd : (h.own (1, (T.cell c).edges.getD s 0)).Nodup := by
    obtain ⟨-, hL, hD⟩ := C11_uniform T hT _ h hh
    have := (hD (1, (T.cell c).edges.getD s 0) ⟨by simp, hmem⟩).2 (fun h => absurd h (by simp))
    rw [hL.2.1 _ hmem] at this
    exact (List.nodup_append.mp this).2.1
  have hlen := fun u => (side_part T hT p h hh c hc s hs u).1
  obtain ⟨u, hu⟩ : ∃ u : ℕ → ℝ, ∫ t in (0 : ℝ)..1, comb fe ((h.own (1, (T.cell c).edges.getD s 0)).map u) [t] ≠
      ∫ t in (0 : ℝ)..1, comb fe ((h.own (1, (T.cell c).edges.getD s 0)).map u).reverse [t] := by
    have hl := hlen fun _ => 0
    generalize h.own (1, (T.cell c).edges.getD s 0) = l at hl hnd
    rcases flux_elements p cs hp fe hf with ⟨rfl, rfl⟩ | ⟨rfl, rfl⟩ | ⟨rfl, rfl⟩ | ⟨rfl, rfl⟩
    · omega
    · omega
    · match l, hl with
      | [a, b, c], _ =>
        refine ⟨fun i => if i = a then 1 else 0, ?_⟩
        simp only [List.nodup_cons, List.mem_cons, List.not_mem_nil, or_false, not_or] at hnd
        obtain ⟨⟨h1, h2⟩, -⟩ := hnd
        simp only [List.map_cons, List.map_nil, if_true, if_neg (Ne.symm h1), if_neg (Ne.symm h2), List.reverse_cons, List.reverse_nil,
          List.nil_append, List.cons_append]
        rw [int_cubic _ 1 (-3) 2 0 fun x => by rw [comb_two]; ring, int_cubic _ 0 4 (-4) 0 fun x => by rw [comb_two]; ring]
        norm_num
    · match l, hl with
      | [a, b, c, d], _ =>
        refine ⟨fun i => if i = a then 1 else 0, ?_⟩
        simp only [List.nodup_cons, List.mem_cons, List.not_mem_nil, or_false, not_or] at hnd
        obtain ⟨⟨h1, h2, h3⟩, -⟩ := hnd
        simp only [List.map_cons, List.map_nil, if_true, if_neg (Ne.symm h1), if_neg (Ne.symm h2), if_neg (Ne.symm h3),
          List.reverse_cons, List.reverse_nil, List.nil_append, List.cons_append]
        rw [int_cubic _ 1 (-11 / 2) 9 (-9 / 2) fun x => by rw [comb_three]; ring,
          int_cubic _ 0 (-9 / 2) 18 (-27 / 2) fun x => by rw [comb_three]; ring]
        norm_num
  have key : ∃ u, ∫ t in (0 : ℝ)..1, fluxAt h fe u c s t ≠ ∫ t in (0 : ℝ)..1, fluxAt h fe u c' s' t := by
    refine ⟨u, ?_⟩
    simp only [flux_walk T hT p h hh fe hn c hc s hs u, flux_walk T hT p h hh fe hn c' hc' s' hs' u, ← he]
    cases h1 : (T.cell c).ori.getD s false <;> cases h2 : (T.cell c').ori.getD s' false
    · exact absurd (h1.trans h2.symm) ho
    · exact hu.symm
    · exact hu
    · exact absurd (h1.trans h2.symm) ho
  refine ⟨fun hsv => ?_, key⟩
  obtain ⟨u, hu⟩ := key
  refine hu ?_
  have tr : ∀ c s, ∫ t in (0 : ℝ)..1, fluxAt h fe u c s (sideParam T c s t) = ∫ t in (0 : ℝ)..1, fluxAt h fe u c s t := by
    intro c s
    unfold sideParam
    cases (T.cell c).ori.getD s false with
    | true => rfl
    | false =>
      simp
  rw [← tr c s, ← tr c' s']
  exact intervalIntegral.integral_congr fun t _ => hsv c hc c' hc' s hs s' hs' he u t

/-- **C92**, conservation, for fluxes of degree zero and one: on all conforming meshes, the fluxes out of two adjacent cells
through the common edge, with the signs used by the provider, cancel.  By `C92_conservation_not` this is false for degrees
two and three. -/
theorem C92_conservation_partial (m : MeshObj) (hT : m.topo.Conforming) (hN : m.topo.numCells ≤ 2 ^ 31) (p : ℕ) (hp1 : p ≤ 1)
    (cs : CompSpec ℝ) (hp : compSpec .flux p = some cs) (fe : RefFE ℝ) (hf : cs.edge = some fe) (h : DofHandler)
    (hh : uniformDofHandler m.topo (Kind.flux.dofs p) true = some h) (c : ℕ) (hc : c < m.topo.numCells) (c' : ℕ)
    (hc' : c' < m.topo.numCells) (hne : c ≠ c') (s : ℕ) (hs : s < (m.topo.cell c).edges.length) (s' : ℕ)
    (hs' : s' < (m.topo.cell c').edges.length) (he : (m.topo.cell c).edges.getD s 0 = (m.topo.cell c').edges.getD s' 0) (u : ℕ → ℝ) :
    edgeSign m.topo c ((m.topo.cell c).edges.getD s 0) * (∫ t in (0 : ℝ)..1, fluxAt h fe u c s t) +
      edgeSign m.topo c' ((m.topo.cell c').edges.getD s' 0) * (∫ t in (0 : ℝ)..1, fluxAt h fe u c' s' t) = 0 := by
  have hsv := C92_single_valued_partial m.topo hT.wf p hp1 cs hp fe hf h hh
  have tr : ∀ c s, ∫ t in (0 : ℝ)..1, fluxAt h fe u c s (sideParam m.topo c s t) = ∫ t in (0 : ℝ)..1, fluxAt h fe u c s t := by
    intro c s
    unfold sideParam
    cases (m.topo.cell c).ori.getD s false with
    | true => rfl
    | false =>
      simp
  have e1 : ∫ t in (0 : ℝ)..1, fluxAt h fe u c s t = ∫ t in (0 : ℝ)..1, fluxAt h fe u c' s' t := by
    rw [← tr c s, ← tr c' s']
    exact intervalIntegral.integral_congr fun t _ => hsv c hc c' hc' s hs s' hs' he u t
  have e2 := signs_opposite m hT hN c hc c' hc' hne s hs s' hs' he
  rw [e1, ← add_mul, ← Int.cast_add, e2]
  simp

/-- **C92**, negation of conservation for fluxes of degree two and three, if the cells traverse the edge in different
directions. -/
theorem C92_conservation_not (m : MeshObj) (hT : m.topo.Conforming) (hN : m.topo.numCells ≤ 2 ^ 31) (p : ℕ) (hp2 : 2 ≤ p)
    (cs : CompSpec ℝ) (hp : compSpec .flux p = some cs) (fe : RefFE ℝ) (hf : cs.edge = some fe) (h : DofHandler)
    (hh : uniformDofHandler m.topo (Kind.flux.dofs p) true = some h) (c : ℕ) (hc : c < m.topo.numCells) (c' : ℕ)
    (hc' : c' < m.topo.numCells) (hne : c ≠ c') (s : ℕ) (hs : s < (m.topo.cell c).edges.length) (s' : ℕ)
    (hs' : s' < (m.topo.cell c').edges.length) (he : (m.topo.cell c).edges.getD s 0 = (m.topo.cell c').edges.getD s' 0)
    (ho : (m.topo.cell c).ori.getD s false ≠ (m.topo.cell c').ori.getD s' false) :
    ∃ u, edgeSign m.topo c ((m.topo.cell c).edges.getD s 0) * (∫ t in (0 : ℝ)..1, fluxAt h fe u c s t) +
      edgeSign m.topo c' ((m.topo.cell c').edges.getD s' 0) * (∫ t in (0 : ℝ)..1, fluxAt h fe u c' s' t) ≠ 0 := by
  obtain ⟨-, u, hu⟩ := C92_not m.topo hT.wf p hp2 cs hp fe hf h hh c hc c' hc' s hs s' hs' he ho
  refine ⟨u, fun h0 => hu ?_⟩
  have e2 := signs_opposite m hT hN c hc c' hc' hne s hs s' hs' he
  have e3 : (edgeSign m.topo c' ((m.topo.cell c').edges.getD s' 0) : ℝ) = -edgeSign m.topo c ((m.topo.cell c).edges.getD s 0) := by
    have : edgeSign m.topo c' ((m.topo.cell c').edges.getD s' 0) = -edgeSign m.topo c ((m.topo.cell c).edges.getD s 0) := by omega
    rw [this, Int.cast_neg]
  have e4 : (edgeSign m.topo c ((m.topo.cell c).edges.getD s 0) : ℝ) ≠ 0 := by
    unfold edgeSign
    split <;> simp
  rw [e3, neg_mul, ← sub_eq_add_neg, ← mul_sub] at h0
  exact sub_eq_zero.mp ((mul_eq_zero.mp h0).resolve_left e4)

/-- A concrete case: the mesh of a triangle and a quadrilateral, which traverse their common edge in different directions. -/
theorem sampleTopo_conforming : sampleTopo.Conforming := by
  have key : ∀ c d : Fin 2, c ≠ d → (∀ a ∈ (sampleTopo.cell c).nodes, a ∈ (sampleTopo.cell d).nodes → a = 1 ∨ a = 2) ∧
      1 ∈ (sampleTopo.cell c).edges ∧ 1 ∈ (sampleTopo.cell d).edges := by decide
  refine ⟨sampleTopo_WF, by decide, fun c hc d hd hcd a b hab ha hb ha' hb' => ?_, by decide⟩
  obtain ⟨k1, k2, k3⟩ := key ⟨c, hc⟩ ⟨d, hd⟩ (fun h => hcd (Fin.mk.inj h))
  have ea := k1 a ha ha'
  have eb := k1 b hb hb'
  refine ⟨⟨1, k2, k3, ?_⟩, fun w hw hw' => ?_⟩
  · rcases ea with rfl | rfl <;> rcases eb with rfl | rfl
    · exact absurd rfl hab
    · exact .inl rfl
    · exact .inr rfl
    · exact absurd rfl hab
  · have := k1 w hw hw'
    omega

example : (∃ h, uniformDofHandler sampleTopo (Kind.flux.dofs 2) true = some h ∧ h.edgeSection sampleTopo 0 1 = [3, 4, 5] ∧
      h.edgeSection sampleTopo 1 0 = [5, 4, 3]) ∧
    (∃ cs fe, compSpec (K := ℝ) .flux 2 = some cs ∧ cs.edge = some fe) ∧ sampleTopo.Conforming ∧
    (sampleTopo.cell 0).edges.getD 1 0 = (sampleTopo.cell 1).edges.getD 0 0 ∧
    (sampleTopo.cell 0).ori.getD 1 false ≠ (sampleTopo.cell 1).ori.getD 0 false :=
  ⟨⟨_, rfl, by decide, by decide⟩, ⟨_, _, rfl, rfl⟩, sampleTopo_conforming, by decide, by decide⟩

end Verif
