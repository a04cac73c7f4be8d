import Verif.Lemmas.IpdgFlow5

/-!
# Lemmas: the offset function
-/

namespace Verif.Ipdg
open Verif Geo Dpg Finset

variable {m : MeshObj} {geo : Ent → Option (Geo ℝ 2)} {pos : ℕ → Vec ℝ 2} {boundary : AllDS Bool}

/-- What is known about the flags. -/
structure FlagsOk (m : MeshObj) (boundary : AllDS Bool) : Prop where
  readE : ∀ e < m.topo.numEdges, (boundary.read ⟨m.id, (1, e)⟩).isSome
  readN : ∀ v < m.topo.numNodes, (boundary.read ⟨m.id, (2, v)⟩).isSome
  edge : ∀ e < m.topo.numEdges, flagOf m boundary 1 e = true ↔ m.topo.OnBoundary e
  node : ∀ v < m.topo.numNodes, flagOf m boundary 2 v = true ↔ BoundaryNode m.topo v

theorem flagsOk {bd bn : ℕ → Bool}
    (f2 : ∀ e < m.topo.numEdges, boundary.read ⟨m.id, (1, e)⟩ = some (bd e) ∧ (bd e = true ↔ m.topo.OnBoundary e))
    (f3 : ∀ v < m.topo.numNodes, boundary.read ⟨m.id, (2, v)⟩ = some (bn v) ∧ (bn v = true ↔ BoundaryNode m.topo v)) : FlagsOk m boundary := by
  refine ⟨fun e he => by simp [(f2 e he).1], fun v hv => by simp [(f3 v hv).1], fun e he => ?_, fun v hv => ?_⟩
  · rw [← (f2 e he).2, flagOf, (f2 e he).1]; simp
  · rw [← (f3 v hv).2, flagOf, (f3 v hv).1]; simp

theorem FlagsOk.edges (hF : FlagsOk m boundary) : (range m.topo.numEdges).filter (fun i => flagOf m boundary 1 i = true) = bdEdges m.topo := by
  ext e
  rw [Finset.mem_filter, Finset.mem_range, mem_bdEdges]
  exact and_congr_right fun he => hF.edge e he

theorem FlagsOk.nodes (hF : FlagsOk m boundary) : (range m.topo.numNodes).filter (fun i => flagOf m boundary 2 i = true) = bdNodes m.topo := by
  ext e
  rw [Finset.mem_filter, Finset.mem_range, mem_bdNodes]
  exact and_congr_right fun he => hF.node e he

theorem bdPotential_node (hF : FlagsOk m boundary) (x : List ℝ) {v : ℕ} (hv : v ∈ bdNodes m.topo) :
    bdPotential m boundary x v = x.getD (bdRank (flagOf m boundary 2) v) 0 := by
  obtain ⟨a, b⟩ := mem_bdNodes.1 hv
  exact if_pos ((hF.node v a).2 b)

/-- The linear system for the offset function. -/
structure OffsetSystem (m : MeshObj) (pos : ℕ → Vec ℝ 2) (boundary : AllDS Bool) (g : ℕ → Vec ℝ 2) (D : Dense ℝ) (r : List ℝ) : Prop where
  rows : D.rows = (bdEdges m.topo).card + 1
  cols : D.cols = (bdNodes m.topo).card + 1
  len : r.length = (bdEdges m.topo).card + 1
  holds : ∀ x q : List ℝ, (∀ i < D.rows, ∑ j ∈ range D.cols, D.entry i j * x.getD j 0 = q.getD i 0) ↔
    (∀ e ∈ bdEdges m.topo, outflow m.topo pos (bdPotential m boundary x) e + x.getD (bdNodes m.topo).card 0 =
      q.getD (bdRank (flagOf m boundary 1) e) 0) ∧
    ∑ v ∈ bdNodes m.topo, bdPotential m boundary x v = q.getD (bdEdges m.topo).card 0
  rhs : ∀ e ∈ bdEdges m.topo, r.getD (bdRank (flagOf m boundary 1) e) 0 = outflowData m.topo pos g e
  last : r.getD (bdEdges m.topo).card 0 = 0

theorem offset_system (hM : TriaMesh m.topo geo pos) (hF : FlagsOk m boundary) (g : ℕ → Vec ℝ 2)
    (fits : (bdNodes m.topo).card + 1 < 2 ^ 31 ∧ (bdEdges m.topo).card + 1 < 2 ^ 31) :
    ∃ nd ed J D r, dynamicDofHandler m.topo (flaggedCount m boundary 2) = some nd ∧ dynamicDofHandler m.topo (flaggedCount m boundary 1) = some ed ∧
      normalJumpSystem m geo boundary nd ed = some J ∧ J.makeSparse = some D ∧ normalFlowRhs m geo boundary ed g = some r ∧
      OffsetSystem m pos boundary g D r ∧ nd.numDofs = bdRank (flagOf m boundary 2) m.topo.numNodes ∧
      ∀ v < m.topo.numNodes, flagOf m boundary 2 v = true → nd.entity (bdRank (flagOf m boundary 2) v) = some (2, v) := by
  obtain ⟨nd, n0, n1, n2, n3⟩ := nodeDofs_spec (m := m) (boundary := boundary) hM.wf
  obtain ⟨ed, d0, d1, d2, d3⟩ := edgeDofs_spec (m := m) (boundary := boundary) hM.wf
  have cn : nd.numDofs = (bdNodes m.topo).card := by rw [n1, bdRank_card, hF.nodes]
  have ce : ed.numDofs = (bdEdges m.topo).card := by rw [d1, bdRank_card, hF.edges]
  obtain ⟨J, D, j1, j2, j3, j4, j5, j6⟩ := jump_rows hM hF.readE hF.readN n1 n2 d1 d2 (by rw [cn, ce]; exact fits)
  obtain ⟨r, r1, r2, r3, r4⟩ := flow_rhs hM hF.readE hF.edge d1 d3 g
  refine ⟨nd, ed, J, D, r, n0, d0, j1, j2, r1, ⟨by rw [j3, ce], by rw [j4, cn], by rw [r2, ce], fun x q => ?_, fun e he => ?_, by rw [← ce]; exact r3⟩, n1, n3⟩
  · have hsum : ∑ v ∈ bdNodes m.topo, bdPotential m boundary x v = ∑ i ∈ range nd.numDofs, x.getD i 0 := by
      rw [n1, bdRank_sum, hF.nodes]
      exact Finset.sum_congr rfl fun v hv => bdPotential_node hF x hv
    rw [hsum, ← j6 x, ← ce, ← cn]
    constructor
    · intro hx
      refine ⟨fun e he => ?_, hx _ (by omega)⟩
      obtain ⟨a, b⟩ := mem_bdEdges.1 he
      have hf := (hF.edge e a).2 b
      rw [← j5 x e a hf]
      have := bdRank_lt (flagOf m boundary 1) a hf
      exact hx _ (by omega)
    · rintro ⟨h1, h2⟩ i hi
      rw [j3] at hi
      by_cases hlt : i < ed.numDofs
      · rw [d1] at hlt
        obtain ⟨e, he, hf, rfl⟩ := bdRank_surj _ hlt
        rw [j5 x e he hf]
        exact h1 e (mem_bdEdges.2 ⟨he, (hF.edge e he).1 hf⟩)
      · obtain rfl : i = ed.numDofs := by omega
        exact h2
  · obtain ⟨a, b⟩ := mem_bdEdges.1 he
    exact r4 e a ((hF.edge e a).2 b)

/-- The values are written to the right places. -/
theorem offset_write {h nd : DofHandler} (hD : NodeEdgeDofs m.topo h 1) (n1 : nd.numDofs = bdRank (flagOf m boundary 2) m.topo.numNodes)
    (n3 : ∀ v < m.topo.numNodes, flagOf m boundary 2 v = true → nd.entity (bdRank (flagOf m boundary 2) v) = some (2, v))
    (x : List ℝ) (hx : nd.numDofs ≤ x.length) :
    ∃ o, (List.range nd.numDofs).foldlM (fun o i =>
        (nd.entity i).bind fun node => (h.globalDofIndices node).bind fun idx => (idx[0]?).bind fun d => (x[i]?).bind fun v =>
        if d < o.length then some (o.set d v) else none) (List.replicate h.numDofs (0 : ℝ)) = some o ∧ o.length = h.numDofs ∧
      ∀ v, o.getD v 0 = if v < m.topo.numNodes then bdPotential m boundary x v else 0 := by
  set fl := flagOf m boundary 2
  have key : ∀ k ≤ nd.numDofs, ∃ o, (List.range k).foldlM (fun o i =>
        (nd.entity i).bind fun node => (h.globalDofIndices node).bind fun idx => (idx[0]?).bind fun d => (x[i]?).bind fun v =>
        if d < o.length then some (o.set d v) else none) (List.replicate h.numDofs (0 : ℝ)) = some o ∧ o.length = h.numDofs ∧
      ∀ v, o.getD v 0 = if v < m.topo.numNodes ∧ fl v = true ∧ bdRank fl v < k then x.getD (bdRank fl v) 0 else 0 := by
    intro k
    induction k with
    | zero => intro _; exact ⟨_, rfl, by simp, fun v => by simp⟩
    | succ k ih =>
      intro hk
      obtain ⟨o, h1, h2, h3⟩ := ih (by omega)
      obtain ⟨w, hw, hf, hr⟩ := bdRank_surj fl (d := k) (n := m.topo.numNodes) (by omega)
      have hlt : w < o.length := by rw [h2, hD.numDofs]; omega
      refine ⟨o.set w x[k], ?_, by simp [h2], fun v => ?_⟩
      · have he := n3 w hw hf
        rw [hr] at he
        rw [List.range_succ, List.foldlM_append, h1]
        simp only [List.foldlM_cons, List.foldlM_nil, Option.bind_eq_bind, Option.bind_some, he, hD.node w hw, List.getElem?_cons_zero,
          List.getElem?_eq_getElem (show k < x.length by omega), if_pos hlt, Option.pure_def]
      · by_cases hvw : v = w
        · subst hvw
          rw [List.getD_eq_getElem?_getD, List.getElem?_set_self hlt, Option.getD_some, if_pos ⟨hw, hf, by omega⟩, hr,
            List.getD_eq_getElem _ _ (show k < x.length by omega)]
        · rw [List.getD_eq_getElem?_getD, List.getElem?_set_ne (Ne.symm hvw), ← List.getD_eq_getElem?_getD, h3]
          refine if_congr (and_congr_right fun _ => and_congr_right fun hfv => ⟨fun _ => by omega, fun hlt' => ?_⟩) rfl rfl
          have : bdRank fl v ≠ k := fun h0 => hvw (bdRank_inj fl hfv hf (h0.trans hr.symm))
          omega
  obtain ⟨o, h1, h2, h3⟩ := key _ le_rfl
  refine ⟨o, h1, h2, fun v => ?_⟩
  rw [h3, bdPotential]
  by_cases hv : v < m.topo.numNodes
  · rw [if_pos hv]
    by_cases hf : fl v = true
    · rw [if_pos ⟨hv, hf, by rw [n1]; exact bdRank_lt fl hv hf⟩, if_pos hf]
    · rw [if_neg (fun h0 => hf h0.2.1), if_neg hf]
  · rw [if_neg (fun h0 => hv h0.1), if_neg hv]

/-- The offset function. -/
theorem offset_spec (hM : TriaMesh m.topo geo pos) (hman : Manifold m.topo) (hopp : OppositeSides m.topo pos) (hc : ClosedCurve m.topo)
    (hF : FlagsOk m boundary) {h : DofHandler} (hD : NodeEdgeDofs m.topo h 1) (hfit : h.numDofs < 2 ^ 31) (g : ℕ → Vec ℝ 2) (A : Dense ℝ)
    (hr : A.rows = h.numDofs) (hcl : A.cols = h.numDofs) :
    ∃ o, createOffsetFunction m geo boundary h g A = some o ∧ o.length = h.numDofs ∧
      (∀ v < m.topo.numNodes, v ∉ bdNodes m.topo → o.getD v 0 = 0) ∧
      ∑ v ∈ bdNodes m.topo, o.getD v 0 = 0 ∧
      (∀ e ∈ bdEdges m.topo, outflow m.topo pos (fun v => o.getD v 0) e =
        outflowData m.topo pos g e - netFlow m.topo pos (outflowData m.topo pos g) / perimeter m.topo pos) ∧
      ∀ e < m.topo.numEdges, o.getD (m.topo.numNodes + e) 0 = ∑ j ∈ range m.topo.numNodes, A.entry (m.topo.numNodes + e) j * o.getD j 0 := by
  have hN : h.numDofs = m.topo.numNodes + m.topo.numEdges := by rw [hD.numDofs, one_mul]
  have hcard := closed_card hM hc
  have l1 : (bdEdges m.topo).card ≤ m.topo.numEdges := by
    calc _ ≤ (range m.topo.numEdges).card := Finset.card_le_card fun e he => Finset.mem_range.2 (mem_bdEdges.1 he).1
      _ = _ := Finset.card_range _
  have l2 : (bdNodes m.topo).card ≤ m.topo.numNodes := by
    calc _ ≤ (range m.topo.numNodes).card := Finset.card_le_card fun e he => Finset.mem_range.2 (mem_bdNodes.1 he).1
      _ = _ := Finset.card_range _
  have l3 : 0 < (bdEdges m.topo).card := Finset.card_pos.2 hc.nonempty
  obtain ⟨nd, ed, J, D, r, o1, o2, o3, o4, o5, hS, n1, n3⟩ := offset_system hM hF g ⟨by omega, by omega⟩
  have cn : nd.numDofs = (bdNodes m.topo).card := by rw [n1, bdRank_card, hF.nodes]
  obtain ⟨x, x1, x2, x3⟩ := solveDense_some (D := D) (b := r) (by rw [hS.rows, hS.cols, hcard]) (by rw [hS.len, hS.rows]) (by
    intro x hx h0 j hj
    obtain ⟨q1, q2⟩ := (hS.holds x []).1 fun i hi => by rw [h0 i hi]; simp
    have q1' : ∀ e ∈ bdEdges m.topo, outflow m.topo pos (bdPotential m boundary x) e = -x.getD (bdNodes m.topo).card 0 := fun e he => by
      have := q1 e he
      rw [List.getD_nil] at this
      linarith
    obtain ⟨z1, z2⟩ := bd_zero hM hman hopp hc.nonempty hc.connected q1' (by rw [q2, List.getD_nil])
    rw [hS.rows, ← hcard] at hj
    by_cases hlt : j < (bdNodes m.topo).card
    · rw [← cn, n1] at hlt
      obtain ⟨v, hv, hf, rfl⟩ := bdRank_surj _ hlt
      have hv' : v ∈ bdNodes m.topo := mem_bdNodes.2 ⟨hv, (hF.node v hv).1 hf⟩
      rw [← bdPotential_node hF x hv']
      exact z2 v hv'
    · obtain rfl : j = (bdNodes m.topo).card := by omega
      linarith)
  obtain ⟨q1, q2⟩ := (hS.holds x r).1 x3
  obtain ⟨o, w1, w2, w3⟩ := offset_write hD n1 n3 x (by rw [x2, hS.rows, cn, hcard]; omega)
  have w4 : ∀ v < m.topo.numNodes, o.getD v 0 = bdPotential m boundary x v := fun v hv => by rw [w3, if_pos hv]
  have w5 : ∀ v ∈ bdNodes m.topo, o.getD v 0 = bdPotential m boundary x v := fun v hv => w4 v (mem_bdNodes.1 hv).1
  set lam := x.getD (bdNodes m.topo).card 0
  have hlam : lam = netFlow m.topo pos (outflowData m.topo pos g) / perimeter m.topo pos := by
    have e1 : netFlow m.topo pos (outflowData m.topo pos g) = netFlow m.topo pos (fun e => outflow m.topo pos (bdPotential m boundary x) e + lam) :=
      netFlow_congr fun e he => by rw [q1 e he, hS.rhs e he]
    have e2 : netFlow m.topo pos (fun e => outflow m.topo pos (bdPotential m boundary x) e + lam) =
        netFlow m.topo pos (outflow m.topo pos (bdPotential m boundary x)) + netFlow m.topo pos (fun _ => lam) := by
      unfold netFlow
      rw [← Finset.sum_add_distrib]
      exact Finset.sum_congr rfl fun e _ => by ring
    rw [e1, e2, netFlow_outflow hM hman hopp, netFlow_const, zero_add, mul_div_assoc, div_self (perimeter_pos hM hc.nonempty).ne', mul_one]
  let tail := (List.range m.topo.numEdges).map fun i => ((List.range A.cols).map fun j => A.entry (m.topo.numNodes + i) j * o.getD j 0).sum
  have ht : blockMul A m.topo.numNodes m.topo.numEdges A.cols o = some tail := by
    unfold blockMul
    rw [if_pos ⟨by omega, le_rfl, by rw [w2, hcl]⟩]
  have hsub : o.length - m.topo.numEdges = m.topo.numNodes := by omega
  have hhead : ∀ v < m.topo.numNodes, (o.take m.topo.numNodes ++ tail).getD v 0 = o.getD v 0 := fun v hv => by
    rw [List.getD_append _ _ _ _ (by rw [List.length_take]; omega)]
    simp [hv]
  have hbdh : ∀ v ∈ bdNodes m.topo, (o.take m.topo.numNodes ++ tail).getD v 0 = bdPotential m boundary x v := fun v hv => by
    rw [hhead v (mem_bdNodes.1 hv).1, w5 v hv]
  refine ⟨o.take m.topo.numNodes ++ tail, ?_, ?_, fun v hv hb => ?_, ?_, fun e he => ?_, fun e he => ?_⟩
  · unfold createOffsetFunction
    rw [o1, Option.bind_some, o2, Option.bind_some, o3, Option.bind_some, o4, Option.bind_some, o5, Option.bind_some, x1, Option.bind_some,
      w1, Option.bind_some, ht, Option.bind_some, if_pos (by omega), hsub]
  · simp only [List.length_append, List.length_take, tail, List.length_map, List.length_range]
    omega
  · rw [hhead v hv, w4 v hv, bdPotential, if_neg]
    exact fun hf => hb (mem_bdNodes.2 ⟨hv, (hF.node v hv).1 hf⟩)
  · rw [Finset.sum_congr rfl hbdh, q2, hS.last]
  · rw [outflow_congr hM he hbdh, ← hS.rhs e he, ← q1 e he, hlam]
    ring
  · rw [List.getD_append_right _ _ _ _ (by rw [List.length_take]; omega), List.length_take, min_eq_left (by omega), Nat.add_sub_cancel_left]
    have : tail.getD e 0 = ∑ j ∈ range A.cols, A.entry (m.topo.numNodes + e) j * o.getD j 0 := by
      simp only [tail]
      rw [List.getD_eq_getElem _ _ (by simpa using he), List.getElem_map, List.getElem_range, Finset.sum_range, ← List.sum_ofFn]
      congr 1
      apply List.ext_getElem
      · simp
      · intro i h1 h2
        simp
    rw [this, hcl, hN, Finset.sum_range_add, Finset.sum_eq_zero (s := range m.topo.numEdges), add_zero]
    · exact Finset.sum_congr rfl fun j hj => by rw [hhead j (Finset.mem_range.1 hj)]
    · intro i _
      rw [w3, if_neg (by omega), mul_zero]

open Classical in
/-- If the boundary is not connected, there is no offset function. -/
theorem offset_none (hM : TriaMesh m.topo geo pos)
    (hF : FlagsOk m boundary) {h : DofHandler} (hD : NodeEdgeDofs m.topo h 1) (hfit : h.numDofs < 2 ^ 31) (g : ℕ → Vec ℝ 2) (A : Dense ℝ)
    {a b : ℕ} (ha : a ∈ bdNodes m.topo) (hb : b ∈ bdNodes m.topo) (hab : ¬Relation.ReflTransGen (BdNeighbour m.topo) a b) :
    createOffsetFunction m geo boundary h g A = none := by
  have hN : h.numDofs = m.topo.numNodes + m.topo.numEdges := by rw [hD.numDofs, one_mul]
  have l1 : (bdEdges m.topo).card ≤ m.topo.numEdges := by
    calc _ ≤ (range m.topo.numEdges).card := Finset.card_le_card fun e he => Finset.mem_range.2 (mem_bdEdges.1 he).1
      _ = _ := Finset.card_range _
  have l2 : (bdNodes m.topo).card ≤ m.topo.numNodes := by
    calc _ ≤ (range m.topo.numNodes).card := Finset.card_le_card fun e he => Finset.mem_range.2 (mem_bdNodes.1 he).1
      _ = _ := Finset.card_range _
  obtain ⟨e0, he0, -⟩ := (mem_bdNodes.1 ha).2
  have ha' := (mem_bdNodes.1 ha).1
  obtain ⟨nd, ed, J, D, r, o1, o2, o3, o4, o5, hS, n1, n3⟩ := offset_system hM hF g ⟨by omega, by omega⟩
  have cn : nd.numDofs = (bdNodes m.topo).card := by rw [n1, bdRank_card, hF.nodes]
  set C := (bdNodes m.topo).filter fun v => Relation.ReflTransGen (BdNeighbour m.topo) a v
  set C' := (bdNodes m.topo).filter fun v => ¬Relation.ReflTransGen (BdNeighbour m.topo) a v
  let val : ℕ → ℝ := fun v => if Relation.ReflTransGen (BdNeighbour m.topo) a v then (C'.card : ℝ) else -(C.card : ℝ)
  have hC : 0 < C.card := Finset.card_pos.2 ⟨a, Finset.mem_filter.2 ⟨ha, .refl⟩⟩
  have hC' : 0 < C'.card := Finset.card_pos.2 ⟨b, Finset.mem_filter.2 ⟨hb, hab⟩⟩
  let x : List ℝ := List.ofFn fun i : Fin (bdRank (flagOf m boundary 2) m.topo.numNodes) => val (bdRank_surj _ i.2).choose
  have hx : ∀ v ∈ bdNodes m.topo, bdPotential m boundary x v = val v := by
    intro v hv
    obtain ⟨p, q⟩ := mem_bdNodes.1 hv
    have hf := (hF.node v p).2 q
    have hlt := bdRank_lt (flagOf m boundary 2) p hf
    rw [bdPotential_node hF x hv, List.getD_eq_getElem _ _ (by simpa [x] using hlt)]
    simp only [x, List.getElem_ofFn]
    obtain ⟨s1, s2, s3⟩ := (bdRank_surj (flagOf m boundary 2) hlt).choose_spec
    rw [bdRank_inj _ s2 hf s3]
  have hlast : x.getD (bdNodes m.topo).card 0 = 0 := by
    rw [← cn, n1]
    simp [x]
  have hsolve : solveDense D r = none := by
    refine solveDense_none fun hsq => ⟨x, ⟨bdRank (flagOf m boundary 2) a, ?_, ?_⟩, ?_⟩
    · have := bdRank_lt (flagOf m boundary 2) ha' ((hF.node a ha').2 (mem_bdNodes.1 ha).2)
      rw [hsq, hS.cols, ← cn, n1]
      omega
    · rw [← bdPotential_node hF x ha, hx a ha]
      simp only [val, if_pos Relation.ReflTransGen.refl]
      exact Nat.cast_ne_zero.2 hC'.ne'
    · have := (hS.holds x []).2 ⟨fun e he => ?_, ?_⟩
      · intro i hi
        rw [this i hi, List.getD_nil]
      · rw [hlast, List.getD_nil, add_zero, outflow_congr hM he hx]
        obtain ⟨p, σ, -, q⟩ := outflow_bd hM he
        have hv : val (m.topo.edge e).2 = val (m.topo.edge e).1 := by
          have nb : BdNeighbour m.topo (m.topo.edge e).1 (m.topo.edge e).2 := ⟨e, he, Or.inl rfl⟩
          have nb' : BdNeighbour m.topo (m.topo.edge e).2 (m.topo.edge e).1 := ⟨e, he, Or.inr rfl⟩
          simp only [val]
          exact if_congr ⟨fun h => h.tail nb', fun h => h.tail nb⟩ rfl rfl
        have := q val
        rw [hv, sub_self, mul_zero] at this
        exact (mul_eq_zero.1 this).resolve_left p.ne'
      · rw [List.getD_nil, Finset.sum_congr rfl hx]
        simp only [val]
        rw [Finset.sum_ite, Finset.sum_const, Finset.sum_const, nsmul_eq_mul, nsmul_eq_mul]
        ring
  unfold createOffsetFunction
  rw [o1, Option.bind_some, o2, Option.bind_some, o3, Option.bind_some, o4, Option.bind_some, o5, Option.bind_some, hsolve, Option.bind_none]

end Verif.Ipdg
