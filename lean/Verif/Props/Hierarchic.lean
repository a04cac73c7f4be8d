import Verif.Lemmas.HierConform
import Verif.Props.DofHandler

/-!
# C48: hierarchic finite element functions are continuous
-/

namespace Verif
open Geo
variable {K : Type} [Field K]

private theorem layout_node (get : RefEl → ℕ → Option (QuadRule K)) (T : Topo) (degree : Ent → ℕ) (v : ℕ)
    (hv : v < T.numNodes) : hierLayout get T degree (2, v) = some (fePoint 1) := by
  rw [hierLayout, Topo.refEl, if_pos (show v < T.num 2 from hv)]; simp

theorem hierLayout_edge (get : RefEl → ℕ → Option (QuadRule K)) (T : Topo) (degree : Ent → ℕ) (e : ℕ)
    (he : e < T.numEdges) : hierLayout get T degree (1, e) = makeHierSegment get (degree (1, e)) := by
  rw [hierLayout, Topo.refEl, if_pos (show e < T.num 1 from he)]; simp

theorem makeHierSegment_some {get : RefEl → ℕ → Option (QuadRule K)} {d : ℕ} {fe : RefFE K}
    (h : makeHierSegment get d = some fe) : 1 ≤ d ∧ ∃ q, get .segment (2 * (d - 1)) = some q ∧
      fe = hierSegment d q := by
  unfold makeHierSegment at h
  split at h
  · cases h
  · obtain ⟨q, hq, rfl⟩ := Option.map_eq_some_iff.mp h
    exact ⟨by omega, q, hq, rfl⟩

theorem makeHierTria_some {get : RefEl → ℕ → Option (QuadRule K)} {p : ℕ} {e : ℕ → ℕ} {o : ℕ → Bool}
    {F : HierTria K} (h : makeHierTria get p e o = some F) :
    (1 ≤ p ∧ ∀ j < 3, 1 ≤ e j) ∧ F.p = p ∧ F.e = e ∧ F.o = o := by
  unfold makeHierTria at h
  split at h
  · cases h
  · rename_i hn
    simp only [not_or] at hn
    simp only [Option.bind_eq_some_iff, Option.map_eq_some_iff] at h
    obtain ⟨_, -, _, -, _, -, _, -, rfl⟩ := h
    exact ⟨⟨by omega, fun j hj => by interval_cases j <;> omega⟩, rfl, rfl, rfl⟩

theorem makeHierQuad_some {get : RefEl → ℕ → Option (QuadRule K)} {p : ℕ} {e : ℕ → ℕ} {o : ℕ → Bool}
    {F : HierQuad K} (h : makeHierQuad get p e o = some F) :
    (1 ≤ p ∧ ∀ j < 4, 1 ≤ e j) ∧ F.p = p ∧ F.e = e ∧ F.o = o := by
  unfold makeHierQuad at h
  split at h
  · cases h
  · rename_i hn
    simp only [not_or] at hn
    simp only [Option.bind_eq_some_iff, Option.map_eq_some_iff] at h
    obtain ⟨_, -, _, -, _, -, _, -, _, -, rfl⟩ := h
    exact ⟨⟨by omega, fun j hj => by interval_cases j <;> omega⟩, rfl, rfl, rfl⟩

/-- If quadrature rules for segments and triangles can be had for all degrees, the space can be
constructed on every mesh, for every choice of degrees `≥ 1` of the edges and cells.  It has one dof per
node, `degree - 1` per edge and `(p - 1) (p - 2) / 2` and `(p - 1)²` in the interior of cells. -/
theorem C48_constructible (get : RefEl → ℕ → Option (QuadRule K))
    (hget : ∀ r d, r = .segment ∨ r = .tria → (get r d).isSome) (T : Topo) (hT : T.WF) (degree : Ent → ℕ)
    (hdeg : ∀ e, T.IsEnt e → e.1 < 2 → 1 ≤ degree e) :
    ∃ S : FeSpace K, hierSpace get T degree = some S ∧ S.mesh = T ∧
      ∀ e r, T.IsEnt e → T.refEl e = some r → (S.dofh.own e).length =
        match r with
        | .point => 1
        | .segment => degree e - 1
        | .tria => (degree e - 1) * (degree e - 2) / 2
        | .quad => (degree e - 1) * (degree e - 1) := by
  obtain ⟨h, hh, -, -, hcnt, -⟩ := C09_dynamic T hT (hierCount T degree)
  have g : ∀ r d, r = .segment ∨ r = .tria → ∃ q, get r d = some q := fun r d hr =>
    Option.isSome_iff_exists.mp (hget r d hr)
  have h1 : ∀ i < T.num 2, (hierLayout get T degree (2, i)).isSome := fun i hi => by
    rw [layout_node get T degree i hi]; rfl
  have h2 : ∀ i < T.num 1, (hierLayout get T degree (1, i)).isSome := fun i hi => by
    have hd := hdeg (1, i) ⟨by simp, hi⟩ (by simp)
    obtain ⟨q, hq⟩ := g .segment (2 * (degree (1, i) - 1)) (by simp)
    rw [hierLayout_edge get T degree i hi, makeHierSegment, if_neg (by omega), hq]; rfl
  have h3 : ∀ i < T.num 0, (hierLayout get T degree (0, i)).isSome := fun i hi => by
    have hd := hdeg (0, i) ⟨by simp, hi⟩ (by simp)
    have he : ∀ j < (T.cell i).nodes.length, degree (1, (T.cell i).edges.getD j 0) ≠ 0 := fun j hj => by
      have := hdeg (1, (T.cell i).edges.getD j 0) ⟨by simp, ?_⟩ (by simp)
      · omega
      · apply hT.cell_edges i hi
        rw [List.getD_eq_getElem _ _ (by rw [hT.cell_edges_len i hi]; exact hj)]
        exact List.getElem_mem _
    rw [hierLayout, Topo.refEl, if_pos hi]
    rcases hT.cell_len i hi with hl | hl
    · simp only [hl, OfNat.zero_ne_ofNat, if_false, zero_ne_one, if_true, Option.bind_some, Option.isSome_map]
      rw [makeHierTria, if_neg (by
        have := he 0 (by omega); have := he 1 (by omega); have := he 2 (by omega)
        simp only [not_or]; omega)]
      obtain ⟨q0, e0⟩ := g .segment (2 * (degree (1, (T.cell i).edges.getD 0 0) - 1)) (by simp)
      obtain ⟨q1, e1⟩ := g .segment (2 * (degree (1, (T.cell i).edges.getD 1 0) - 1)) (by simp)
      obtain ⟨q2, e2⟩ := g .segment (2 * (degree (1, (T.cell i).edges.getD 2 0) - 1)) (by simp)
      obtain ⟨q3, e3⟩ := g .tria (2 * (degree (0, i) - 1)) (by simp)
      rw [e0, e1, e2, e3]; rfl
    · simp only [hl, OfNat.zero_ne_ofNat, if_false, zero_ne_one, if_true, Option.bind_some, Option.isSome_map,
        Nat.reduceEqDiff]
      rw [makeHierQuad, if_neg (by
        have := he 0 (by omega); have := he 1 (by omega); have := he 2 (by omega); have := he 3 (by omega)
        simp only [not_or]; omega)]
      obtain ⟨q0, e0⟩ := g .segment (2 * (degree (1, (T.cell i).edges.getD 0 0) - 1)) (by simp)
      obtain ⟨q1, e1⟩ := g .segment (2 * (degree (1, (T.cell i).edges.getD 1 0) - 1)) (by simp)
      obtain ⟨q2, e2⟩ := g .segment (2 * (degree (1, (T.cell i).edges.getD 2 0) - 1)) (by simp)
      obtain ⟨q3, e3⟩ := g .segment (2 * (degree (1, (T.cell i).edges.getD 3 0) - 1)) (by simp)
      obtain ⟨q4, e4⟩ := g .segment (2 * (max (degree (0, i)) (max (degree (1, (T.cell i).edges.getD 0 0))
        (max (degree (1, (T.cell i).edges.getD 1 0)) (max (degree (1, (T.cell i).edges.getD 2 0))
        (degree (1, (T.cell i).edges.getD 3 0))))) - 1)) (by simp)
      rw [e0, e1, e2, e3, e4]; rfl
  refine ⟨⟨T, h, hierLayout get T degree⟩, ?_, rfl, ?_⟩
  · rw [hierSpace, hh, Option.bind_some, if_pos ⟨h1, h2, h3⟩]
  · intro e r he hr
    simp only [hcnt e he, hierCount, hr]
    cases r <;> simp only []
    split
    · have : (degree e - 1) * (degree e - 2) ≤ 0 := by
        rw [show degree e - 2 = 0 by omega]; simp
      omega
    · rw [Nat.mul_comm]

theorem hier_conforming [LinearOrder K] [IsStrictOrderedRing K]
    (get : RefEl → ℕ → Option (QuadRule K)) (T : Topo) (hT : T.WF) (degree : Ent → ℕ)
    (S : FeSpace K) (hS : hierSpace get T degree = some S) : Conforming S (hierCount T degree) := by
  obtain ⟨h, hh, -, -, hcnt, -⟩ := C09_dynamic T hT (hierCount T degree)
  rw [hierSpace, hh, Option.bind_some] at hS
  split at hS
  swap
  · cases hS
  rename_i hl
  obtain ⟨-, l1, l0⟩ := hl
  cases hS
  obtain ⟨a1, a2, a3⟩ := C11_dynamic T hT _ h hh
  have hedge : ∀ e, e < T.numEdges → T.refEl (1, e) = some .segment := fun e he => by
    rw [Topo.refEl, if_pos (show e < T.num 1 from he)]; simp
  have hcount : ∀ e, e < T.numEdges → hierCount T degree (1, e) = degree (1, e) - 1 := fun e he => by
    rw [hierCount, hedge e he]
  have hseg : ∀ e, e < T.numEdges → 1 ≤ degree (1, e) ∧ ∃ q, hierLayout get T degree (1, e) =
      some (hierSegment (degree (1, e)) q) := fun e he => by
    obtain ⟨fe, hfe⟩ := Option.isSome_iff_exists.mp (l1 e he)
    have := hfe
    rw [hierLayout_edge get T degree e he] at this
    obtain ⟨hd, q, -, rfl⟩ := makeHierSegment_some this
    exact ⟨hd, q, hfe⟩
  refine ⟨hT, a1, a2, a3, hcnt, ?_, ?_, ?_, ?_⟩
  · intro v
    have : T.refEl (2, v) = some .point ∨ T.refEl (2, v) = none := by
      unfold Topo.refEl; split <;> simp
    unfold hierCount
    rcases this with h | h <;> rw [h]
  · exact fun v hv => ⟨fePoint 1, layout_node get T degree v hv, by simp [fePoint]⟩
  · intro e he
    obtain ⟨hd, q, hq⟩ := hseg e he
    refine ⟨_, hq, ?_⟩
    rw [hcount e he]
    exact hierSegment_endPoints _ hd q
  · intro c r hr
    obtain ⟨hc, hn⟩ := Topo.refEl_cell hT hr
    have hce : ∀ j < r.numNodes, (T.cell c).edges.getD j 0 < T.numEdges := fun j hj => by
      apply hT.cell_edges c hc
      rw [List.getD_eq_getElem _ _ (by rw [hT.cell_edges_len c hc]; omega)]
      exact List.getElem_mem _
    have hqs : ∀ j, ∃ q, j < r.numNodes → hierLayout get T degree (1, (T.cell c).edges.getD j 0) =
        some (hierSegment (degree (1, (T.cell c).edges.getD j 0)) q) := fun j => by
      by_cases hj : j < r.numNodes
      · obtain ⟨-, q, hq⟩ := hseg _ (hce j hj)
        exact ⟨q, fun _ => hq⟩
      · exact ⟨QuadRule.empty, fun h => absurd h hj⟩
    choose qs hqs using hqs
    obtain ⟨fe, hfe⟩ := Option.isSome_iff_exists.mp (l0 c hc)
    have hr2 : T.refEl (0, c) = some r := hr
    have hfe' := hfe
    rw [hierLayout, hr2, Option.bind_some] at hfe'
    have hme : ∀ j < r.numNodes, hierCount T degree (1, (T.cell c).edges.getD j 0) =
        degree (1, (T.cell c).edges.getD j 0) - 1 := fun j hj => hcount _ (hce j hj)
    have hlen := hT.cell_len c hc
    rw [← hn] at hlen
    cases r with
    | point => simp [RefEl.numNodes] at hlen
    | segment => simp [RefEl.numNodes] at hlen
    | tria =>
      obtain ⟨F, hF, rfl⟩ := Option.map_eq_some_iff.mp hfe'
      obtain ⟨⟨-, he⟩, hp, hee, ho⟩ := makeHierTria_some hF
      refine ⟨F.fe, fun j => hierSegment (F.e j) (qs j), hfe, rfl, fun j hj => ?_, ?_⟩
      · rw [hee]; exact hqs j hj
      · have := F.conforms (by rw [hee]; exact he) qs
        rw [ho] at this
        refine this.congr (fun j hj => ?_) ?_
        · rw [hee]; exact (hme j hj).symm
        · rw [hierCount, hr2]; simp only [HierTria.numInterior, hp]
    | quad =>
      obtain ⟨F, hF, rfl⟩ := Option.map_eq_some_iff.mp hfe'
      obtain ⟨⟨-, he⟩, hp, hee, ho⟩ := makeHierQuad_some hF
      refine ⟨F.fe, fun j => hierSegment (F.e j) (qs j), hfe, rfl, fun j hj => ?_, ?_⟩
      · rw [hee]; exact hqs j hj
      · have := F.conforms (by rw [hee]; exact he) qs
        rw [ho] at this
        refine this.congr (fun j hj => ?_) ?_
        · rw [hee]; exact (hme j hj).symm
        · rw [hierCount, hr2]; simp only [HierQuad.numInterior, hp]

/-- For the hierarchic spaces, any degrees of edges and cells, any coefficient vector and any mesh:
evaluation of the finite element function on two cells sharing an edge gives the same values on the edge,
for any local position and orientation of the edge, and the same as evaluation on the edge itself; and
all agree with the evaluation at nodes. -/
theorem C48_continuous [LinearOrder K] [IsStrictOrderedRing K] (get : RefEl → ℕ → Option (QuadRule K))
    (T : Topo) (hT : T.WF) (degree : Ent → ℕ) (S : FeSpace K) (hS : hierSpace get T degree = some S) :
    S.ContinuousAcrossEdges ∧ S.MatchesEdges ∧ S.MatchesNodes := by
  have h := hier_conforming get T hT degree S hS
  exact ⟨h.matchesEdges.continuous, h.matchesEdges, h.matchesNodes⟩

/-- The same for uniform degrees. -/
theorem C48_uniform [LinearOrder K] [IsStrictOrderedRing K] (get : RefEl → ℕ → Option (QuadRule K))
    (T : Topo) (hT : T.WF) (degree : ℕ) (S : FeSpace K) (hS : hierSpaceUniform get T degree = some S) :
    S.ContinuousAcrossEdges ∧ S.MatchesEdges ∧ S.MatchesNodes :=
  C48_continuous get T hT _ S hS

/-- Degree 0 is rejected. -/
theorem C48_degree (get : RefEl → ℕ → Option (QuadRule K)) (T : Topo) (hT : T.WF) (degree : Ent → ℕ)
    (S : FeSpace K) (hS : hierSpace get T degree = some S) : ∀ e, T.IsEnt e → e.1 < 2 → 1 ≤ degree e := by
  obtain ⟨h, hh, -⟩ := C09_dynamic T hT (hierCount T degree)
  rw [hierSpace, hh, Option.bind_some] at hS
  split at hS
  swap
  · cases hS
  rename_i hl
  obtain ⟨-, l1, l0⟩ := hl
  rintro ⟨k, i⟩ ⟨-, hi⟩ hk
  simp only at hk hi
  interval_cases k
  · obtain ⟨fe, hfe⟩ := Option.isSome_iff_exists.mp (l0 i hi)
    rw [hierLayout, Topo.refEl, if_pos hi] at hfe
    rcases hT.cell_len i hi with hl | hl <;>
      simp only [hl, OfNat.zero_ne_ofNat, if_false, zero_ne_one, if_true, Option.bind_some, Nat.reduceEqDiff,
        Option.map_eq_some_iff] at hfe <;> obtain ⟨F, hF, -⟩ := hfe
    · exact (makeHierTria_some hF).1.1
    · exact (makeHierQuad_some hF).1.1
  · obtain ⟨fe, hfe⟩ := Option.isSome_iff_exists.mp (l1 i hi)
    rw [hierLayout_edge get T degree i hi] at hfe
    exact (makeHierSegment_some hfe).1

/-- A triangle of degree 3 and a quadrilateral of degree 2 which see their common edge, of degree 4, in
opposite directions: on the edge a finite element function, which is not constant there.  Evaluation
does not use the quadrature rules. -/
example : ∃ S : FeSpace ℚ, hierSpace (fun r d => some ⟨r, d, [], []⟩) sampleTopo
      (fun e => match e with | (0, 0) => 3 | (0, _) => 2 | (1, 1) => 4 | _ => 1) = some S ∧
    S.dofh.numDofs = 10 ∧
    (let u := (List.range 10).map fun i => (i : ℚ) ^ 2
     S.evalFE u (0, 0) (sampleTopo.onSide .tria 0 1 (1 / 4)) = some (-35 / 256) ∧
     S.evalFE u (0, 1) (sampleTopo.onSide .quad 1 0 (1 / 4)) = some (-35 / 256) ∧
     S.evalFE u (1, 1) [1 / 4] = some (-35 / 256)) := by
  refine ⟨_, rfl, by decide +kernel, by decide +kernel, by decide +kernel, by decide +kernel⟩

end Verif
