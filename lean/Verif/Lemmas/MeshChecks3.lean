import Verif.Lemmas.MeshChecks2
import Mathlib.Data.List.GetD

/-!
# The check of completeness for meshes from the factory
-/

namespace Verif
namespace MC
variable {G : Type} {ops : GeoOps G} {chk : Bool} {hist : List (FactoryCall G)} {M : Mesh G}

theorem bump_spec (n : ℕ) (subs : List EntPtr) (H : ∀ x ∈ subs, ∃ i < n, M.index x = some i) (arr : List ℕ)
    (ha : arr.length = n) : ∃ cnt, subs.foldlM (fun cnt sub => (M.index sub).bind fun i =>
      if i < n then some (cnt.modify i (· + 1)) else none) arr = some cnt ∧ cnt.length = n ∧
      ∀ i < n, (cnt.getD i 0 ≠ 0 ↔ arr.getD i 0 ≠ 0 ∨ ∃ x ∈ subs, M.index x = some i) := by
  induction subs generalizing arr with
  | nil => exact ⟨arr, rfl, ha, fun i _ => by simp⟩
  | cons a subs ih =>
    obtain ⟨k, hk, h1⟩ := H a (by simp)
    obtain ⟨cnt, c1, c2, c3⟩ := ih (fun x hx => H x (by simp [hx])) (arr.modify k (· + 1)) (by simpa using ha)
    refine ⟨cnt, ?_, c2, fun i hi => ?_⟩
    · rw [List.foldlM_cons, h1]
      simp only [Option.bind_some, if_pos hk, Option.bind_eq_bind]
      exact c1
    · rw [c3 i hi]
      have : (arr.modify k (· + 1)).getD i 0 ≠ 0 ↔ arr.getD i 0 ≠ 0 ∨ k = i := by
        rw [List.getD_eq_getElem?_getD, List.getElem?_modify, List.getD_eq_getElem?_getD,
          List.getElem?_eq_getElem (by omega : i < arr.length)]
        by_cases hki : k = i <;> simp [hki]
      rw [this]
      simp only [List.mem_cons, exists_eq_or_imp, h1, Option.some.injEq]
      tauto

theorem linkCounts_spec (n : ℕ) (es : List EntPtr) (H : ∀ e ∈ es, ∃ subs, M.subEntities e 1 = some subs ∧
      ∀ x ∈ subs, ∃ i < n, M.index x = some i) : ∃ cnt, M.linkCounts n es = some cnt ∧ cnt.length = n ∧
      ∀ i < n, (cnt.getD i 0 ≠ 0 ↔ ∃ e ∈ es, ∃ subs, M.subEntities e 1 = some subs ∧ ∃ x ∈ subs, M.index x = some i) := by
  suffices h : ∀ arr : List ℕ, arr.length = n → ∃ cnt, es.foldlM (fun cnt e => (M.subEntities e 1).bind fun subs =>
      subs.foldlM (fun cnt sub => (M.index sub).bind fun i =>
        if i < n then some (cnt.modify i (· + 1)) else none) cnt) arr = some cnt ∧ cnt.length = n ∧
      ∀ i < n, (cnt.getD i 0 ≠ 0 ↔ arr.getD i 0 ≠ 0 ∨
        ∃ e ∈ es, ∃ subs, M.subEntities e 1 = some subs ∧ ∃ x ∈ subs, M.index x = some i) by
    obtain ⟨cnt, h1, h2, h3⟩ := h (List.replicate n 0) (by simp)
    refine ⟨cnt, h1, h2, fun i hi => ?_⟩
    rw [h3 i hi]
    simp [hi]
  intro arr ha
  induction es generalizing arr with
  | nil => exact ⟨arr, rfl, ha, fun i _ => by simp⟩
  | cons a es ih =>
    obtain ⟨subs, s1, s2⟩ := H a (by simp)
    obtain ⟨c0, a1, a2, a3⟩ := bump_spec n subs s2 arr ha
    obtain ⟨cnt, c1, c2, c3⟩ := ih (fun x hx => H x (by simp [hx])) c0 a2
    refine ⟨cnt, ?_, c2, fun i hi => ?_⟩
    · rw [List.foldlM_cons, s1]
      simp only [Option.bind_some, Option.bind_eq_bind]
      rw [a1]
      exact c1
    · rw [c3 i hi, a3 i hi]
      have hs : (∃ subs', M.subEntities a 1 = some subs' ∧ ∃ x ∈ subs', M.index x = some i) ↔
          ∃ x ∈ subs, M.index x = some i := by
        constructor
        · rintro ⟨l, hl, hx⟩
          rw [s1] at hl
          cases hl
          exact hx
        · exact fun hx => ⟨subs, s1, hx⟩
      simp only [List.mem_cons, exists_eq_or_imp, hs]
      exact or_assoc

theorem all_iff_getD (l : List ℕ) : (l.all fun i => decide (i ≠ 0)) = true ↔ ∀ i < l.length, l.getD i 0 ≠ 0 := by
  rw [List.all_eq_true]
  constructor
  · intro h i hi
    rw [List.getD_eq_getElem _ _ hi]
    simpa using h _ (List.getElem_mem hi)
  · intro h x hx
    obtain ⟨i, hi, rfl⟩ := List.getElem_of_mem hx
    have := h i hi
    rw [List.getD_eq_getElem _ _ hi] at this
    simpa using this

theorem seg_of (h : M.FromFactory ops chk hist) (e : ℕ) (he : e < M.topo.numEdges) :
    ∃ p, ∃ hp : p < M.segments.length, M.entityByIndex 1 e = some (.seg p) ∧ (M.segments[p]).index = e ∧
      M.topo.edge e = ((M.segments[p]).p0, (M.segments[p]).p1) ∧ M.segments[p].p0 < M.points.length ∧
      M.segments[p].p1 < M.points.length := by
  obtain ⟨f, rets, h1, hv, hB, -⟩ := built_of h
  obtain ⟨p, hp, a1, a2, a3⟩ := hB.segAt e he
  have := hB.seg_lt _ (List.getElem_mem hp)
  rw [← hB.points_length] at this
  exact ⟨p, hp, a1, a2, a3, this.1, this.2⟩

theorem completeness (h : M.FromFactory ops chk hist) :
    (M.topo.numEdges = 0 → M.checkMeshCompleteness = none) ∧
    (M.topo.numEdges ≠ 0 → ∃ b, M.checkMeshCompleteness = some b ∧ (b = true ↔
      (∀ e < M.topo.numEdges, ∃ c < M.topo.numCells, e ∈ (M.topo.cell c).edges) ∧
      ∀ v < M.topo.numNodes, ∃ e < M.topo.numEdges, v = (M.topo.edge e).1 ∨ v = (M.topo.edge e).2)) := by
  obtain ⟨es0, a1, a2, a3⟩ := entities_of h 0 (by omega)
  obtain ⟨es1, b1, b2, b3⟩ := entities_of h 1 (by omega)
  have hl0 : es0.length = M.topo.numCells := by
    simpa [Mesh.numEntities, Mesh.topo] using a2.symm
  have hl1 : es1.length = M.topo.numEdges := by
    simpa [Mesh.numEntities, Mesh.topo] using b2.symm
  -- the links to edges
  have hc0 : ∀ c (hc : c < es0.length), ∃ cell, M.cellOf es0[c] = some cell ∧
      M.subEntities es0[c] 1 = some (cell.edges.map .seg) ∧ cell.edges.length = (M.topo.cell c).edges.length ∧
      ∀ j < cell.edges.length, ∃ q, ∃ hq : q < M.segments.length, cell.edges[j]? = some q ∧
        (M.topo.cell c).edges[j]? = some M.segments[q].index := by
    intro c hc
    obtain ⟨e, cell, c1, c2, c3, c4, c5, c6⟩ := cell_of h c (by omega)
    rw [(a3 c hc).1] at c1
    cases c1
    obtain ⟨f, rets, h1, hv, hB, -⟩ := built_of h
    have hwf := hB.topo_WF hv
    refine ⟨cell, c2, (sub_cell c2).1, ?_, fun j hj => ?_⟩
    · rw [c5, c4, hwf.cell_edges_len c (by omega)]
    · obtain ⟨q, hq, d1, d2, -⟩ := c6 j (by omega)
      exact ⟨q, hq, d1, d2⟩
  obtain ⟨f, rets, h1, hv, hB, -⟩ := built_of h
  have hidx : ∀ q (hq : q < M.segments.length), M.index (.seg q) = some M.segments[q].index ∧
      M.segments[q].index < M.segments.length := fun q hq => ⟨by simp [Mesh.index, hq], (hB.segs q hq).1⟩
  obtain ⟨cnt0, k1, k2, k3⟩ := linkCounts_spec (M := M) M.segments.length es0 (by
    intro e he
    obtain ⟨c, hc, rfl⟩ := List.getElem_of_mem he
    obtain ⟨cell, -, d2, -, d4⟩ := hc0 c hc
    refine ⟨_, d2, fun x hx => ?_⟩
    obtain ⟨q, hq, rfl⟩ := List.mem_map.1 hx
    obtain ⟨j, hj, rfl⟩ := List.getElem_of_mem hq
    obtain ⟨q', hq', f1, -⟩ := d4 j hj
    rw [List.getElem?_eq_getElem hj] at f1
    cases f1
    exact ⟨_, (hidx _ hq').2, (hidx _ hq').1⟩)
  have hiff0 : ∀ e < M.segments.length, (cnt0.getD e 0 ≠ 0 ↔ ∃ c < M.topo.numCells, e ∈ (M.topo.cell c).edges) := by
    intro e he
    rw [k3 e he]
    constructor
    · rintro ⟨x, hx, subs, s1, y, hy, hye⟩
      obtain ⟨c, hc, rfl⟩ := List.getElem_of_mem hx
      obtain ⟨cell, -, d2, -, d4⟩ := hc0 c hc
      rw [d2] at s1
      cases s1
      obtain ⟨q, hq, rfl⟩ := List.mem_map.1 hy
      obtain ⟨j, hj, rfl⟩ := List.getElem_of_mem hq
      obtain ⟨q', hq', f1, f2⟩ := d4 j hj
      rw [List.getElem?_eq_getElem hj] at f1
      cases f1
      rw [(hidx _ hq').1] at hye
      cases hye
      exact ⟨c, by omega, List.mem_of_getElem? f2⟩
    · rintro ⟨c, hc, hm⟩
      obtain ⟨cell, -, d2, d3, d4⟩ := hc0 c (by omega)
      obtain ⟨j, hj, rfl⟩ := List.getElem_of_mem hm
      obtain ⟨q, hq, f1, f2⟩ := d4 j (by omega)
      rw [List.getElem?_eq_getElem hj] at f2
      simp only [Option.some.injEq] at f2
      rw [f2]
      exact ⟨_, List.getElem_mem (by omega), _, d2, .seg q, List.mem_map_of_mem (List.mem_of_getElem? f1),
        (hidx q hq).1⟩
  -- the links to nodes
  have hc1 : ∀ e (he : e < es1.length), M.subEntities es1[e] 1 = some [.pt (M.topo.edge e).1, .pt (M.topo.edge e).2] ∧
      (M.topo.edge e).1 < M.points.length ∧ (M.topo.edge e).2 < M.points.length := by
    intro e he
    obtain ⟨p, hp, d1, -, d3, d4, d5⟩ := seg_of h e (by omega)
    rw [(b3 e he).1] at d1
    simp only [Option.some.injEq] at d1
    rw [d1, sub_seg p hp, d3]
    exact ⟨rfl, d4, d5⟩
  have hidp : ∀ v < M.points.length, M.index (.pt v) = some v := fun v hv => by simp [Mesh.index, hv]
  obtain ⟨cnt1, l1, l2, l3⟩ := linkCounts_spec (M := M) M.points.length es1 (by
    intro x hx
    obtain ⟨e, he, rfl⟩ := List.getElem_of_mem hx
    obtain ⟨d1, d2, d3⟩ := hc1 e he
    refine ⟨_, d1, fun y hy => ?_⟩
    simp only [List.mem_cons, List.not_mem_nil, or_false] at hy
    rcases hy with rfl | rfl
    · exact ⟨_, d2, hidp _ d2⟩
    · exact ⟨_, d3, hidp _ d3⟩)
  have hiff1 : ∀ v < M.points.length, (cnt1.getD v 0 ≠ 0 ↔
      ∃ e < M.topo.numEdges, v = (M.topo.edge e).1 ∨ v = (M.topo.edge e).2) := by
    intro v hv'
    rw [l3 v hv']
    constructor
    · rintro ⟨x, hx, subs, s1, y, hy, hye⟩
      obtain ⟨e, he, rfl⟩ := List.getElem_of_mem hx
      obtain ⟨d1, d2, d3⟩ := hc1 e he
      rw [d1] at s1
      cases s1
      simp only [List.mem_cons, List.not_mem_nil, or_false] at hy
      rcases hy with rfl | rfl
      · rw [hidp _ d2] at hye
        cases hye
        exact ⟨e, by omega, Or.inl rfl⟩
      · rw [hidp _ d3] at hye
        cases hye
        exact ⟨e, by omega, Or.inr rfl⟩
    · rintro ⟨e, he, hve⟩
      obtain ⟨d1, d2, d3⟩ := hc1 e (by omega)
      refine ⟨_, List.getElem_mem (by omega), _, d1, .pt v, ?_, hidp v hv'⟩
      rcases hve with rfl | rfl <;> simp
  have hn1 : M.numEntities (0 + 1) = some M.segments.length := rfl
  have hn2 : M.numEntities (1 + 1) = some M.points.length := rfl
  have hval : M.checkMeshCompleteness = if cnt0 = [] then none else
      if cnt1 = [] then none else some ((cnt0.all fun i => decide (i ≠ 0)) && cnt1.all fun i => decide (i ≠ 0)) := by
    unfold Mesh.checkMeshCompleteness
    simp only [List.range_succ, List.range_zero, List.nil_append, List.cons_append, List.foldlM_cons, List.foldlM_nil,
      hn1, hn2, Option.bind_some, a1, b1, k1, l1, Option.bind_eq_bind, Option.pure_def]
    by_cases h0 : cnt0 = []
    · simp [h0]
    · by_cases h2 : cnt1 = []
      · simp [h0, h2]
      · simp [h0, h2]
  have he : M.topo.numEdges = M.segments.length := rfl
  have hnn : M.topo.numNodes = M.points.length := rfl
  constructor
  · intro h0
    have : cnt0 = [] := List.eq_nil_of_length_eq_zero (by rw [k2, ← he, h0])
    rw [hval, if_pos this]
  · intro h0
    have n0 : cnt0 ≠ [] := fun h => by rw [h] at k2; simp only [List.length_nil] at k2; omega
    have n1 : cnt1 ≠ [] := fun h => by
      rw [h] at l2
      have := (hc1 0 (by omega)).2.1
      simp only [List.length_nil] at l2
      omega
    rw [hval, if_neg n0, if_neg n1]
    refine ⟨_, rfl, ?_⟩
    rw [Bool.and_eq_true, all_iff_getD, all_iff_getD, k2, l2, he, hnn]
    refine and_congr ?_ ?_
    · exact forall_congr' fun e => imp_congr_right fun h => hiff0 e h
    · exact forall_congr' fun v => imp_congr_right fun h => hiff1 v h

/-- The check of the factory implies the check of the mesh. -/
theorem completeness_chk (h : M.FromFactory ops true hist) (h0 : M.topo.numEdges ≠ 0) :
    M.checkMeshCompleteness = some true := by
  obtain ⟨b, h1, h2⟩ := (completeness h).2 h0
  rw [h1]
  refine congrArg some (h2.2 ?_)
  obtain ⟨f, rets, hr, hv, hB, hc⟩ := built_of h
  obtain ⟨hc1, hc2⟩ := hc rfl
  have hwf := hB.topo_WF hv
  have hcell : ∀ c ∈ f.elements, ∃ k < M.topo.numCells, (M.topo.cell k).nodes = c.nodes := by
    intro c hc
    obtain ⟨k, hk, rfl⟩ := List.getElem_of_mem hc
    exact ⟨k, by rw [hB.numCells']; exact hk, (hB.cell_eq k hk).1⟩
  have hside : ∀ k < M.topo.numCells, ∀ j < (M.topo.cell k).nodes.length, ∃ e ∈ (M.topo.cell k).edges,
      e < M.topo.numEdges ∧ SamePair (M.topo.edge e) (side (M.topo.cell k).nodes j) := by
    intro k hk j hj
    have hl := hwf.cell_edges_len k hk
    have hs := hwf.cell_side k hk j hj
    rw [List.getD_eq_getElem _ _ (by omega)] at hs
    exact ⟨_, List.getElem_mem (by omega), hwf.cell_edges k hk _ (List.getElem_mem (by omega)), hs⟩
  constructor
  · intro e he
    obtain ⟨p, hp, -, p2, p3⟩ := hB.segAt e he
    have : ∃ c ∈ f.elements, ∃ j < c.nodes.length, SamePair (M.segments[p].p0, M.segments[p].p1) (side c.nodes j) := by
      by_cases hs : M.segments[p].index < f.edges.length
      · have := (hB.seg_supplied _ (List.getElem_mem hp) hs).1
        rw [this]
        exact hc1 _ (List.getElem_mem hs)
      · exact (hB.seg_new _ (List.getElem_mem hp) (by omega)).1
    obtain ⟨c, hcm, j, hj, hsp⟩ := this
    obtain ⟨k, hk, hkn⟩ := hcell c hcm
    rw [← hkn] at hj hsp
    obtain ⟨e', he', hlt, hsp'⟩ := hside k hk j hj
    have : e = e' := hwf.edge_inj e he e' hlt (by
      rw [p3]
      rcases hsp with hsp | hsp <;> rcases hsp' with hsp' | hsp' <;> rw [hsp, hsp'] <;> simp [SamePair])
    exact ⟨k, hk, this ▸ he'⟩
  · intro v hv'
    obtain ⟨c, hcm, hvc⟩ := hc2 v (by rw [← hB.points_length]; exact hv')
    obtain ⟨k, hk, hkn⟩ := hcell c hcm
    rw [← hkn] at hvc
    obtain ⟨j, hj, rfl⟩ := List.getElem_of_mem hvc
    obtain ⟨e, -, hlt, hsp⟩ := hside k hk j hj
    refine ⟨e, hlt, ?_⟩
    have := side_first _ j hj
    rcases hsp with hsp | hsp
    · left; rw [hsp, this]
    · right; rw [hsp, Prod.snd_swap, this]

end MC
end Verif
