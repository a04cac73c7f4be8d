import Verif.Lemmas.MeshChecks1
import Mathlib.Tactic.IntervalCases

/-!
# The checks of indices, topology and completeness for meshes from the factory
-/

namespace Verif
namespace MC
variable {G : Type} {ops : GeoOps G} {chk : Bool} {hist : List (FactoryCall G)} {M : Mesh G}

theorem built_of (h : M.FromFactory ops chk hist) : ∃ f rets, Factory.run {} hist = some (f, rets) ∧
    ValidInput f.nodes f.edges f.elements ∧ Built ops f.nodes f.edges f.elements M ∧
    (chk = true → CompleteInput f.nodes.length f.edges f.elements) := by
  obtain ⟨f, rets, f', h1, h2⟩ := h
  have h3 := (C16_build_succeeds_iff ops chk hist f rets h1).1 (by rw [h2]; rfl)
  refine ⟨f, rets, h1, h3.1, ?_, h3.2⟩
  unfold Factory.build at h2
  rcases buildMesh_spec ops f.nodes f.edges f.elements chk h3.1.nodes_some with ⟨_, M', e, hB⟩ | ⟨_, e⟩
  · rw [e] at h2
    cases h2
    exact hB
  · rw [e] at h2
    cases h2

/-- The entities of a codimension in the order of their indices. -/
theorem entities_of (h : M.FromFactory ops chk hist) (codim : ℕ) (hc : codim ≤ 2) : ∃ es : List EntPtr,
    M.entities codim = some es ∧ M.numEntities codim = some es.length ∧
    ∀ i (hi : i < es.length), M.entityByIndex codim i = some es[i] ∧ M.IsEntity es[i] ∧ Mesh.codim es[i] = codim ∧
      M.index es[i] = some i := by
  obtain ⟨f, rets, h1, hv, hB, -⟩ := built_of h
  obtain ⟨f0, rets0, f0', hr, hb⟩ := h
  have key : ∀ (ptrs : List (Option EntPtr)) (n : ℕ), ptrs.length = n → M.numEntities codim = some n →
      (∀ i, M.entityByIndex codim i = (ptrs[i]?).join) → M.entities codim = ptrs.mapM id → ∃ es : List EntPtr,
    M.entities codim = some es ∧ M.numEntities codim = some es.length ∧
    ∀ i (hi : i < es.length), M.entityByIndex codim i = some es[i] ∧ M.IsEntity es[i] ∧ Mesh.codim es[i] = codim ∧
      M.index es[i] = some i := by
    intro ptrs n hl hn he hm
    have hget : ∀ i < n, ∃ p, M.entityByIndex codim i = some p ∧ M.IsEntity p ∧ Mesh.codim p = codim ∧
      M.index p = some i := fun i hi => C19_entityByIndex ops chk hist f0 f0' rets0 M hr hb codim n hn i hi
    obtain ⟨es, e1, e2⟩ := mapM_id_of ptrs fun x hx => by
      obtain ⟨i, hi, rfl⟩ := List.getElem_of_mem hx
      obtain ⟨p, hp, -⟩ := hget i (by omega)
      rw [he, List.getElem?_eq_getElem hi] at hp
      simp only [Option.join_some] at hp
      rw [hp]; rfl
    have hlen : es.length = n := by rw [← hl, e2, List.length_map]
    refine ⟨es, by rw [hm, e1], by rw [hlen, hn], fun i hi => ?_⟩
    obtain ⟨p, hp, h2, h3, h4⟩ := hget i (by omega)
    have : p = es[i] := by
      rw [he, e2, List.getElem?_map, List.getElem?_eq_getElem hi] at hp
      simpa using hp.symm
    subst this
    exact ⟨hp, h2, h3, h4⟩
  interval_cases codim
  · exact key M.ptrs0 _ (hB.len0.trans hB.numCells.symm) rfl (fun _ => rfl) rfl
  · exact key M.ptrs1 _ hB.len1 rfl (fun _ => rfl) rfl
  · exact key M.ptrs2 _ hB.len2 rfl (fun _ => rfl) rfl

theorem count_range (n i : ℕ) (hi : i < n) : ((List.range n).map some).count (some i) = 1 := by
  refine List.count_eq_one_of_mem ?_ (by simpa using hi)
  exact (List.nodup_range).map (Option.some_injective _)

theorem wellIndexed (h : M.FromFactory ops chk hist) : M.WellIndexed := by
  intro codim hc
  obtain ⟨es, h1, h2, h3⟩ := entities_of h codim hc
  refine ⟨es, es.length, h1, h2, fun i hi => ?_, fun e he => ?_⟩
  · have : es.map M.index = (List.range es.length).map some := by
      refine List.ext_getElem (by simp) fun j hj hj' => ?_
      simp only [List.getElem_map, List.getElem_range]
      exact (h3 j (by simpa using hj)).2.2.2
    rw [this]
    exact count_range _ _ hi
  · obtain ⟨i, hi, rfl⟩ := List.getElem_of_mem he
    obtain ⟨a, -, -, d⟩ := h3 i hi
    exact ⟨i, hi, d, _, a, d⟩

/-! ### Sub-entities -/

theorem sub_seg (p : ℕ) (hp : p < M.segments.length) :
    M.subEntities (.seg p) 1 = some [.pt M.segments[p].p0, .pt M.segments[p].p1] := by
  simp [Mesh.subEntities, hp]

theorem sub_cell {e : EntPtr} {cell : Cell G} (h : M.cellOf e = some cell) :
    M.subEntities e 1 = some (cell.edges.map .seg) ∧ M.subEntities e 2 = some (cell.nodes.map .pt) ∧
      e.refEl.dimension = 2 ∧ (e.refEl = .tria ∨ e.refEl = .quad) := by
  cases e with
  | tria p => simp only [Mesh.cellOf] at h; simp [Mesh.subEntities, h, EntPtr.refEl, RefEl.dimension]
  | quad p => simp only [Mesh.cellOf] at h; simp [Mesh.subEntities, h, EntPtr.refEl, RefEl.dimension]
  | seg p => simp [Mesh.cellOf] at h
  | pt p => simp [Mesh.cellOf] at h

/-- What is known of a cell of a mesh from the factory. -/
theorem cell_of (h : M.FromFactory ops chk hist) (c : ℕ) (hc : c < M.topo.numCells) : ∃ e cell,
    M.entityByIndex 0 c = some e ∧ M.cellOf e = some cell ∧ e.refEl.numNodes = cell.nodes.length ∧
    cell.nodes = (M.topo.cell c).nodes ∧ cell.edges.length = cell.nodes.length ∧
    ∀ j < cell.nodes.length, ∃ q, ∃ hq : q < M.segments.length, cell.edges[j]? = some q ∧
      (M.topo.cell c).edges[j]? = some M.segments[q].index ∧
      SamePair (M.segments[q].p0, M.segments[q].p1) (side cell.nodes j) := by
  obtain ⟨f, rets, h1, hv, hB, -⟩ := built_of h
  have hc' : c < f.elements.length := by rw [← hB.numCells']; exact hc
  obtain ⟨p, cell, ref, a1, a2, a3, a4, a5, a6, a7, a8⟩ := hB.cellAt c hc'
  have hcell : M.topo.cell c = ⟨cell.nodes, cell.edges.map (fun p => ((M.index (.seg p)).getD 0)), cell.ori⟩ := by
    simp [Mesh.topo, a1, a2]
  refine ⟨p, cell, a1, a2, ?_, by rw [hcell], by rw [a6.edges_len, a6.nodes], fun j hj => ?_⟩
  · rw [a6.nodes, ← a6.numNodes]
    rcases a6.ref_cell with rfl | rfl
    · obtain ⟨q, rfl⟩ := a7 rfl; rfl
    · obtain ⟨q, rfl⟩ := a8 rfl; rfl
  · rw [a6.nodes] at hj ⊢
    obtain ⟨e, s, b1, b2, b3, -⟩ := a6.sides j hj
    obtain ⟨he, rfl⟩ := List.getElem?_eq_some_iff.1 b2
    refine ⟨e, he, b1, ?_, b3⟩
    rw [hcell]
    simp [b1, Mesh.index, he]

theorem count_pt (l : List ℕ) (v : ℕ) : (l.map EntPtr.pt).count (.pt v) = l.count v :=
  List.count_map_of_injective l EntPtr.pt (fun a b h => by simpa using h) v

/-- Every node of a cell is the first end point of a side. -/
theorem side_first (l : List ℕ) (j : ℕ) (hj : j < l.length) : (side l j).1 = l[j] := by simp [side, hj]

theorem side_mem (l : List ℕ) (j : ℕ) (hj : j < l.length) : (side l j).1 ∈ l ∧ (side l j).2 ∈ l := by
  have : (j + 1) % l.length < l.length := Nat.mod_lt _ (by omega)
  simp [side, hj, this]

theorem localTopology_cell (h : M.FromFactory ops chk hist) (c : ℕ) (hc : c < M.topo.numCells) (e : EntPtr)
    (he : M.entityByIndex 0 c = some e) : M.checkRelCodim e = some true ∧
    M.checkLocalTopology e = some (decide (M.topo.cell c).nodes.Nodup) := by
  obtain ⟨e', cell, a1, a2, a3, a4, a5, a6⟩ := cell_of h c hc
  rw [he] at a1
  cases a1
  obtain ⟨s1, s2, sd, sk⟩ := sub_cell a2
  have hnum : ∀ k, k = 1 ∨ k = 2 → e.refEl.numSubEntities k = some cell.nodes.length := by
    intro k hk
    rcases sk with sk | sk <;> rw [sk] at a3 ⊢ <;> rw [← a3] <;> rcases hk with rfl | rfl <;> rfl
  have hsub1 : ∀ x ∈ cell.edges.map EntPtr.seg, x.refEl.dimension = 1 := by
    intro x hx
    obtain ⟨q, -, rfl⟩ := List.mem_map.1 hx
    rfl
  have hsub2 : ∀ x ∈ cell.nodes.map EntPtr.pt, x.refEl.dimension = 0 := by
    intro x hx
    obtain ⟨q, -, rfl⟩ := List.mem_map.1 hx
    rfl
  constructor
  · unfold Mesh.checkRelCodim
    simp only [sd]
    rw [foldlM_bool _ (fun _ => true)]
    · simp
    · intro ok k hk
      have hk' : k = 1 ∨ k = 2 := by
        simp at hk; omega
      rcases hk' with rfl | rfl
      · rw [s1, Option.bind_some, hnum 1 (by simp), Option.bind_some]
        rw [foldlM_bool _ (fun _ => true)]
        · simp
        · intro ok i hi
          have hi' : i < (cell.edges.map EntPtr.seg).length := by simpa [a5] using hi
          rw [List.getElem?_eq_getElem hi', Option.bind_some, hsub1 _ (List.getElem_mem hi')]
          simp
      · rw [s2, Option.bind_some, hnum 2 (by simp), Option.bind_some]
        rw [foldlM_bool _ (fun _ => true)]
        · simp
        · intro ok i hi
          have hi' : i < (cell.nodes.map EntPtr.pt).length := by simpa using hi
          rw [List.getElem?_eq_getElem hi', Option.bind_some, hsub2 _ (List.getElem_mem hi')]
          simp
  · unfold Mesh.checkLocalTopology
    simp only [sd]
    have hends : ∀ q ∈ cell.edges, ∃ hq : q < M.segments.length, ∃ j < cell.nodes.length,
        SamePair (M.segments[q].p0, M.segments[q].p1) (side cell.nodes j) := by
      intro q hq
      obtain ⟨j, hj, rfl⟩ := List.getElem_of_mem hq
      obtain ⟨q', hq', b1, -, b3⟩ := a6 j (by omega)
      rw [List.getElem?_eq_getElem hj] at b1
      cases b1
      exact ⟨hq', j, by omega, b3⟩
    let Q : EntPtr → Bool := fun x => match x with
      | .seg q => decide (∀ hq : q < M.segments.length, cell.nodes.count M.segments[q].p0 = 1 ∧
          cell.nodes.count M.segments[q].p1 = 1)
      | _ => true
    rw [foldlM_bool _ (fun k => if k = 1 then (cell.edges.map EntPtr.seg).all Q else true)]
    · have hall : (cell.edges.map EntPtr.seg).all Q = decide (M.topo.cell c).nodes.Nodup := by
        rw [← a4, Bool.eq_iff_iff, List.all_eq_true, decide_eq_true_eq]
        constructor
        · intro hQ
          rw [List.nodup_iff_count_eq_one]
          intro v hv
          obtain ⟨j, hj, rfl⟩ := List.getElem_of_mem hv
          obtain ⟨q, hq, b1, -, b3⟩ := a6 j hj
          have := hQ (.seg q) (List.mem_map_of_mem (List.mem_of_getElem? b1))
          simp only [Q, decide_eq_true_eq] at this
          obtain ⟨c1, c2⟩ := this hq
          rw [← side_first cell.nodes j hj]
          rcases b3 with b3 | b3
          · rw [← b3]; exact c1
          · have := congrArg Prod.snd b3
            simp only [Prod.snd_swap] at this
            rw [← this]; exact c2
        · intro hn x hx
          obtain ⟨q, hq, rfl⟩ := List.mem_map.1 hx
          simp only [Q, decide_eq_true_eq]
          intro hq'
          obtain ⟨_, j, hj, b3⟩ := hends q hq
          obtain ⟨m1, m2⟩ := side_mem cell.nodes j hj
          have : M.segments[q].p0 ∈ cell.nodes ∧ M.segments[q].p1 ∈ cell.nodes := by
            rcases b3 with b3 | b3
            · rw [← b3] at m1 m2; exact ⟨m1, m2⟩
            · have e1 := congrArg Prod.fst b3
              have e2 := congrArg Prod.snd b3
              simp only [Prod.fst_swap, Prod.snd_swap] at e1 e2
              rw [e1, e2]; exact ⟨m2, m1⟩
          exact ⟨List.count_eq_one_of_mem hn this.1, List.count_eq_one_of_mem hn this.2⟩
      rw [← hall]
      simp [List.range_succ]
    · intro ok k hk
      have hk' : k = 1 ∨ k = 2 := by
        simp at hk; omega
      rcases hk' with rfl | rfl
      · rw [hnum 1 (by simp), Option.bind_some, s1, Option.bind_some]
        rw [foldlM_bool _ Q]
        · simp [a5]
        · intro ok x hx
          obtain ⟨q, hq, rfl⟩ := List.mem_map.1 hx
          obtain ⟨hq', -⟩ := hends q hq
          have hd : (EntPtr.seg q).refEl.dimension = 1 := rfl
          simp only [hd]
          simp only [List.range_one, List.map_cons, List.map_nil, zero_add, List.foldlM_cons, List.foldlM_nil, s2,
            sub_seg q hq', Option.bind_eq_bind, Option.bind_some, Option.pure_def, count_pt]
          simp [Q, hq', Bool.and_assoc]
      · rw [hnum 2 (by simp), Option.bind_some, s2, Option.bind_some]
        rw [foldlM_bool _ (fun _ => true)]
        · simp
        · intro ok x hx
          simp [hsub2 x hx]

theorem localTopology_seg (h : M.FromFactory ops chk hist) (p : ℕ) (hp : p < M.segments.length) :
    M.checkRelCodim (.seg p) = some true ∧ M.checkLocalTopology (.seg p) = some true := by
  have hd : (EntPtr.seg p).refEl.dimension = 1 := rfl
  have hn : (EntPtr.seg p).refEl.numSubEntities 1 = some 2 := rfl
  have hd0 : ∀ q, (EntPtr.pt q).refEl.dimension = 0 := fun _ => rfl
  constructor
  · unfold Mesh.checkRelCodim
    simp [hd, hn, hd0, sub_seg p hp, List.range_succ]
  · unfold Mesh.checkLocalTopology
    simp [hd, hn, hd0, sub_seg p hp, List.range_succ]

theorem localTopology_pt (p : ℕ) : M.checkRelCodim (.pt p) = some true ∧ M.checkLocalTopology (.pt p) = some true := by
  have hd0 : (EntPtr.pt p).refEl.dimension = 0 := rfl
  constructor
  · unfold Mesh.checkRelCodim
    simp [hd0]
  · unfold Mesh.checkLocalTopology
    simp [hd0]

end MC
end Verif
