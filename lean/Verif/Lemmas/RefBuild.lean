import Verif.Lemmas.RefLoops

/-! The mesh built by `PerformRefinement`. -/

namespace Verif
variable {G : Type}

theorem zipWith_proj {α β γ δ : Type} (F : α → β → γ) (h : γ → δ) (k : α → δ) (hk : ∀ a b, h (F a b) = k a)
    (l : List α) (m : List β) (hl : l.length = m.length) : (List.zipWith F l m).map h = l.map k := by
  induction l generalizing m with
  | nil => rfl
  | cons a l ih =>
    cases m with
    | nil => simp at hl
    | cons b m => simp [hk, ih m (by simpa using hl)]

section complete
variable {T : Topo} {P : Plan} (hT : T.Conforming) (hP : P.Ok T) (hC : T.Complete)
include hT hP hC

theorem edges_covered (z : Sym2 FNode) (hz : z ∈ toS (P.fineEdges T)) :
    ∃ Q ∈ P.fineCells T, z ∈ sidesOf Q := by
  have h : toS (P.fineEdges T) = (List.range T.numEdges).flatMap (fun e => toS (P.subPairs T e)) ++
      (List.range T.numCells).flatMap (fun c => toS (P.intPairs T c)) := by
    simp [toS, Plan.fineEdges, List.map_flatMap]
  have h1 : z ∈ (P.fineCells T).flatMap sidesOf := by
    rw [(fine_sides hT hP).mem_iff]
    rw [h, List.mem_append] at hz
    rw [List.mem_append, List.mem_append, or_self]
    rcases hz with hz | hz
    · left
      rw [List.mem_flatMap] at hz ⊢
      obtain ⟨e, he, hz⟩ := hz
      obtain ⟨c, hc, hec⟩ := hC.1 e (by simpa using he)
      exact ⟨e, List.mem_flatMap.2 ⟨c, by simpa using hc, hec⟩, hz⟩
    · exact Or.inr hz
  exact List.mem_flatMap.1 h1

theorem nodes_covered (x : FNode) (hx : P.ValidNode T x) : ∃ Q ∈ P.fineCells T, x ∈ Q := by
  have key : ∀ c < T.numCells, ∀ y ∈ legal (T.cell c).nodes.length ((T.cell c).edges.map P.sp) (P.ctr c),
      ∃ Q ∈ P.fineCells T, locF T c y ∈ Q := by
    intro c hc y hy
    obtain ⟨Q, hQ, hyQ⟩ := (hP c hc).coverOk y hy
    refine ⟨Q.map (locF T c), ?_, List.mem_map.2 ⟨y, hyQ, rfl⟩⟩
    unfold Plan.fineCells
    exact List.mem_flatMap.2 ⟨c, by simpa using hc, List.mem_map.2 ⟨Q, hQ, rfl⟩⟩
  cases x with
  | vert v =>
    obtain ⟨c, hc, hv⟩ := hC.2 v hx
    obtain ⟨i, hi, rfl⟩ := exists_getD _ _ hv
    exact key c hc (.v i) (mem_legal_v.2 hi)
  | mid e =>
    obtain ⟨c, hc, hv⟩ := hC.1 e hx.1
    obtain ⟨i, hi, rfl⟩ := exists_getD _ _ hv
    have hl := hT.wf.cell_edges_len c hc
    refine key c hc (.m i) (mem_legal_m.2 ⟨by omega, ?_⟩)
    rw [List.getD_eq_getElem _ _ (by simpa using hi), List.getElem_map]
    have := hx.2
    rwa [List.getD_eq_getElem _ _ hi] at this
  | ctr c => exact key c hx.1 .ctr (mem_legal_ctr.2 hx.2)

end complete

/-- Sides of a polygon of numbered nodes. -/
theorem mem_sides_num {P : Plan} {T : Topo} (Q : List FNode) (z : Sym2 FNode) (hz : z ∈ sidesOf Q) :
    ∃ j < Q.length, Sym2.map (P.num T) z = s((side (Q.map (P.num T)) j).1, (side (Q.map (P.num T)) j).2) := by
  have : Sym2.map (P.num T) z ∈ sidesOf (Q.map (P.num T)) := by
    rw [sidesOf_map]; exact List.mem_map.2 ⟨z, hz, rfl⟩
  rw [sidesOf_eq, List.mem_map] at this
  obtain ⟨j, hj, h⟩ := this
  exact ⟨j, by simpa using hj, h.symm⟩

theorem side_num_mem {P : Plan} {T : Topo} (Q : List FNode) (j : ℕ) (hj : j < Q.length) :
    ∃ z ∈ sidesOf Q, Sym2.map (P.num T) z = s((side (Q.map (P.num T)) j).1, (side (Q.map (P.num T)) j).2) := by
  have : s((side (Q.map (P.num T)) j).1, (side (Q.map (P.num T)) j).2) ∈ sidesOf (Q.map (P.num T)) := by
    rw [sidesOf_eq, List.mem_map]
    exact ⟨j, by simpa using hj, rfl⟩
  rw [sidesOf_map, List.mem_map] at this
  exact this

/-- The refined mesh. -/
structure Refined (cops : ChildOps G) (M : Mesh G) (P : Plan) (Γ : GPlan G) (F : Mesh G) : Prop where
  valid : F.Valid
  isRef : IsRef M.topo P F.topo
  geoOk : F.GeoOk cops
  pointGeo : ∀ v < M.topo.numNodes, ∀ g, Γ.pg v = [g] → F.points[v]? = some g
  midGeo : ∀ e < M.topo.numEdges, ∀ j < P.mw e, F.points[M.topo.numNodes + off P.mw e + j]? = (Γ.em e)[j]?
  ctrGeo : ∀ c < M.topo.numCells, ∀ j < P.cw c,
    F.points[M.topo.numNodes + off P.mw M.topo.numEdges + off P.cw c + j]? = (Γ.cm c)[j]?
  subGeo : ∀ e < M.topo.numEdges, ∀ j < P.ew e, F.edgeGeo (off P.ew e + j) = (Γ.eg e)[j]?
  intGeo : ∀ c < M.topo.numCells, ∀ j < P.iw c,
    F.edgeGeo (off P.ew M.topo.numEdges + off P.iw c + j) = (Γ.ce c)[j]?
  cellGeo : ∀ c < M.topo.numCells, ∀ j < P.pw c, F.cellGeo (off P.pw c + j) = (Γ.cg c)[j]?

variable {cops : ChildOps G} {M : Mesh G} {P : Plan} {A : Pats} {Γ : GPlan G}
  (hR : Ready cops M P A) (hΓ : GeoFor cops M P A Γ)
include hR hΓ

theorem st0_pairs : (st0 M.topo P Γ M.topo.numCells).edges.map (fun e => (e.p0, e.p1)) =
    (P.fineEdges M.topo).map fun x => (P.num M.topo x.1, P.num M.topo x.2) := by
  unfold st0 st1 Plan.fineEdges
  simp only [List.map_append, List.map_flatMap]
  congr 1
  · apply List.flatMap_congr
    intro e he
    obtain ⟨g, _, _, _, h, _⟩ := hΓ.edge e (by simpa using he)
    unfold subIns
    apply zipWith_proj
    · intro a b; rfl
    · rw [subPairs_length, h]
  · apply List.flatMap_congr
    intro c hc
    obtain ⟨_, _, _, _, _, _, _, _, _, _, h, _⟩ := hΓ.cell c (by simpa using hc)
    unfold intIns
    apply zipWith_proj
    · intro a b; rfl
    · rw [intPairs_length, h]

theorem st0_cellNodes : (st0 M.topo P Γ M.topo.numCells).elements.map (fun c => c.nodes) =
    (P.fineCells M.topo).map fun Q => Q.map (P.num M.topo) := by
  unfold st0 Plan.fineCells
  simp only [List.map_flatMap, List.map_map]
  apply List.flatMap_congr
  intro c hc
  have := cg_len hR hΓ c (by simpa using hc)
  unfold cellIns
  apply zipWith_proj
  · intro a b; rfl
  · rw [this]; rfl

theorem st0_nodes_len : (st0 M.topo P Γ M.topo.numCells).nodes.length = P.numFine M.topo :=
  st0_len hR hΓ _ (Nat.le_refl _)

theorem st0_edge_mem (e : EdgeIn G) (he : e ∈ (st0 M.topo P Γ M.topo.numCells).edges) :
    ∃ x ∈ P.fineEdges M.topo, (e.p0, e.p1) = (P.num M.topo x.1, P.num M.topo x.2) := by
  have : (e.p0, e.p1) ∈ (st0 M.topo P Γ M.topo.numCells).edges.map (fun e => (e.p0, e.p1)) :=
    List.mem_map.2 ⟨e, he, rfl⟩
  rw [st0_pairs hR hΓ, List.mem_map] at this
  obtain ⟨x, hx, h⟩ := this
  exact ⟨x, hx, h.symm⟩

theorem st0_cell_mem (c : CellIn G) (hc : c ∈ (st0 M.topo P Γ M.topo.numCells).elements) :
    ∃ Q ∈ P.fineCells M.topo, c.nodes = Q.map (P.num M.topo) := by
  have : c.nodes ∈ (st0 M.topo P Γ M.topo.numCells).elements.map (fun c => c.nodes) :=
    List.mem_map.2 ⟨c, hc, rfl⟩
  rw [st0_cellNodes hR hΓ, List.mem_map] at this
  obtain ⟨x, hx, h⟩ := this
  exact ⟨x, hx, h.symm⟩

theorem st0_cell_of (Q : List FNode) (hQ : Q ∈ P.fineCells M.topo) :
    ∃ c ∈ (st0 M.topo P Γ M.topo.numCells).elements, c.nodes = Q.map (P.num M.topo) := by
  have : Q.map (P.num M.topo) ∈ (st0 M.topo P Γ M.topo.numCells).elements.map (fun c => c.nodes) := by
    rw [st0_cellNodes hR hΓ]; exact List.mem_map.2 ⟨Q, hQ, rfl⟩
  obtain ⟨c, hc, h⟩ := List.mem_map.1 this
  exact ⟨c, hc, h⟩

theorem zipWith_geo {α : Type} (F : α → G → EdgeIn G) (hF : ∀ a g, (F a g).geo = some g) (l : List α) (m : List G)
    (e : EdgeIn G) (he : e ∈ List.zipWith F l m) : e.geo.isSome = true := by
  obtain ⟨i, hi, rfl⟩ := List.getElem_of_mem he
  rw [List.getElem_zipWith, hF]; rfl

theorem st0_valid : ValidInput (st0 M.topo P Γ M.topo.numCells).nodes (st0 M.topo P Γ M.topo.numCells).edges
    (st0 M.topo P Γ M.topo.numCells).elements := by
  have hnl := st0_nodes_len hR hΓ
  have hT := hR.conf
  have hP := hR.ok
  refine ⟨?_, ?_, ?_, ?_, ?_, ?_, ?_, ?_⟩
  · intro g hg
    simp only [st0, st1, st2, List.mem_append, List.mem_flatMap, List.mem_map] at hg
    rcases hg with (⟨_, _, _, _, rfl⟩ | ⟨_, _, _, _, rfl⟩) | ⟨_, _, _, _, rfl⟩ <;> rfl
  · intro e he
    obtain ⟨x, hx, h⟩ := st0_edge_mem hR hΓ e he
    obtain ⟨v1, v2, v3⟩ := fineEdges_valid hT hP x hx
    simp only [Prod.mk.injEq] at h
    rw [h.1, h.2]
    exact fun h => v3 (num_inj _ _ v1 v2 h)
  · intro e he
    obtain ⟨x, hx, h⟩ := st0_edge_mem hR hΓ e he
    obtain ⟨v1, v2, v3⟩ := fineEdges_valid hT hP x hx
    simp only [Prod.mk.injEq] at h
    rw [h.1, h.2, hnl]
    exact ⟨num_lt _ v1, num_lt _ v2⟩
  · intro e he
    simp only [st0, st1, List.mem_append, List.mem_flatMap] at he
    rcases he with ⟨f, _, h⟩ | ⟨c, _, h⟩
    · exact zipWith_geo hR hΓ _ (fun _ _ => rfl) _ _ e h
    · exact zipWith_geo hR hΓ _ (fun _ _ => rfl) _ _ e h
  · have h1 : ((st0 M.topo P Γ M.topo.numCells).edges.map (fun e => (e.p0, e.p1))).Pairwise
        (fun x y => ¬ SamePair x y) := by
      rw [st0_pairs hR hΓ, List.pairwise_map]
      have hn := fineEdges_nodup hT hP
      unfold toS at hn
      rw [List.Nodup, List.pairwise_map] at hn
      apply hn.imp_of_mem
      intro x y hx hy hxy h
      rw [samePair_iff] at h
      exact hxy (num_sym_inj hT hP _ _ (List.mem_map.2 ⟨x, hx, rfl⟩) (List.mem_map.2 ⟨y, hy, rfl⟩) h)
    rw [List.pairwise_map] at h1
    exact h1
  · intro c hc
    obtain ⟨Q, hQ, h⟩ := st0_cell_mem hR hΓ c hc
    rw [h, List.length_map]
    exact (fineCells_valid hT hP Q hQ).1
  · intro c hc v hv
    obtain ⟨Q, hQ, h⟩ := st0_cell_mem hR hΓ c hc
    rw [h] at hv
    obtain ⟨x, hx, rfl⟩ := List.mem_map.1 hv
    rw [hnl]
    exact num_lt _ ((fineCells_valid hT hP Q hQ).2.2 x hx)
  · intro c hc j hj
    obtain ⟨Q, hQ, h⟩ := st0_cell_mem hR hΓ c hc
    rw [h] at hj ⊢
    obtain ⟨z, hz, hzz⟩ := side_num_mem (P := P) (T := M.topo) Q j (by simpa using hj)
    have hz' := sides_registered hT hP Q hQ z hz
    obtain ⟨x, hx, rfl⟩ := List.mem_map.1 hz'
    obtain ⟨v1, v2, v3⟩ := fineEdges_valid hT hP x hx
    intro heq
    rw [heq, Sym2.map_mk, Sym2.eq_iff] at hzz
    have : P.num M.topo x.1 = P.num M.topo x.2 := by
      rcases hzz with ⟨a, b⟩ | ⟨a, b⟩ <;> rw [a, b]
    exact v3 (num_inj _ _ v1 v2 this)

theorem st0_complete (hC : M.topo.Complete) : CompleteInput (st0 M.topo P Γ M.topo.numCells).nodes.length
    (st0 M.topo P Γ M.topo.numCells).edges (st0 M.topo P Γ M.topo.numCells).elements := by
  have hnl := st0_nodes_len hR hΓ
  have hT := hR.conf
  have hP := hR.ok
  refine ⟨?_, ?_⟩
  · intro e he
    obtain ⟨x, hx, h⟩ := st0_edge_mem hR hΓ e he
    obtain ⟨Q, hQ, hz⟩ := edges_covered hT hP hC s(x.1, x.2) (List.mem_map.2 ⟨x, hx, rfl⟩)
    obtain ⟨c, hc, hcn⟩ := st0_cell_of hR hΓ Q hQ
    obtain ⟨j, hj, hs⟩ := mem_sides_num (P := P) (T := M.topo) Q _ hz
    refine ⟨c, hc, j, by rw [hcn]; simpa using hj, ?_⟩
    rw [hcn, h, samePair_iff, ← hs]
    rfl
  · intro v hv
    rw [hnl] at hv
    obtain ⟨x, hx, rfl⟩ := num_surj v hv
    obtain ⟨Q, hQ, hxQ⟩ := nodes_covered hT hP hC x hx
    obtain ⟨c, hc, hcn⟩ := st0_cell_of hR hΓ Q hQ
    exact ⟨c, hc, by rw [hcn]; exact List.mem_map.2 ⟨x, hxQ, rfl⟩⟩

variable {ops : GeoOps G} {F : Mesh G} (hB : Built ops (st0 M.topo P Γ M.topo.numCells).nodes
  (st0 M.topo P Γ M.topo.numCells).edges (st0 M.topo P Γ M.topo.numCells).elements F)
include hB

/-- The factory creates no further edges. -/
theorem built_numEdges : F.segments.length = (P.fineEdges M.topo).length := by
  have hT := hR.conf
  have hP := hR.ok
  have hel : (st0 M.topo P Γ M.topo.numCells).edges.length = (P.fineEdges M.topo).length := by
    have := congrArg List.length (st0_pairs hR hΓ)
    simpa using this
  rw [← hel]
  apply Nat.le_antisymm _ hB.seg_count
  by_contra hlt
  push Not at hlt
  obtain ⟨p, hp, hpi⟩ := hB.ptr1 _ hlt
  obtain ⟨⟨c, hc, j, hj, hs⟩, _⟩ := hB.seg_new _ (List.getElem_mem hp) (by omega)
  obtain ⟨Q, hQ, h⟩ := st0_cell_mem hR hΓ c hc
  rw [h] at hj hs
  obtain ⟨z, hz, hzz⟩ := side_num_mem (P := P) (T := M.topo) Q j (by simpa using hj)
  have hz' := sides_registered hT hP Q hQ z hz
  obtain ⟨x, hx, rfl⟩ := List.mem_map.1 hz'
  obtain ⟨k, hk, hkx⟩ := List.getElem_of_mem hx
  obtain ⟨q, hq, hqi⟩ := hB.ptr1 k (by omega)
  have hk' : (F.segments[q]).index < (st0 M.topo P Γ M.topo.numCells).edges.length := by omega
  have h1 := (hB.seg_supplied _ (List.getElem_mem hq) hk').1
  have h2 : ((st0 M.topo P Γ M.topo.numCells).edges.map (fun e => (e.p0, e.p1)))[k]? =
      some (P.num M.topo x.1, P.num M.topo x.2) := by
    rw [st0_pairs hR hΓ, List.getElem?_map, List.getElem?_eq_getElem hk, hkx]; rfl
  rw [List.getElem?_map, List.getElem?_eq_getElem (by omega), Option.map_some, Option.some.injEq] at h2
  have h3 : ((F.segments[q]).p0, (F.segments[q]).p1) = (P.num M.topo x.1, P.num M.topo x.2) := by
    rw [h1, ← h2]
    congr 2 <;> simp only [hqi]
  have h4 : SamePair (F.segments[p].p0, F.segments[p].p1) (F.segments[q].p0, F.segments[q].p1) := by
    rw [samePair_iff] at hs ⊢
    rw [hs, h3, ← hzz]
    rfl
  have := hB.seg_inj p hp q hq h4
  subst this
  omega

theorem built_edge (k : ℕ) (hk : k < (st0 M.topo P Γ M.topo.numCells).edges.length) :
    F.topo.edge k = ((st0 M.topo P Γ M.topo.numCells).edges[k].p0, (st0 M.topo P Γ M.topo.numCells).edges[k].p1) ∧
    F.edgeGeo k = (st0 M.topo P Γ M.topo.numCells).edges[k].geo := by
  have hk' : k < F.segments.length := Nat.lt_of_lt_of_le hk hB.seg_count
  obtain ⟨p, hp, h1, h2, h3⟩ := hB.segAt k hk'
  have hpk : (F.segments[p]).index < (st0 M.topo P Γ M.topo.numCells).edges.length := by omega
  obtain ⟨h4, h5⟩ := hB.seg_supplied _ (List.getElem_mem hp) hpk
  constructor
  · rw [h3, h4]
    congr 2 <;> simp only [h2]
  · unfold Mesh.edgeGeo
    rw [h1]
    simp only [Option.bind_some, Mesh.segOf, List.getElem?_eq_getElem hp, Option.map_some]
    rw [← h5]
    congr 2

theorem built_cell (k : ℕ) (hk : k < (st0 M.topo P Γ M.topo.numCells).elements.length) (g : G)
    (hg : (st0 M.topo P Γ M.topo.numCells).elements[k].geo = some g) : F.cellGeo k = some g := by
  obtain ⟨p, cell, ref, h1, h2, _, _, _, hc, _⟩ := hB.cellAt k hk
  unfold Mesh.cellGeo
  rw [h1]
  simp only [Option.bind_some, h2, Option.map_some]
  have := hc.geo
  unfold Verif.cellGeo at this
  rw [hg] at this
  rw [this]

theorem built_point (k : ℕ) : (F.points[k]?).map some = (st0 M.topo P Γ M.topo.numCells).nodes[k]? := by
  rw [← hB.points, List.getElem?_map]

theorem zipWith_get {α β γ : Type} (f : α → β → γ) (l : List α) (m : List β) (j : ℕ) (h1 : j < l.length)
    (h2 : j < m.length) : (List.zipWith f l m)[j]? = some (f l[j] m[j]) := by
  rw [List.getElem?_eq_getElem (by simp; omega), List.getElem_zipWith]

theorem refined : Refined cops M P Γ F := by
  have hT := hR.conf
  have hP := hR.ok
  have hv := st0_valid hR hΓ
  have hel : (st0 M.topo P Γ M.topo.numCells).edges.length = (P.fineEdges M.topo).length := by
    have := congrArg List.length (st0_pairs hR hΓ)
    simpa using this
  have hcl : (st0 M.topo P Γ M.topo.numCells).elements.length = (P.fineCells M.topo).length := by
    have := congrArg List.length (st0_cellNodes hR hΓ)
    simpa using this
  have hF := hB.valid hv
  have hsub : ∀ e < M.topo.numEdges, ∀ j < P.ew e, F.edgeGeo (off P.ew e + j) = (Γ.eg e)[j]? := by
    intro e he j hj
    have hlt : off P.ew e + j < (st1 M.topo P Γ M.topo.numEdges).edges.length := by
      rw [st1_edges_len hR hΓ _ (Nat.le_refl _)]; exact off_lt _ he hj
    have hlt' : off P.ew e + j < (st0 M.topo P Γ M.topo.numCells).edges.length := by
      rw [st0_edges_len hR hΓ _ (Nat.le_refl _)]
      have := off_lt P.ew he hj
      omega
    rw [(built_edge hR hΓ hB _ hlt').2]
    have h1 : (st0 M.topo P Γ M.topo.numCells).edges[off P.ew e + j]? = (subIns M.topo P Γ e)[j]? := by
      simp only [st0]
      rw [List.getElem?_append_left hlt]
      simp only [st1]
      exact flatMap_get _ P.ew _ (fun i hi => (subIns_len hR hΓ i hi).symm) e he j hj
    obtain ⟨g, _, _, _, h4, _⟩ := hΓ.edge e he
    have hj1 : j < (P.subPairs M.topo e).length := by rw [subPairs_length]; exact hj
    have hj2 : j < (Γ.eg e).length := by omega
    rw [subIns, zipWith_get hR hΓ hB _ _ _ j hj1 hj2, List.getElem?_eq_getElem hlt', Option.some.injEq] at h1
    rw [h1, List.getElem?_eq_getElem hj2]
  have hint : ∀ c < M.topo.numCells, ∀ j < P.iw c,
      F.edgeGeo (off P.ew M.topo.numEdges + off P.iw c + j) = (Γ.ce c)[j]? := by
    intro c hc j hj
    have hlt' : off P.ew M.topo.numEdges + off P.iw c + j < (st0 M.topo P Γ M.topo.numCells).edges.length := by
      rw [st0_edges_len hR hΓ _ (Nat.le_refl _)]
      have := off_lt P.iw hc hj
      omega
    rw [(built_edge hR hΓ hB _ hlt').2]
    have h1 : (st0 M.topo P Γ M.topo.numCells).edges[off P.ew M.topo.numEdges + off P.iw c + j]? =
        (intIns M.topo P Γ c)[j]? := by
      simp only [st0]
      rw [List.getElem?_append_right (by rw [st1_edges_len hR hΓ _ (Nat.le_refl _)]; omega),
        st1_edges_len hR hΓ _ (Nat.le_refl _), Nat.add_assoc, Nat.add_sub_cancel_left]
      exact flatMap_get _ P.iw _ (fun i hi => (intIns_len hR hΓ i hi).symm) c hc j hj
    obtain ⟨_, _, _, _, _, _, _, _, _, _, h4, _⟩ := hΓ.cell c hc
    have hj1 : j < (P.intPairs M.topo c).length := by rw [intPairs_length]; exact hj
    have hj2 : j < (Γ.ce c).length := by omega
    rw [intIns, zipWith_get hR hΓ hB _ _ _ j hj1 hj2, List.getElem?_eq_getElem hlt', Option.some.injEq] at h1
    rw [h1, List.getElem?_eq_getElem hj2]
  have hcel : ∀ c < M.topo.numCells, ∀ j < P.pw c, F.cellGeo (off P.pw c + j) = (Γ.cg c)[j]? := by
    intro c hc j hj
    have hlt' : off P.pw c + j < (st0 M.topo P Γ M.topo.numCells).elements.length := by
      rw [st0_elems_len hR hΓ _ (Nat.le_refl _)]
      exact off_lt P.pw hc hj
    have hj2 : j < (Γ.cg c).length := by rw [cg_len hR hΓ c hc]; exact hj
    rw [List.getElem?_eq_getElem hj2]
    apply built_cell hR hΓ hB _ hlt'
    have h1 : (st0 M.topo P Γ M.topo.numCells).elements[off P.pw c + j]? = (cellIns M.topo P Γ c)[j]? := by
      simp only [st0]
      exact flatMap_get _ P.pw _ (fun i hi => (cellIns_len hR hΓ i hi).symm) c hc j hj
    rw [cellIns, zipWith_get hR hΓ hB _ _ _ j hj hj2, List.getElem?_eq_getElem hlt', Option.some.injEq] at h1
    rw [h1]
  have hmap : ∀ (a b : Option G), a.map some = b.map some → a = b := by
    intro a b h
    cases a <;> cases b <;> simp_all
  have hpt : ∀ v < M.topo.numNodes, ∀ g, Γ.pg v = [g] → F.points[v]? = some g := by
    intro v hv g hg
    apply hmap
    rw [built_point hR hΓ hB]
    simp only [st0, st1]
    rw [List.getElem?_append_left (by rw [List.length_append, st2_len hR hΓ _ (Nat.le_refl _)]; omega),
      List.getElem?_append_left (by rw [st2_len hR hΓ _ (Nat.le_refl _)]; omega)]
    have := flatMap_get (fun v => (Γ.pg v).map some) (fun _ => 1) M.topo.numNodes (fun i hi => by
      obtain ⟨g, _, _, h, _⟩ := hΓ.point i hi
      simp [h]) v hv 0 (by omega)
    rw [off_const, Nat.mul_one, Nat.add_zero] at this
    simp only [st2]
    rw [this, hg]
    rfl
  have hmid : ∀ e < M.topo.numEdges, ∀ j < P.mw e,
      F.points[M.topo.numNodes + off P.mw e + j]? = (Γ.em e)[j]? := by
    intro e he j hj
    apply hmap
    rw [built_point hR hΓ hB]
    have hlt := off_lt P.mw he hj
    simp only [st0]
    rw [List.getElem?_append_left (by rw [st1_len hR hΓ _ (Nat.le_refl _)]; omega)]
    simp only [st1]
    rw [List.getElem?_append_right (by rw [st2_len hR hΓ _ (Nat.le_refl _)]; omega),
      st2_len hR hΓ _ (Nat.le_refl _), Nat.add_assoc, Nat.add_sub_cancel_left]
    rw [flatMap_get _ P.mw _ (fun i hi => by
      obtain ⟨_, _, _, _, _, h, _⟩ := hΓ.edge i hi
      simp [h]) e he j hj, List.getElem?_map]
  have hctr : ∀ c < M.topo.numCells, ∀ j < P.cw c,
      F.points[M.topo.numNodes + off P.mw M.topo.numEdges + off P.cw c + j]? = (Γ.cm c)[j]? := by
    intro c hc j hj
    apply hmap
    rw [built_point hR hΓ hB]
    simp only [st0]
    rw [List.getElem?_append_right (by rw [st1_len hR hΓ _ (Nat.le_refl _)]; omega),
      st1_len hR hΓ _ (Nat.le_refl _), Nat.add_assoc (M.topo.numNodes + _), Nat.add_sub_cancel_left]
    rw [flatMap_get _ P.cw _ (fun i hi => by
      obtain ⟨_, _, _, _, _, _, _, _, _, _, _, _, h, _⟩ := hΓ.cell i hi
      simp [h]) c hc j hj, List.getElem?_map]
  have hisRef : IsRef M.topo P F.topo := by
    refine ⟨hF.wf, ?_, ?_, ?_, ?_, ?_⟩
    · exact (hB.points_length).trans (st0_nodes_len hR hΓ)
    · rw [hB.numCells', hcl]
    · exact built_numEdges hR hΓ hB
    · intro k Q hQ
      obtain ⟨hk, rfl⟩ := List.getElem?_eq_some_iff.1 hQ
      have hk' : k < (st0 M.topo P Γ M.topo.numCells).elements.length := by omega
      rw [(hB.cell_eq k hk').1]
      have := congrArg (fun l => l[k]?) (st0_cellNodes hR hΓ)
      simp only [List.getElem?_map, List.getElem?_eq_getElem hk, List.getElem?_eq_getElem hk', Option.map_some,
        Option.some.injEq] at this
      exact this
    · intro k x hx
      obtain ⟨hk, rfl⟩ := List.getElem?_eq_some_iff.1 hx
      have hk' : k < (st0 M.topo P Γ M.topo.numCells).edges.length := by omega
      rw [(built_edge hR hΓ hB k hk').1]
      have := congrArg (fun l => l[k]?) (st0_pairs hR hΓ)
      simp only [List.getElem?_map, List.getElem?_eq_getElem hk, List.getElem?_eq_getElem hk', Option.map_some,
        Option.some.injEq] at this
      exact this
  refine ⟨hF, hisRef, ?_, hpt, hmid, hctr, hsub, hint, hcel⟩
  refine ⟨?_, ?_, ?_⟩
  · intro v hv
    rw [hisRef.numNodes, Plan.numFine] at hv
    by_cases h1 : v < M.topo.numNodes
    · obtain ⟨_, _, _, h3, h4⟩ := hΓ.point v h1
      match hg : Γ.pg v, h3 with
      | [k], _ => exact ⟨k, hpt v h1 k hg, h4 k (by rw [hg]; simp)⟩
    · by_cases h2 : v < M.topo.numNodes + off P.mw M.topo.numEdges
      · obtain ⟨e, he, j, hj, hk⟩ := off_split P.mw (n := M.topo.numEdges) (k := v - M.topo.numNodes) (by omega)
        obtain ⟨_, _, _, _, _, h5, _, h6⟩ := hΓ.edge e he
        have hj' : j < (Γ.em e).length := by omega
        have := hmid e he j hj
        rw [List.getElem?_eq_getElem hj'] at this
        exact ⟨(Γ.em e)[j], by rw [← this]; congr 1; omega, h6 _ (List.getElem_mem hj')⟩
      · obtain ⟨c, hc, j, hj, hk⟩ := off_split P.cw (n := M.topo.numCells)
          (k := v - M.topo.numNodes - off P.mw M.topo.numEdges) (by omega)
        obtain ⟨_, _, _, _, _, _, _, _, _, _, _, _, h5, h6⟩ := hΓ.cell c hc
        have hj' : j < (Γ.cm c).length := by omega
        have := hctr c hc j hj
        rw [List.getElem?_eq_getElem hj'] at this
        exact ⟨(Γ.cm c)[j], by rw [← this]; congr 1; omega, h6 _ (List.getElem_mem hj')⟩
  · intro k hk
    rw [hisRef.numEdges, fineEdges_length] at hk
    by_cases h : k < off P.ew M.topo.numEdges
    · obtain ⟨e, he, j, hj, rfl⟩ := off_split P.ew h
      obtain ⟨_, _, _, _, h5, _, h6, _⟩ := hΓ.edge e he
      have hj' : j < (Γ.eg e).length := by omega
      refine ⟨(Γ.eg e)[j], ?_, h6 _ (List.getElem_mem hj')⟩
      rw [hsub e he j hj, List.getElem?_eq_getElem hj']
    · obtain ⟨c, hc, j, hj, hk'⟩ := off_split P.iw (n := M.topo.numCells) (k := k - off P.ew M.topo.numEdges) (by omega)
      obtain ⟨_, _, _, _, _, _, _, _, _, _, h5, h6, _⟩ := hΓ.cell c hc
      have hj' : j < (Γ.ce c).length := by omega
      refine ⟨(Γ.ce c)[j], ?_, h6 _ (List.getElem_mem hj')⟩
      rw [← List.getElem?_eq_getElem hj', ← hint c hc j hj]
      congr 1
      omega
  · intro k hk
    have hkk := hk
    rw [hisRef.numCells, fineCells_length] at hk
    obtain ⟨c, hc, i, hi, rfl⟩ := off_split P.pw hk
    have hi' : i < (Γ.cg c).length := by rw [cg_len hR hΓ c hc]; exact hi
    refine ⟨(Γ.cg c)[i], by rw [hcel c hc i hi, List.getElem?_eq_getElem hi'], ?_⟩
    rw [hF.ref _ hkk]
    have hg := fineCells_get (T := M.topo) c hc i hi
    rw [hisRef.cell _ _ hg]
    obtain ⟨_, _, _, _, _, _, _, _, _, h, _⟩ := hΓ.cell c hc
    have h2 := congrArg (fun l => l[i]?) h
    simp only [List.getElem?_map, List.getElem?_eq_getElem hi', Option.map_some] at h2
    have hpi : (P.polys c)[i]? = some (P.polys c)[i] := List.getElem?_eq_getElem hi
    rw [hpi] at h2
    simp only [Option.map_some, Option.some.injEq] at h2
    rw [h2]
    unfold cellRefEl
    simp only [List.length_map]
    rcases ((hP c hc).polysOk _ (List.getElem_mem hi)).1 with hq | hq <;> simp [hq]

end Verif
