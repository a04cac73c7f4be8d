import Verif.Lemmas.RefTopo
import Verif.Lemmas.MeshValid

/-! What `PerformRefinement` passes to the mesh factory. -/

namespace Verif
variable {G : Type}

/-! ### The child polygons and the tables of `PerformRefinement` agree -/

def latRow (ref : RefEl) (pat : RefPat) (anchor : Option ℕ) : Bool :=
  match Pattern.make ref pat anchor with
  | none => true
  | some p =>
    if p.refinesB then
      match cellChildren ref pat anchor with
      | none => false
      | some ch =>
        decide (p.childPolygons 0 = some (ch.1.map fun Q => Q.map (latNode ref))) &&
        decide (p.childPolygons 1 = some (ch.2.map fun x => [latNode ref x.1, latNode ref x.2])) &&
        decide (p.childPolygons 2 = some (if hasCenter ref pat then [[latNode ref .ctr]] else [])) &&
        decide (p.numChildren 0 = some ch.1.length) && decide (p.numChildren 1 = some ch.2.length)
    else true

theorem lat_table : ∀ ref ∈ [RefEl.tria, RefEl.quad], ∀ pat ∈ allPats, ∀ a ∈ anchors4,
    latRow ref pat a = true := by
  decide +kernel

theorem anchor_mem {ref : RefEl} (hr : ref = .tria ∨ ref = .quad) {pat : RefPat} {anchor : Option ℕ}
    {p : Pattern} (h : Pattern.make ref pat anchor = some p) : anchor ∈ anchors4 := by
  apply mem_anchors4
  intro a h'
  have := make_anchor hr h a h'
  rcases hr with rfl | rfl
  · have : a < 3 := this
    omega
  · exact this

theorem lat_ok {ref : RefEl} (hr : ref = .tria ∨ ref = .quad) {pat : RefPat} {anchor : Option ℕ}
    {p : Pattern} (h : Pattern.make ref pat anchor = some p) (hp : p.Refines)
    {ch : List (List LNode) × List (LNode × LNode)} (hch : cellChildren ref pat anchor = some ch) :
    p.childPolygons 0 = some (ch.1.map fun Q => Q.map (latNode ref)) ∧
    p.childPolygons 1 = some (ch.2.map fun x => [latNode ref x.1, latNode ref x.2]) ∧
    p.childPolygons 2 = some (if hasCenter ref pat then [[latNode ref .ctr]] else []) ∧
    p.numChildren 0 = some ch.1.length ∧ p.numChildren 1 = some ch.2.length := by
  have ht := lat_table ref (by rcases hr with rfl | rfl <;> decide) pat (mem_allPats pat) anchor (anchor_mem hr h)
  unfold latRow at ht
  rw [h] at ht
  simp only [p.refinesB_iff.2 hp, if_true, hch, Bool.and_eq_true, decide_eq_true_eq] at ht
  obtain ⟨⟨⟨⟨h1, h2⟩, h3⟩, h4⟩, h5⟩ := ht
  exact ⟨h1, h2, h3, h4, h5⟩

theorem make_eq {ref : RefEl} {pat : RefPat} {anchor : Option ℕ} {p : Pattern}
    (h : Pattern.make ref pat anchor = some p) : p = ⟨ref, anchor, pat, anchor.isSome⟩ := by
  unfold Pattern.make Pattern.checkAnchor at h
  cases anchor with
  | none => simp only at h; exact (Option.some.inj h).symm
  | some a =>
    simp only at h
    cases hn : ref.numSubEntities 1 with
    | none => rw [hn] at h; cases h
    | some n =>
      rw [hn] at h
      simp only [Option.bind_some] at h
      split at h
      · exact (Option.some.inj h).symm
      · cases h

/-! ### Loops -/

theorem mapAcc_run {σ ι β : Type} (f : σ → ι → Option (σ × β)) (l : List ι) (S : ℕ → σ) (out : ℕ → β)
    (h : ∀ (i : ℕ) (x : ι), l[i]? = some x → f (S i) x = some (S (i + 1), out i)) :
    mapAcc f (S 0) l = some (S l.length, (List.range l.length).map out) := by
  induction l generalizing S out with
  | nil => rfl
  | cons a l ih =>
    unfold mapAcc
    rw [h 0 a (by simp)]
    simp only [Option.bind_some]
    rw [ih (fun i => S (i + 1)) (fun i => out (i + 1)) (fun i x hx => h (i + 1) x (by simpa using hx))]
    simp only [Option.bind_some, List.length_cons, List.range_succ_eq_map, List.map_cons, List.map_map]
    rfl

theorem addChildEdge_run (gs : List G) (f : Factory G) (prs : List (ℕ × ℕ)) (hl : gs.length = prs.length)
    (hlt : ∀ x ∈ prs, x.1 < f.nodes.length ∧ x.2 < f.nodes.length) :
    mapAcc (addChildEdge gs) f prs.zipIdx = some
      ({ f with edges := f.edges ++ List.zipWith (fun x g => (⟨x.1, x.2, some g⟩ : EdgeIn G)) prs gs },
        (List.range prs.length).map (f.edges.length + ·)) := by
  have h := mapAcc_run (addChildEdge gs) prs.zipIdx
    (fun i => { f with edges := f.edges ++
      (List.zipWith (fun x g => (⟨x.1, x.2, some g⟩ : EdgeIn G)) prs gs).take i })
    (fun i => f.edges.length + i) ?_
  · simp only [List.take_zero, List.append_nil, List.length_zipIdx] at h
    rw [h, List.take_of_length_le (by simp)]
  · intro i x hx
    rw [List.getElem?_zipIdx] at hx
    obtain ⟨y, hy, rfl⟩ := Option.map_eq_some_iff.1 hx
    obtain ⟨hi, rfl⟩ := List.getElem?_eq_some_iff.1 hy
    have hig : i < gs.length := by omega
    unfold addChildEdge
    simp only [Nat.zero_add, List.getElem?_eq_getElem hig, Option.bind_some]
    obtain ⟨h1, h2⟩ := hlt _ (List.getElem_mem hi)
    have hz : i < (List.zipWith (fun x g => (⟨x.1, x.2, some g⟩ : EdgeIn G)) prs gs).length := by
      simp; omega
    unfold Factory.addEntity
    rw [if_neg (by decide), if_pos (by simp [h1, h2])]
    rw [List.take_add_one, List.getElem?_eq_getElem hz]
    simp only [List.getElem_zipWith, Option.toList_some, List.append_assoc, List.length_append,
      List.length_take, List.length_singleton]
    congr 2
    omega

theorem addChildCell_run (gs : List G) (f : Factory G) (cs : List (List ℕ)) (hl : gs.length = cs.length)
    (hlen : ∀ c ∈ cs, c.length = 3 ∨ c.length = 4)
    (hlt : ∀ c ∈ cs, ∀ v ∈ c, v < f.nodes.length) :
    mapAcc (addChildCell gs) f cs.zipIdx = some
      ({ f with elements := f.elements ++ List.zipWith (fun x g => (⟨x, some g⟩ : CellIn G)) cs gs },
        (List.range cs.length).map (f.elements.length + ·)) := by
  have h := mapAcc_run (addChildCell gs) cs.zipIdx
    (fun i => { f with elements := f.elements ++
      (List.zipWith (fun x g => (⟨x, some g⟩ : CellIn G)) cs gs).take i })
    (fun i => f.elements.length + i) ?_
  · simp only [List.take_zero, List.append_nil, List.length_zipIdx] at h
    rw [h, List.take_of_length_le (by simp)]
  · intro i x hx
    rw [List.getElem?_zipIdx] at hx
    obtain ⟨y, hy, rfl⟩ := Option.map_eq_some_iff.1 hx
    obtain ⟨hi, rfl⟩ := List.getElem?_eq_some_iff.1 hy
    have hig : i < gs.length := by omega
    unfold addChildCell
    simp only [Nat.zero_add, List.getElem?_eq_getElem hig, Option.bind_some]
    have h1 := hlt _ (List.getElem_mem hi)
    have hz : i < (List.zipWith (fun x g => (⟨x, some g⟩ : CellIn G)) cs gs).length := by
      simp; omega
    have hall : (cs[i].all fun v => decide (v < f.nodes.length)) = true := by
      simp only [List.all_eq_true, decide_eq_true_eq]; exact h1
    rw [List.take_add_one, List.getElem?_eq_getElem hz]
    rcases hlen _ (List.getElem_mem hi) with h3 | h4
    · rw [if_pos h3]
      unfold Factory.addEntity
      rw [if_neg (by decide), if_pos hall]
      simp only [List.getElem_zipWith, Option.toList_some, List.append_assoc, List.length_append,
        List.length_take, List.length_singleton]
      rw [if_pos (show cs[i].length = RefEl.tria.numNodes from h3)]
      congr 2
      omega
    · rw [if_neg (by omega), if_pos h4]
      unfold Factory.addEntity
      rw [if_neg (by decide), if_pos hall]
      simp only [List.getElem_zipWith, Option.toList_some, List.append_assoc, List.length_append,
        List.length_take, List.length_singleton]
      rw [if_pos (show cs[i].length = RefEl.quad.numNodes from h4)]
      congr 2
      omega

/-! ### The level to be refined -/

/-- Patterns and anchors of the cells. -/
structure Pats where
  pat : ℕ → RefPat
  anc : ℕ → Option ℕ

/-- The geometries created by `ChildGeometry`. -/
structure GPlan (G : Type) where
  pg : ℕ → List G
  eg : ℕ → List G
  em : ℕ → List G
  cg : ℕ → List G
  ce : ℕ → List G
  cm : ℕ → List G

/-- Pattern of an edge. -/
def Plan.epat (P : Plan) (e : ℕ) : RefPat := if P.sp e then .split else .copy

/-- Everything `PerformRefinement` relies on. -/
structure Ready (cops : ChildOps G) (M : Mesh G) (P : Plan) (A : Pats) : Prop where
  valid : M.Valid
  conf : M.topo.Conforming
  geo : M.GeoOk cops
  lawful : cops.Lawful
  cell : ∀ c < M.topo.numCells, ∃ ref p, (ref = .tria ∨ ref = .quad) ∧ M.cellRef c = some ref ∧
    ref.numNodes = (M.topo.cell c).nodes.length ∧
    Pattern.make ref (A.pat c) (A.anc c) = some p ∧ p.Refines ∧
    cellChildren ref (A.pat c) (A.anc c) = some (P.polys c, P.ints c) ∧
    P.ctr c = hasCenter ref (A.pat c) ∧
    LocalC (M.topo.cell c).nodes.length ((M.topo.cell c).edges.map P.sp) (P.polys c) (P.ints c) (P.ctr c)

theorem Ready.ok {cops : ChildOps G} {M : Mesh G} {P : Plan} {A : Pats} (h : Ready cops M P A) : P.Ok M.topo := by
  intro c hc
  obtain ⟨_, _, _, _, _, _, _, _, _, h⟩ := h.cell c hc
  exact h

/-- The geometries are those created by `ChildGeometry`. -/
structure GeoFor (cops : ChildOps G) (M : Mesh G) (P : Plan) (A : Pats) (Γ : GPlan G) : Prop where
  point : ∀ v < M.topo.numNodes, ∃ g, M.points[v]? = some g ∧
    cops.child g ⟨.point, none, .copy, false⟩ 0 = some (Γ.pg v) ∧
    (Γ.pg v).length = 1 ∧ ∀ h ∈ Γ.pg v, cops.kind h = .point
  edge : ∀ e < M.topo.numEdges, ∃ g, M.edgeGeo e = some g ∧
    cops.child g ⟨.segment, none, P.epat e, false⟩ 0 = some (Γ.eg e) ∧
    cops.child g ⟨.segment, none, P.epat e, false⟩ 1 = some (Γ.em e) ∧
    (Γ.eg e).length = P.ew e ∧ (Γ.em e).length = P.mw e ∧
    (∀ h ∈ Γ.eg e, cops.kind h = .segment) ∧ (∀ h ∈ Γ.em e, cops.kind h = .point)
  cell : ∀ c < M.topo.numCells, ∃ g ref p, M.cellGeo c = some g ∧ M.cellRef c = some ref ∧
    Pattern.make ref (A.pat c) (A.anc c) = some p ∧
    cops.child g p 0 = some (Γ.cg c) ∧ cops.child g p 1 = some (Γ.ce c) ∧ cops.child g p 2 = some (Γ.cm c) ∧
    (Γ.cg c).map cops.kind = (P.polys c).map (fun Q => if Q.length = 3 then .tria else .quad) ∧
    (Γ.ce c).length = P.iw c ∧ (∀ h ∈ Γ.ce c, cops.kind h = .segment) ∧
    (Γ.cm c).length = P.cw c ∧ (∀ h ∈ Γ.cm c, cops.kind h = .point)

theorem kinds_const {cops : ChildOps G} {l : List G} {k : RefEl} {n : ℕ}
    (h : l.map cops.kind = List.replicate n k) : l.length = n ∧ ∀ x ∈ l, cops.kind x = k := by
  constructor
  · have := congrArg List.length h
    simpa using this
  · intro x hx
    have : cops.kind x ∈ l.map cops.kind := List.mem_map.2 ⟨x, hx, rfl⟩
    rw [h] at this
    exact (List.mem_replicate.1 this).2

theorem choose_lt {α : Type} (n : ℕ) (R : ℕ → List α → Prop) (h : ∀ i < n, ∃ l, R i l) :
    ∃ f : ℕ → List α, ∀ i < n, R i (f i) := by
  have : ∀ i, ∃ l, i < n → R i l := by
    intro i
    by_cases hi : i < n
    · obtain ⟨l, hl⟩ := h i hi
      exact ⟨l, fun _ => hl⟩
    · exact ⟨[], fun h => absurd h hi⟩
  choose f hf using this
  exact ⟨f, hf⟩

theorem exists_geoFor {cops : ChildOps G} {M : Mesh G} {P : Plan} {A : Pats} (h : Ready cops M P A) :
    ∃ Γ, GeoFor cops M P A Γ := by
  have h2 : ∀ v < M.topo.numNodes, ∃ l, ∃ g, M.points[v]? = some g ∧
      cops.child g ⟨.point, none, .copy, false⟩ 0 = some l ∧ l.length = 1 ∧ ∀ h ∈ l, cops.kind h = .point := by
    intro v hv
    obtain ⟨g, hg, hk⟩ := h.geo.points v hv
    obtain ⟨l, hl, hm⟩ := h.lawful g ⟨.point, none, .copy, false⟩ 0 [[[]]] hk.symm (.make .point .copy none _ rfl) ⟨Or.inl rfl, by simp⟩ rfl
    obtain ⟨h1, h2⟩ := kinds_const (n := 1) (k := .point) hm
    exact ⟨l, g, hg, hl, h1, h2⟩
  have h1 : ∀ e < M.topo.numEdges, ∃ l, (∃ g, M.edgeGeo e = some g ∧
      cops.child g ⟨.segment, none, P.epat e, false⟩ 0 = some l) ∧ l.length = P.ew e ∧
      ∀ h ∈ l, cops.kind h = .segment := by
    intro e he
    obtain ⟨g, hg, hk⟩ := h.geo.edges e he
    unfold Plan.epat Plan.ew
    cases P.sp e with
    | false =>
      obtain ⟨l, hl, hm⟩ := h.lawful g ⟨.segment, none, .copy, false⟩ 0 _ hk.symm (.make .segment .copy none _ rfl) ⟨Or.inl rfl, by simp⟩ rfl
      exact ⟨l, ⟨g, hg, hl⟩, kinds_const (n := 1) (k := .segment) hm⟩
    | true =>
      obtain ⟨l, hl, hm⟩ := h.lawful g ⟨.segment, none, .split, false⟩ 0 _ hk.symm (.make .segment .split none _ rfl) ⟨Or.inl rfl, by simp⟩ rfl
      exact ⟨l, ⟨g, hg, hl⟩, kinds_const (n := 2) (k := .segment) hm⟩
  have h1' : ∀ e < M.topo.numEdges, ∃ l, (∃ g, M.edgeGeo e = some g ∧
      cops.child g ⟨.segment, none, P.epat e, false⟩ 1 = some l) ∧ l.length = P.mw e ∧
      ∀ h ∈ l, cops.kind h = .point := by
    intro e he
    obtain ⟨g, hg, hk⟩ := h.geo.edges e he
    unfold Plan.epat Plan.mw
    cases P.sp e with
    | false =>
      obtain ⟨l, hl, hm⟩ := h.lawful g ⟨.segment, none, .copy, false⟩ 1 _ hk.symm (.make .segment .copy none _ rfl) ⟨Or.inl rfl, by simp⟩ rfl
      exact ⟨l, ⟨g, hg, hl⟩, kinds_const (n := 0) (k := .point) hm⟩
    | true =>
      obtain ⟨l, hl, hm⟩ := h.lawful g ⟨.segment, none, .split, false⟩ 1 _ hk.symm (.make .segment .split none _ rfl) ⟨Or.inl rfl, by simp⟩ rfl
      exact ⟨l, ⟨g, hg, hl⟩, kinds_const (n := 1) (k := .point) hm⟩
  have hc : ∀ c < M.topo.numCells, ∃ g ref p, M.cellGeo c = some g ∧ M.cellRef c = some ref ∧
      Pattern.make ref (A.pat c) (A.anc c) = some p ∧ p.ref = cops.kind g ∧ p.Refines ∧
      p.childPolygons 0 = some ((P.polys c).map fun Q => Q.map (latNode ref)) ∧
      p.childPolygons 1 = some ((P.ints c).map fun x => [latNode ref x.1, latNode ref x.2]) ∧
      p.childPolygons 2 = some (if P.ctr c then [[latNode ref .ctr]] else []) := by
    intro c hc
    obtain ⟨ref, p, hr, hcr, _, hm, hp, hch, hctr, _⟩ := h.cell c hc
    obtain ⟨g, hg, hk⟩ := h.geo.cells c hc
    obtain ⟨l0, l1, l2, _⟩ := lat_ok hr hm hp hch
    rw [← hctr] at l2
    rw [hcr] at hk
    refine ⟨g, ref, p, hg, hcr, hm, ?_, hp, l0, l1, l2⟩
    rw [make_eq hm]
    exact Option.some.inj hk
  have c0 : ∀ c < M.topo.numCells, ∃ l, (∃ g ref p, M.cellGeo c = some g ∧ M.cellRef c = some ref ∧
      Pattern.make ref (A.pat c) (A.anc c) = some p ∧ cops.child g p 0 = some l) ∧
      l.map cops.kind = (P.polys c).map (fun Q => if Q.length = 3 then .tria else .quad) := by
    intro c hcc
    obtain ⟨g, ref, p, a1, a2, a3, a4, ad, a5, a6, a7⟩ := hc c hcc
    obtain ⟨l, hl, hm⟩ := h.lawful g p 0 _ a4 (.make _ _ _ _ a3) ad a5
    refine ⟨l, ⟨g, ref, p, a1, a2, a3, hl⟩, ?_⟩
    rw [hm, List.map_map]
    apply List.map_congr_left
    intro Q hQ
    simp only [Function.comp, polyKind, List.length_map]
    rcases ((h.ok c hcc).polysOk Q hQ).1 with hq | hq <;> simp [hq]
  have c1 : ∀ c < M.topo.numCells, ∃ l, (∃ g ref p, M.cellGeo c = some g ∧ M.cellRef c = some ref ∧
      Pattern.make ref (A.pat c) (A.anc c) = some p ∧ cops.child g p 1 = some l) ∧
      l.length = P.iw c ∧ ∀ h ∈ l, cops.kind h = .segment := by
    intro c hcc
    obtain ⟨g, ref, p, a1, a2, a3, a4, ad, a5, a6, a7⟩ := hc c hcc
    obtain ⟨l, hl, hm⟩ := h.lawful g p 1 _ a4 (.make _ _ _ _ a3) ad a6
    refine ⟨l, ⟨g, ref, p, a1, a2, a3, hl⟩, ?_⟩
    apply kinds_const
    rw [hm, List.map_map]
    rw [Plan.iw]
    exact List.map_const' ..
  have c2 : ∀ c < M.topo.numCells, ∃ l, (∃ g ref p, M.cellGeo c = some g ∧ M.cellRef c = some ref ∧
      Pattern.make ref (A.pat c) (A.anc c) = some p ∧ cops.child g p 2 = some l) ∧
      l.length = P.cw c ∧ ∀ h ∈ l, cops.kind h = .point := by
    intro c hcc
    obtain ⟨g, ref, p, a1, a2, a3, a4, ad, a5, a6, a7⟩ := hc c hcc
    obtain ⟨l, hl, hm⟩ := h.lawful g p 2 _ a4 (.make _ _ _ _ a3) ad a7
    refine ⟨l, ⟨g, ref, p, a1, a2, a3, hl⟩, ?_⟩
    unfold Plan.cw
    cases hx : P.ctr c with
    | false => rw [hx] at hm; exact kinds_const (n := 0) (k := .point) hm
    | true => rw [hx] at hm; exact kinds_const (n := 1) (k := .point) hm
  obtain ⟨pg, hpg⟩ := choose_lt _ _ h2
  obtain ⟨eg, heg⟩ := choose_lt _ _ h1
  obtain ⟨em, hem⟩ := choose_lt _ _ h1'
  obtain ⟨cg, hcg⟩ := choose_lt _ _ c0
  obtain ⟨ce, hce⟩ := choose_lt _ _ c1
  obtain ⟨cm, hcm⟩ := choose_lt _ _ c2
  refine ⟨⟨pg, eg, em, cg, ce, cm⟩, hpg, ?_, ?_⟩
  · intro e he
    obtain ⟨⟨g, b1, b2⟩, b3, b4⟩ := heg e he
    obtain ⟨⟨g', d1, d2⟩, d3, d4⟩ := hem e he
    rw [b1] at d1
    cases d1
    exact ⟨g, b1, b2, d2, b3, d3, b4, d4⟩
  · intro c hc
    obtain ⟨⟨g, ref, p, b1, b2, b3, b4⟩, b5⟩ := hcg c hc
    obtain ⟨⟨g', ref', p', d1, d2, d3, d4⟩, d5, d6⟩ := hce c hc
    obtain ⟨⟨g'', ref'', p'', f1, f2, f3, f4⟩, f5, f6⟩ := hcm c hc
    rw [b1] at d1 f1
    rw [b2] at d2 f2
    cases d1; cases f1; cases d2; cases f2
    rw [b3] at d3 f3
    cases d3; cases f3
    exact ⟨g, ref, p, b1, b2, b3, b4, d4, f4, b5, d5, d6, f5, f6⟩

end Verif
