import Verif.Lemmas.RefHier

/-! Refinement edges and patterns of consecutive levels. -/

namespace Verif
variable {G : Type}

/-- How refinement edges and patterns of the level `N` and of the level `L'` from which it arose are related. -/
structure RefRule (cops : ChildOps G) (L' N : Level G) : Prop where
  edge : ∀ i < N.mesh.topo.numCells, N.mesh.cellRef i = some .tria → ∀ info c k, N.parents0[i]? = some info → info.parent = some (0, c) →
    info.childNumber = some k → L'.mesh.cellRef c = some .tria → ∃ ci r x, L'.cellCI[c]? = some ci ∧
      L'.refEdges[c]? = some r ∧ N.refEdges[i]? = some x ∧
      childRefEdge ci.pat k r (longestEdge cops N.mesh i) = some x
  anchor : ∀ c < L'.mesh.topo.numCells, L'.mesh.cellRef c = some .tria → ∃ ci, L'.cellCI[c]? = some ci ∧
    ((ci.pat ∈ [RefPat.copy, .bisect, .trisect, .trisectLeft, .regular] ∧
        ∃ a < 3, ci.anchor = some a ∧ L'.refEdges[c]? = some (some a)) ∨
      ((ci.pat = .regular ∨ ci.pat = .barycentric) ∧ ci.anchor = none))

theorem relGeo_same {M F : Mesh G} {eci : List EdgeCI} {cci : List CellCI} {codim i : ℕ} {pi x : ParentInfo}
    (h : relGeo M F eci cci codim i pi = some x) : x.parent = pi.parent ∧ x.childNumber = pi.childNumber := by
  unfold relGeo at h
  obtain ⟨k, hk, h⟩ := Option.bind_eq_some_iff.1 h
  obtain ⟨par, hp, h⟩ := Option.bind_eq_some_iff.1 h
  split at h
  · cases h
  · split at h
    · obtain ⟨_, _, h⟩ := Option.bind_eq_some_iff.1 h
      obtain ⟨_, _, h⟩ := Option.bind_eq_some_iff.1 h
      obtain ⟨_, _, h⟩ := Option.bind_eq_some_iff.1 h
      obtain ⟨_, _, h⟩ := Option.bind_eq_some_iff.1 h
      obtain ⟨_, _, h⟩ := Option.bind_eq_some_iff.1 h
      split at h <;> try split at h
      all_goals first | (cases h; done) | (cases h; exact ⟨rfl, rfl⟩)
    · obtain ⟨_, _, h⟩ := Option.bind_eq_some_iff.1 h
      obtain ⟨_, _, h⟩ := Option.bind_eq_some_iff.1 h
      obtain ⟨_, _, h⟩ := Option.bind_eq_some_iff.1 h
      obtain ⟨_, _, h⟩ := Option.bind_eq_some_iff.1 h
      split at h <;> try split at h
      all_goals first | (cases h; done) | (cases h; exact ⟨rfl, rfl⟩)
    · cases h; exact ⟨rfl, rfl⟩
    · cases h

theorem perform_edge (ops : GeoOps G) {cops : ChildOps G} {chk : Bool} {L L' N : Level G} {f f' : Factory G}
    (h : performRefinement ops cops chk L f = some (L', N, f')) :
    ∀ i < N.mesh.topo.numCells, N.mesh.cellRef i = some .tria → ∀ info c k, N.parents0[i]? = some info → info.parent = some (0, c) →
    info.childNumber = some k → L'.mesh.cellRef c = some .tria → ∃ ci r x, L'.cellCI[c]? = some ci ∧
      L'.refEdges[c]? = some r ∧ N.refEdges[i]? = some x ∧
      childRefEdge ci.pat k r (longestEdge cops N.mesh i) = some x := by
  unfold performRefinement at h
  obtain ⟨reg, _, h⟩ := Option.bind_eq_some_iff.1 h
  obtain ⟨b, _, h⟩ := Option.bind_eq_some_iff.1 h
  obtain ⟨w2, _, h⟩ := Option.bind_eq_some_iff.1 h
  obtain ⟨w1, _, h⟩ := Option.bind_eq_some_iff.1 h
  obtain ⟨w0, _, h⟩ := Option.bind_eq_some_iff.1 h
  obtain ⟨re', hre, h⟩ := Option.bind_eq_some_iff.1 h
  obtain ⟨p0, hp0, h⟩ := Option.bind_eq_some_iff.1 h
  obtain ⟨p1, _, h⟩ := Option.bind_eq_some_iff.1 h
  obtain ⟨p2, _, h⟩ := Option.bind_eq_some_iff.1 h
  cases h
  intro i hilt hi info c k hinfo hpar hk hc
  simp only at hilt hi hinfo hc ⊢
  obtain ⟨x, hx, hfx⟩ := (mapM_get _ _ _ hre).2 i i (by simp [hilt])
  obtain ⟨hl0, hg0⟩ := mapM_get _ _ _ hp0
  have hi0 : i < w0.length := by
    have := (List.getElem?_eq_some_iff.1 hinfo).1
    rw [hl0] at this
    simpa using this
  obtain ⟨y, hy, hfy⟩ := hg0 i (w0[i], i) (by simp [hi0])
  rw [hinfo] at hy
  cases hy
  obtain ⟨s1, s2⟩ := relGeo_same hfy
  unfold fineRefEdge at hfx
  rw [hi] at hfx
  simp only [Option.bind_some, if_true] at hfx
  rw [List.getElem?_eq_getElem hi0] at hfx
  simp only [Option.bind_some] at hfx s1 s2
  rw [← s1, ← s2, hpar, hk] at hfx
  simp only [Option.bind_some, hc, if_true] at hfx
  obtain ⟨ci, hci, hfx⟩ := Option.bind_eq_some_iff.1 hfx
  split at hfx
  · obtain ⟨r, hr, hfx⟩ := Option.bind_eq_some_iff.1 hfx
    exact ⟨ci, r, x, hci, hr, hx, hfx⟩
  · cases hfx

theorem regular_rule (ops : GeoOps G) {cops : ChildOps G} {chk : Bool} {L : Level G} (hL : L.Fresh) {pat : RefPat}
    (hp : pat = .regular ∨ pat = .barycentric) {L' N : Level G} {Γ : GPlan G} {f f' : Factory G}
    (h : L.refineRegular ops cops chk pat f = some (L', N, f'))
    (hs : Step cops (L.withPatterns (L.edgeCI.map fun _ => .split) (L.cellCI.map fun ci => (pat, ci.anchor))) L' N
        (L.withPatterns (L.edgeCI.map fun _ => .split) (L.cellCI.map fun ci => (pat, ci.anchor))).plan
        (L.withPatterns (L.edgeCI.map fun _ => .split) (L.cellCI.map fun ci => (pat, ci.anchor))).pats Γ) :
    RefRule cops L' N ∧ ∀ c < L.mesh.topo.numCells, ∃ ci, L'.cellCI[c]? = some ci ∧ ci.pat = pat ∧ ci.anchor = none := by
  have hC : (L.withPatterns (L.edgeCI.map fun _ => .split) (L.cellCI.map fun ci => (pat, ci.anchor))).cellCI =
      List.replicate L.mesh.topo.numCells { pat := pat, anchor := none } := by
    simp [Level.withPatterns, hL.cells]
  have key : ∀ c < L.mesh.topo.numCells, ∃ ci, L'.cellCI[c]? = some ci ∧ ci.pat = pat ∧ ci.anchor = none := by
    intro c hc
    rw [hs.same]
    have hc' : c < (L.withPatterns (L.edgeCI.map fun _ => .split) (L.cellCI.map fun ci => (pat, ci.anchor))).mesh.topo.numCells := hc
    simp only [List.getElem?_map, List.getElem?_range hc', Option.map_some, Option.some.injEq, exists_eq_left',
      outC, Level.pats, hC, List.getElem?_replicate, hc, if_true]
    exact ⟨rfl, rfl⟩
  have hm : L'.mesh = L.mesh := by rw [hs.same]; rfl
  refine ⟨⟨?_, ?_⟩, key⟩
  · unfold Level.refineRegular at h
    rw [if_pos hp] at h
    split at h
    · exact perform_edge ops h
    · cases h
  · intro c hc _
    rw [hm] at hc
    obtain ⟨ci, h1, h2, h3⟩ := key c hc
    exact ⟨ci, h1, Or.inr ⟨h2 ▸ hp, h3⟩⟩

/-- What `RefineMarked` does with a triangle. -/
theorem marked_rule (ops : GeoOps G) {cops : ChildOps G} {chk : Bool} (hl : cops.Lawful) {L : Level G}
    (hL : L.Good cops chk) :
    ∃ L' N Γ Lp, L.refineMarked ops cops chk {} = some (L', N, {}) ∧ N.Good cops chk ∧ Lp.Planned ∧ Lp.mesh = L.mesh ∧
      Step cops Lp L' N Lp.plan Lp.pats Γ ∧
      (∀ e < L.mesh.topo.numEdges, (Lp.edgeCI[e]? = some { pat := .split } ↔
        InClosure L.mesh.topo L.refEdges (fun f => L.marked[f]? = some true) e)) ∧
      RefRule cops L' N ∧ L'.mesh = L.mesh ∧ L'.refEdges = L.refEdges ∧ L'.parents0 = L.parents0 ∧
      ∀ c < L.mesh.topo.numCells, L.mesh.cellRef c = some .tria → ∃ fl : List Bool, ∃ a < 3, ∃ ci,
        L.refEdges[c]? = some (some a) ∧ L'.cellCI[c]? = some ci ∧ ci.anchor = some a ∧
        ci.pat = (triaDecide (fl.getD a false) (fl.getD ((a + 1) % 3) false) (fl.getD ((a + 2) % 3) false)).1 ∧
        (∀ j < 3, (fl.getD j false = true ↔ InClosure L.mesh.topo L.refEdges (fun f => L.marked[f]? = some true)
          ((L.mesh.topo.cell c).edges.getD j 0))) := by
  obtain ⟨s0, s, e0, e1, hp, hcl⟩ := marked_planned hL.fresh
  obtain ⟨L', N, Γ, h1, h2, _⟩ := perform_step ops (cops := cops) (chk := chk) hp
    hL.coarse.conforming hL.coarse.geoOk hl hL.coarse.complete
  have hm : L'.mesh = L.mesh := by rw [h2.same]; rfl
  have hr : L'.refEdges = L.refEdges := by rw [h2.same]; rfl
  have key : ∀ c < L.mesh.topo.numCells, L.mesh.cellRef c = some .tria → ∃ fl : List Bool, ∃ a < 3, ∃ ci,
        L.refEdges[c]? = some (some a) ∧ L'.cellCI[c]? = some ci ∧ ci.anchor = some a ∧
        (triaDecide (fl.getD a false) (fl.getD ((a + 1) % 3) false) (fl.getD ((a + 2) % 3) false)).2 = false ∧
        ci.pat = (triaDecide (fl.getD a false) (fl.getD ((a + 1) % 3) false) (fl.getD ((a + 2) % 3) false)).1 ∧
        (∀ j < 3, (fl.getD j false = true ↔ InClosure L.mesh.topo L.refEdges (fun f => L.marked[f]? = some true)
          ((L.mesh.topo.cell c).edges.getD j 0))) := by
    intro c hc hct
    have hn := (cellRef_len hL.fresh.valid hc hct).2
    obtain ⟨s0', h0, ok0, _⟩ := markInit_spec L hL.fresh
    rw [e0] at h0
    cases h0
    obtain ⟨s', h', ok, _, _, hdec⟩ := markLoop_spec hL.fresh.valid hL.fresh.refEdges (List.range L.mesh.topo.numCells)
      (fun c hc => by simpa using hc) (L.mesh.topo.numEdges + 1) s0 ok0 (by omega)
    rw [e1] at h'
    cases h'
    have hel := hL.fresh.valid.wf.cell_edges_len c hc
    obtain ⟨fl, q1, q2, ⟨h3, a, ha, hra, hd, hcp⟩ | ⟨h4, _⟩⟩ := hdec c (by simpa using hc)
    · have hcell : (L.withPatterns s.edgePat s.cellPat).cellCI[c]? = some
          { pat := (triaDecide (fl.getD a false) (fl.getD ((a + 1) % 3) false) (fl.getD ((a + 2) % 3) false)).1, anchor := some a } := by
        simp only [Level.withPatterns, hL.fresh.cells, List.getElem?_zipWith, List.getElem?_replicate, hc, if_true, hcp]
      refine ⟨fl, a, ha, outC L.mesh.topo (L.withPatterns s.edgePat s.cellPat).plan
        (L.withPatterns s.edgePat s.cellPat).pats c, hra, ?_, ?_, hd, ?_, ?_⟩
      · rw [h2.same]
        have hc' : c < (L.withPatterns s.edgePat s.cellPat).mesh.topo.numCells := hc
        simp only [List.getElem?_map, List.getElem?_range hc', Option.map_some]
        rfl
      · simp only [outC, Level.pats, hcell]
        rfl
      · simp only [outC, Level.pats, hcell]
        rfl
      · intro j hj
        have hjl : j < (L.mesh.topo.cell c).edges.length := by rw [hel, h3]; exact hj
        have hE : (L.mesh.topo.cell c).edges.getD j 0 < L.mesh.topo.numEdges := by
          rw [List.getD_eq_getElem _ _ hjl]
          exact hL.fresh.valid.wf.cell_edges c hc _ (List.getElem_mem hjl)
        rw [q2 j (by rw [q1]; exact hjl), ← hcl _ hE]
        unfold SplitIn
        simp only [Level.withPatterns, hL.fresh.edges, List.getElem?_zipWith, List.getElem?_replicate, hE, if_true]
        cases s.edgePat[(L.mesh.topo.cell c).edges.getD j 0]? with
        | none => simp
        | some p => simp
    · rw [h4] at hn
      cases hn
  refine ⟨L', N, Γ, _, ?_, ⟨h2.coarse hL.coarse.complete, h2.fresh⟩, hp, rfl, h2, hcl, ⟨perform_edge ops h1, ?_⟩, hm, hr,
    by rw [h2.same]; rfl, ?_⟩
  · unfold Level.refineMarked
    rw [e0, Option.bind_some, e1, Option.bind_some, h1]
  · intro c hc hct
    rw [hm] at hc hct
    obtain ⟨fl, a, ha, ci, r1, r2, r3, r4, r5, _⟩ := key c hc hct
    refine ⟨ci, r2, Or.inl ⟨?_, a, ha, r3, by rw [hr]; exact r1⟩⟩
    rw [r5]
    revert r4
    generalize fl.getD a false = x
    generalize fl.getD ((a + 1) % 3) false = y
    generalize fl.getD ((a + 2) % 3) false = z
    revert x y z
    decide
  · intro c hc hct
    obtain ⟨fl, a, ha, ci, r1, r2, r3, r4, r5, r6⟩ := key c hc hct
    exact ⟨fl, a, ha, ci, r1, r2, r3, r5, r6⟩

/-- The rules hold between all levels. -/
def HierRef (cops : ChildOps G) (H : Hierarchy G) : Prop :=
  ∀ k N L', H.levels[k]? = some N → H.levels[k + 1]? = some L' → RefRule cops L' N

theorem HierRef.extend {cops : ChildOps G} {H : Hierarchy G} (h : HierRef cops H) {L L' N : Level G}
    {rest : List (Level G)} (hlev : H.levels = L :: rest) (hm : L'.mesh = L.mesh) (hp0 : L'.parents0 = L.parents0)
    (hr : L'.refEdges = L.refEdges) (hn : RefRule cops L' N) (f : Factory G) : HierRef cops ⟨N :: L' :: rest, f⟩ := by
  intro k N1 L1 h1 h2
  match k, h1, h2 with
  | 0, h1, h2 =>
    cases h1
    cases h2
    exact hn
  | 1, h1, h2 =>
    simp only [List.getElem?_cons_succ, List.getElem?_cons_zero, Option.some.injEq] at h1 h2
    subst h1
    obtain ⟨q1, q2⟩ := h 0 L L1 (by rw [hlev]; rfl) (by rw [hlev]; simpa using h2)
    refine ⟨?_, q2⟩
    rw [hm, hp0, hr]
    exact q1
  | k + 2, h1, h2 =>
    exact h (k + 1) N1 L1 (by rw [hlev]; simpa using h1) (by rw [hlev]; simpa using h2)

theorem HierRef.call (ops : GeoOps G) {cops : ChildOps G} {chk : Bool} (hl : cops.Lawful) {M : Mesh G} {H H' : Hierarchy G}
    (hH : HierOk cops chk M H) (h : HierRef cops H) {op : HOp} (ho : op.Legal) (hc : H.call ops cops chk op = some H') :
    HierRef cops H' := by
  cases hlev : H.levels with
  | nil => exact absurd hlev hH.ne
  | cons L rest =>
    have hL := hH.head L (by rw [hlev]; rfl)
    cases op with
    | regular pat =>
      obtain ⟨L', N, Γ, h1, h2, h3⟩ := regular_step ops hl hL ho
      unfold Hierarchy.call Hierarchy.refineRegular at hc
      simp only [hlev, hH.factory, h1] at hc
      cases hc
      exact h.extend hlev (by rw [h3.same]; rfl) (by rw [h3.same]; rfl) (by rw [h3.same]; rfl)
        (regular_rule ops hL.fresh ho h1 h3).1 _
    | refineMarked =>
      obtain ⟨L', N, Γ, Lp, h1, _, _, _, _, _, h2, h3, h4, h5, _⟩ := marked_rule ops hl hL
      unfold Hierarchy.call Hierarchy.refineMarked at hc
      simp only [hlev, hH.factory, h1] at hc
      cases hc
      exact h.extend hlev h3 h5 h4 h2 _
    | mark f =>
      unfold Hierarchy.call Hierarchy.markEdges at hc
      simp only [hlev] at hc
      unfold Level.markEdges at hc
      rw [if_pos hL.fresh.marked] at hc
      cases hc
      intro k N1 L1 h1 h2
      match k, h1, h2 with
      | 0, h1, h2 =>
        cases h1
        obtain ⟨q1, q2⟩ := h 0 L L1 (by rw [hlev]; rfl) (by rw [hlev]; simpa using h2)
        exact ⟨q1, q2⟩
      | k + 1, h1, h2 =>
        exact h (k + 1) N1 L1 (by rw [hlev]; simpa using h1) (by rw [hlev]; simpa using h2)

theorem HierRef.fold (ops : GeoOps G) {cops : ChildOps G} {chk : Bool} (hl : cops.Lawful) {M : Mesh G} (hist : List HOp)
    (ho : ∀ op ∈ hist, op.Legal) {H H' : Hierarchy G} (hH : HierOk cops chk M H) (h : HierRef cops H)
    (hf : hist.foldlM (fun H op => H.call ops cops chk op) H = some H') : HierRef cops H' := by
  induction hist generalizing H with
  | nil => cases hf; exact h
  | cons op hist ih =>
    obtain ⟨H1, e1, h1, _⟩ := call_ok ops hl hH op (ho op (by simp))
    rw [List.foldlM_cons, e1] at hf
    exact ih (fun o h => ho o (by simp [h])) h1 (h.call ops hl hH (ho op (by simp)) e1) hf

theorem run_ref (ops : GeoOps G) {cops : ChildOps G} {chk : Bool} (hl : cops.Lawful) {M : Mesh G}
    (hM : M.Coarse cops chk) (hist : List HOp) (ho : ∀ op ∈ hist, op.Legal) {H : Hierarchy G}
    (hr : Hierarchy.run ops cops chk M hist = some H) : HierOk cops chk M H ∧ HierRef cops H := by
  obtain ⟨H0, e0, h0, l0⟩ := make_ok hM
  obtain ⟨H', e, h, l⟩ := fold_ok ops hl hist ho H0 h0
  unfold Hierarchy.run at hr
  rw [e0, Option.bind_some, e] at hr
  cases hr
  refine ⟨h, HierRef.fold ops hl hist ho h0 ?_ e⟩
  intro k N L' _ h2
  have := (List.getElem?_eq_some_iff.1 h2).1
  omega

end Verif
