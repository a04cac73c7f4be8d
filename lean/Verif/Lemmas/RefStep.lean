import Verif.Lemmas.RefParents

/-! One refinement step: `PerformRefinement` on a level with compatible patterns. -/

namespace Verif
variable {G : Type}

/-- Children of a cell of a level. -/
def Level.kids (L : Level G) (c : ℕ) : List (List LNode) × List (LNode × LNode) :=
  ((L.mesh.cellRef c).bind fun ref => (L.cellCI[c]?).bind fun ci => cellChildren ref ci.pat ci.anchor).getD ([], [])

/-- Plan described by the patterns of a level. -/
def Level.plan (L : Level G) : Plan where
  sp e := (L.edgeCI[e]?).any fun ci => decide (ci.pat = .split)
  polys c := (L.kids c).1
  ints c := (L.kids c).2
  ctr c := (L.mesh.cellRef c).any fun ref => (L.cellCI[c]?).any fun ci => hasCenter ref ci.pat

def Level.pats (L : Level G) : Pats where
  pat c := (L.cellCI[c]?).elim .nil (·.pat)
  anc c := (L.cellCI[c]?).elim none (·.anchor)

section
variable {cops : ChildOps G} {L : Level G} (hL : L.Planned)
include hL

theorem plan_sp (e : ℕ) : L.plan.sp e = true ↔ L.edgeCI[e]? = some { pat := .split } := by
  unfold Level.plan
  simp only
  cases h : L.edgeCI[e]? with
  | none => simp
  | some ci =>
    rcases hL.edges ci (List.mem_of_getElem? h) with rfl | rfl
    · simp
    · simp

theorem planned_edges : L.edgeCI = (List.range L.mesh.topo.numEdges).map fun e => { pat := L.plan.epat e } := by
  apply List.ext_getElem
  · simp [hL.edges_len]
  · intro i h1 h2
    have h := plan_sp hL i
    rw [List.getElem?_eq_getElem h1] at h
    simp only [List.getElem_map, List.getElem_range]
    unfold Plan.epat
    rcases hL.edges _ (List.getElem_mem h1) with h3 | h3
    · rw [h3] at h ⊢
      rw [if_pos (h.2 rfl)]
    · rw [h3] at h ⊢
      rw [if_neg]
      intro h'
      have := h.1 h'
      simp at this

theorem planned_cells : L.cellCI = (List.range L.mesh.topo.numCells).map fun c =>
    { pat := L.pats.pat c, anchor := L.pats.anc c } := by
  apply List.ext_getElem
  · simp [hL.cells_len]
  · intro i h1 h2
    obtain ⟨ref, pat, anchor, p, _, hci, _⟩ := hL.cells i (by rw [← hL.cells_len]; exact h1)
    rw [List.getElem?_eq_getElem h1] at hci
    have hci' := Option.some.inj hci
    simp only [List.getElem_map, List.getElem_range, Level.pats, List.getElem?_eq_getElem h1, Option.elim_some]
    rw [hci']

theorem planned_ready (hc : L.mesh.topo.Conforming) (hg : L.mesh.GeoOk cops) (hl : cops.Lawful) :
    Ready cops L.mesh L.plan L.pats := by
  refine ⟨hL.valid, hc, hg, hl, ?_⟩
  intro c hc
  obtain ⟨ref, pat, anchor, p, hr, hci, hm, hp, hs⟩ := hL.cells c hc
  obtain ⟨hr', hn⟩ := cellRef_len hL.valid hc hr
  obtain ⟨ch, hch, hloc⟩ := local_ok hr' hm hp
  have hkids : L.kids c = ch := by
    unfold Level.kids
    rw [hr, Option.bind_some, hci, Option.bind_some, hch]
    rfl
  have hctr : L.plan.ctr c = hasCenter ref pat := by
    unfold Level.plan
    simp only [hr, hci, Option.any_some]
  have hfl : (List.range ref.numNodes).map p.splitsSideB = (L.mesh.topo.cell c).edges.map L.plan.sp := by
    have hel := hL.valid.wf.cell_edges_len c hc
    apply List.ext_getElem
    · simp [hn, hel]
    · intro i h1 h2
      simp only [List.getElem_map, List.getElem_range]
      have h2' : i < (L.mesh.topo.cell c).edges.length := by simpa using h2
      rw [Bool.eq_iff_iff, p.splitsSideB_iff, plan_sp hL, hs i h2', List.getD_eq_getElem _ _ h2']
  refine ⟨ref, p, hr', hr, hn, ?_, hp, ?_, ?_, ?_⟩
  · simpa [Level.pats, hci] using hm
  · simp only [Level.pats, hci, Option.elim_some, hch, Level.plan, hkids]
  · simpa [Level.pats, hci] using hctr
  · rw [hfl, hn, ← hctr] at hloc
    have h1 : L.plan.polys c = ch.1 := congrArg Prod.fst hkids
    have h2 : L.plan.ints c = ch.2 := congrArg Prod.snd hkids
    rw [h1, h2]
    exact hloc

end

/-- Everything known about the outcome of one refinement: `L` the level before, `L'` the same level with
the child information, `N` the new level. -/
structure Step (cops : ChildOps G) (L L' N : Level G) (P : Plan) (A : Pats) (Γ : GPlan G) : Prop where
  ready : Ready cops L.mesh P A
  geoFor : GeoFor cops L.mesh P A Γ
  refined : Refined cops L.mesh P Γ N.mesh
  same : L' = { L with pointCI := (List.range L.mesh.topo.numNodes).map outP
                       edgeCI := (List.range L.mesh.topo.numEdges).map (outE L.mesh.topo P)
                       cellCI := (List.range L.mesh.topo.numCells).map (outC L.mesh.topo P A) }
  len0 : N.parents0.length = N.mesh.topo.numCells
  len1 : N.parents1.length = N.mesh.topo.numEdges
  len2 : N.parents2.length = N.mesh.topo.numNodes
  par0 : ∀ c < L.mesh.topo.numCells, ∀ k < P.pw c,
    N.parents0[off P.pw c + k]? = some (finfo L.mesh P 0 (0, c) k)
  par1s : ∀ e < L.mesh.topo.numEdges, ∀ k < P.ew e,
    N.parents1[off P.ew e + k]? = some (finfo L.mesh P 1 (1, e) k)
  par1i : ∀ c < L.mesh.topo.numCells, ∀ k < P.iw c,
    N.parents1[off P.ew L.mesh.topo.numEdges + off P.iw c + k]? = some (finfo L.mesh P 1 (0, c) k)
  par2v : ∀ v < L.mesh.topo.numNodes, N.parents2[v]? = some (finfo L.mesh P 2 (2, v) 0)
  par2m : ∀ e < L.mesh.topo.numEdges, ∀ k < P.mw e,
    N.parents2[L.mesh.topo.numNodes + off P.mw e + k]? = some (finfo L.mesh P 2 (1, e) k)
  par2c : ∀ c < L.mesh.topo.numCells, ∀ k < P.cw c,
    N.parents2[L.mesh.topo.numNodes + off P.mw L.mesh.topo.numEdges + off P.cw c + k]? =
      some (finfo L.mesh P 2 (0, c) k)
  fresh : N.Fresh
  unmarked : N.marked = List.replicate N.mesh.topo.numEdges false

theorem perform_register {cops : ChildOps G} {L : Level G} (hL : L.Planned) {Γ : GPlan G}
    (hR : Ready cops L.mesh L.plan L.pats) (hΓ : GeoFor cops L.mesh L.plan L.pats Γ) :
    registerChildren cops L {} = some ⟨st0 L.mesh.topo L.plan Γ L.mesh.topo.numCells,
      (List.range L.mesh.topo.numNodes).map outP, (List.range L.mesh.topo.numEdges).map (outE L.mesh.topo L.plan),
      (List.range L.mesh.topo.numCells).map (outC L.mesh.topo L.plan L.pats)⟩ := by
  unfold registerChildren
  rw [loop_points hR hΓ _ hL.points]
  simp only [Option.bind_some]
  rw [loop_edges hR hΓ _ (planned_edges hL)]
  simp only [Option.bind_some]
  rw [if_pos hL.cells_len, loop_cells hR hΓ _ (planned_cells hL)]
  rfl

theorem perform_step (ops : GeoOps G) {cops : ChildOps G} {chk : Bool} {L : Level G} (hL : L.Planned)
    (hc : L.mesh.topo.Conforming) (hg : L.mesh.GeoOk cops) (hl : cops.Lawful)
    (hC : chk = true → L.mesh.topo.Complete) :
    ∃ L' N Γ, performRefinement ops cops chk L {} = some (L', N, {}) ∧ Step cops L L' N L.plan L.pats Γ ∧
      Built ops (st0 L.mesh.topo L.plan Γ L.mesh.topo.numCells).nodes (st0 L.mesh.topo L.plan Γ L.mesh.topo.numCells).edges
        (st0 L.mesh.topo L.plan Γ L.mesh.topo.numCells).elements N.mesh := by
  have hR := planned_ready hL hc hg hl
  obtain ⟨Γ, hΓ⟩ := exists_geoFor hR
  have hs : ∀ x ∈ (st0 L.mesh.topo L.plan Γ L.mesh.topo.numCells).nodes, x.isSome = true := by
    intro x hx
    simp only [st0, st1, st2, List.mem_append, List.mem_flatMap, List.mem_map] at hx
    rcases hx with (⟨_, _, y, _, rfl⟩ | ⟨_, _, y, _, rfl⟩) | ⟨_, _, y, _, rfl⟩ <;> rfl
  rcases buildMesh_spec ops _ (st0 L.mesh.topo L.plan Γ L.mesh.topo.numCells).edges
    (st0 L.mesh.topo L.plan Γ L.mesh.topo.numCells).elements chk hs with ⟨hv, F, eF, hB⟩ | ⟨hv, _⟩
  swap
  · exact absurd ⟨st0_valid hR hΓ, fun h => st0_complete hR hΓ (hC h)⟩ hv
  have hF := refined hR hΓ hB
  have hbuild : (st0 L.mesh.topo L.plan Γ L.mesh.topo.numCells).build ops chk = some (F, {}) := by
    unfold Factory.build
    rw [eF]
    rfl
  obtain ⟨re', hre, hreok⟩ := fineRefEdge_ok hR hF L.refEdges hL.refEdges
  have n0 : F.topo.numCells = off L.plan.pw L.mesh.topo.numCells := by
    rw [hF.isRef.numCells, fineCells_length]
  have n1 : F.topo.numEdges = off L.plan.ew L.mesh.topo.numEdges + off L.plan.iw L.mesh.topo.numCells := by
    rw [hF.isRef.numEdges, fineEdges_length]
  have n2 : F.topo.numNodes = L.plan.numFine L.mesh.topo := hF.isRef.numNodes
  obtain ⟨p0, q0, l0, g0⟩ := mapM_zipIdx (fun x => relGeo L.mesh F
      ((List.range L.mesh.topo.numEdges).map (outE L.mesh.topo L.plan))
      ((List.range L.mesh.topo.numCells).map (outC L.mesh.topo L.plan L.pats)) 0 x.2 x.1) (par0 L.mesh.topo L.plan)
    (by
      intro i x hx
      have hi : i < (par0 L.mesh.topo L.plan).length := (List.getElem?_eq_some_iff.1 hx).1
      rw [par0_length] at hi
      obtain ⟨c, hc, k, hk, rfl⟩ := off_split _ hi
      rw [par0_get c hc k hk] at hx
      cases hx
      exact ⟨_, relGeo_cell hR hF c hc k hk⟩)
  obtain ⟨p1, q1, l1, g1⟩ := mapM_zipIdx (fun x => relGeo L.mesh F
      ((List.range L.mesh.topo.numEdges).map (outE L.mesh.topo L.plan))
      ((List.range L.mesh.topo.numCells).map (outC L.mesh.topo L.plan L.pats)) 1 x.2 x.1) (par1 L.mesh.topo L.plan)
    (by
      intro i x hx
      have hi : i < (par1 L.mesh.topo L.plan).length := (List.getElem?_eq_some_iff.1 hx).1
      rw [par1_length] at hi
      by_cases hi' : i < off L.plan.ew L.mesh.topo.numEdges
      · obtain ⟨c, hc, k, hk, rfl⟩ := off_split _ hi'
        rw [par1_sub c hc k hk] at hx
        cases hx
        exact ⟨_, relGeo_sub c hc k hk _⟩
      · obtain ⟨c, hc, k, hk, hik⟩ := off_split L.plan.iw (k := i - off L.plan.ew L.mesh.topo.numEdges)
          (n := L.mesh.topo.numCells) (by omega)
        have : i = off L.plan.ew L.mesh.topo.numEdges + off L.plan.iw c + k := by omega
        subst this
        rw [par1_int c hc k hk] at hx
        cases hx
        exact ⟨_, relGeo_int hR hF c hc k hk⟩)
  obtain ⟨p2, q2, l2, g2⟩ := mapM_zipIdx (fun x => relGeo L.mesh F
      ((List.range L.mesh.topo.numEdges).map (outE L.mesh.topo L.plan))
      ((List.range L.mesh.topo.numCells).map (outC L.mesh.topo L.plan L.pats)) 2 x.2 x.1) (par2 L.mesh.topo L.plan)
    (by
      intro i x hx
      have hi : i < (par2 L.mesh.topo L.plan).length := (List.getElem?_eq_some_iff.1 hx).1
      rw [par2_length] at hi
      unfold Plan.numFine at hi
      by_cases hi0 : i < L.mesh.topo.numNodes
      · rw [par2_vert i hi0] at hx
        cases hx
        exact ⟨_, relGeo_vert (P := L.plan) i i _ _⟩
      by_cases hi' : i < L.mesh.topo.numNodes + off L.plan.mw L.mesh.topo.numEdges
      · obtain ⟨c, hc, k, hk, hik⟩ := off_split L.plan.mw (k := i - L.mesh.topo.numNodes)
          (n := L.mesh.topo.numEdges) (by omega)
        have : i = L.mesh.topo.numNodes + off L.plan.mw c + k := by omega
        subst this
        rw [par2_mid c hc k hk] at hx
        cases hx
        exact ⟨_, relGeo_mid c hc k hk _⟩
      · obtain ⟨c, hc, k, hk, hik⟩ := off_split L.plan.cw
          (k := i - (L.mesh.topo.numNodes + off L.plan.mw L.mesh.topo.numEdges))
          (n := L.mesh.topo.numCells) (by omega)
        have : i = L.mesh.topo.numNodes + off L.plan.mw L.mesh.topo.numEdges + off L.plan.cw c + k := by omega
        subst this
        rw [par2_ctr c hc k hk] at hx
        cases hx
        exact ⟨_, relGeo_ctr hR hF c hc k hk⟩)
  refine ⟨_, { mesh := F
               pointCI := List.replicate F.topo.numNodes {}
               edgeCI := List.replicate F.topo.numEdges {}
               cellCI := List.replicate F.topo.numCells {}
               parents0 := p0
               parents1 := p1
               parents2 := p2
               marked := List.replicate F.topo.numEdges false
               refEdges := re' }, Γ, ?_, ⟨hR, hΓ, hF, rfl, ?_, ?_, ?_, ?_, ?_, ?_, ?_, ?_, ?_, ?_, rfl⟩, hB⟩
  · unfold performRefinement
    rw [perform_register hL hR hΓ]
    simp only [Option.bind_some, hbuild]
    rw [n2, write_nodes]
    simp only [Option.bind_some]
    rw [n1, write_edges]
    simp only [Option.bind_some]
    rw [show List.replicate F.topo.numCells ({} : ParentInfo) = List.replicate (off L.plan.pw L.mesh.topo.numCells) {} from
      by rw [n0], write_cells]
    simp only [Option.bind_some]
    rw [hre]
    simp only [Option.bind_some]
    rw [q0]
    simp only [Option.bind_some]
    rw [q1]
    simp only [Option.bind_some]
    rw [q2]
    rfl
  · rw [l0, par0_length]; exact n0.symm
  · rw [l1, par1_length]; exact n1.symm
  · rw [l2, par2_length]; exact n2.symm
  · exact fun c hc k hk => g0 _ _ (par0_get c hc k hk) _ (relGeo_cell hR hF c hc k hk)
  · exact fun c hc k hk => g1 _ _ (par1_sub c hc k hk) _ (relGeo_sub c hc k hk _)
  · exact fun c hc k hk => g1 _ _ (par1_int c hc k hk) _ (relGeo_int hR hF c hc k hk)
  · exact fun v hv => g2 _ _ (par2_vert v hv) _ (relGeo_vert v v _ _)
  · exact fun c hc k hk => g2 _ _ (par2_mid c hc k hk) _ (relGeo_mid c hc k hk _)
  · exact fun c hc k hk => g2 _ _ (par2_ctr c hc k hk) _ (relGeo_ctr hR hF c hc k hk)
  · exact ⟨hF.valid, rfl, rfl, rfl, by simp, hreok⟩

/-! ### Completeness -/

theorem incidence_pos_iff {T : Topo} (e : ℕ) : 0 < T.incidence e ↔ ∃ c < T.numCells, e ∈ (T.cell c).edges := by
  unfold Topo.incidence
  rw [Nat.pos_iff_ne_zero, ne_eq, List.sum_eq_zero_iff]
  simp only [List.mem_map, List.mem_range, forall_exists_index, and_imp, forall_apply_eq_imp_iff₂,
    List.count_eq_zero]
  push Not
  rfl

theorem Step.complete {cops : ChildOps G} {L L' N : Level G} {P : Plan} {A : Pats} {Γ : GPlan G}
    (h : Step cops L L' N P A Γ) (hC : L.mesh.topo.Complete) : N.mesh.topo.Complete := by
  have hT := h.ready.conf
  have hP := h.ready.ok
  have hR := h.refined.isRef
  constructor
  · intro e he
    rw [← incidence_pos_iff]
    rw [hR.numEdges, fineEdges_length] at he
    by_cases hi : e < off P.ew L.mesh.topo.numEdges
    · obtain ⟨c, hc, k, hk, rfl⟩ := off_split _ hi
      rw [incidence_sub hT hP hR c hc k hk, incidence_pos_iff]
      exact hC.1 c hc
    · obtain ⟨c, hc, k, hk, hik⟩ := off_split P.iw (k := e - off P.ew L.mesh.topo.numEdges)
          (n := L.mesh.topo.numCells) (by omega)
      have : e = off P.ew L.mesh.topo.numEdges + (off P.iw c + k) := by omega
      subst this
      rw [incidence_int hT hP hR c hc k hk]
      omega
  · intro v hv
    rw [hR.numNodes] at hv
    obtain ⟨x, hx, rfl⟩ := num_surj v hv
    obtain ⟨Q, hQ, hxQ⟩ := nodes_covered hT hP hC x hx
    obtain ⟨k, hk, rfl⟩ := List.getElem_of_mem hQ
    refine ⟨k, by rw [hR.numCells]; exact hk, ?_⟩
    rw [hR.cell k _ (List.getElem?_eq_getElem hk)]
    exact List.mem_map.2 ⟨x, hxQ, rfl⟩

end Verif
