import Verif.Lemmas.RefCounts
import Verif.Props.Marking

/-!
# C28 - C34: `MeshHierarchy`

`Hierarchy.run ops cops chk M hist` is the hierarchy with coarsest mesh `M` after the calls `hist` of
`RefineRegular`, `MarkEdges` and `RefineMarked`.  The levels of the model are listed from the finest to the
coarsest: in `levels[k]? = some N`, `levels[k + 1]? = some L` the mesh of `N` is the refinement of the mesh
of `L`.
-/

namespace Verif
variable {G : Type}

/-- **C30**: starting from a conforming mesh no call fails, whatever the sequence of calls, every
refinement adds a level, and every level is conforming. -/
theorem C30_conforming (ops : GeoOps G) (cops : ChildOps G) (chk : Bool) (hl : cops.Lawful) (M : Mesh G)
    (hM : M.Coarse cops chk) (hist : List HOp) (ho : ∀ op ∈ hist, op.Legal) :
    ∃ H, Hierarchy.run ops cops chk M hist = some H ∧
      H.levels.length = 1 + hist.countP (fun op => match op with | .mark _ => false | _ => true) ∧
      H.getMesh 0 = some M ∧
      ∀ L ∈ H.levels, L.mesh.topo.Conforming ∧ L.mesh.Coarse cops chk := by
  obtain ⟨H, h1, h2, h3⟩ := run_ok ops hl hM hist ho
  refine ⟨H, h1, h3, ?_, fun L hL => ⟨(h2.all L hL).conforming, h2.all L hL⟩⟩
  unfold Hierarchy.getMesh
  rw [← List.head?_eq_getElem?, List.head?_reverse]
  exact h2.last

/-- **C31**: for compatible patterns the refinement registers every side of every child cell exactly once
with the mesh factory: no two registered edges have the same end nodes, each side of a registered cell is a
registered edge, and the mesh built has no further edges. -/
theorem C31_registered (ops : GeoOps G) (cops : ChildOps G) (chk : Bool) (hl : cops.Lawful) (L : Level G)
    (hL : L.Planned) (hM : L.mesh.Coarse cops chk) :
    ∃ reg F f', registerChildren cops L {} = some reg ∧ reg.factory.build ops chk = some (F, f') ∧
      (∀ c ∈ reg.factory.elements, ∀ j < c.nodes.length, ∃ e ∈ reg.factory.edges,
        SamePair (e.p0, e.p1) (side c.nodes j)) ∧
      reg.factory.edges.Pairwise (fun a b => ¬ SamePair (a.p0, a.p1) (b.p0, b.p1)) ∧
      F.topo.numEdges = reg.factory.edges.length ∧ F.topo.numCells = reg.factory.elements.length ∧
      F.topo.numNodes = reg.factory.nodes.length ∧
      (∀ k e, reg.factory.edges[k]? = some e → F.topo.edge k = (e.p0, e.p1)) ∧
      (∀ k c, reg.factory.elements[k]? = some c → (F.topo.cell k).nodes = c.nodes) := by
  obtain ⟨L', N, Γ, h1, h2, hB⟩ := perform_step ops (cops := cops) (chk := chk) hL hM.conforming hM.geoOk hl hM.complete
  have hreg := perform_register hL h2.ready h2.geoFor
  have hR := h2.refined.isRef
  have hwf := hR.wf
  have hp := st0_pairs h2.ready h2.geoFor
  have hcn := st0_cellNodes h2.ready h2.geoFor
  have hnn := st0_nodes_len h2.ready h2.geoFor
  unfold performRefinement at h1
  rw [hreg, Option.bind_some] at h1
  cases hb : (st0 L.mesh.topo L.plan Γ L.mesh.topo.numCells).build ops chk with
  | none => simp only [hb] at h1; cases h1
  | some r =>
    obtain ⟨F, f'⟩ := r
    have hFN : N.mesh = F := by
      simp only [hb, Option.bind_some, Option.bind_eq_some_iff] at h1
      obtain ⟨_, _, _, _, _, _, _, _, _, _, _, _, _, _, h⟩ := h1
      simp only [Option.some.injEq, Prod.mk.injEq] at h
      rw [← h.2.1]
    rw [hFN] at hR hwf
    have hlen : (st0 L.mesh.topo L.plan Γ L.mesh.topo.numCells).edges.length = (L.plan.fineEdges L.mesh.topo).length := by
      have := congrArg List.length hp
      simpa using this
    have hclen : (st0 L.mesh.topo L.plan Γ L.mesh.topo.numCells).elements.length = (L.plan.fineCells L.mesh.topo).length := by
      have := congrArg List.length hcn
      simpa using this
    have hedge : ∀ k e, (st0 L.mesh.topo L.plan Γ L.mesh.topo.numCells).edges[k]? = some e → F.topo.edge k = (e.p0, e.p1) := by
      intro k e he
      have hk : k < (L.plan.fineEdges L.mesh.topo).length := by
        rw [← hlen]; exact (List.getElem?_eq_some_iff.1 he).1
      rw [hR.edge k _ (List.getElem?_eq_getElem hk)]
      have := congrArg (fun l => l[k]?) hp
      simp only [List.getElem?_map, he, List.getElem?_eq_getElem hk, Option.map_some, Option.some.injEq] at this
      exact this.symm
    have hcell : ∀ k c, (st0 L.mesh.topo L.plan Γ L.mesh.topo.numCells).elements[k]? = some c →
        (F.topo.cell k).nodes = c.nodes := by
      intro k e he
      have hk : k < (L.plan.fineCells L.mesh.topo).length := by
        rw [← hclen]; exact (List.getElem?_eq_some_iff.1 he).1
      rw [hR.cell k _ (List.getElem?_eq_getElem hk)]
      have := congrArg (fun l => l[k]?) hcn
      simp only [List.getElem?_map, he, List.getElem?_eq_getElem hk, Option.map_some, Option.some.injEq] at this
      exact this.symm
    refine ⟨_, F, f', hreg, hb, ?_, ?_, ?_, ?_, ?_, hedge, hcell⟩
    · intro c hc j hj
      obtain ⟨k, hk, rfl⟩ := List.getElem_of_mem hc
      have hn := hcell k _ (List.getElem?_eq_getElem hk)
      have hk' : k < F.topo.numCells := by rw [hR.numCells, ← hclen]; exact hk
      rw [← hn] at hj ⊢
      have hs := hwf.cell_side k hk' j hj
      have hj' : j < (F.topo.cell k).edges.length := by rw [hwf.cell_edges_len k hk']; exact hj
      have hm : (F.topo.cell k).edges.getD j 0 ∈ (F.topo.cell k).edges := getD_mem _ _ hj'
      have he := hwf.cell_edges k hk' _ hm
      rw [hR.numEdges, ← hlen] at he
      refine ⟨_, List.getElem_mem he, ?_⟩
      rw [← hedge _ _ (List.getElem?_eq_getElem he)]
      exact hs
    · rw [List.pairwise_iff_getElem]
      intro i j hi hj hij hsp
      rw [← hedge _ _ (List.getElem?_eq_getElem hi), ← hedge _ _ (List.getElem?_eq_getElem hj)] at hsp
      have := hwf.edge_inj i (by rw [hR.numEdges, ← hlen]; exact hi) j (by rw [hR.numEdges, ← hlen]; exact hj) hsp
      omega
    · rw [hR.numEdges, hlen]
    · rw [hR.numCells, hclen]
    · rw [hR.numNodes, hnn]

section
variable (ops : GeoOps G) (cops : ChildOps G) (chk : Bool) (hl : cops.Lawful) (M : Mesh G)
  (hM : M.Coarse cops chk) (hist : List HOp) (ho : ∀ op ∈ hist, op.Legal) (H : Hierarchy G)
  (hH : Hierarchy.run ops cops chk M hist = some H)
include hl hM ho hH

omit hl hM ho hH in
private theorem ok_of_run (hl : cops.Lawful) (hM : M.Coarse cops chk) (ho : ∀ op ∈ hist, op.Legal)
    (hH : Hierarchy.run ops cops chk M hist = some H) : HierOk cops chk M H := by
  obtain ⟨H', h1, h2, _⟩ := run_ok ops hl hM hist ho
  rw [hH] at h1
  cases h1
  exact h2

/-- **C28** for the stored child information: `RefineMarked` succeeds on every hierarchy; afterwards the
edges stored as split are those in the closure of the marked edges, the other edges are stored as copied. -/
theorem C28_refineMarked :
    ∃ L rest N L', H.levels = L :: rest ∧
      H.refineMarked ops cops chk = some ⟨N :: L' :: rest, {}⟩ ∧ L'.mesh = L.mesh ∧
      L'.edgeCI.length = L.mesh.topo.numEdges ∧
      ∀ e ci, L'.edgeCI[e]? = some ci →
        (ci.pat = .split ↔ InClosure L.mesh.topo L.refEdges (fun f => L.marked[f]? = some true) e) ∧
        (ci.pat = .split ∨ ci.pat = .copy) := by
  have h := ok_of_run ops cops chk M hist H hl hM ho hH
  cases hlev : H.levels with
  | nil => exact absurd hlev h.ne
  | cons L rest =>
    obtain ⟨L', N, Γ, Lp, q1, q2, q3, q4, q5, q6⟩ := marked_step ops hl (h.head L (by rw [hlev]; rfl))
    refine ⟨L, rest, N, L', rfl, ?_, ?_, ?_, ?_⟩
    · unfold Hierarchy.refineMarked
      simp only [hlev, h.factory, q1]
      rfl
    · rw [q5.mesh_eq, q4]
    · rw [q5.same]; simp [q4]
    · intro e ci hci
      rw [q5.same] at hci
      simp only [List.getElem?_map, Option.map_eq_some_iff] at hci
      obtain ⟨e', he', rfl⟩ := hci
      obtain ⟨he, he''⟩ := List.getElem?_eq_some_iff.1 he'
      rw [List.getElem_range] at he''
      subst he''
      rw [List.length_range] at he
      rw [← q6 e (by rw [← q4]; exact he), ← plan_sp q3]
      simp only [outE, Plan.epat]
      cases Lp.plan.sp e <;> simp

/-- **C28** in terms of the marker: on every hierarchy `MarkEdges(marker)` followed by `RefineMarked` succeeds and
splits exactly the edges of the finest mesh in the closure of those for which `marker` returns `true`, whatever
has been marked before. -/
theorem C28_marker (marker : ℕ → Bool) :
    ∃ L rest H1 N L', H.levels = L :: rest ∧ H.markEdges marker = some H1 ∧
      H1.refineMarked ops cops chk = some ⟨N :: L' :: rest, {}⟩ ∧ L'.mesh = L.mesh ∧
      L'.edgeCI.length = L.mesh.topo.numEdges ∧
      ∀ e ci, L'.edgeCI[e]? = some ci →
        (ci.pat = .split ↔
          InClosure L.mesh.topo L.refEdges (fun f => f < L.mesh.topo.numEdges ∧ marker f = true) e) ∧
        (ci.pat = .split ∨ ci.pat = .copy) := by
  have h := ok_of_run ops cops chk M hist H hl hM ho hH
  cases hlev : H.levels with
  | nil => exact absurd hlev h.ne
  | cons L rest =>
    have hL := h.head L (by rw [hlev]; rfl)
    let L1 : Level G := { L with marked := (List.range L.mesh.topo.numEdges).map marker }
    have hm : H.markEdges marker = some { H with levels := L1 :: rest } := by
      unfold Hierarchy.markEdges Level.markEdges
      simp only [hlev]
      rw [if_pos hL.fresh.marked]
      rfl
    have hrun : Hierarchy.run ops cops chk M (hist ++ [.mark marker]) = some { H with levels := L1 :: rest } := by
      unfold Hierarchy.run at hH ⊢
      obtain ⟨H0, e1, e2⟩ := Option.bind_eq_some_iff.1 hH
      rw [e1, Option.bind_some, List.foldlM_append]
      rw [e2]
      simp only [Option.bind_eq_bind, Option.bind_some, List.foldlM_cons, List.foldlM_nil, Hierarchy.call, hm]
      rfl
    obtain ⟨L2, rest2, N, L', q1, q2, q3, q4, q5⟩ := C28_refineMarked ops cops chk hl M hM (hist ++ [.mark marker])
      (by
        intro op hop
        simp only [List.mem_append, List.mem_singleton] at hop
        rcases hop with hop | rfl
        · exact ho op hop
        · trivial) _ hrun
    cases q1
    have hset : (fun f => L1.marked[f]? = some true) = fun f => f < L.mesh.topo.numEdges ∧ marker f = true := by
      funext f
      simp only [L1, List.getElem?_map, Option.map_eq_some_iff, eq_iff_iff]
      constructor
      · rintro ⟨a, h1, h2⟩
        obtain ⟨h3, h4⟩ := List.getElem?_eq_some_iff.1 h1
        rw [List.getElem_range] at h4
        subst h4
        exact ⟨by simpa using h3, h2⟩
      · rintro ⟨h1, h2⟩
        exact ⟨f, by simp [h1], h2⟩
    rw [hset] at q5
    exact ⟨L, rest, _, N, L', rfl, hm, q2, q3, q4, q5⟩

/-- **C29** for the stored child information: on every refined level of every hierarchy the pattern and
anchor stored for a cell are admissible and split exactly those sides which are stored as split edges; a
split edge has two children, a copied edge has one. -/
theorem C29_stored (k : ℕ) (L : Level G) (hk : H.levels[k + 1]? = some L) (c : ℕ) (hc : c < L.mesh.topo.numCells) :
    ∃ ci ref p, L.cellCI[c]? = some ci ∧ L.mesh.cellRef c = some ref ∧
      Pattern.make ref ci.pat ci.anchor = some p ∧ p.Refines ∧
      ∀ j < (L.mesh.topo.cell c).edges.length, ∃ ei, L.edgeCI[(L.mesh.topo.cell c).edges.getD j 0]? = some ei ∧
        (p.SplitsSide j ↔ ei.pat = .split) ∧
        ei.childEdges.length = (if ei.pat = .split then 2 else 1) ∧
        ei.childPoints.length = (if ei.pat = .split then 1 else 0) := by
  have h := ok_of_run ops cops chk M hist H hl hM ho hH
  have hkl : k < H.levels.length := by
    have := (List.getElem?_eq_some_iff.1 hk).1
    omega
  obtain ⟨L0, N0, P, A, Γ, hs, hp, rfl, rfl, _⟩ := h.link k _ L (List.getElem?_eq_getElem hkl) hk
  rw [hs.mesh_eq] at hc ⊢
  obtain ⟨ref, pat, anchor, p, r1, r2, r3, r4, r5⟩ := hp.cells c hc
  refine ⟨outC L0.mesh.topo L0.plan L0.pats c, ref, p, ?_, r1, ?_, r4, ?_⟩
  · rw [hs.same]; simp [hc]
  · simpa [outC, Level.pats, r2] using r3
  · intro j hj
    have he := hp.valid.wf.cell_edges c hc _ (getD_mem _ _ hj)
    refine ⟨outE L0.mesh.topo L0.plan ((L0.mesh.topo.cell c).edges.getD j 0), ?_, ?_, ?_⟩
    · rw [hs.same]
      simp only [List.getElem?_map, List.getElem?_range he, Option.map_some]
    · rw [r5 j hj, ← plan_sp hp]
      simp only [outE, Plan.epat]
      cases L0.plan.sp ((L0.mesh.topo.cell c).edges.getD j 0) <;> simp
    · simp only [outE, Plan.epat, Plan.ew, Plan.mw, List.length_map, List.length_range]
      by_cases hsp : L0.plan.sp ((L0.mesh.topo.cell c).edges.getD j 0) = true
      · simp only [hsp, if_true]
        exact ⟨trivial, rfl⟩
      · rw [Bool.not_eq_true] at hsp
        simp only [hsp]
        exact ⟨rfl, rfl⟩

/-- **C32**, regular refinement: `V + E + Q` nodes, `2E + 3T + 4Q` edges, `4T` triangles, `4Q` quadrilaterals. -/
theorem C32_regular : ∃ L rest N L', H.levels = L :: rest ∧
    H.refineRegular ops cops chk .regular = some ⟨N :: L' :: rest, {}⟩ ∧
    N.mesh.topo.numNodes = L.mesh.topo.numNodes + L.mesh.topo.numEdges + L.mesh.topo.numQuad ∧
    N.mesh.topo.numEdges = 2 * L.mesh.topo.numEdges + 3 * L.mesh.topo.numTria + 4 * L.mesh.topo.numQuad ∧
    N.mesh.topo.numTria = 4 * L.mesh.topo.numTria ∧ N.mesh.topo.numQuad = 4 * L.mesh.topo.numQuad := by
  have h := ok_of_run ops cops chk M hist H hl hM ho hH
  cases hlev : H.levels with
  | nil => exact absurd hlev h.ne
  | cons L rest =>
    have hg := h.head L (by rw [hlev]; rfl)
    obtain ⟨L', N, Γ, q1, q2, q3⟩ := regular_step ops hl hg (pat := .regular) (Or.inl rfl)
    refine ⟨L, rest, N, L', rfl, ?_, ?_⟩
    · unfold Hierarchy.refineRegular
      simp only [hlev, h.factory, q1]
      rfl
    · obtain ⟨c1, c2, c3, c4⟩ := counts q3 .regular (fun e he => by
          have he' : e < L.mesh.topo.numEdges := he
          simp [Level.plan, Level.withPatterns, hg.fresh.edges, he'])
        (fun c hc => by
          have hc' : c < L.mesh.topo.numCells := hc
          simp [Level.pats, Level.withPatterns, hg.fresh.cells, hc'])
        4 3 false true regRow_regular.1 regRow_regular.2.1
      refine ⟨?_, c2, c3, c4⟩
      rw [c1]
      simp [Level.withPatterns]

/-- **C32**, barycentric refinement: `V + E + T + Q` nodes, `2E + 6T + 4Q` edges, `6T` triangles, `4Q`
quadrilaterals. -/
theorem C32_barycentric : ∃ L rest N L', H.levels = L :: rest ∧
    H.refineRegular ops cops chk .barycentric = some ⟨N :: L' :: rest, {}⟩ ∧
    N.mesh.topo.numNodes = L.mesh.topo.numNodes + L.mesh.topo.numEdges + L.mesh.topo.numTria + L.mesh.topo.numQuad ∧
    N.mesh.topo.numEdges = 2 * L.mesh.topo.numEdges + 6 * L.mesh.topo.numTria + 4 * L.mesh.topo.numQuad ∧
    N.mesh.topo.numTria = 6 * L.mesh.topo.numTria ∧ N.mesh.topo.numQuad = 4 * L.mesh.topo.numQuad := by
  have h := ok_of_run ops cops chk M hist H hl hM ho hH
  cases hlev : H.levels with
  | nil => exact absurd hlev h.ne
  | cons L rest =>
    have hg := h.head L (by rw [hlev]; rfl)
    obtain ⟨L', N, Γ, q1, q2, q3⟩ := regular_step ops hl hg (pat := .barycentric) (Or.inr rfl)
    refine ⟨L, rest, N, L', rfl, ?_, ?_⟩
    · unfold Hierarchy.refineRegular
      simp only [hlev, h.factory, q1]
      rfl
    · obtain ⟨c1, c2, c3, c4⟩ := counts q3 .barycentric (fun e he => by
          have he' : e < L.mesh.topo.numEdges := he
          simp [Level.plan, Level.withPatterns, hg.fresh.edges, he'])
        (fun c hc => by
          have hc' : c < L.mesh.topo.numCells := hc
          simp [Level.pats, Level.withPatterns, hg.fresh.cells, hc'])
        6 6 true true regRow_regular.2.2.1 regRow_regular.2.2.2
      refine ⟨?_, c2, c3, c4⟩
      rw [c1]
      simp [Level.withPatterns]

/-- **C32**, Euler characteristic: `V - E + F` is the same on any two consecutive levels. -/
theorem C32_euler (k : ℕ) (N L : Level G) (hN : H.levels[k]? = some N) (hL : H.levels[k + 1]? = some L) :
    (N.mesh.topo.numNodes : ℤ) - N.mesh.topo.numEdges + N.mesh.topo.numCells =
      L.mesh.topo.numNodes - L.mesh.topo.numEdges + L.mesh.topo.numCells := by
  have h := ok_of_run ops cops chk M hist H hl hM ho hH
  obtain ⟨L0, N0, P, A, Γ, hs, hp, rfl, rfl, hm, _⟩ := h.link k N L hN hL
  rw [hm, hs.mesh_eq]
  have := fine_euler hs.ready.conf hs.ready.ok hs.refined.isRef
  omega

/-- **C33**: on any two consecutive levels of any hierarchy, every entity of the finer level has exactly
one parent, occurs in the parent's list of children exactly at the recorded child number, and every entry
of a list of children is an entity whose parent information refers back to this entry. -/
theorem C33_parents (k : ℕ) (N L : Level G) (hN : H.levels[k]? = some N) (hL : H.levels[k + 1]? = some L) :
    ParentsAgree L N := by
  have h := ok_of_run ops cops chk M hist H hl hM ho hH
  obtain ⟨L0, N0, P, A, Γ, hs, hp, rfl, rfl, hm, h0, h1, h2⟩ := h.link k N L hN hL
  have := hs.parentsAgree
  intro codim hc
  have hpar : N.parents codim = N0.parents codim := by
    match codim, hc with
    | 0, _ => exact h0
    | 1, _ => exact h1
    | 2, _ => exact h2
  rw [hpar, hm]
  exact this codim hc

/-- **C34**: an edge of the finer of two consecutive levels is a side of exactly one cell iff its parent is an
edge of the coarser level with the same property; edges whose parent is a cell have two adjacent cells. -/
theorem C34_boundary (k : ℕ) (N L : Level G) (hN : H.levels[k]? = some N) (hL : H.levels[k + 1]? = some L)
    (i : ℕ) (hi : i < N.mesh.topo.numEdges) :
    ∃ info par, N.parents1[i]? = some info ∧ info.parent = some par ∧
      (N.mesh.topo.incidence i = 1 ↔ ∃ e < L.mesh.topo.numEdges, par = (1, e) ∧ L.mesh.topo.incidence e = 1) ∧
      (par.1 = 0 → N.mesh.topo.incidence i = 2) ∧
      (par.1 = 1 → N.mesh.topo.incidence i = L.mesh.topo.incidence par.2) ∧ (par.1 = 0 ∨ par.1 = 1) := by
  have h := ok_of_run ops cops chk M hist H hl hM ho hH
  obtain ⟨L0, N0, P, A, Γ, hs, hp, rfl, rfl, hm, h0, h1, h2⟩ := h.link k N L hN hL
  rw [hm] at hi ⊢
  rw [h1]
  obtain ⟨par, j, q1, ⟨e, he, rfl, hinc⟩ | ⟨c, hc, rfl, hinc⟩⟩ := hs.boundary i hi
  · refine ⟨_, (1, e), q1, rfl, ?_, by simp, fun _ => hinc, Or.inr rfl⟩
    rw [hinc]
    constructor
    · intro h; exact ⟨e, he, rfl, h⟩
    · rintro ⟨e', _, h1, h2⟩
      cases h1
      exact h2
  · refine ⟨_, (0, c), q1, rfl, ?_, fun _ => hinc, by simp, Or.inl rfl⟩
    rw [hinc]
    constructor
    · intro h; omega
    · rintro ⟨e', _, h1, _⟩
      cases h1

end

/-! ### A concrete case -/

/-- Geometries without coordinates. -/
def kindOps : GeoOps RefEl := ⟨fun _ codim _ => if codim = 1 then .segment else .point, fun _ _ => .segment,
  fun _ _ _ => .tria, fun _ _ _ _ => .quad⟩

/-- Refinement of geometries without coordinates. -/
def kindChild : ChildOps RefEl := ⟨id, fun _ p codim => (p.childPolygons codim).map fun l => l.map polyKind, fun _ => 1⟩

theorem kindChild_lawful : kindChild.Lawful := by
  intro g p codim polys _ _ _ hp
  refine ⟨polys.map polyKind, ?_, ?_⟩
  · simp [kindChild, hp]
  · simp [kindChild]

/-- The row of three triangles and a quadrilateral with such geometries. -/
def rowMeshK : Mesh RefEl :=
  (buildMesh kindOps (List.replicate 7 (some .point)) []
    [⟨[0, 1, 2], none⟩, ⟨[1, 3, 2], none⟩, ⟨[3, 4, 2], none⟩, ⟨[4, 3, 5, 6], none⟩] true).getD ⟨[], [], [], [], [], [], []⟩

theorem rowMeshK_build : buildMesh kindOps (List.replicate 7 (some .point)) []
    [⟨[0, 1, 2], none⟩, ⟨[1, 3, 2], none⟩, ⟨[3, 4, 2], none⟩, ⟨[4, 3, 5, 6], none⟩] true = some rowMeshK := by
  have hb : (buildMesh kindOps (List.replicate 7 (some .point)) []
    [⟨[0, 1, 2], none⟩, ⟨[1, 3, 2], none⟩, ⟨[3, 4, 2], none⟩, ⟨[4, 3, 5, 6], none⟩] true).isSome = true := by decide +kernel
  obtain ⟨M, hM⟩ := Option.isSome_iff_exists.1 hb
  unfold rowMeshK
  rw [hM]; rfl

private def rowChecks : Bool :=
  decide (rowMeshK.topo.numNodes = 7) && decide (rowMeshK.topo.numEdges = 10) && decide (rowMeshK.topo.numCells = 4) &&
  (List.range 4).all (fun c => decide (rowMeshK.topo.cell c).nodes.Nodup) &&
  (List.range 10).all (fun e => decide (rowMeshK.topo.incidence e ≤ 2)) &&
  (List.range 10).all (fun e => decide (rowMeshK.edgeGeo e = some .segment)) &&
  (List.range 7).all (fun v => decide (rowMeshK.points[v]? = some .point)) &&
  (List.range 4).all (fun c => decide (rowMeshK.cellGeo c = rowMeshK.cellRef c) && (rowMeshK.cellGeo c).isSome) &&
  (List.range 10).all (fun e => (List.range 4).any fun c => decide (e ∈ (rowMeshK.topo.cell c).edges)) &&
  (List.range 7).all (fun e => (List.range 4).any fun c => decide (e ∈ (rowMeshK.topo.cell c).nodes))

private def rowShare : Bool :=
  (List.range 4).all fun c => (List.range 4).all fun d => decide (c = d) ||
    ((rowMeshK.topo.cell c).nodes.all fun a => (rowMeshK.topo.cell c).nodes.all fun b => decide (a = b) ||
      !decide (a ∈ (rowMeshK.topo.cell d).nodes) || !decide (b ∈ (rowMeshK.topo.cell d).nodes) ||
      (((rowMeshK.topo.cell c).edges.any fun e => decide (e ∈ (rowMeshK.topo.cell d).edges) &&
          decide (rowMeshK.topo.edge e = (a, b) ∨ rowMeshK.topo.edge e = (b, a))) &&
        (rowMeshK.topo.cell c).nodes.all fun w => !decide (w ∈ (rowMeshK.topo.cell d).nodes) || decide (w = a ∨ w = b)))

private theorem rowChecks_true : rowChecks = true := by decide +kernel
private theorem rowShare_true : rowShare = true := by decide +kernel

theorem rowMeshK_coarse : rowMeshK.Coarse kindChild true := by
  have hv := buildMesh_valid true (by simp) rowMeshK_build
  have hc := rowChecks_true
  have hs := rowShare_true
  unfold rowChecks at hc
  simp only [Bool.and_eq_true, decide_eq_true_eq, List.all_eq_true, List.mem_range, List.any_eq_true] at hc
  obtain ⟨⟨⟨⟨⟨⟨⟨⟨⟨n2, n1⟩, n0⟩, hnd⟩, hinc⟩, hge⟩, hgp⟩, hgc⟩, hce⟩, hcn⟩ := hc
  unfold rowShare at hs
  simp only [Bool.and_eq_true, Bool.or_eq_true, decide_eq_true_eq, List.all_eq_true, List.mem_range, List.any_eq_true,
    Bool.not_eq_true', decide_eq_false_iff_not] at hs
  refine ⟨hv, ⟨hv.wf, ?_, ?_, ?_⟩, ⟨?_, ?_, ?_⟩, fun _ => ⟨?_, ?_⟩⟩
  · intro c hc; rw [n0] at hc; exact hnd c hc
  · intro c hc d hd hcd a b hab hac hbc had hbd
    rw [n0] at hc hd
    rcases hs c hc d hd with h | h
    · exact absurd h hcd
    rcases h a hac b hbc with ((h | h) | h) | ⟨⟨e, he, hed, hse⟩, hw⟩
    · exact absurd h hab
    · exact absurd had h
    · exact absurd hbd h
    · refine ⟨⟨e, he, hed, ?_⟩, fun w hwc hwd => ?_⟩
      · rcases hse with h | h
        · rw [h]; exact Or.inl rfl
        · rw [h]; exact Or.inr rfl
      · rcases hw w hwc with h | h
        · exact absurd hwd h
        · exact h
  · intro e he; rw [n1] at he; exact hinc e he
  · intro v hv; rw [n2] at hv; exact ⟨_, hgp v hv, rfl⟩
  · intro v hv; rw [n1] at hv; exact ⟨_, hge v hv, rfl⟩
  · intro c hc
    rw [n0] at hc
    obtain ⟨h1, h2⟩ := hgc c hc
    obtain ⟨g, hg⟩ := Option.isSome_iff_exists.1 h2
    exact ⟨g, hg, by rw [← h1, hg]; rfl⟩
  · intro e he; rw [n1] at he; rw [n0]; exact hce e he
  · intro e he; rw [n2] at he; rw [n0]; exact hcn e he

/-- The row of cells meets the hypotheses of C28 - C34, and a sequence of three refinements produces a
hierarchy with four levels. -/
example : kindChild.Lawful ∧ rowMeshK.Coarse kindChild true ∧
    ∃ H, Hierarchy.run kindOps kindChild true rowMeshK
      [.mark (· == 0), .refineMarked, .regular .barycentric, .mark (· == 3), .refineMarked] = some H ∧
      H.levels.length = 4 := by
  refine ⟨kindChild_lawful, rowMeshK_coarse, ?_⟩
  obtain ⟨H, h1, h2, _⟩ := C30_conforming kindOps kindChild true kindChild_lawful rowMeshK rowMeshK_coarse
    [.mark (· == 0), .refineMarked, .regular .barycentric, .mark (· == 3), .refineMarked]
    (by intro op hop; simp at hop; rcases hop with rfl | rfl | rfl | rfl | rfl <;> simp [HOp.Legal])
  exact ⟨H, h1, h2⟩

/-- Numbers of nodes, edges and cells of all levels. -/
private def sizes (H : Hierarchy RefEl) : List (ℕ × ℕ × ℕ) :=
  H.levels.map fun L => (L.mesh.topo.numNodes, L.mesh.topo.numEdges, L.mesh.topo.numCells)

/-- Marking edge 4 of the row splits three edges. -/
example : (Hierarchy.run kindOps kindChild true rowMeshK [.mark (· == 4), .refineMarked]).map sizes =
    some [(10, 19, 10), (7, 10, 4)] := by
  decide +kernel

end Verif
