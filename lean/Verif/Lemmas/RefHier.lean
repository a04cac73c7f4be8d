import Verif.Lemmas.RefStep

/-! Sequences of refinements. -/

namespace Verif
variable {G : Type}

theorem marked_planned {L : Level G} (hL : L.Fresh) :
    ∃ s0 s, markInit L = some s0 ∧
      markLoop L.mesh L.refEdges (List.range L.mesh.topo.numCells) (L.mesh.topo.numEdges + 1) s0 = some s ∧
      (L.withPatterns s.edgePat s.cellPat).Planned ∧
      (∀ e < L.mesh.topo.numEdges, ((L.withPatterns s.edgePat s.cellPat).edgeCI[e]? = some { pat := .split } ↔
        InClosure L.mesh.topo L.refEdges (fun f => L.marked[f]? = some true) e)) := by
  obtain ⟨s0, h0, ok0, hm⟩ := markInit_spec L hL
  obtain ⟨s, h, ok, hmono, hleast, hdec⟩ := markLoop_spec hL.valid hL.refEdges (List.range L.mesh.topo.numCells)
    (fun c hc => by simpa using hc) (L.mesh.topo.numEdges + 1) s0 ok0 (by omega)
  have hE : (L.withPatterns s.edgePat s.cellPat).edgeCI = s.edgePat.map fun p => { pat := p } := by
    apply List.ext_getElem
    · simp [Level.withPatterns, hL.edges, ok.len1]
    · intro i h1 h2
      simp [Level.withPatterns, hL.edges]
  have hsplit : ∀ e, (L.withPatterns s.edgePat s.cellPat).edgeCI[e]? = some { pat := .split } ↔ SplitIn s.edgePat e := by
    intro e
    rw [hE, List.getElem?_map]
    unfold SplitIn
    cases s.edgePat[e]? with
    | none => simp
    | some p => simp
  refine ⟨s0, s, h0, h, ⟨hL.valid, ?_, ?_, ?_, ?_, ?_, hL.refEdges⟩, ?_⟩
  · simp [Level.withPatterns, hL.points]
  · rw [hE, List.length_map]; exact ok.len1
  · intro ci hci
    rw [hE] at hci
    obtain ⟨p, hp, rfl⟩ := List.mem_map.1 hci
    rcases ok.pats p hp with rfl | rfl
    · exact Or.inl rfl
    · exact Or.inr rfl
  · simp [Level.withPatterns, hL.cells, ok.len0]
  · intro c hc
    obtain ⟨ref, pat, anchor, p, h1, h2, h3, h4, h5, h6⟩ := decided_pattern hL.valid hc (hdec c (List.mem_range.2 hc))
    refine ⟨ref, pat, anchor, p, h1, ?_, h4, h5, ?_⟩
    · have hc' : c < L.mesh.topo.numCells := hc
      obtain ⟨h8, h9⟩ := List.getElem?_eq_some_iff.1 h3
      simp only [Level.withPatterns, hL.cells, List.getElem?_zipWith, List.getElem?_replicate, hc', if_true, h3]
    · intro k hk
      exact (h6 k hk).trans (hsplit _).symm
  · intro e he
    rw [hsplit]
    constructor
    · intro hs S hA hS
      exact hleast S (fun f hf => hA f ((hm f).1 hf)) hS e hs
    · intro hcl
      apply hcl (SplitIn s.edgePat)
      · intro f hf
        exact hmono f ((hm f).2 hf)
      · exact decided_closed hL.valid _ _ (fun c hc => hdec c (by simpa using hc))

theorem regular_tab : ∀ ref ∈ [RefEl.tria, RefEl.quad], ∀ pat ∈ [RefPat.regular, RefPat.barycentric],
    patOk ref pat none [true, true, true, true] = true := by decide +kernel

theorem regular_planned {L : Level G} (hL : L.Fresh) {pat : RefPat} (hp : pat = .regular ∨ pat = .barycentric) :
    (L.withPatterns (L.edgeCI.map fun _ => .split) (L.cellCI.map fun ci => (pat, ci.anchor))).Planned := by
  have hE : (L.withPatterns (L.edgeCI.map fun _ => .split) (L.cellCI.map fun ci => (pat, ci.anchor))).edgeCI =
      List.replicate L.mesh.topo.numEdges { pat := .split } := by
    simp [Level.withPatterns, hL.edges]
  have hC : (L.withPatterns (L.edgeCI.map fun _ => .split) (L.cellCI.map fun ci => (pat, ci.anchor))).cellCI =
      List.replicate L.mesh.topo.numCells { pat := pat, anchor := none } := by
    simp [Level.withPatterns, hL.cells]
  refine ⟨hL.valid, ?_, ?_, ?_, ?_, ?_, hL.refEdges⟩
  · simp [Level.withPatterns, hL.points]
  · rw [hE]; simp [Level.withPatterns]
  · intro ci hci
    rw [hE] at hci
    exact Or.inl (List.mem_replicate.1 hci).2
  · rw [hC]; simp [Level.withPatterns]
  · intro c hc
    have hc' : c < L.mesh.topo.numCells := hc
    have hr : ∃ ref, L.mesh.cellRef c = some ref := by
      rw [hL.valid.ref c hc']
      unfold cellRefEl
      rcases hL.valid.wf.cell_len c hc' with h | h
      · exact ⟨.tria, by rw [if_pos h]⟩
      · exact ⟨.quad, by rw [if_neg (by omega), if_pos h]⟩
    obtain ⟨ref, hr⟩ := hr
    obtain ⟨hr', hn⟩ := cellRef_len hL.valid hc' hr
    have h := regular_tab ref (by rcases hr' with rfl | rfl <;> decide) pat (by rcases hp with rfl | rfl <;> decide)
    obtain ⟨p, h1, h2, h3⟩ := patOk_spec h
    refine ⟨ref, pat, none, p, hr, ?_, h1, h2, ?_⟩
    · rw [hC, List.getElem?_replicate, if_pos hc']
    · intro k hk
      have hk' : k < (L.mesh.topo.cell c).edges.length := hk
      have hel := hL.valid.wf.cell_edges_len c hc'
      have hk3 : k = 0 ∨ k = 1 ∨ k = 2 ∨ k = 3 := by
        rcases hL.valid.wf.cell_len c hc' with h | h <;> omega
      rw [h3 k (by rw [hn, ← hel]; exact hk'), hE, List.getElem?_replicate, if_pos]
      · constructor
        · intro _; rfl
        · intro _
          rcases hk3 with rfl | rfl | rfl | rfl <;> rfl
      · show (L.mesh.topo.cell c).edges.getD k 0 < L.mesh.topo.numEdges
        rw [List.getD_eq_getElem _ _ hk']
        exact hL.valid.wf.cell_edges c hc' _ (List.getElem_mem hk')

/-- A level whose mesh has all properties needed for refinement. -/
structure Level.Good (cops : ChildOps G) (chk : Bool) (L : Level G) : Prop where
  coarse : L.mesh.Coarse cops chk
  fresh : L.Fresh

/-- `N` arose by refining `L'`. -/
def Linked (cops : ChildOps G) (L' N : Level G) : Prop :=
  ∃ L N0 P A Γ, Step cops L L' N0 P A Γ ∧ L.Planned ∧ P = L.plan ∧ A = L.pats ∧ N.mesh = N0.mesh ∧
    N.parents0 = N0.parents0 ∧ N.parents1 = N0.parents1 ∧ N.parents2 = N0.parents2

theorem Step.coarse {cops : ChildOps G} {chk : Bool} {L L' N : Level G} {P : Plan} {A : Pats} {Γ : GPlan G}
    (h : Step cops L L' N P A Γ) (hC : chk = true → L.mesh.topo.Complete) : N.mesh.Coarse cops chk :=
  ⟨h.refined.valid, fine_conforming h.ready.conf h.ready.ok h.refined.isRef, h.refined.geoOk,
    fun hk => h.complete (hC hk)⟩

theorem regular_step (ops : GeoOps G) {cops : ChildOps G} {chk : Bool} (hl : cops.Lawful) {L : Level G}
    (hL : L.Good cops chk) {pat : RefPat} (hp : pat = .regular ∨ pat = .barycentric) :
    ∃ L' N Γ, L.refineRegular ops cops chk pat {} = some (L', N, {}) ∧ N.Good cops chk ∧
      Step cops (L.withPatterns (L.edgeCI.map fun _ => .split) (L.cellCI.map fun ci => (pat, ci.anchor))) L' N
        (L.withPatterns (L.edgeCI.map fun _ => .split) (L.cellCI.map fun ci => (pat, ci.anchor))).plan
        (L.withPatterns (L.edgeCI.map fun _ => .split) (L.cellCI.map fun ci => (pat, ci.anchor))).pats Γ := by
  obtain ⟨L', N, Γ, h1, h2, _⟩ := perform_step ops (cops := cops) (chk := chk) (regular_planned hL.fresh hp)
    hL.coarse.conforming hL.coarse.geoOk hl hL.coarse.complete
  refine ⟨L', N, Γ, ?_, ⟨h2.coarse hL.coarse.complete, h2.fresh⟩, h2⟩
  unfold Level.refineRegular
  rw [if_pos hp, if_pos ⟨by rw [hL.fresh.points]; simp, by rw [hL.fresh.edges]; simp, by rw [hL.fresh.cells]; simp⟩, h1]

theorem marked_step (ops : GeoOps G) {cops : ChildOps G} {chk : Bool} (hl : cops.Lawful) {L : Level G}
    (hL : L.Good cops chk) :
    ∃ L' N Γ Lp, L.refineMarked ops cops chk {} = some (L', N, {}) ∧ N.Good cops chk ∧ Lp.Planned ∧ Lp.mesh = L.mesh ∧
      Step cops Lp L' N Lp.plan Lp.pats Γ ∧
      (∀ e < L.mesh.topo.numEdges, (Lp.edgeCI[e]? = some { pat := .split } ↔
        InClosure L.mesh.topo L.refEdges (fun f => L.marked[f]? = some true) e)) := by
  obtain ⟨s0, s, e0, e1, hp, hcl⟩ := marked_planned hL.fresh
  obtain ⟨L', N, Γ, h1, h2, _⟩ := perform_step ops (cops := cops) (chk := chk) hp
    hL.coarse.conforming hL.coarse.geoOk hl hL.coarse.complete
  refine ⟨L', N, Γ, _, ?_, ⟨h2.coarse hL.coarse.complete, h2.fresh⟩, hp, rfl, h2, hcl⟩
  unfold Level.refineMarked
  rw [e0, Option.bind_some, e1, Option.bind_some, h1]

/-- Invariant of `MeshHierarchy`. -/
structure HierOk (cops : ChildOps G) (chk : Bool) (M : Mesh G) (H : Hierarchy G) : Prop where
  factory : H.factory = {}
  ne : H.levels ≠ []
  head : ∀ L, H.levels.head? = some L → L.Good cops chk
  all : ∀ L ∈ H.levels, L.mesh.Coarse cops chk
  link : ∀ k N L', H.levels[k]? = some N → H.levels[k + 1]? = some L' → Linked cops L' N
  last : H.levels.getLast?.map (·.mesh) = some M

theorem make_ok {cops : ChildOps G} {chk : Bool} {M : Mesh G} (hM : M.Coarse cops chk) :
    ∃ H, Hierarchy.make cops M {} = some H ∧ HierOk cops chk M H ∧ H.levels.length = 1 := by
  have key : ∀ c < M.topo.numCells, ∃ r, (if M.cellRef c = some .tria then (longestEdge cops M c).map some else some none)
      = some r ∧ ((M.topo.cell c).nodes.length = 3 → ∃ a < 3, r = some a) := by
    intro c hc
    obtain ⟨l, hl, hlo⟩ := longestEdge_ok cops M hM.valid hM.geoOk c hc
    have hr := hM.valid.ref c hc
    unfold cellRefEl at hr
    by_cases h3 : (M.topo.cell c).nodes.length = 3
    · rw [if_pos h3] at hr
      rw [if_pos hr, hlo]
      exact ⟨some l, rfl, fun _ => ⟨l, by omega, rfl⟩⟩
    · have h4 := (hM.valid.wf.cell_len c hc).resolve_left h3
      rw [if_neg h3, if_pos h4] at hr
      rw [hr, if_neg (by simp)]
      exact ⟨none, rfl, fun h => absurd h h3⟩
  obtain ⟨re, hre⟩ := mapM_isSome (fun c => if M.cellRef c = some .tria then (longestEdge cops M c).map some else some none)
    (List.range M.topo.numCells) (fun c hc => by
      obtain ⟨r, hr, _⟩ := key c (by simpa using hc)
      exact ⟨r, hr⟩)
  obtain ⟨hlen, hget⟩ := mapM_get _ _ _ hre
  unfold Hierarchy.make
  rw [hre]
  refine ⟨_, rfl, ⟨rfl, by simp, ?_, ?_, ?_, rfl⟩, rfl⟩
  · intro L hL
    cases hL
    refine ⟨hM, hM.valid, rfl, rfl, rfl, by simp, by simpa using hlen, ?_⟩
    intro c hc h3
    obtain ⟨y, hy, hf⟩ := hget c c (by rw [List.getElem?_range hc])
    obtain ⟨r, hr, hra⟩ := key c hc
    rw [hf] at hr
    cases hr
    obtain ⟨a, ha, rfl⟩ := hra h3
    exact ⟨a, ha, hy⟩
  · intro L hL
    rw [List.mem_singleton] at hL
    rw [hL]
    exact hM
  · intro k N L' _ h2
    simp at h2

theorem extend_ok {cops : ChildOps G} {chk : Bool} {M : Mesh G} {H : Hierarchy G} (hH : HierOk cops chk M H)
    {L L' N : Level G} {rest : List (Level G)} (hlev : H.levels = L :: rest) (hm : L'.mesh = L.mesh)
    (hp0 : L'.parents0 = L.parents0) (hp1 : L'.parents1 = L.parents1) (hp2 : L'.parents2 = L.parents2)
    (hN : N.Good cops chk) (hlink : Linked cops L' N) :
    HierOk cops chk M ⟨N :: L' :: rest, {}⟩ := by
  refine ⟨rfl, by simp, ?_, ?_, ?_, ?_⟩
  · intro L1 h1
    cases h1
    exact hN
  · intro L1 h1
    simp only [List.mem_cons] at h1
    rcases h1 with rfl | rfl | h1
    · exact hN.coarse
    · rw [hm]; exact hH.all L (by rw [hlev]; simp)
    · exact hH.all L1 (by rw [hlev]; simp [h1])
  · intro k N1 L1 h1 h2
    match k, h1, h2 with
    | 0, h1, h2 =>
      cases h1
      cases h2
      exact hlink
    | 1, h1, h2 =>
      simp only [List.getElem?_cons_succ, List.getElem?_cons_zero, Option.some.injEq] at h1 h2
      subst h1
      obtain ⟨L2, N0, P, A, Γ, q1, q2, q3, q4, q5, q6, q7, q8⟩ := hH.link 0 L L1 (by rw [hlev]; rfl) (by rw [hlev]; simpa using h2)
      exact ⟨L2, N0, P, A, Γ, q1, q2, q3, q4, hm.trans q5, hp0.trans q6, hp1.trans q7, hp2.trans q8⟩
    | k + 2, h1, h2 =>
      exact hH.link (k + 1) N1 L1 (by rw [hlev]; simpa using h1) (by rw [hlev]; simpa using h2)
  · have := hH.last
    rw [hlev] at this
    cases rest with
    | nil => simpa [hm] using this
    | cons a l => simpa using this

theorem call_ok (ops : GeoOps G) {cops : ChildOps G} {chk : Bool} (hl : cops.Lawful) {M : Mesh G} {H : Hierarchy G}
    (hH : HierOk cops chk M H) (op : HOp) (ho : op.Legal) :
    ∃ H', H.call ops cops chk op = some H' ∧ HierOk cops chk M H' ∧
      H'.levels.length = H.levels.length + (match op with | .mark _ => 0 | _ => 1) := by
  have hne := hH.ne
  cases hlev : H.levels with
  | nil => exact absurd hlev hne
  | cons L rest =>
    have hL := hH.head L (by rw [hlev]; rfl)
    cases op with
    | regular pat =>
      obtain ⟨L', N, Γ, h1, h2, h3⟩ := regular_step ops hl hL ho
      refine ⟨⟨N :: L' :: rest, {}⟩, ?_, ?_, ?_⟩
      · unfold Hierarchy.call Hierarchy.refineRegular
        simp only [hlev, hH.factory, h1]
        rfl
      · refine extend_ok hH hlev (by rw [h3.same]; rfl) (by rw [h3.same]; rfl) (by rw [h3.same]; rfl)
          (by rw [h3.same]; rfl) h2 ⟨_, N, _, _, Γ, h3, regular_planned hL.fresh ho, rfl, rfl, rfl, rfl, rfl, rfl⟩
      · simp
    | refineMarked =>
      obtain ⟨s0, s, e0, e1, hp, hcl⟩ := marked_planned hL.fresh
      obtain ⟨L', N, Γ, h1, h3, _⟩ := perform_step ops (cops := cops) (chk := chk) hp
        hL.coarse.conforming hL.coarse.geoOk hl hL.coarse.complete
      have h2 : N.Good cops chk := ⟨h3.coarse hL.coarse.complete, h3.fresh⟩
      refine ⟨⟨N :: L' :: rest, {}⟩, ?_, ?_, ?_⟩
      · unfold Hierarchy.call Hierarchy.refineMarked Level.refineMarked
        simp only [hlev, hH.factory, e0, Option.bind_some, e1, h1]
        rfl
      · refine extend_ok hH hlev (by rw [h3.same]; rfl) (by rw [h3.same]; rfl) (by rw [h3.same]; rfl)
          (by rw [h3.same]; rfl) h2 ⟨_, N, _, _, Γ, h3, hp, rfl, rfl, rfl, rfl, rfl, rfl⟩
      · simp
    | mark f =>
      obtain ⟨L', hL', hm, hg⟩ : ∃ L', L.markEdges f = some L' ∧ (∃ mk, L' = { L with marked := mk }) ∧ L'.Good cops chk := by
        refine ⟨_, if_pos hL.fresh.marked, ⟨_, rfl⟩, ?_⟩
        refine ⟨hL.coarse, hL.fresh.valid, hL.fresh.points, hL.fresh.edges, hL.fresh.cells, ?_, hL.fresh.refEdges⟩
        simp
      obtain ⟨mk, rfl⟩ := hm
      refine ⟨{ H with levels := { L with marked := mk } :: rest }, ?_, ?_, ?_⟩
      · unfold Hierarchy.call Hierarchy.markEdges
        simp only [hlev, hL', Option.bind_some]
      · refine ⟨hH.factory, by simp, ?_, ?_, ?_, ?_⟩
        · intro L1 h1
          cases h1
          exact hg
        · intro L1 h1
          simp only [List.mem_cons] at h1
          rcases h1 with rfl | h1
          · exact hg.coarse
          · exact hH.all L1 (by rw [hlev]; simp [h1])
        · intro k N1 L1 h1 h2
          match k, h1, h2 with
          | 0, h1, h2 =>
            cases h1
            exact hH.link 0 L L1 (by rw [hlev]; rfl) (by rw [hlev]; exact h2)
          | k + 1, h1, h2 =>
            exact hH.link (k + 1) N1 L1 (by rw [hlev]; exact h1) (by rw [hlev]; exact h2)
        · have := hH.last
          rw [hlev] at this
          cases rest with
          | nil => simpa using this
          | cons a l => simpa using this
      · simp

theorem fold_ok (ops : GeoOps G) {cops : ChildOps G} {chk : Bool} (hl : cops.Lawful) {M : Mesh G} (hist : List HOp)
    (ho : ∀ op ∈ hist, op.Legal) (H : Hierarchy G) (hH : HierOk cops chk M H) :
    ∃ H', hist.foldlM (fun H op => H.call ops cops chk op) H = some H' ∧ HierOk cops chk M H' ∧
      H'.levels.length = H.levels.length + hist.countP (fun op => match op with | .mark _ => false | _ => true) := by
  induction hist generalizing H with
  | nil => exact ⟨H, rfl, hH, rfl⟩
  | cons op hist ih =>
    obtain ⟨H1, e1, h1, l1⟩ := call_ok ops hl hH op (ho op (by simp))
    obtain ⟨H2, e2, h2, l2⟩ := ih (fun o h => ho o (by simp [h])) H1 h1
    refine ⟨H2, ?_, h2, ?_⟩
    · rw [List.foldlM_cons, e1]; exact e2
    · rw [l2, l1, List.countP_cons]
      cases op <;> simp <;> omega

theorem run_ok (ops : GeoOps G) {cops : ChildOps G} {chk : Bool} (hl : cops.Lawful) {M : Mesh G}
    (hM : M.Coarse cops chk) (hist : List HOp) (ho : ∀ op ∈ hist, op.Legal) :
    ∃ H, Hierarchy.run ops cops chk M hist = some H ∧ HierOk cops chk M H ∧
      H.levels.length = 1 + hist.countP (fun op => match op with | .mark _ => false | _ => true) := by
  obtain ⟨H0, e0, h0, l0⟩ := make_ok hM
  obtain ⟨H, e, h, l⟩ := fold_ok ops hl hist ho H0 h0
  refine ⟨H, ?_, h, by rw [l, l0]⟩
  unfold Hierarchy.run
  rw [e0]
  exact e

end Verif
