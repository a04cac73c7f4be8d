import Verif.Lemmas.RefHier

/-! Consequences of a refinement step: parents and children, boundary edges, numbers of entities. -/

namespace Verif
variable {G : Type}

section
variable {cops : ChildOps G} {L L' N : Level G} {P : Plan} {A : Pats} {Γ : GPlan G}
  (h : Step cops L L' N P A Γ)
include h

theorem kids00 (c j i : ℕ) : (L'.children 0 (0, c))[j]? = some i ↔
    c < L.mesh.topo.numCells ∧ j < P.pw c ∧ i = off P.pw c + j := by
  rw [h.same]
  simp only [Level.children]
  by_cases hc : c < L.mesh.topo.numCells
  · by_cases hj : j < P.pw c
    · simp [hc, hj, outC, eq_comm]
    · simp [hc, hj, outC]
  · simp [hc]

theorem kids01 (c j i : ℕ) : (L'.children 1 (0, c))[j]? = some i ↔
    c < L.mesh.topo.numCells ∧ j < P.iw c ∧ i = off P.ew L.mesh.topo.numEdges + off P.iw c + j := by
  rw [h.same]
  simp only [Level.children]
  by_cases hc : c < L.mesh.topo.numCells
  · by_cases hj : j < P.iw c
    · simp [hc, hj, outC, eq_comm]
    · simp [hc, hj, outC]
  · simp [hc]

theorem kids02 (c j i : ℕ) : (L'.children 2 (0, c))[j]? = some i ↔
    c < L.mesh.topo.numCells ∧ j < P.cw c ∧
      i = L.mesh.topo.numNodes + off P.mw L.mesh.topo.numEdges + off P.cw c + j := by
  rw [h.same]
  simp only [Level.children]
  by_cases hc : c < L.mesh.topo.numCells
  · by_cases hj : j < P.cw c
    · simp [hc, hj, outC, eq_comm]
    · simp [hc, hj, outC]
  · simp [hc]

theorem kids11 (c j i : ℕ) : (L'.children 1 (1, c))[j]? = some i ↔
    c < L.mesh.topo.numEdges ∧ j < P.ew c ∧ i = off P.ew c + j := by
  rw [h.same]
  simp only [Level.children]
  by_cases hc : c < L.mesh.topo.numEdges
  · by_cases hj : j < P.ew c
    · simp [hc, hj, outE, eq_comm]
    · simp [hc, hj, outE]
  · simp [hc]

theorem kids12 (c j i : ℕ) : (L'.children 2 (1, c))[j]? = some i ↔
    c < L.mesh.topo.numEdges ∧ j < P.mw c ∧ i = L.mesh.topo.numNodes + off P.mw c + j := by
  rw [h.same]
  simp only [Level.children]
  by_cases hc : c < L.mesh.topo.numEdges
  · by_cases hj : j < P.mw c
    · simp [hc, hj, outE, eq_comm]
    · simp [hc, hj, outE]
  · simp [hc]

theorem kids22 (c j i : ℕ) : (L'.children 2 (2, c))[j]? = some i ↔
    c < L.mesh.topo.numNodes ∧ j = 0 ∧ i = c := by
  rw [h.same]
  simp only [Level.children]
  by_cases hc : c < L.mesh.topo.numNodes
  · cases j with
    | zero => simp [hc, outP, eq_comm]
    | succ j => simp [hc, outP]
  · simp [hc]

theorem kids_codim (codim : ℕ) (hk : codim ≤ 2) (par : Ent) (j i : ℕ) (hi : (L'.children codim par)[j]? = some i) :
    par.1 ≤ codim := by
  obtain ⟨a, b⟩ := par
  by_contra hn
  have hn : codim < a := by simpa using hn
  have : L'.children codim (a, b) = [] := by
    unfold Level.children
    match codim, a, hn, hk with
    | 0, a + 1, _, _ => simp
    | 1, a + 2, _, _ => simp
    | 2, a + 3, _, _ => simp
  rw [this] at hi
  simp at hi

omit h in
theorem nodes_split (T : Topo) (P : Plan) (i : ℕ) (hi : i < P.numFine T) :
    i < T.numNodes ∨ (∃ e < T.numEdges, ∃ k < P.mw e, i = T.numNodes + off P.mw e + k) ∨
      ∃ c < T.numCells, ∃ k < P.cw c, i = T.numNodes + off P.mw T.numEdges + off P.cw c + k := by
  unfold Plan.numFine at hi
  by_cases hi0 : i < T.numNodes
  · exact Or.inl hi0
  by_cases hi' : i < T.numNodes + off P.mw T.numEdges
  · obtain ⟨c, hc, k, hk, hik⟩ := off_split P.mw (k := i - T.numNodes) (n := T.numEdges) (by omega)
    exact Or.inr (Or.inl ⟨c, hc, k, hk, by omega⟩)
  · obtain ⟨c, hc, k, hk, hik⟩ := off_split P.cw (k := i - (T.numNodes + off P.mw T.numEdges)) (n := T.numCells) (by omega)
    exact Or.inr (Or.inr ⟨c, hc, k, hk, by omega⟩)

omit h in
theorem edges_split (T : Topo) (P : Plan) (i : ℕ) (hi : i < off P.ew T.numEdges + off P.iw T.numCells) :
    (∃ e < T.numEdges, ∃ k < P.ew e, i = off P.ew e + k) ∨
      ∃ c < T.numCells, ∃ k < P.iw c, i = off P.ew T.numEdges + off P.iw c + k := by
  by_cases hi' : i < off P.ew T.numEdges
  · obtain ⟨c, hc, k, hk, hik⟩ := off_split P.ew hi'
    exact Or.inl ⟨c, hc, k, hk, by omega⟩
  · obtain ⟨c, hc, k, hk, hik⟩ := off_split P.iw (k := i - off P.ew T.numEdges) (n := T.numCells) (by omega)
    exact Or.inr ⟨c, hc, k, hk, by omega⟩

theorem Step.num0 : N.mesh.topo.numCells = off P.pw L.mesh.topo.numCells := by
  rw [h.refined.isRef.numCells, fineCells_length]

theorem Step.num1 : N.mesh.topo.numEdges = off P.ew L.mesh.topo.numEdges + off P.iw L.mesh.topo.numCells := by
  rw [h.refined.isRef.numEdges, fineEdges_length]

theorem Step.num2 : N.mesh.topo.numNodes = P.numFine L.mesh.topo := h.refined.isRef.numNodes

theorem Step.mesh_eq : L'.mesh = L.mesh := by rw [h.same]

/-- Child number `j` of `par` in the list of children is entity `i`, and this is what is recorded for `i`. -/
theorem Step.child_parent (codim : ℕ) (hk : codim ≤ 2) (par : Ent) (j i : ℕ)
    (hi : (L'.children codim par)[j]? = some i) :
    i < N.mesh.topo.num codim ∧ par.2 < L.mesh.topo.num par.1 ∧
      (N.parents codim)[i]? = some (finfo L.mesh P codim par j) := by
  have hcd := kids_codim h codim hk par j i hi
  obtain ⟨a, b⟩ := par
  match codim, a, hk, hcd with
  | 0, 0, _, _ =>
    obtain ⟨h1, h2, rfl⟩ := (kids00 h b j i).1 hi
    refine ⟨?_, h1, h.par0 b h1 j h2⟩
    show _ < N.mesh.topo.numCells
    rw [h.num0]; exact off_lt _ h1 h2
  | 1, 0, _, _ =>
    obtain ⟨h1, h2, rfl⟩ := (kids01 h b j i).1 hi
    refine ⟨?_, h1, h.par1i b h1 j h2⟩
    show _ < N.mesh.topo.numEdges
    rw [h.num1]
    have := off_lt P.iw h1 h2
    omega
  | 1, 1, _, _ =>
    obtain ⟨h1, h2, rfl⟩ := (kids11 h b j i).1 hi
    refine ⟨?_, h1, h.par1s b h1 j h2⟩
    show _ < N.mesh.topo.numEdges
    rw [h.num1]
    have := off_lt P.ew h1 h2
    omega
  | 2, 0, _, _ =>
    obtain ⟨h1, h2, rfl⟩ := (kids02 h b j i).1 hi
    refine ⟨?_, h1, h.par2c b h1 j h2⟩
    show _ < N.mesh.topo.numNodes
    rw [h.num2, Plan.numFine]
    have := off_lt P.cw h1 h2
    omega
  | 2, 1, _, _ =>
    obtain ⟨h1, h2, rfl⟩ := (kids12 h b j i).1 hi
    refine ⟨?_, h1, h.par2m b h1 j h2⟩
    show _ < N.mesh.topo.numNodes
    rw [h.num2, Plan.numFine]
    have := off_lt P.mw h1 h2
    omega
  | 2, 2, _, _ =>
    obtain ⟨h1, rfl, rfl⟩ := (kids22 h b j i).1 hi
    refine ⟨?_, h1, h.par2v _ h1⟩
    show _ < N.mesh.topo.numNodes
    rw [h.num2, Plan.numFine]
    have : i < L.mesh.topo.numNodes := h1
    omega

/-- Every entity of the fine mesh is a child. -/
theorem Step.exists_parent (codim : ℕ) (hk : codim ≤ 2) (i : ℕ) (hi : i < N.mesh.topo.num codim) :
    ∃ (par : Ent) (j : ℕ), (L'.children codim par)[j]? = some i := by
  match codim, hk with
  | 0, _ =>
    have hi : i < N.mesh.topo.numCells := hi
    rw [h.num0] at hi
    obtain ⟨c, hc, k, hk, rfl⟩ := off_split _ hi
    exact ⟨(0, c), k, (kids00 h _ _ _).2 ⟨hc, hk, rfl⟩⟩
  | 1, _ =>
    have hi : i < N.mesh.topo.numEdges := hi
    rw [h.num1] at hi
    rcases edges_split _ _ _ hi with ⟨e, he, k, hk, rfl⟩ | ⟨c, hc, k, hk, rfl⟩
    · exact ⟨(1, e), k, (kids11 h _ _ _).2 ⟨he, hk, rfl⟩⟩
    · exact ⟨(0, c), k, (kids01 h _ _ _).2 ⟨hc, hk, rfl⟩⟩
  | 2, _ =>
    have hi : i < N.mesh.topo.numNodes := hi
    rw [h.num2] at hi
    rcases nodes_split _ _ _ hi with hv | ⟨e, he, k, hk, rfl⟩ | ⟨c, hc, k, hk, rfl⟩
    · exact ⟨(2, i), 0, (kids22 h _ _ _).2 ⟨hv, rfl, rfl⟩⟩
    · exact ⟨(1, e), k, (kids12 h _ _ _).2 ⟨he, hk, rfl⟩⟩
    · exact ⟨(0, c), k, (kids02 h _ _ _).2 ⟨hc, hk, rfl⟩⟩

theorem Step.parents_len (codim : ℕ) (hk : codim ≤ 2) : (N.parents codim).length = N.mesh.topo.num codim := by
  match codim, hk with
  | 0, _ => exact h.len0
  | 1, _ => exact h.len1
  | 2, _ => exact h.len2

theorem Step.parentsAgree : ParentsAgree L' N := by
  intro codim hk
  refine ⟨h.parents_len codim hk, ?_, ?_⟩
  · intro i hi
    obtain ⟨par, j, hc⟩ := h.exists_parent codim hk i hi
    obtain ⟨_, h2, h3⟩ := h.child_parent codim hk par j i hc
    exact ⟨_, par, j, h3, rfl, rfl, kids_codim h codim hk par j i hc, by rw [h.mesh_eq]; exact h2, hc⟩
  · intro par j i hc
    obtain ⟨h1, h2, h3⟩ := h.child_parent codim hk par j i hc
    exact ⟨h1, _, h3, rfl, rfl⟩

theorem Step.boundary (i : ℕ) (hi : i < N.mesh.topo.numEdges) :
    ∃ par j, N.parents1[i]? = some (finfo L.mesh P 1 par j) ∧
      ((∃ e < L'.mesh.topo.numEdges, par = (1, e) ∧ N.mesh.topo.incidence i = L'.mesh.topo.incidence e) ∨
       (∃ c < L'.mesh.topo.numCells, par = (0, c) ∧ N.mesh.topo.incidence i = 2)) := by
  rw [h.num1] at hi
  rw [h.mesh_eq]
  rcases edges_split _ _ _ hi with ⟨e, he, k, hk, rfl⟩ | ⟨c, hc, k, hk, rfl⟩
  · exact ⟨_, _, h.par1s e he k hk, Or.inl ⟨e, he, rfl, incidence_sub h.ready.conf h.ready.ok h.refined.isRef e he k hk⟩⟩
  · refine ⟨_, _, h.par1i c hc k hk, Or.inr ⟨c, hc, rfl, ?_⟩⟩
    rw [Nat.add_assoc]
    exact incidence_int h.ready.conf h.ready.ok h.refined.isRef c hc k hk

theorem Step.pattern_cell (c : ℕ) (hc : c < L.mesh.topo.numCells) : ∃ ref p g, (ref = .tria ∨ ref = .quad) ∧
    L.mesh.cellRef c = some ref ∧ L'.pattern (0, c) = some p ∧ p.ref = ref ∧ p.Refines ∧
    Pattern.make ref (A.pat c) (A.anc c) = some p ∧
    cellChildren ref (A.pat c) (A.anc c) = some (P.polys c, P.ints c) ∧ P.ctr c = hasCenter ref (A.pat c) ∧
    L'.mesh.geo 0 c = some g ∧ cops.kind g = ref ∧
    cops.child g p 0 = some (Γ.cg c) ∧ cops.child g p 1 = some (Γ.ce c) ∧ cops.child g p 2 = some (Γ.cm c) ∧
    (Γ.cg c).length = P.pw c ∧ (Γ.ce c).length = P.iw c ∧ (Γ.cm c).length = P.cw c := by
  obtain ⟨ref, p, hr, hcr, hnn, hm, hp, hch, hctr, hloc⟩ := h.ready.cell c hc
  obtain ⟨g, ref', p', q1, q2, q3, q4, q5, q6, q7, q8, q9, q10, q11⟩ := h.geoFor.cell c hc
  rw [hcr] at q2
  cases q2
  rw [hm] at q3
  cases q3
  obtain ⟨g', k1, k2⟩ := h.ready.geo.cells c hc
  rw [q1] at k1
  cases k1
  rw [hcr] at k2
  refine ⟨ref, p, g, hr, hcr, ?_, by rw [make_eq hm], hp, hm, hch, hctr, ?_, (Option.some.inj k2).symm, q4, q5, q6, ?_, q8, q10⟩
  · rw [h.same]
    simp only [Level.pattern, hcr, Option.bind_some, List.getElem?_map, List.getElem?_range hc, Option.map_some]
    exact hm
  · rw [h.mesh_eq]; exact q1
  · have := congrArg List.length q7
    rw [List.length_map, List.length_map] at this
    exact this

theorem Step.pattern_edge (e : ℕ) (he : e < L.mesh.topo.numEdges) : ∃ g,
    L'.pattern (1, e) = some ⟨.segment, none, P.epat e, false⟩ ∧
    L'.mesh.geo 1 e = some g ∧ cops.kind g = .segment ∧
    cops.child g ⟨.segment, none, P.epat e, false⟩ 0 = some (Γ.eg e) ∧
    cops.child g ⟨.segment, none, P.epat e, false⟩ 1 = some (Γ.em e) ∧
    (Γ.eg e).length = P.ew e ∧ (Γ.em e).length = P.mw e := by
  obtain ⟨g, q1, q2, q3, q4, q5, _⟩ := h.geoFor.edge e he
  obtain ⟨g', k1, k2⟩ := h.ready.geo.edges e he
  rw [q1] at k1
  cases k1
  refine ⟨g, ?_, by rw [h.mesh_eq]; exact q1, k2, q2, q3, q4, q5⟩
  rw [h.same]
  simp only [Level.pattern, List.getElem?_map, List.getElem?_range he, Option.map_some, Option.bind_some]
  rfl

theorem Step.childrenOk : ChildrenOk cops L' N := by
  intro codim hk i hi
  obtain ⟨par, j, hc⟩ := h.exists_parent codim hk i hi
  obtain ⟨_, h2, h3⟩ := h.child_parent codim hk par j i hc
  have hcd := kids_codim h codim hk par j i hc
  obtain ⟨a, b⟩ := par
  match codim, a, hk, hcd with
  | 0, 0, _, _ =>
    obtain ⟨h1, hj, rfl⟩ := (kids00 h b j i).1 hc
    obtain ⟨ref, p, g, hr, hcr, hpat, hpr, hp, hm, hch, hctr, hg, hkg, g0, g1, g2, l0, l1, l2⟩ := h.pattern_cell b h1
    obtain ⟨t0, t1, t2, _⟩ := lat_ok hr hm hp hch
    have hj' : j < (P.polys b).length := hj
    refine ⟨_, (0, b), j, g, p, _, _, _, (Γ.cg b)[j]'(by rw [l0]; exact hj), h3, rfl, rfl, hg, hpat, hp, by rw [hpr, hkg],
      Nat.le_refl _, t0, ?_, rfl, g0, List.getElem?_eq_getElem (by rw [l0]; exact hj), ?_⟩
    · simp [relOf, hcr, hj']
    · have := h.refined.cellGeo b h1 j hj
      rw [List.getElem?_eq_getElem (by rw [l0]; exact hj)] at this
      exact this
  | 1, 0, _, _ =>
    obtain ⟨h1, hj, rfl⟩ := (kids01 h b j i).1 hc
    obtain ⟨ref, p, g, hr, hcr, hpat, hpr, hp, hm, hch, hctr, hg, hkg, g0, g1, g2, l0, l1, l2⟩ := h.pattern_cell b h1
    obtain ⟨t0, t1, t2, _⟩ := lat_ok hr hm hp hch
    have hj' : j < (P.ints b).length := hj
    refine ⟨_, (0, b), j, g, p, _, _, _, (Γ.ce b)[j]'(by rw [l1]; exact hj), h3, rfl, rfl, hg, hpat, hp, by rw [hpr, hkg],
      Nat.zero_le _, t1, ?_, rfl, g1, List.getElem?_eq_getElem (by rw [l1]; exact hj), ?_⟩
    · simp [relOf, hcr, hj']
    · have := h.refined.intGeo b h1 j hj
      rw [List.getElem?_eq_getElem (by rw [l1]; exact hj)] at this
      exact this
  | 1, 1, _, _ =>
    obtain ⟨h1, hj, rfl⟩ := (kids11 h b j i).1 hc
    obtain ⟨g, hpat, hg, hkg, g0, g1, l0, l1⟩ := h.pattern_edge b h1
    refine ⟨_, (1, b), j, g, _, if P.sp b then [[[0], [3]], [[3], [6]]] else [[[0], [6]]], relOf L.mesh P 1 (1, b) j, _,
      (Γ.eg b)[j]'(by rw [l0]; exact hj), h3, rfl, rfl, hg, hpat, ?_, by rw [hkg],
      Nat.le_refl _, ?_, ?_, rfl, g0, List.getElem?_eq_getElem (by rw [l0]; exact hj), ?_⟩
    · unfold Plan.epat
      cases P.sp b <;> exact ⟨Or.inl rfl, by simp⟩
    · unfold Plan.epat
      cases P.sp b <;> rfl
    · cases hs : P.sp b with
      | false =>
        have : j = 0 := by simp [Plan.ew, hs] at hj; exact hj
        subst this
        simp [relOf, hs]
      | true =>
        have : j = 0 ∨ j = 1 := by simp [Plan.ew, hs] at hj; omega
        rcases this with rfl | rfl <;> simp [relOf, hs]
    · have := h.refined.subGeo b h1 j hj
      rw [List.getElem?_eq_getElem (by rw [l0]; exact hj)] at this
      exact this
  | 2, 0, _, _ =>
    obtain ⟨h1, hj, rfl⟩ := (kids02 h b j i).1 hc
    obtain ⟨ref, p, g, hr, hcr, hpat, hpr, hp, hm, hch, hctr, hg, hkg, g0, g1, g2, l0, l1, l2⟩ := h.pattern_cell b h1
    obtain ⟨t0, t1, t2, _⟩ := lat_ok hr hm hp hch
    have hs : P.ctr b = true := by
      by_contra hn
      rw [Bool.not_eq_true] at hn
      simp [Plan.cw, hn] at hj
    have hk0 : j = 0 := by simp [Plan.cw, hs] at hj; exact hj
    subst hk0
    rw [← hctr, hs, if_pos rfl] at t2
    refine ⟨_, (0, b), 0, g, p, _, _, _, (Γ.cm b)[0]'(by rw [l2]; exact hj), h3, rfl, rfl, hg, hpat, hp, by rw [hpr, hkg],
      Nat.zero_le _, t2, ?_, rfl, g2, List.getElem?_eq_getElem (by rw [l2]; exact hj), ?_⟩
    · simp [relOf, hcr]
    · exact (h.refined.ctrGeo b h1 0 hj).trans (List.getElem?_eq_getElem (by rw [l2]; exact hj))
  | 2, 1, _, _ =>
    obtain ⟨h1, hj, rfl⟩ := (kids12 h b j i).1 hc
    obtain ⟨g, hpat, hg, hkg, g0, g1, l0, l1⟩ := h.pattern_edge b h1
    have hs : P.sp b = true := by
      by_contra hn
      rw [Bool.not_eq_true] at hn
      simp [Plan.mw, hn] at hj
    have hk0 : j = 0 := by simp [Plan.mw, hs] at hj; exact hj
    subst hk0
    refine ⟨_, (1, b), 0, g, _, [[[3]]], _, _,
      (Γ.em b)[0]'(by rw [l1]; exact hj), h3, rfl, rfl, hg, hpat, ?_, by rw [hkg],
      Nat.le_succ 1, ?_, rfl, rfl, g1, List.getElem?_eq_getElem (by rw [l1]; exact hj), ?_⟩
    · unfold Plan.epat
      rw [hs]; exact ⟨Or.inl rfl, by simp⟩
    · unfold Plan.epat
      rw [hs]; rfl
    · exact (h.refined.midGeo b h1 0 hj).trans (List.getElem?_eq_getElem (by rw [l1]; exact hj))
  | 2, 2, _, _ =>
    obtain ⟨h1, rfl, rfl⟩ := (kids22 h b j i).1 hc
    obtain ⟨g, q1, q2, q3, q4⟩ := h.geoFor.point i h1
    obtain ⟨g', k1, k2⟩ := h.ready.geo.points i h1
    rw [q1] at k1
    cases k1
    obtain ⟨x, hx⟩ := List.length_eq_one_iff.1 q3
    refine ⟨_, (2, i), 0, g, ⟨.point, none, .copy, false⟩, [[[]]], _, _, x, h3, rfl, rfl, by rw [h.mesh_eq]; exact q1, ?_, ⟨Or.inl rfl, by simp⟩, by rw [k2],
      Nat.le_refl _, rfl, rfl, rfl, q2, by rw [hx]; rfl, h.refined.pointGeo i h1 x hx⟩
    rw [h.same]
    simp only [Level.pattern, List.getElem?_map, List.getElem?_range h1, Option.map_some, Option.bind_some]
    rfl

end

/-! ### Numbers of entities -/

theorem off_two (p : ℕ → Bool) (q : ℕ → Bool) (w : ℕ → ℕ) (a b n : ℕ)
    (hw : ∀ i < n, (p i = true ∧ q i = false ∧ w i = a) ∨ (p i = false ∧ q i = true ∧ w i = b)) :
    off w n = a * (List.range n).countP p + b * (List.range n).countP q := by
  induction n with
  | zero => simp
  | succ n ih =>
    rw [off_succ, ih (fun i hi => hw i (by omega)), List.range_succ, List.countP_append, List.countP_append]
    simp only [List.countP_cons, List.countP_nil]
    rcases hw n (by omega) with ⟨h1, h2, h3⟩ | ⟨h1, h2, h3⟩ <;> simp [h1, h2, h3, Nat.mul_add] <;> omega

theorem fine_countP {T T' : Topo} {P : Plan} (hR : IsRef T P T') (k : ℕ) :
    (List.range T'.numCells).countP (fun c => decide ((T'.cell c).nodes.length = k)) =
      off (fun c => (P.polys c).countP fun Q => decide (Q.length = k)) T.numCells := by
  have h1 : (List.range T'.numCells).map (fun c => (T'.cell c).nodes.length) = (P.fineCells T).map List.length := by
    apply List.ext_getElem
    · simp [hR.numCells]
    · intro i h1 h2
      have hi : i < (P.fineCells T).length := by simpa using h2
      simp only [List.getElem_map, List.getElem_range]
      rw [hR.cell i _ (List.getElem?_eq_getElem hi), List.length_map]
  have h2 : (List.range T'.numCells).countP (fun c => decide ((T'.cell c).nodes.length = k)) =
      ((List.range T'.numCells).map (fun c => (T'.cell c).nodes.length)).countP (fun n => decide (n = k)) := by
    rw [List.countP_map]; rfl
  rw [h2, h1, List.countP_map]
  unfold Plan.fineCells
  generalize T.numCells = n
  induction n with
  | zero => simp
  | succ n ih =>
    rw [List.range_succ, List.flatMap_append, List.countP_append, ih, off_succ]
    simp [List.countP_map, Function.comp_def]

def regRow (ref : RefEl) (pat : RefPat) (w t q i : ℕ) (ctr : Bool) : Bool :=
  match cellChildren ref pat none with
  | none => false
  | some ch => decide (ch.1.length = w) && decide (ch.1.countP (fun Q => decide (Q.length = 3)) = t) &&
      decide (ch.1.countP (fun Q => decide (Q.length = 4)) = q) && decide (ch.2.length = i) &&
      decide (hasCenter ref pat = ctr)

theorem regRow_spec {ref : RefEl} {pat : RefPat} {w t q i : ℕ} {ctr : Bool} (h : regRow ref pat w t q i ctr = true)
    {ch : List (List LNode) × List (LNode × LNode)} (hch : cellChildren ref pat none = some ch) :
    ch.1.length = w ∧ ch.1.countP (fun Q => decide (Q.length = 3)) = t ∧
      ch.1.countP (fun Q => decide (Q.length = 4)) = q ∧ ch.2.length = i ∧ hasCenter ref pat = ctr := by
  unfold regRow at h
  rw [hch] at h
  simp only [Bool.and_eq_true, decide_eq_true_eq] at h
  tauto

theorem regRow_regular : regRow .tria .regular 4 4 0 3 false = true ∧ regRow .quad .regular 4 0 4 4 true = true ∧
    regRow .tria .barycentric 6 6 0 6 true = true ∧ regRow .quad .barycentric 4 0 4 4 true = true := by
  decide +kernel

/-- Counts for a refinement which splits all edges and treats all triangles and all quads alike. -/
theorem counts {cops : ChildOps G} {L L' N : Level G} {P : Plan} {A : Pats} {Γ : GPlan G}
    (h : Step cops L L' N P A Γ) (pat : RefPat) (hsp : ∀ e < L.mesh.topo.numEdges, P.sp e = true)
    (hpat : ∀ c < L.mesh.topo.numCells, A.pat c = pat ∧ A.anc c = none) (wt it : ℕ) (ct cq : Bool)
    (ht : regRow .tria pat wt wt 0 it ct = true) (hq : regRow .quad pat 4 0 4 4 cq = true) :
    N.mesh.topo.numNodes = L.mesh.topo.numNodes + L.mesh.topo.numEdges + ct.toNat * L.mesh.topo.numTria +
      cq.toNat * L.mesh.topo.numQuad ∧
    N.mesh.topo.numEdges = 2 * L.mesh.topo.numEdges + it * L.mesh.topo.numTria + 4 * L.mesh.topo.numQuad ∧
    N.mesh.topo.numTria = wt * L.mesh.topo.numTria ∧ N.mesh.topo.numQuad = 4 * L.mesh.topo.numQuad := by
  have key : ∀ c < L.mesh.topo.numCells,
      ((L.mesh.topo.cell c).nodes.length = 3 ∧ (P.polys c).length = wt ∧
        (P.polys c).countP (fun Q => decide (Q.length = 3)) = wt ∧
        (P.polys c).countP (fun Q => decide (Q.length = 4)) = 0 ∧ (P.ints c).length = it ∧ P.ctr c = ct) ∨
      ((L.mesh.topo.cell c).nodes.length = 4 ∧ (P.polys c).length = 4 ∧
        (P.polys c).countP (fun Q => decide (Q.length = 3)) = 0 ∧
        (P.polys c).countP (fun Q => decide (Q.length = 4)) = 4 ∧ (P.ints c).length = 4 ∧ P.ctr c = cq) := by
    intro c hc
    obtain ⟨ref, p, hr, hcr, hnn, hm, hp, hch, hctr, hloc⟩ := h.ready.cell c hc
    obtain ⟨e1, e2⟩ := hpat c hc
    rw [e1, e2] at hch
    rw [e1] at hctr
    rcases hr with rfl | rfl
    · left
      obtain ⟨a1, a2, a3, a4, a5⟩ := regRow_spec ht hch
      exact ⟨hnn.symm, a1, a2, a3, a4, hctr.trans a5⟩
    · right
      obtain ⟨a1, a2, a3, a4, a5⟩ := regRow_spec hq hch
      exact ⟨hnn.symm, a1, a2, a3, a4, hctr.trans a5⟩
  have two : ∀ (w : ℕ → ℕ) (a b : ℕ), (∀ c < L.mesh.topo.numCells,
      ((L.mesh.topo.cell c).nodes.length = 3 ∧ w c = a) ∨ ((L.mesh.topo.cell c).nodes.length = 4 ∧ w c = b)) →
      off w L.mesh.topo.numCells = a * L.mesh.topo.numTria + b * L.mesh.topo.numQuad := by
    intro w a b hw
    apply off_two
    intro i hi
    rcases hw i hi with ⟨h1, h2⟩ | ⟨h1, h2⟩
    · left; simp [h1, h2]
    · right; simp [h1, h2]
  refine ⟨?_, ?_, ?_, ?_⟩
  · rw [h.num2, Plan.numFine]
    have h1 : off P.mw L.mesh.topo.numEdges = L.mesh.topo.numEdges := by
      have : off P.mw L.mesh.topo.numEdges = off (fun _ => 1) L.mesh.topo.numEdges :=
        off_congr (fun e he => by simp [Plan.mw, hsp e he])
      rw [this, off_const, Nat.mul_one]
    have h2 := two P.cw ct.toNat cq.toNat (fun c hc => by
      rcases key c hc with ⟨a, _, _, _, _, b⟩ | ⟨a, _, _, _, _, b⟩
      · left; exact ⟨a, by simp [Plan.cw, b]⟩
      · right; exact ⟨a, by simp [Plan.cw, b]⟩)
    rw [h1, h2]
    omega
  · rw [h.num1]
    have h1 : off P.ew L.mesh.topo.numEdges = L.mesh.topo.numEdges * 2 := by
      have : off P.ew L.mesh.topo.numEdges = off (fun _ => 2) L.mesh.topo.numEdges :=
        off_congr (fun e he => by simp [Plan.ew, hsp e he])
      rw [this, off_const]
    have h2 := two P.iw it 4 (fun c hc => by
      rcases key c hc with ⟨a, _, _, _, b, _⟩ | ⟨a, _, _, _, b, _⟩
      · left; exact ⟨a, b⟩
      · right; exact ⟨a, b⟩)
    rw [h1, h2]
    omega
  · unfold Topo.numTria
    rw [fine_countP h.refined.isRef 3]
    have h2 := two (fun c => (P.polys c).countP fun Q => decide (Q.length = 3)) wt 0 (fun c hc => by
      rcases key c hc with ⟨a, _, b, _, _, _⟩ | ⟨a, _, b, _, _, _⟩
      · left; exact ⟨a, b⟩
      · right; exact ⟨a, b⟩)
    rw [h2]
    simp [Topo.numTria]
  · unfold Topo.numQuad
    rw [fine_countP h.refined.isRef 4]
    have h2 := two (fun c => (P.polys c).countP fun Q => decide (Q.length = 4)) 0 4 (fun c hc => by
      rcases key c hc with ⟨a, _, _, b, _, _⟩ | ⟨a, _, _, b, _, _⟩
      · left; exact ⟨a, b⟩
      · right; exact ⟨a, b⟩)
    rw [h2]
    simp [Topo.numQuad]

end Verif
