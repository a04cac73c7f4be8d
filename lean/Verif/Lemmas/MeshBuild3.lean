import Verif.Lemmas.MeshBuild2

/-! Geometry objects given to edges during mesh construction. -/

namespace Verif
variable {G : Type}

/-- Invariant on the geometry stored with edges. -/
structure GInv (ops : GeoOps G) (edges : List (EdgeIn G)) (cells : List (CellIn G)) (m : EdgeMap G) :
    Prop where
  sup : ∀ r ∈ m, ∀ i, r.gidx = some i → ∃ e, edges[i]? = some e ∧ r.geo = e.geo ∧ r.geo.isSome = true
  rev : ∀ r ∈ m, r.reversed = true → r.geo.isSome = true
  new : ∀ r ∈ m, r.gidx = none → ∀ g, r.geo = some g →
    ∃ c j : ℕ, ∃ cg : G, ∃ ci : CellIn G, cells[c]? = some ci ∧ j < ci.nodes.length ∧ ci.geo = some cg ∧
      g = ops.sub cg 1 j ∧ segEnds r = side ci.nodes j
  bare : ∀ r ∈ m, r.geo = none → ∀ a ∈ r.adj, ∃ ci : CellIn G, cells[a.1]? = some ci ∧ ci.geo = none

theorem mem_insert_imp (m : EdgeMap G) (r s : EdgeRec G) (h : s ∈ (EdgeMap.insert r m).1) :
    s = r ∨ s ∈ m := by
  induction m with
  | nil => simpa [EdgeMap.insert] using h
  | cons t m ih =>
    unfold EdgeMap.insert at h
    split at h
    · simpa using h
    · split at h
      · simp only [List.mem_cons] at h ⊢
        rcases h with h | h
        · exact Or.inr (Or.inl h)
        · rcases ih h with h | h
          · exact Or.inl h
          · exact Or.inr (Or.inr h)
      · exact Or.inr h

theorem registerEdge_ginv (ops : GeoOps G) (pre : List (EdgeIn G)) (cells : List (CellIn G))
    (nodes : List (Option G)) (m : EdgeMap G) (e : EdgeIn G) (s : List (Option G) × EdgeMap G × ℕ)
    (hI : GInv ops pre cells m) (h : registerEdge ops (nodes, m, pre.length) e = some s) :
    GInv ops (pre ++ [e]) cells s.2.1 ∧ s.2.2 = pre.length + 1 := by
  unfold registerEdge at h
  split_ifs at h with h1 h2
  cases hg : e.geo with
  | none => simp [hg] at h
  | some g =>
    simp only [hg] at h
    split_ifs at h with h3
    cases h
    refine ⟨⟨?_, ?_, ?_, ?_⟩, rfl⟩
    · intro r hr i hi
      rcases mem_insert_imp _ _ _ hr with rfl | hr
      · cases hi
        exact ⟨e, by simp, by simp [hg], rfl⟩
      · obtain ⟨e', h1, h2⟩ := hI.sup r hr i hi
        refine ⟨e', ?_, h2⟩
        rw [List.getElem?_append_left (List.getElem?_eq_some_iff.1 h1).1]
        exact h1
    · intro r hr hrev
      rcases mem_insert_imp _ _ _ hr with rfl | hr
      · simp at hrev
      · exact hI.rev r hr hrev
    · intro r hr hi
      rcases mem_insert_imp _ _ _ hr with rfl | hr
      · simp at hi
      · exact hI.new r hr hi
    · intro r hr hi
      rcases mem_insert_imp _ _ _ hr with rfl | hr
      · simp at hi
      · exact hI.bare r hr hi

theorem registerAll_ginv (ops : GeoOps G) (cells : List (CellIn G)) (edges : List (EdgeIn G)) :
    ∀ (pre : List (EdgeIn G)) (nodes : List (Option G)) (m : EdgeMap G)
      (s : List (Option G) × EdgeMap G × ℕ), GInv ops pre cells m →
      edges.foldlM (registerEdge ops) (nodes, m, pre.length) = some s →
      GInv ops (pre ++ edges) cells s.2.1 := by
  induction edges with
  | nil =>
    intro pre nodes m s hI h
    cases h
    simpa using hI
  | cons e rest ih =>
    intro pre nodes m s hI h
    rw [List.foldlM_cons] at h
    obtain ⟨s1, h1, h2⟩ := Option.bind_eq_some_iff.1 h
    obtain ⟨hI1, hk⟩ := registerEdge_ginv ops pre cells nodes m e s1 hI h1
    obtain ⟨n1, m1, k1⟩ := s1
    simp only at hk hI1
    have := ih (pre ++ [e]) n1 m1 s hI1 (by
      rw [List.length_append, List.length_singleton, ← hk]; exact h2)
    simpa using this

theorem visitSide_ginv (ops : GeoOps G) (edges : List (EdgeIn G)) (cells : List (CellIn G))
    (m m' : EdgeMap G) (c : CellIn G) (ci j : ℕ) (hc : cells[ci]? = some c) (hj : j < c.nodes.length)
    (hI : GInv ops edges cells m)
    (h : visitSide ops c.geo ci m j (side c.nodes j).1 (side c.nodes j).2 = some m') :
    GInv ops edges cells m' := by
  unfold visitSide at h
  split_ifs at h with hne
  cases hf : m.find (edgeKey (side c.nodes j).1 (side c.nodes j).2) with
  | none =>
    simp only [hf] at h
    split_ifs at h with h3
    cases h
    refine ⟨?_, ?_, ?_, ?_⟩
    · intro r hr i hi
      rcases mem_insert_imp _ _ _ hr with rfl | hr
      · simp at hi
      · exact hI.sup r hr i hi
    · intro r hr hrev
      rcases mem_insert_imp _ _ _ hr with rfl | hr
      · simp at hrev
      · exact hI.rev r hr hrev
    · intro r hr hi g hg
      rcases mem_insert_imp _ _ _ hr with rfl | hr
      · simp only at hg
        cases hcg : c.geo with
        | none => simp [hcg] at hg
        | some cg =>
          simp only [hcg, Option.map_some, Option.some.injEq] at hg
          exact ⟨ci, j, cg, c, hc, hj, hcg, hg.symm, by simp [segEnds]⟩
      · exact hI.new r hr hi g hg
    · intro r hr hi a ha
      rcases mem_insert_imp _ _ _ hr with rfl | hr
      · simp only [List.mem_singleton] at ha
        subst ha
        simp only [Option.map_eq_none_iff] at hi
        exact ⟨c, hc, hi⟩
      · exact hI.bare r hr hi a ha
  | some r0 =>
    simp only [hf] at h
    cases h
    rw [EdgeMap.update_eq]
    have cases' : ∀ r, (r.geo = none ∧ ∃ cg, c.geo = some cg ∧
          noteSide ops c.geo ci j (side c.nodes j).1 (side c.nodes j).2 r =
          { r with
            adj := r.adj ++ [(ci, j)]
            geo := some (ops.sub cg 1 j)
            reversed := if !(decide ((side c.nodes j).1 = r.p0) && decide ((side c.nodes j).2 = r.p1))
              then true else r.reversed }) ∨
        ((r.geo = none → c.geo = none) ∧
          noteSide ops c.geo ci j (side c.nodes j).1 (side c.nodes j).2 r =
          { r with adj := r.adj ++ [(ci, j)] }) := by
      intro r
      unfold noteSide
      cases h1 : r.geo with
      | some g => right; simp
      | none =>
        cases h2 : c.geo with
        | none => right; simp
        | some cg => left; simp
    refine ⟨?_, ?_, ?_, ?_⟩
    · intro r hr i hi
      obtain ⟨t, ht, rfl⟩ := List.mem_map.1 hr
      split at hi
      · rename_i hk
        rw [if_pos hk]
        rcases cases' t with ⟨h1, cg, h2, h3⟩ | ⟨h1, h3⟩
        · rw [h3] at hi ⊢
          obtain ⟨e, he, hge, hgs⟩ := hI.sup t ht i hi
          rw [h1] at hgs
          simp at hgs
        · rw [h3] at hi ⊢
          exact hI.sup t ht i hi
      · rename_i hk
        rw [if_neg hk]
        exact hI.sup t ht i hi
    · intro r hr hrev
      obtain ⟨t, ht, rfl⟩ := List.mem_map.1 hr
      split at hrev
      · rename_i hk
        rw [if_pos hk]
        rcases cases' t with ⟨h1, cg, h2, h3⟩ | ⟨h1, h3⟩
        · rw [h3]; rfl
        · rw [h3] at hrev ⊢
          exact hI.rev t ht hrev
      · rename_i hk
        rw [if_neg hk]
        exact hI.rev t ht hrev
    · intro r hr hi g hg
      obtain ⟨t, ht, rfl⟩ := List.mem_map.1 hr
      by_cases hk : t.key = edgeKey (side c.nodes j).1 (side c.nodes j).2
      · rw [if_pos hk] at hi hg ⊢
        rcases cases' t with ⟨h1, cg, h2, h3⟩ | ⟨h1, h3⟩
        · rw [h3] at hi hg ⊢
          simp only [Option.some.injEq] at hg
          refine ⟨ci, j, cg, c, hc, hj, h2, hg.symm, ?_⟩
          have hrf : t.reversed = false := by
            cases hr : t.reversed with
            | false => rfl
            | true => have := hI.rev t ht hr; rw [h1] at this; simp at this
          have hsp := (edgeKey_eq_iff _ _ _ _).1 hk
          unfold segEnds
          simp only [hrf]
          rcases hsp with hsp | hsp
          · simp only [Prod.mk.injEq] at hsp
            simp [hsp.1, hsp.2]
          · simp only [Prod.swap, Prod.mk.injEq] at hsp
            simp [hsp.1, hsp.2]
            intro h5
            exact absurd h5 hne
        · rw [h3] at hi hg ⊢
          exact hI.new t ht hi g hg
      · rw [if_neg hk] at hi hg ⊢
        exact hI.new t ht hi g hg
    · intro r hr hi a ha
      obtain ⟨t, ht, rfl⟩ := List.mem_map.1 hr
      by_cases hk : t.key = edgeKey (side c.nodes j).1 (side c.nodes j).2
      · rw [if_pos hk] at hi ha
        rcases cases' t with ⟨h1, cg, h2, h3⟩ | ⟨h1, h3⟩
        · rw [h3] at hi; simp at hi
        · rw [h3] at hi ha
          rcases List.mem_append.1 ha with ha | ha
          · exact hI.bare t ht hi a ha
          · simp only [List.mem_singleton] at ha
            subst ha
            exact ⟨c, hc, h1 hi⟩
      · rw [if_neg hk] at hi ha
        exact hI.bare t ht hi a ha

theorem visitSides_ginv (ops : GeoOps G) (edges : List (EdgeIn G)) (cells : List (CellIn G))
    (m m' : EdgeMap G) (c : CellIn G) (ci : ℕ) (ref : RefEl) (hr : cellRefEl c.nodes = some ref)
    (hc : cells[ci]? = some c) (hI : GInv ops edges cells m)
    (h : visitSides ops c ref ci m = some m') : GInv ops edges cells m' := by
  obtain ⟨href, hlen⟩ := cellRefEl_some _ _ hr
  unfold visitSides at h
  rw [numSub_eq ref href, Option.bind_some, hlen] at h
  have key : ∀ k ≤ c.nodes.length, ∀ m', (List.range k).foldlM (fun m j =>
          (ref.subSubEntity2SubEntity 1 j 1 0).bind fun l0 =>
          (ref.subSubEntity2SubEntity 1 j 1 1).bind fun l1 =>
          (c.nodes[l0]?).bind fun a => (c.nodes[l1]?).bind fun b =>
            visitSide ops c.geo ci m j a b) m = some m' → GInv ops edges cells m' := by
    intro k
    induction k with
    | zero => intro _ m' h; cases h; exact hI
    | succ k ih =>
      intro hk m' h
      rw [List.range_succ, List.foldlM_append] at h
      obtain ⟨m1, h1, h2⟩ := Option.bind_eq_some_iff.1 h
      obtain ⟨s0, s1⟩ := subSub_side ref href k (by omega)
      have hk' : k < c.nodes.length := by omega
      have hmod : (k + 1) % c.nodes.length < c.nodes.length := Nat.mod_lt _ (by omega)
      simp only [List.foldlM_cons, List.foldlM_nil, s0, s1, Option.bind_some, hlen,
        List.getElem?_eq_getElem hk', List.getElem?_eq_getElem hmod, Option.bind_eq_bind,
        Option.pure_def, Option.bind_fun_some] at h2
      have e0 : side c.nodes k = (c.nodes[k], c.nodes[(k + 1) % c.nodes.length]) := by
        simp [side, hk', hmod]
      refine visitSide_ginv ops edges cells m1 m' c ci k hc hk' (ih (by omega) m1 h1) ?_
      rw [e0]; exact h2
  exact key _ (Nat.le_refl _) _ h

theorem scanAll_ginv (ops : GeoOps G) (edges : List (EdgeIn G)) (cells : List (CellIn G))
    (suf : List (CellIn G)) :
    ∀ (ci : ℕ) (nodes : List (Option G)) (m : EdgeMap G) (s : List (Option G) × EdgeMap G × ℕ),
      (∀ k c, suf[k]? = some c → cells[ci + k]? = some c) → GInv ops edges cells m →
      suf.foldlM (scanCell ops) (nodes, m, ci) = some s → GInv ops edges cells s.2.1 := by
  induction suf with
  | nil => intro ci nodes m s _ hI h; cases h; exact hI
  | cons c rest ih =>
    intro ci nodes m s hc hI h
    rw [List.foldlM_cons] at h
    obtain ⟨s1, h1, h2⟩ := Option.bind_eq_some_iff.1 h
    unfold scanCell at h1
    cases hr : cellRefEl c.nodes with
    | none => simp [hr] at h1
    | some ref =>
      simp only [hr, Option.bind_some] at h1
      split_ifs at h1
      obtain ⟨m1, h3, h4⟩ := Option.bind_eq_some_iff.1 h1
      cases h4
      have hcc : cells[ci]? = some c := by simpa using hc 0 c (by simp)
      refine ih (ci + 1) _ m1 s ?_ (visitSides_ginv ops edges cells m m1 c ci ref hr hcc hI h3) h2
      intro k c' hk
      have := hc (k + 1) c' (by simpa using hk)
      rw [← this]; congr 1; omega

end Verif
