import Verif.Lemmas.GmshRead1

/-! Version 4: main nodes and insertion of the nodes. -/

namespace Verif
variable {P G : Type}

theorem mem_elements_append (pre : List BlockV4) (b : BlockV4) (x : BlockV4 × List ℕ) :
    x ∈ ((pre ++ [b]).flatMap fun b => b.elements.map fun ns => (b, ns)) ↔
      (x ∈ pre.flatMap fun b => b.elements.map fun ns => (b, ns)) ∨ (x.1 = b ∧ x.2 ∈ b.elements) := by
  rw [List.flatMap_append, List.mem_append]
  refine or_congr_right ?_
  simp only [List.flatMap_cons, List.flatMap_nil, List.append_nil, List.mem_map]
  constructor
  · rintro ⟨ns, h, rfl⟩
    exact ⟨rfl, h⟩
  · rintro ⟨h1, h2⟩
    exact ⟨x.2, h2, by rw [← h1]⟩

theorem mainV4_spec {file : FileV4 P} {main : List Bool} (h : mainV4 file = some main) :
    (∀ n, file.minTag ≤ n → (main[n - file.minTag]? = some true ↔ file.isMain n = true)) ∧
    (∀ b ∈ file.blocks, b.type.dim ≤ 2) ∧
    ∃ e ∈ file.elements, e.1.type.dim = 2 := by
  unfold mainV4 at h
  by_cases h0 : file.maxTag + 1 < file.minTag
  · rw [if_pos h0] at h
    cases h
  rw [if_neg h0] at h
  obtain ⟨main0, h1, h2⟩ := Option.bind_eq_some_iff.mp h
  split_ifs at h2 with hany
  cases h2
  have := foldlM_inv h1 (fun pre m => (∀ n, file.minTag ≤ n → (m[n - file.minTag]? = some true ↔
      ∃ e ∈ pre.flatMap (fun b => b.elements.map fun ns => (b, ns)), e.1.type.dim = 2 ∧ n ∈ e.2.take e.1.type.corners)) ∧
        ∀ b ∈ pre, b.type.dim ≤ 2 ∧ b.dim = b.type.dim) (by
        constructor
        · intro n _
          rw [List.getElem?_replicate]
          split_ifs <;> simp
        · simp) (by
    rintro pre b post hl s s' ⟨hp, hp'⟩ hs
    by_cases h3 : b.dim ≤ 2 ∧ b.dim = b.type.dim
    swap
    · rw [if_neg h3] at hs
      cases hs
    rw [if_pos h3] at hs
    refine ⟨fun n hn => ?_, fun b' hb' => ?_⟩
    swap
    · rcases List.mem_append.mp hb' with hb' | hb'
      · exact hp' b' hb'
      · obtain rfl := List.mem_singleton.mp hb'
        exact ⟨by omega, h3.2⟩
    by_cases h4 : b.dim = 2
    · rw [if_pos h4] at hs
      have h5 := foldlM_inv hs (fun pre' m => m[n - file.minTag]? = some true ↔
        s[n - file.minTag]? = some true ∨ ∃ ns ∈ pre', n ∈ ns.take b.type.corners) (by simp) (by
          intro pre' ns post' _ m m' hm hmm
          obtain ⟨ref, hr, hmm⟩ := Option.bind_eq_some_iff.mp hmm
          have h6 := markMain_loop (slot := fun n => if n < file.minTag then none else some (n - file.minTag))
            (nodes := ns) (k := ref.numNodes) (main := m) (main' := m') (by
              rw [← hmm]
              congr 1
              funext a i
              cases ns[i]? with
              | none => rfl
              | some v =>
                simp only [Option.bind_some]
                split_ifs <;> rfl) (n - file.minTag)
          rw [h6, hm, ← corners_eq hr]
          constructor
          · rintro ((h | ⟨ns', h7, h8⟩) | ⟨v, hv, h⟩)
            · exact Or.inl h
            · exact Or.inr ⟨ns', by simp [h7], h8⟩
            · split_ifs at h with h9
              have : v = n := by
                have := Option.some.inj h
                omega
              exact Or.inr ⟨ns, by simp, this ▸ hv⟩
          · rintro (h | ⟨ns', h7, h8⟩)
            · exact Or.inl (Or.inl h)
            · rcases List.mem_append.mp h7 with h7 | h7
              · exact Or.inl (Or.inr ⟨ns', h7, h8⟩)
              · obtain rfl := List.mem_singleton.mp h7
                exact Or.inr ⟨n, h8, by rw [if_neg (by omega)]⟩)
      rw [h5, hp n hn]
      constructor
      · rintro (⟨e, he, h⟩ | ⟨ns, h7, h8⟩)
        · exact ⟨e, (mem_elements_append pre b e).mpr (Or.inl he), h⟩
        · exact ⟨(b, ns), (mem_elements_append pre b _).mpr (Or.inr ⟨rfl, h7⟩), by rw [← h3.2]; exact h4, h8⟩
      · rintro ⟨e, he, h⟩
        rcases (mem_elements_append pre b e).mp he with he | ⟨rfl, he⟩
        · exact Or.inl ⟨e, he, h⟩
        · exact Or.inr ⟨e.2, he, h.2⟩
    · rw [if_neg h4] at hs
      cases hs
      rw [hp n hn]
      constructor
      · rintro ⟨e, he, h⟩
        exact ⟨e, (mem_elements_append pre b e).mpr (Or.inl he), h⟩
      · rintro ⟨e, he, h⟩
        rcases (mem_elements_append pre b e).mp he with he | ⟨rfl, he⟩
        · exact ⟨e, he, h⟩
        · exact absurd (h3.2.trans h.1) h4)
  refine ⟨fun n hn => ?_, fun b hb => (this.2 b hb).1, ?_⟩
  · rw [this.1 n hn]
    simp only [FileV4.isMain, FileV4.elements, List.any_eq_true, Bool.and_eq_true, decide_eq_true_eq]
  · obtain ⟨b, hb, h3⟩ := List.any_eq_true.mp hany
    simp only [decide_eq_true_eq] at h3
    obtain ⟨ns, l, hl⟩ := List.exists_cons_of_ne_nil h3.2
    refine ⟨(b, ns), List.mem_flatMap.mpr ⟨b, hb, List.mem_map.mpr ⟨ns, by rw [hl]; simp, rfl⟩⟩, ?_⟩
    rw [← (this.2 b hb).2]
    exact h3.1

/-- `gi2mi` of version 4 as a function of the number of the node. -/
def lookV4 (minTag : ℕ) (gi2mi : List (Option ℕ)) (n : ℕ) : Option (Option ℕ) :=
  if n < minTag then none else gi2mi[n - minTag]?

/-- Coordinates of a node found through `gi2i`. -/
def coordV4 (file : FileV4 P) (gi2i : List (Option (ℕ × ℕ))) (n : ℕ) : Option P :=
  if n < file.minTag then none else
    ((gi2i[n - file.minTag]?).join.bind fun jk => (file.nodeBlocks[jk.1]?).bind fun b => b[jk.2]?).map (·.2)

/-- The nodes of a file of version 4 are inserted. -/
theorem nodesV4 {geo : GmshGeo P G} {file : FileV4 P} {main : List Bool} (isMain : ℕ → Bool)
    (hmain : ∀ n, file.minTag ≤ n → (main[n - file.minTag]? = some true ↔ isMain n = true))
    (hnd : (file.allNodes.map (·.1)).Nodup)
    {s : List (Option ℕ) × List (Option (ℕ × ℕ)) × Factory G}
    (h : file.nodeBlocks.zipIdx.foldlM (fun s (bj : List (ℕ × P) × ℕ) => bj.1.zipIdx.foldlM (fun s nk =>
      insertNodeV4 geo file.minTag main s nk.1.1 nk.1.2 bj.2 nk.2) s)
      (List.replicate main.length none, List.replicate main.length none, {}) = some s) :
    NodesDone geo isMain file.allNodes (fun n => (lookV4 file.minTag s.1 n).join) (coordV4 file s.2.1) s.2.2 := by
  have := foldlM_inv h (fun pre s => NodesDone geo isMain (pre.map (·.1)).flatten
      (fun n => (lookV4 file.minTag s.1 n).join) (coordV4 file s.2.1) s.2.2 ∧ s.1.length = main.length) (by
    refine ⟨⟨fun n => ?_, fun n => ?_, rfl, by simp, rfl, rfl⟩, by simp⟩
    · unfold lookV4
      rw [List.getElem?_replicate]
      split_ifs <;> rfl
    · unfold coordV4
      rw [List.getElem?_replicate]
      split_ifs <;> rfl) (by
    rintro pre ⟨b, j⟩ post hl s s' hp0 hs
    have hj : file.nodeBlocks[j]? = some b := by
      have : file.nodeBlocks.zipIdx[pre.length]? = some (b, j) := by rw [hl]; simp
      rw [List.getElem?_zipIdx] at this
      obtain ⟨a, ha, h2⟩ := Option.map_eq_some_iff.mp this
      cases h2
      simpa using ha
    have hflat : file.allNodes = (pre.map (·.1)).flatten ++ (b ++ (post.map (·.1)).flatten) := by
      have h1 : file.nodeBlocks = file.nodeBlocks.zipIdx.map (·.1) := by simp
      unfold FileV4.allNodes
      rw [h1, hl, List.map_append, List.flatten_append, List.map_cons, List.flatten_cons]
    have h3 := foldlM_inv hs (fun pre' s => NodesDone geo isMain ((pre.map (·.1)).flatten ++ pre'.map (·.1))
      (fun n => (lookV4 file.minTag s.1 n).join) (coordV4 file s.2.1) s.2.2 ∧ s.1.length = main.length) (by
        simpa using hp0) (by
      rintro pre' ⟨⟨n, x⟩, k⟩ post' hl' s s' ⟨hp, hlen⟩ hs
      simp only at hs hl'
      have hk : b[k]? = some (n, x) := by
        have : b.zipIdx[pre'.length]? = some ((n, x), k) := by rw [hl']; simp
        rw [List.getElem?_zipIdx] at this
        obtain ⟨a, ha, h2⟩ := Option.map_eq_some_iff.mp this
        cases h2
        simpa using ha
      have hn : n ∉ ((pre.map (·.1)).flatten ++ pre'.map (·.1)).map (·.1) := by
        have h1 : b = b.zipIdx.map (·.1) := by simp
        rw [hflat, h1, hl'] at hnd
        rw [List.map_append (l₁ := pre'), List.append_assoc, ← List.append_assoc, List.map_append] at hnd
        have := (List.nodup_append.mp hnd).2.2
        exact fun h => this n h n (by simp) rfl
      unfold insertNodeV4 at hs
      by_cases h0 : n < file.minTag ∨ s.2.1.length ≤ n - file.minTag
      · rw [if_pos h0] at hs
        cases hs
      rw [if_neg h0] at hs
      simp only at hs
      have h0' := not_or.mp h0
      have hc : ∀ m, coordV4 file (s.2.1.set (n - file.minTag) (some (j, k))) m =
          if m = n then some x else coordV4 file s.2.1 m := by
        intro m
        unfold coordV4
        by_cases hm : m = n
        · subst hm
          rw [if_neg h0'.1, if_pos rfl, List.getElem?_set, if_pos rfl, if_pos (by omega)]
          simp [hj, hk]
        · rw [if_neg hm]
          by_cases hm2 : m < file.minTag
          · rw [if_pos hm2, if_pos hm2]
          · rw [if_neg hm2, if_neg hm2, List.getElem?_set, if_neg (by omega)]
      generalize s.2.1.set (n - file.minTag) (some (j, k)) = gi2i at hs hc
      obtain ⟨im, him, hs⟩ := Option.bind_eq_some_iff.mp hs
      have him' := hmain n (by omega)
      rw [him] at him'
      cases im with
      | false =>
        simp only [Bool.not_false, if_true] at hs
        cases hs
        refine ⟨?_, hlen⟩
        rw [List.map_append, ← List.append_assoc]
        exact hp.skip hn (by simpa using him') hc
      | true =>
        simp only [Bool.not_true, Bool.false_eq_true, if_false] at hs
        obtain ⟨g, hg, hs⟩ := Option.bind_eq_some_iff.mp hs
        split_ifs at hs with h2
        cases hs
        refine ⟨?_, by simpa using hlen⟩
        rw [List.map_append, ← List.append_assoc]
        refine hp.add hn (by simpa using him') hg (fun m => ?_) hc
        unfold lookV4
        by_cases hm : m = n
        · subst hm
          rw [if_neg h0'.1, if_pos rfl, List.getElem?_set, if_pos rfl, if_pos h2]
          rfl
        · rw [if_neg hm]
          by_cases hm2 : m < file.minTag
          · rw [if_pos hm2, if_pos hm2]
          · rw [if_neg hm2, if_neg hm2, List.getElem?_set, if_neg (by omega)])
    simpa using h3)
  simpa [FileV4.allNodes] using this.1

end Verif
