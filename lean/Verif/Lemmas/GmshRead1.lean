import Verif.Spec.GmshReader
import Mathlib.Data.List.Nodup
import Mathlib.Tactic.Linarith

/-! Main nodes and insertion of the nodes. -/

namespace Verif

theorem foldlM_inv {σ α : Type} {f : σ → α → Option σ} {l : List α} {s0 s : σ} (h : l.foldlM f s0 = some s)
    (P : List α → σ → Prop) (h0 : P [] s0)
    (step : ∀ pre a post, l = pre ++ a :: post → ∀ s s', P pre s → f s a = some s' → P (pre ++ [a]) s') : P l s := by
  have key : ∀ (post pre : List α) (s1 : σ), l = pre ++ post → P pre s1 → post.foldlM f s1 = some s → P l s := by
    intro post
    induction post with
    | nil =>
      intro pre s1 hl hp hf
      simp only [List.foldlM_nil] at hf
      cases hf
      rw [hl, List.append_nil]
      exact hp
    | cons a post ih =>
      intro pre s1 hl hp hf
      rw [List.foldlM_cons] at hf
      obtain ⟨s2, h2, h3⟩ := Option.bind_eq_some_iff.mp hf
      exact ih (pre ++ [a]) s2 (by rw [hl]; simp) (step pre a post hl s1 s2 hp h2) h3
  exact key l [] s0 (by simp) h0 h

theorem grow_getElem? {α : Type} (n : ℕ) (x : α) (l : List α) (i : ℕ) :
    (grow n x l)[i]? = if i < l.length then l[i]? else if i < n then some x else none := by
  unfold grow
  by_cases h : i < l.length
  · rw [if_pos h, List.getElem?_append_left h]
  · rw [if_neg h, List.getElem?_append_right (by omega), List.getElem?_replicate]
    by_cases h2 : i < n
    · rw [if_pos (by omega), if_pos h2]
    · rw [if_neg (by omega), if_neg h2]

theorem grow_length {α : Type} {n : ℕ} (x : α) (l : List α) : (grow n x l).length = max n l.length := by
  unfold grow
  rw [List.length_append, List.length_replicate]
  omega

theorem markMain_get (main : List Bool) (n m : ℕ) :
    (markMain main n)[m]? = some true ↔ m = n ∨ main[m]? = some true := by
  unfold markMain
  rw [List.getElem?_set]
  by_cases hm : n = m
  · subst hm
    rw [if_pos rfl]
    split_ifs with h1 h2
    · simp
    · rw [grow_length] at h2
      omega
    · simp
    · omega
  · rw [if_neg hm]
    have hm' : m ≠ n := fun h => hm h.symm
    split_ifs with h1
    · rw [grow_getElem?]
      by_cases h2 : m < main.length
      · simp [h2, hm']
      · rw [if_neg h2]
        split_ifs <;> simp [hm', List.getElem?_eq_none (not_lt.mp h2)]
    · simp [hm']

/-- The loop over the corners, nodes are stored at the position `slot n`. -/
theorem markMain_loop {slot : ℕ → Option ℕ} {nodes : List ℕ} {k : ℕ} {main main' : List Bool}
    (h : (List.range k).foldlM (fun main i => (nodes[i]?).bind fun n => (slot n).bind fun q => some (markMain main q)) main =
      some main') (q : ℕ) :
    main'[q]? = some true ↔ main[q]? = some true ∨ ∃ n ∈ nodes.take k, slot n = some q := by
  have := foldlM_inv h (fun pre m => m[q]? = some true ↔ main[q]? = some true ∨
      ∃ i ∈ pre, ∃ n, nodes[i]? = some n ∧ slot n = some q) (by simp) (by
    intro pre a post hl s s' hp hs
    obtain ⟨n, hn, hs⟩ := Option.bind_eq_some_iff.mp hs
    obtain ⟨p, hp', hs⟩ := Option.bind_eq_some_iff.mp hs
    cases hs
    rw [markMain_get, hp]
    constructor
    · rintro (rfl | h | ⟨i, hi, h⟩)
      · exact Or.inr ⟨a, by simp, n, hn, hp'⟩
      · exact Or.inl h
      · exact Or.inr ⟨i, by simp [hi], h⟩
    · rintro (h | ⟨i, hi, m, hm, h⟩)
      · exact Or.inr (Or.inl h)
      · rcases List.mem_append.mp hi with hi | hi
        · exact Or.inr (Or.inr ⟨i, hi, m, hm, h⟩)
        · obtain rfl := List.mem_singleton.mp hi
          rw [hn] at hm
          cases hm
          rw [hp'] at h
          cases h
          exact Or.inl rfl)
  rw [this]
  constructor
  · rintro (h | ⟨i, hi, n, hn, h⟩)
    · exact Or.inl h
    · refine Or.inr ⟨n, List.mem_iff_getElem?.mpr ⟨i, ?_⟩, h⟩
      rw [List.getElem?_take_of_lt (List.mem_range.mp hi)]
      exact hn
  · rintro (h | ⟨n, hn, h⟩)
    · exact Or.inl h
    · obtain ⟨i, hi⟩ := List.mem_iff_getElem?.mp hn
      have hik : i < k := by
        by_contra hc
        rw [List.getElem?_eq_none (by rw [List.length_take]; omega)] at hi
        cases hi
      rw [List.getElem?_take_of_lt hik] at hi
      exact Or.inr ⟨i, List.mem_range.mpr hik, n, hi, h⟩

theorem corners_eq {t : GmshType} {ref : RefEl} (h : t.refEl = some ref) : t.corners = ref.numNodes := by
  unfold GmshType.corners
  rw [h]
  cases ref <;> rfl

theorem dim_eq {t : GmshType} {ref : RefEl} (h : t.refEl = some ref) : t.dim = ref.dimension := by
  cases t <;> simp [GmshType.refEl] at h <;> subst h <;> rfl

theorem refEl_of_dim {t : GmshType} (h : t.dim ≤ 2) : ∃ ref, t.refEl = some ref := by
  cases t <;> simp [GmshType.refEl, GmshType.dim] at h ⊢

section V2
variable {P : Type}

theorem mainV2_spec {file : FileV2 P} {main : List Bool} (h : mainV2 file = some main) :
    (∀ n, main[n]? = some true ↔ file.isMain n = true) ∧ (∀ e ∈ file.elements, e.type.dim ≤ 2) ∧
    ∃ e ∈ file.elements, e.type.dim = 2 := by
  unfold mainV2 at h
  obtain ⟨main0, h1, h2⟩ := Option.bind_eq_some_iff.mp h
  split_ifs at h2 with hany
  cases h2
  have := foldlM_inv h1 (fun pre m => (∀ n, m[n]? = some true ↔
      ∃ e ∈ pre, e.type ≠ .point ∧ n ∈ e.nodes.take e.type.corners) ∧ ∀ e ∈ pre, e.type.dim ≤ 2) (by
        constructor
        · intro n
          rw [List.getElem?_replicate]
          split_ifs <;> simp
        · simp) (by
    rintro pre e post hl s s' ⟨hp, hp'⟩ hs
    split_ifs at hs with h3 h4
    · unfold markCorners at hs
      obtain ⟨ref, hr, hs⟩ := Option.bind_eq_some_iff.mp hs
      refine ⟨fun n => ?_, fun e' he' => ?_⟩
      · rw [markMain_loop (slot := some) hs n, hp n, ← corners_eq hr]
        constructor
        · rintro (⟨e', he', h⟩ | ⟨m, hm, h⟩)
          · exact ⟨e', by simp [he'], h⟩
          · cases h
            exact ⟨e, by simp, h4, hm⟩
        · rintro ⟨e', he', h⟩
          rcases List.mem_append.mp he' with he' | he'
          · exact Or.inl ⟨e', he', h⟩
          · obtain rfl := List.mem_singleton.mp he'
            exact Or.inr ⟨n, h.2, rfl⟩
      · rcases List.mem_append.mp he' with he' | he'
        · exact hp' e' he'
        · obtain rfl := List.mem_singleton.mp he'
          exact h3
    · cases hs
      refine ⟨fun n => ?_, fun e' he' => ?_⟩
      · rw [hp n]
        constructor
        · rintro ⟨e', he', h⟩
          exact ⟨e', by simp [he'], h⟩
        · rintro ⟨e', he', h⟩
          rcases List.mem_append.mp he' with he' | he'
          · exact ⟨e', he', h⟩
          · obtain rfl := List.mem_singleton.mp he'
            exact absurd h.1 h4
      · rcases List.mem_append.mp he' with he' | he'
        · exact hp' e' he'
        · obtain rfl := List.mem_singleton.mp he'
          exact h3)
  refine ⟨fun n => ?_, this.2, ?_⟩
  · rw [this.1 n]
    simp [FileV2.isMain]
  · simpa using hany

end V2

section nodes
variable {P G : Type}

theorem idxOf?_append_singleton (l : List ℕ) (n m : ℕ) (hn : n ∉ l) :
    (l ++ [n]).idxOf? m = if m = n then some l.length else l.idxOf? m := by
  unfold List.idxOf?
  rw [List.findIdx?_append]
  by_cases hm : m = n
  · subst hm
    have : l.findIdx? (· == m) = none := by
      rw [List.findIdx?_eq_none_iff]
      intro x hx
      have : x ≠ m := fun h => hn (h ▸ hx)
      simpa using this
    simp [this]
  · have hm' : (n == m) = false := by simpa using fun h => hm h.symm
    simp [hm, hm']

theorem nodeCoord_append (pre : List (ℕ × P)) (n m : ℕ) (x : P) (hn : n ∉ pre.map (·.1)) :
    nodeCoord (pre ++ [(n, x)]) m = if m = n then some x else nodeCoord pre m := by
  unfold nodeCoord
  rw [List.find?_append]
  by_cases hm : m = n
  · subst hm
    have : pre.find? (fun x => decide (x.1 = m)) = none := by
      rw [List.find?_eq_none]
      intro y hy
      have : y.1 ≠ m := fun h => hn (h ▸ List.mem_map_of_mem hy)
      simpa using this
    simp [this]
  · have hm' : ¬ n = m := fun h => hm h.symm
    simp [hm, hm']

theorem nodeCoord_none {pre : List (ℕ × P)} {n : ℕ} (hn : n ∉ pre.map (·.1)) : nodeCoord pre n = none := by
  unfold nodeCoord
  have : pre.find? (fun x => decide (x.1 = n)) = none := by
    rw [List.find?_eq_none]
    intro y hy
    have : y.1 ≠ n := fun h => hn (h ▸ List.mem_map_of_mem hy)
    simpa using this
  rw [this]
  rfl

theorem idxOf?_none {l : List ℕ} {n : ℕ} (hn : n ∉ l) : l.idxOf? n = none := by
  rw [List.idxOf?_eq_none_iff]
  exact hn

/-- State after the insertion of the nodes `pre`: `gi2mi` gives the positions among the main nodes, the factory has got the
main nodes. -/
structure NodesDone (geo : GmshGeo P G) (isMain : ℕ → Bool) (pre : List (ℕ × P)) (gi2mi : ℕ → Option ℕ) (coord : ℕ → Option P)
    (f : Factory G) : Prop where
  look : ∀ n, gi2mi n = (mainNumbers (pre.map (·.1)) isMain).idxOf? n
  coord : ∀ n, coord n = nodeCoord pre n
  nodes : f.nodes = (pre.filter fun x => isMain x.1).map fun x => geo.point x.2
  isSome : ∀ x ∈ f.nodes, x.isSome = true
  edges : f.edges = []
  elements : f.elements = []

theorem mainNumbers_append (pre : List ℕ) (isMain : ℕ → Bool) (n : ℕ) :
    mainNumbers (pre ++ [n]) isMain = if isMain n then mainNumbers pre isMain ++ [n] else mainNumbers pre isMain := by
  unfold mainNumbers
  rw [List.filter_append]
  cases h : isMain n <;> simp [h]

theorem mainNumbers_length (pre : List (ℕ × P)) (isMain : ℕ → Bool) :
    (mainNumbers (pre.map (·.1)) isMain).length = (pre.filter fun x => isMain x.1).length := by
  unfold mainNumbers
  rw [List.filter_map, List.length_map]
  rfl

/-- Insertion of a node which is not a main node. -/
theorem NodesDone.skip {geo : GmshGeo P G} {isMain : ℕ → Bool} {pre : List (ℕ × P)} {gi2mi : ℕ → Option ℕ} {coord : ℕ → Option P}
    {f : Factory G} (h : NodesDone geo isMain pre gi2mi coord f) {n : ℕ} {x : P} (hn : n ∉ pre.map (·.1))
    (hm : isMain n = false) {coord' : ℕ → Option P} (hc : ∀ m, coord' m = if m = n then some x else coord m) :
    NodesDone geo isMain (pre ++ [(n, x)]) gi2mi coord' f where
  look m := by rw [List.map_append, List.map_cons, List.map_nil, mainNumbers_append, if_neg (by simp [hm]), h.look m]
  coord m := by rw [hc m, nodeCoord_append pre n m x hn, h.coord m]
  nodes := by rw [List.filter_append]; simp [hm, h.nodes]
  isSome := h.isSome
  edges := h.edges
  elements := h.elements

/-- Insertion of a main node. -/
theorem NodesDone.add {geo : GmshGeo P G} {isMain : ℕ → Bool} {pre : List (ℕ × P)} {gi2mi : ℕ → Option ℕ} {coord : ℕ → Option P}
    {f : Factory G} (h : NodesDone geo isMain pre gi2mi coord f) {n : ℕ} {x : P} (hn : n ∉ pre.map (·.1))
    (hm : isMain n = true) {g : G} (hg : geo.point x = some g) {gi2mi' : ℕ → Option ℕ} {coord' : ℕ → Option P}
    (hl : ∀ m, gi2mi' m = if m = n then some (f.addPoint g).2 else gi2mi m)
    (hc : ∀ m, coord' m = if m = n then some x else coord m) :
    NodesDone geo isMain (pre ++ [(n, x)]) gi2mi' coord' (f.addPoint g).1 where
  look m := by
    have hn' : n ∉ mainNumbers (pre.map (·.1)) isMain := fun h => hn (List.mem_filter.mp h).1
    rw [List.map_append, List.map_cons, List.map_nil, mainNumbers_append, if_pos hm, idxOf?_append_singleton _ _ _ hn', hl m,
      h.look m]
    have : (f.addPoint g).2 = (mainNumbers (pre.map (·.1)) isMain).length := by
      simp [Factory.addPoint, mainNumbers_length, h.nodes]
    rw [this]
  coord m := by rw [hc m, nodeCoord_append pre n m x hn, h.coord m]
  nodes := by rw [List.filter_append]; simp [hm, h.nodes, Factory.addPoint, hg]
  isSome y hy := by
    rcases List.mem_append.mp hy with hy | hy
    · exact h.isSome y hy
    · obtain rfl := List.mem_singleton.mp hy
      rfl
  edges := h.edges
  elements := h.elements

/-- The nodes of a file of version 2 are inserted. -/
theorem nodesV2 {geo : GmshGeo P G} {file : FileV2 P} {main : List Bool} (isMain : ℕ → Bool)
    (hmain : ∀ n, main[n]? = some true ↔ isMain n = true) (hnd : (file.nodes.map (·.1)).Nodup)
    {s : List (Option ℕ) × List (Option ℕ) × Factory G}
    (h : file.nodes.zipIdx.foldlM (insertNodeV2 geo main)
      (List.replicate main.length none, List.replicate main.length none, {}) = some s) :
    NodesDone geo isMain file.nodes (fun n => (s.1[n]?).join)
      (fun n => ((s.2.1[n]?).join.bind fun i => file.nodes[i]?).map (·.2)) s.2.2 := by
  have := foldlM_inv h (fun pre s => NodesDone geo isMain (pre.map (·.1)) (fun n => (s.1[n]?).join)
      (fun n => ((s.2.1[n]?).join.bind fun i => file.nodes[i]?).map (·.2)) s.2.2 ∧ s.1.length = main.length) (by
    refine ⟨⟨fun n => ?_, fun n => ?_, rfl, by simp, rfl, rfl⟩, by simp⟩
    · rw [List.getElem?_replicate]
      split_ifs <;> rfl
    · rw [List.getElem?_replicate]
      split_ifs <;> rfl) (by
    rintro pre ⟨⟨n, x⟩, i⟩ post hl s s' ⟨hp, hlen⟩ hs
    have hi : file.nodes[i]? = some (n, x) := by
      have : file.nodes.zipIdx[pre.length]? = some ((n, x), i) := by rw [hl]; simp
      rw [List.getElem?_zipIdx] at this
      obtain ⟨a, ha, h2⟩ := Option.map_eq_some_iff.mp this
      cases h2
      simpa using ha
    have hn : n ∉ (pre.map (·.1)).map (·.1) := by
      have h1 : file.nodes = file.nodes.zipIdx.map (·.1) := by simp
      rw [h1, hl, List.map_append, List.map_append, List.map_cons, List.map_cons] at hnd
      have := (List.nodup_append.mp hnd).2.2
      exact fun h => this n h n (by simp) rfl
    have hc : ∀ m, (((((if s.2.1.length ≤ n then grow (n + 1) none s.2.1 else s.2.1).set n (some i))[m]?).join.bind fun i =>
        file.nodes[i]?).map (·.2) = if m = n then some x else ((s.2.1[m]?).join.bind fun i => file.nodes[i]?).map (·.2)) := by
      intro m
      rw [List.getElem?_set]
      by_cases hm : n = m
      · subst hm
        rw [if_pos rfl, if_pos rfl, if_pos]
        · simp [hi]
        · split_ifs with h1
          · rw [grow_length]; omega
          · omega
      · have hm' : ¬ m = n := fun h => hm h.symm
        simp only [if_neg hm, if_neg hm']
        split_ifs with h1
        · rw [grow_getElem?]
          by_cases h2 : m < s.2.1.length
          · rw [if_pos h2]
          · rw [if_neg h2, List.getElem?_eq_none (not_lt.mp h2)]
            split_ifs <;> rfl
        · rfl
    unfold insertNodeV2 at hs
    simp only at hs
    generalize (if s.2.1.length ≤ n then grow (n + 1) none s.2.1 else s.2.1).set n (some i) = gi2i at hs hc
    by_cases h1 : main[n]? ≠ some true
    · rw [if_pos h1] at hs
      cases hs
      refine ⟨?_, hlen⟩
      rw [List.map_append]
      exact hp.skip hn (by simpa [hmain n] using h1) hc
    · rw [if_neg h1] at hs
      obtain ⟨g, hg, hs⟩ := Option.bind_eq_some_iff.mp hs
      split_ifs at hs with h2
      cases hs
      refine ⟨?_, by simpa using hlen⟩
      rw [List.map_append]
      refine hp.add hn (by simpa [hmain n] using h1) hg (fun m => ?_) hc
      rw [List.getElem?_set]
      by_cases hm : n = m
      · subst hm
        rw [if_pos rfl, if_pos rfl, if_pos h2]
        rfl
      · rw [if_neg hm, if_neg (fun h => hm h.symm)])
  simpa using this.1

end nodes
end Verif
