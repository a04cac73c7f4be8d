import Verif.Lemmas.EdgeMap

/-! Invariant of the edge map during mesh construction (steps I and II). -/

namespace Verif
variable {G : Type}

/-- Invariant of the edge map after registering edges with end nodes `es` and visiting cell sides `ss`
(entries: (cell, local side), (end nodes)). -/
structure Inv (n : ℕ) (es : List (ℕ × ℕ)) (ss : List ((ℕ × ℕ) × (ℕ × ℕ))) (m : EdgeMap G) : Prop where
  sorted : EdgeMap.Sorted m
  ne : ∀ r ∈ m, r.p0 ≠ r.p1
  lt : ∀ r ∈ m, r.p0 < n ∧ r.p1 < n
  sup : ∀ i (h : i < es.length), ∃ r ∈ m, r.gidx = some i ∧ (r.p0, r.p1) = es[i]
  supInv : ∀ r ∈ m, ∀ i, r.gidx = some i →
    (∃ h : i < es.length, (r.p0, r.p1) = es[i]) ∧ r.geo.isSome = true ∧ r.reversed = false
  new : ∀ r ∈ m, r.gidx = none → ∃ s ∈ ss, SamePair (r.p0, r.p1) s.2
  adj : ∀ r ∈ m, ∀ a, a ∈ r.adj ↔ ∃ s ∈ ss, s.1 = a ∧ SamePair (r.p0, r.p1) s.2
  cov : ∀ s ∈ ss, ∃ r ∈ m, SamePair (r.p0, r.p1) s.2

theorem Inv.nil (n : ℕ) : Inv n [] [] ([] : EdgeMap G) :=
  ⟨List.Pairwise.nil, by simp, by simp, by simp, by simp, by simp, by simp, by simp⟩

theorem supplyNode_id (nodes : List (Option G)) (h : ∀ x ∈ nodes, x.isSome = true) (v : ℕ) (g : G) :
    supplyNode nodes v g = nodes := by
  unfold supplyNode
  split
  · rename_i hv
    have := h none (List.mem_of_getElem? hv)
    simp at this
  · rfl

/-- Validity of a supplied edge given those registered before. -/
structure EdgeOk (n : ℕ) (es : List (ℕ × ℕ)) (e : EdgeIn G) : Prop where
  ne : e.p0 ≠ e.p1
  lt : e.p0 < n ∧ e.p1 < n
  geo : e.geo.isSome = true
  fresh : ∀ f ∈ es, ¬ SamePair f (e.p0, e.p1)

theorem key_eq_samePair (r s : EdgeRec G) : r.key = s.key ↔ SamePair (r.p0, r.p1) (s.p0, s.p1) :=
  edgeKey_eq_iff _ _ _ _

theorem registerEdge_spec (ops : GeoOps G) (n : ℕ) (es : List (ℕ × ℕ)) (m : EdgeMap G)
    (nodes : List (Option G)) (hn : nodes.length = n) (hs : ∀ x ∈ nodes, x.isSome = true)
    (hI : Inv n es [] m) (e : EdgeIn G) :
    (EdgeOk n es e ∧ ∃ m', registerEdge ops (nodes, m, es.length) e = some (nodes, m', es.length + 1) ∧
      Inv n (es ++ [(e.p0, e.p1)]) [] m') ∨
    (¬ EdgeOk n es e ∧ registerEdge ops (nodes, m, es.length) e = none) := by
  subst hn
  unfold registerEdge
  by_cases hne : e.p0 = e.p1
  · right; exact ⟨fun h => h.ne hne, by simp [hne]⟩
  by_cases hlt : e.p0 < nodes.length ∧ e.p1 < nodes.length
  swap
  · right; exact ⟨fun h => hlt h.lt, by simp [hne, hlt]⟩
  cases hg : e.geo with
  | none => right; exact ⟨fun h => by simpa [hg] using h.geo, by simp⟩
  | some g =>
    simp only [hne, if_false, hlt, and_self, if_true, supplyNode_id nodes hs]
    set r : EdgeRec G := ⟨e.p0, e.p1, some g, [], some es.length, false⟩ with hr
    by_cases hfresh : ∀ f ∈ es, ¬ SamePair f (e.p0, e.p1)
    · left
      refine ⟨⟨hne, hlt, by simp [hg], hfresh⟩, ?_⟩
      have hk : ∀ s ∈ m, s.key ≠ r.key := by
        intro s hsm hc
        rw [key_eq_samePair] at hc
        cases hgi : s.gidx with
        | none => obtain ⟨_, h, _⟩ := hI.new s hsm hgi; simp at h
        | some i =>
          obtain ⟨⟨hi, he⟩, _⟩ := hI.supInv s hsm i hgi
          exact hfresh _ (List.getElem_mem hi) (he ▸ hc)
      obtain ⟨h1, h2, h3⟩ := EdgeMap.insert_true m hI.sorted r hk
      refine ⟨(EdgeMap.insert r m).1, by simp [h1], ?_⟩
      have hmem : ∀ s, s ∈ (EdgeMap.insert r m).1 ↔ s = r ∨ s ∈ m := by
        intro s; rw [h3.mem_iff]; simp
      refine ⟨h2, ?_, ?_, ?_, ?_, ?_, ?_, by simp⟩
      · intro s hs'
        rcases (hmem s).1 hs' with rfl | h
        · exact hne
        · exact hI.ne s h
      · intro s hs'
        rcases (hmem s).1 hs' with rfl | h
        · exact hlt
        · exact hI.lt s h
      · intro i hi
        by_cases hil : i < es.length
        · obtain ⟨s, hsm, hsi, hse⟩ := hI.sup i hil
          refine ⟨s, (hmem s).2 (Or.inr hsm), hsi, ?_⟩
          rw [hse, List.getElem_append_left]
        · have : i = es.length := by simp at hi; omega
          subst this
          exact ⟨r, (hmem r).2 (Or.inl rfl), rfl, by simp [hr]⟩
      · intro s hs' i hi
        rcases (hmem s).1 hs' with rfl | h
        · simp only [hr] at hi
          cases hi
          exact ⟨⟨by simp, by simp [hr]⟩, rfl, rfl⟩
        · obtain ⟨⟨h1, h2⟩, h3⟩ := hI.supInv s h i hi
          exact ⟨⟨by simp; omega, by rw [h2, List.getElem_append_left]⟩, h3⟩
      · intro s hs' hi
        rcases (hmem s).1 hs' with rfl | h
        · simp [hr] at hi
        · exact hI.new s h hi
      · intro s hs' a
        rcases (hmem s).1 hs' with rfl | h
        · simp [hr]
        · exact hI.adj s h a
    · right
      push Not at hfresh
      obtain ⟨f, hf, hsp⟩ := hfresh
      refine ⟨fun h => h.fresh f hf hsp, ?_⟩
      obtain ⟨i, hi, rfl⟩ := List.getElem_of_mem hf
      obtain ⟨s, hsm, _, hse⟩ := hI.sup i hi
      have : (EdgeMap.insert r m).2 = false := by
        apply EdgeMap.insert_false m hI.sorted
        exact ⟨s, hsm, by rw [key_eq_samePair, hse]; exact hsp⟩
      simp [this]

/-- Validity of a list of supplied edges given earlier ones. -/
def EdgesOk (n : ℕ) (es : List (ℕ × ℕ)) : List (EdgeIn G) → Prop
  | [] => True
  | e :: rest => EdgeOk n es e ∧ EdgesOk n (es ++ [(e.p0, e.p1)]) rest

theorem registerAll_spec (ops : GeoOps G) (n : ℕ) (nodes : List (Option G)) (hn : nodes.length = n)
    (hs : ∀ x ∈ nodes, x.isSome = true) (edges : List (EdgeIn G)) :
    ∀ (es : List (ℕ × ℕ)) (m : EdgeMap G), Inv n es [] m →
    (EdgesOk n es edges ∧ ∃ m', edges.foldlM (registerEdge ops) (nodes, m, es.length) =
        some (nodes, m', es.length + edges.length) ∧
      Inv n (es ++ edges.map (fun e => (e.p0, e.p1))) [] m') ∨
    (¬ EdgesOk n es edges ∧ edges.foldlM (registerEdge ops) (nodes, m, es.length) = none) := by
  induction edges with
  | nil => intro es m hI; left; exact ⟨trivial, m, by simp, by simpa using hI⟩
  | cons e rest ih =>
    intro es m hI
    rw [List.foldlM_cons]
    rcases registerEdge_spec ops n es m nodes hn hs hI e with ⟨hok, m1, e1, hI1⟩ | ⟨hok, e1⟩
    · rw [e1]
      have := ih (es ++ [(e.p0, e.p1)]) m1 hI1
      simp only [List.length_append, List.length_cons, List.length_nil, Nat.zero_add] at this
      rcases this with ⟨ho, m', e2, hI2⟩ | ⟨ho, e2⟩
      · left
        refine ⟨⟨hok, ho⟩, m', ?_, by simpa using hI2⟩
        show List.foldlM _ _ _ = _
        rw [e2]; congr 3; simp; omega
      · right
        exact ⟨fun h => ho h.2, e2⟩
    · right
      refine ⟨fun h => hok h.1, ?_⟩
      rw [e1]; rfl

theorem edgesOk_iff (n : ℕ) (edges : List (EdgeIn G)) (es : List (ℕ × ℕ)) :
    EdgesOk n es edges ↔ (∀ e ∈ edges, EdgeOk n es e) ∧
      edges.Pairwise (fun e f => ¬ SamePair (e.p0, e.p1) (f.p0, f.p1)) := by
  induction edges generalizing es with
  | nil => simp [EdgesOk]
  | cons e rest ih =>
    simp only [EdgesOk, ih, List.mem_cons, forall_eq_or_imp, List.pairwise_cons]
    constructor
    · rintro ⟨h1, h2, h3⟩
      refine ⟨⟨h1, fun f hf => ?_⟩, fun f hf => ?_, h3⟩
      · have := h2 f hf
        exact ⟨this.ne, this.lt, this.geo, fun g hg => this.fresh g (by simp [hg])⟩
      · exact (h2 f hf).fresh _ (by simp)
    · rintro ⟨⟨h1, h2⟩, h3, h4⟩
      refine ⟨h1, fun f hf => ?_, h4⟩
      have := h2 f hf
      refine ⟨this.ne, this.lt, this.geo, fun g hg => ?_⟩
      rcases List.mem_append.1 hg with hg | hg
      · exact this.fresh g hg
      · simp only [List.mem_singleton] at hg
        subst hg
        exact h3 f hf

/-! ## Step II -/

theorem visitSide_spec (ops : GeoOps G) (n : ℕ) (es : List (ℕ × ℕ))
    (ss : List ((ℕ × ℕ) × (ℕ × ℕ))) (m : EdgeMap G) (hI : Inv n es ss m) (cg : Option G)
    (ci j a b : ℕ) (hab : a < n ∧ b < n) (hne : a ≠ b) :
    ∃ m', visitSide ops cg ci m j a b = some m' ∧ Inv n es (ss ++ [((ci, j), (a, b))]) m' := by
  unfold visitSide
  rw [if_neg hne]
  cases hf : m.find (edgeKey a b) with
  | none =>
    have hnk := (EdgeMap.find_none m _).1 hf
    set r : EdgeRec G := ⟨a, b, cg.map (fun g => ops.sub g 1 j), [(ci, j)], none, false⟩ with hr
    obtain ⟨h1, h2, h3⟩ := EdgeMap.insert_true m hI.sorted r hnk
    have hmem : ∀ s, s ∈ (EdgeMap.insert r m).1 ↔ s = r ∨ s ∈ m := by
      intro s; rw [h3.mem_iff]; simp
    have hns : ∀ s ∈ ss, ¬ SamePair (a, b) s.2 := by
      intro s hs hc
      obtain ⟨t, ht, hts⟩ := hI.cov s hs
      refine hnk t ht ?_
      have : SamePair (t.p0, t.p1) (a, b) := samePair_trans hts (samePair_comm.1 hc)
      exact (edgeKey_eq_iff _ _ _ _).2 this
    refine ⟨(EdgeMap.insert r m).1, by simp [h1], h2, ?_, ?_, ?_, ?_, ?_, ?_, ?_⟩
    · intro s hs
      rcases (hmem s).1 hs with rfl | h
      · exact hne
      · exact hI.ne s h
    · intro s hs
      rcases (hmem s).1 hs with rfl | h
      · exact hab
      · exact hI.lt s h
    · intro i hi
      obtain ⟨s, hsm, h⟩ := hI.sup i hi
      exact ⟨s, (hmem s).2 (Or.inr hsm), h⟩
    · intro s hs i hi
      rcases (hmem s).1 hs with rfl | h
      · simp [hr] at hi
      · exact hI.supInv s h i hi
    · intro s hs hi
      rcases (hmem s).1 hs with rfl | h
      · exact ⟨((ci, j), (a, b)), by simp, samePair_refl _⟩
      · obtain ⟨t, ht, h⟩ := hI.new s h hi
        exact ⟨t, by simp [ht], h⟩
    · intro s hs x
      rcases (hmem s).1 hs with rfl | h
      · simp only [hr, List.mem_singleton]
        constructor
        · rintro rfl
          exact ⟨((ci, j), (a, b)), by simp, rfl, samePair_refl _⟩
        · rintro ⟨t, ht, rfl, hsp⟩
          rcases List.mem_append.1 ht with ht | ht
          · exact absurd hsp (hns t ht)
          · simp only [List.mem_singleton] at ht; rw [ht]
      · rw [hI.adj s h x]
        constructor
        · rintro ⟨t, ht, h⟩; exact ⟨t, by simp [ht], h⟩
        · rintro ⟨t, ht, h1, h2⟩
          rcases List.mem_append.1 ht with ht | ht
          · exact ⟨t, ht, h1, h2⟩
          · simp only [List.mem_singleton] at ht
            subst ht
            exact absurd ((edgeKey_eq_iff _ _ _ _).2 h2) (hnk s h)
    · intro s hs
      rcases List.mem_append.1 hs with hs | hs
      · obtain ⟨t, ht, h⟩ := hI.cov s hs
        exact ⟨t, (hmem t).2 (Or.inr ht), h⟩
      · simp only [List.mem_singleton] at hs
        subst hs
        exact ⟨r, (hmem r).2 (Or.inl rfl), samePair_refl _⟩
  | some r0 =>
    obtain ⟨hr0, hk0⟩ := EdgeMap.find_some m _ _ hf
    dsimp only
    generalize hfdef : noteSide ops cg ci j a b = f
    have f0 : ∀ r, (f r).p0 = r.p0 := by intro r; subst hfdef; unfold noteSide; split <;> rfl
    have f1 : ∀ r, (f r).p1 = r.p1 := by intro r; subst hfdef; unfold noteSide; split <;> rfl
    have fg : ∀ r, (f r).gidx = r.gidx := by intro r; subst hfdef; unfold noteSide; split <;> rfl
    have fa : ∀ r, (f r).adj = r.adj ++ [(ci, j)] := by intro r; subst hfdef; unfold noteSide; split <;> rfl
    have fkey : ∀ r, (f r).key = r.key := by intro r; simp only [EdgeRec.key, f0, f1]
    have fsome : ∀ r : EdgeRec G, r.geo.isSome = true → (f r).geo = r.geo ∧ (f r).reversed = r.reversed := by
      intro r hr
      subst hfdef
      unfold noteSide
      split
      · simp_all
      · exact ⟨rfl, rfl⟩
    refine ⟨_, rfl, EdgeMap.update_sorted m hI.sorted _ f fkey, ?_, ?_, ?_, ?_, ?_, ?_, ?_⟩ <;>
      rw [EdgeMap.update_eq]
    · intro s hs
      obtain ⟨t, ht, rfl⟩ := List.mem_map.1 hs
      split
      · rw [f0, f1]; exact hI.ne t ht
      · exact hI.ne t ht
    · intro s hs
      obtain ⟨t, ht, rfl⟩ := List.mem_map.1 hs
      split
      · rw [f0, f1]; exact hI.lt t ht
      · exact hI.lt t ht
    · intro i hi
      obtain ⟨t, ht, h1, h2⟩ := hI.sup i hi
      refine ⟨_, List.mem_map.2 ⟨t, ht, rfl⟩, ?_⟩
      split
      · rw [fg, f0, f1]; exact ⟨h1, h2⟩
      · exact ⟨h1, h2⟩
    · intro s hs i hi
      obtain ⟨t, ht, rfl⟩ := List.mem_map.1 hs
      split at hi
      · rename_i hk
        rw [fg] at hi
        obtain ⟨h1, h2, h3⟩ := hI.supInv t ht i hi
        rw [if_pos hk, f0, f1, (fsome t h2).1, (fsome t h2).2]
        exact ⟨h1, h2, h3⟩
      · rename_i hk
        rw [if_neg hk]
        exact hI.supInv t ht i hi
    · intro s hs hi
      obtain ⟨t, ht, rfl⟩ := List.mem_map.1 hs
      split at hi
      · rename_i hk
        rw [fg] at hi
        obtain ⟨u, hu, h⟩ := hI.new t ht hi
        exact ⟨u, by simp [hu], by rw [if_pos hk, f0, f1]; exact h⟩
      · rename_i hk
        obtain ⟨u, hu, h⟩ := hI.new t ht hi
        exact ⟨u, by simp [hu], by rw [if_neg hk]; exact h⟩
    · intro s hs x
      obtain ⟨t, ht, rfl⟩ := List.mem_map.1 hs
      by_cases hk : t.key = edgeKey a b
      · rw [if_pos hk, fa, f0, f1, List.mem_append, hI.adj t ht x]
        have hsp : SamePair (t.p0, t.p1) (a, b) := (edgeKey_eq_iff _ _ _ _).1 hk
        constructor
        · rintro (⟨u, hu, h⟩ | h)
          · exact ⟨u, by simp [hu], h⟩
          · simp only [List.mem_singleton] at h
            subst h
            exact ⟨((ci, j), (a, b)), by simp, rfl, hsp⟩
        · rintro ⟨u, hu, h1, h2⟩
          rcases List.mem_append.1 hu with hu | hu
          · exact Or.inl ⟨u, hu, h1, h2⟩
          · right
            simp only [List.mem_singleton] at hu ⊢
            rw [← h1, hu]
      · rw [if_neg hk, hI.adj t ht x]
        constructor
        · rintro ⟨u, hu, h⟩; exact ⟨u, by simp [hu], h⟩
        · rintro ⟨u, hu, h1, h2⟩
          rcases List.mem_append.1 hu with hu | hu
          · exact ⟨u, hu, h1, h2⟩
          · simp only [List.mem_singleton] at hu
            subst hu
            exact absurd ((edgeKey_eq_iff _ _ _ _).2 h2) hk
    · intro s hs
      have key : ∀ t ∈ m, ∀ q, SamePair (t.p0, t.p1) q →
          ∃ r ∈ m.map (fun r => if r.key = edgeKey a b then f r else r), SamePair (r.p0, r.p1) q := by
        intro t ht q hq
        refine ⟨_, List.mem_map.2 ⟨t, ht, rfl⟩, ?_⟩
        split
        · rw [f0, f1]; exact hq
        · exact hq
      rcases List.mem_append.1 hs with hs | hs
      · obtain ⟨t, ht, h⟩ := hI.cov s hs
        exact key t ht _ h
      · simp only [List.mem_singleton] at hs
        subst hs
        exact key r0 hr0 _ ((edgeKey_eq_iff _ _ _ _).1 hk0)

/-- The sides of a cell, as visited by the constructor. -/
def cellSides (ci : ℕ) (nodes : List ℕ) (n : ℕ) : List ((ℕ × ℕ) × (ℕ × ℕ)) :=
  (List.range n).map (fun j => ((ci, j), side nodes j))

/-- Validity of a cell. -/
structure CellOk (n : ℕ) (c : CellIn G) : Prop where
  len : c.nodes.length = 3 ∨ c.nodes.length = 4
  lt : ∀ v ∈ c.nodes, v < n
  ne : ∀ j < c.nodes.length, (side c.nodes j).1 ≠ (side c.nodes j).2

theorem subSub_side (ref : RefEl) (hr : ref = .tria ∨ ref = .quad) (j : ℕ) (hj : j < ref.numNodes) :
    ref.subSubEntity2SubEntity 1 j 1 0 = some j ∧
    ref.subSubEntity2SubEntity 1 j 1 1 = some ((j + 1) % ref.numNodes) := by
  have h4 : j = 0 ∨ j = 1 ∨ j = 2 ∨ (j = 3 ∧ ref = .quad) := by
    rcases hr with rfl | rfl <;> simp [RefEl.numNodes] at hj ⊢ <;> omega
  rcases h4 with rfl | rfl | rfl | ⟨rfl, rfl⟩
  · rcases hr with rfl | rfl <;> exact ⟨rfl, rfl⟩
  · rcases hr with rfl | rfl <;> exact ⟨rfl, rfl⟩
  · rcases hr with rfl | rfl <;> exact ⟨rfl, rfl⟩
  · exact ⟨rfl, rfl⟩

theorem cellRefEl_some (nodes : List ℕ) (ref : RefEl) (h : cellRefEl nodes = some ref) :
    (ref = .tria ∨ ref = .quad) ∧ ref.numNodes = nodes.length := by
  unfold cellRefEl at h
  split_ifs at h with h1 h2
  · cases h; simp [RefEl.numNodes, h1]
  · cases h; simp [RefEl.numNodes, h2]

theorem cellRefEl_none (nodes : List ℕ) (h : cellRefEl nodes = none) :
    ¬ (nodes.length = 3 ∨ nodes.length = 4) := by
  unfold cellRefEl at h
  split_ifs at h with h1 h2
  omega

theorem numSub_eq (ref : RefEl) (hr : ref = .tria ∨ ref = .quad) :
    ref.numSubEntities 1 = some ref.numNodes := by
  rcases hr with rfl | rfl <;> rfl

theorem visitSides_spec (ops : GeoOps G) (n : ℕ) (es : List (ℕ × ℕ))
    (ss : List ((ℕ × ℕ) × (ℕ × ℕ))) (m : EdgeMap G) (hI : Inv n es ss m) (c : CellIn G) (ref : RefEl)
    (hr : cellRefEl c.nodes = some ref) (hlt : ∀ v ∈ c.nodes, v < n) (ci : ℕ) :
    ((∀ j < c.nodes.length, (side c.nodes j).1 ≠ (side c.nodes j).2) ∧
      ∃ m', visitSides ops c ref ci m = some m' ∧
        Inv n es (ss ++ cellSides ci c.nodes c.nodes.length) m') ∨
    (¬ (∀ j < c.nodes.length, (side c.nodes j).1 ≠ (side c.nodes j).2) ∧
      visitSides ops c ref ci m = none) := by
  obtain ⟨href, hlen⟩ := cellRefEl_some _ _ hr
  unfold visitSides
  rw [numSub_eq ref href, Option.bind_some, hlen]
  have key : ∀ k ≤ c.nodes.length,
      ((∀ j < k, (side c.nodes j).1 ≠ (side c.nodes j).2) ∧
      ∃ m', (List.range k).foldlM (fun m j =>
          (ref.subSubEntity2SubEntity 1 j 1 0).bind fun l0 =>
          (ref.subSubEntity2SubEntity 1 j 1 1).bind fun l1 =>
          (c.nodes[l0]?).bind fun a => (c.nodes[l1]?).bind fun b =>
            visitSide ops c.geo ci m j a b) m = some m' ∧
        Inv n es (ss ++ cellSides ci c.nodes k) m') ∨
      (¬ (∀ j < k, (side c.nodes j).1 ≠ (side c.nodes j).2) ∧
        (List.range k).foldlM (fun m j =>
          (ref.subSubEntity2SubEntity 1 j 1 0).bind fun l0 =>
          (ref.subSubEntity2SubEntity 1 j 1 1).bind fun l1 =>
          (c.nodes[l0]?).bind fun a => (c.nodes[l1]?).bind fun b =>
            visitSide ops c.geo ci m j a b) m = none) := by
    intro k
    induction k with
    | zero => intro _; left; exact ⟨by simp, m, rfl, by simpa [cellSides] using hI⟩
    | succ k ih =>
      intro hk
      rw [List.range_succ]
      simp only [List.foldlM_append, List.foldlM_cons, List.foldlM_nil]
      rcases ih (by omega) with ⟨hn, m1, e1, hI1⟩ | ⟨hn, e1⟩
      · rw [e1]
        obtain ⟨s0, s1⟩ := subSub_side ref href k (by omega)
        have hk' : k < c.nodes.length := by omega
        have hmod : (k + 1) % c.nodes.length < c.nodes.length := Nat.mod_lt _ (by omega)
        simp only [s0, s1, Option.bind_some, hlen, List.getElem?_eq_getElem hk',
          List.getElem?_eq_getElem hmod, Option.bind_eq_bind, Option.pure_def, Option.bind_fun_some]
        have e0 : side c.nodes k = (c.nodes[k], c.nodes[(k + 1) % c.nodes.length]) := by
          simp [side, hk', hmod]
        by_cases hne : c.nodes[k] = c.nodes[(k + 1) % c.nodes.length]
        · right
          refine ⟨fun h => ?_, ?_⟩
          · have := h k (by omega)
            rw [e0] at this
            exact this hne
          · unfold visitSide; rw [if_pos hne]
        · left
          refine ⟨?_, ?_⟩
          · intro j hj
            by_cases hjk : j = k
            · subst hjk; rw [e0]; exact hne
            · exact hn j (by omega)
          · obtain ⟨m', e2, hI2⟩ := visitSide_spec ops n es _ m1 hI1 c.geo ci k _ _
              ⟨hlt _ (List.getElem_mem hk'), hlt _ (List.getElem_mem hmod)⟩ hne
            refine ⟨m', e2, ?_⟩
            have : ss ++ cellSides ci c.nodes (k + 1) = (ss ++ cellSides ci c.nodes k) ++
                [((ci, k), (c.nodes[k], c.nodes[(k + 1) % c.nodes.length]))] := by
              simp [cellSides, List.range_succ, e0]
            rw [this]; exact hI2
      · right
        refine ⟨fun h => hn (fun j hj => h j (by omega)), ?_⟩
        rw [e1]; rfl
  exact key _ (Nat.le_refl _)

theorem supplyAll_id (nodes : List (Option G)) (h : ∀ x ∈ nodes, x.isSome = true)
    (l : List (ℕ × ℕ)) (f : ℕ × ℕ → G) :
    l.foldl (fun ns vj => supplyNode ns vj.1 (f vj)) nodes = nodes := by
  induction l with
  | nil => rfl
  | cons x l ih => rw [List.foldl_cons, supplyNode_id nodes h, ih]

theorem scanCell_spec (ops : GeoOps G) (n : ℕ) (es : List (ℕ × ℕ))
    (ss : List ((ℕ × ℕ) × (ℕ × ℕ))) (m : EdgeMap G) (nodes : List (Option G)) (hn : nodes.length = n)
    (hs : ∀ x ∈ nodes, x.isSome = true) (hI : Inv n es ss m) (c : CellIn G) (ci : ℕ) :
    (CellOk n c ∧ ∃ m', scanCell ops (nodes, m, ci) c = some (nodes, m', ci + 1) ∧
      Inv n es (ss ++ cellSides ci c.nodes c.nodes.length) m') ∨
    (¬ CellOk n c ∧ scanCell ops (nodes, m, ci) c = none) := by
  subst hn
  unfold scanCell
  cases hr : cellRefEl c.nodes with
  | none => right; exact ⟨fun h => cellRefEl_none _ hr h.len, rfl⟩
  | some ref =>
    simp only [Option.bind_some]
    by_cases hlt : ∀ v ∈ c.nodes, v < nodes.length
    · have hall : c.nodes.all (fun v => decide (v < nodes.length)) = true := by
        simpa using hlt
      rw [if_pos hall]
      have hl : c.nodes.length = 3 ∨ c.nodes.length = 4 := by
        have := cellRefEl_some _ _ hr
        rcases this.1 with rfl | rfl <;> simp [RefEl.numNodes] at this <;> omega
      rcases visitSides_spec ops _ es ss m hI c ref hr hlt ci with ⟨h1, m', e, hI'⟩ | ⟨h1, e⟩
      · left
        refine ⟨⟨hl, hlt, h1⟩, m', ?_, hI'⟩
        rw [e]
        cases c.geo with
        | none => rfl
        | some g => simp only [Option.bind_some, supplyAll_id nodes hs _ (fun vj => ops.sub g 2 vj.2)]
      · right
        refine ⟨fun h => h1 h.ne, ?_⟩
        rw [e]; rfl
    · right
      refine ⟨fun h => hlt h.lt, ?_⟩
      rw [if_neg]
      simpa using hlt

/-- All sides of a list of cells, numbered from `ci`. -/
def allSides (ci : ℕ) : List (CellIn G) → List ((ℕ × ℕ) × (ℕ × ℕ))
  | [] => []
  | c :: cs => cellSides ci c.nodes c.nodes.length ++ allSides (ci + 1) cs

theorem scanAll_spec (ops : GeoOps G) (n : ℕ) (es : List (ℕ × ℕ)) (nodes : List (Option G))
    (hn : nodes.length = n) (hs : ∀ x ∈ nodes, x.isSome = true) (cells : List (CellIn G)) :
    ∀ (ss : List ((ℕ × ℕ) × (ℕ × ℕ))) (m : EdgeMap G) (ci : ℕ), Inv n es ss m →
    ((∀ c ∈ cells, CellOk n c) ∧ ∃ m', cells.foldlM (scanCell ops) (nodes, m, ci) =
        some (nodes, m', ci + cells.length) ∧ Inv n es (ss ++ allSides ci cells) m') ∨
    (¬ (∀ c ∈ cells, CellOk n c) ∧ cells.foldlM (scanCell ops) (nodes, m, ci) = none) := by
  induction cells with
  | nil => intro ss m ci hI; left; exact ⟨by simp, m, rfl, by simpa [allSides] using hI⟩
  | cons c cs ih =>
    intro ss m ci hI
    rw [List.foldlM_cons]
    rcases scanCell_spec ops n es ss m nodes hn hs hI c ci with ⟨hok, m1, e1, hI1⟩ | ⟨hok, e1⟩
    · rw [e1]
      rcases ih _ m1 (ci + 1) hI1 with ⟨ho, m', e2, hI2⟩ | ⟨ho, e2⟩
      · left
        refine ⟨?_, m', ?_, ?_⟩
        · intro x hx
          rcases List.mem_cons.1 hx with rfl | hx
          · exact hok
          · exact ho x hx
        · show List.foldlM _ _ _ = _
          rw [e2]; congr 3; simp; omega
        · rw [allSides, ← List.append_assoc]; exact hI2
      · right
        exact ⟨fun h => ho (fun x hx => h x (by simp [hx])), e2⟩
    · right
      refine ⟨fun h => hok (h c (by simp)), ?_⟩
      rw [e1]; rfl

theorem mem_allSides (ci : ℕ) (cells : List (CellIn G)) (s : (ℕ × ℕ) × (ℕ × ℕ)) :
    s ∈ allSides ci cells ↔ ∃ k, ∃ h : k < cells.length, ∃ j < (cells[k]).nodes.length,
      s = ((ci + k, j), side (cells[k]).nodes j) := by
  induction cells generalizing ci with
  | nil => simp [allSides]
  | cons c cs ih =>
    rw [allSides, List.mem_append, ih]
    constructor
    · rintro (h | ⟨k, hk, j, hj, rfl⟩)
      · simp only [cellSides, List.mem_map, List.mem_range] at h
        obtain ⟨j, hj, rfl⟩ := h
        exact ⟨0, by simp, j, hj, rfl⟩
      · refine ⟨k + 1, by simp; omega, j, by simpa using hj, ?_⟩
        simp; omega
    · rintro ⟨k, hk, j, hj, rfl⟩
      cases k with
      | zero => left; simp only [cellSides, List.mem_map, List.mem_range]; exact ⟨j, hj, rfl⟩
      | succ k =>
        right
        refine ⟨k, by simpa using hk, j, by simpa using hj, ?_⟩
        simp; omega

end Verif
