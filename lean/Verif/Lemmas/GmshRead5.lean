import Verif.Lemmas.GmshRead2
import Verif.Lemmas.GmshRead4

/-! The two versions of the reader. -/

namespace Verif
variable {P G : Type}

/-- Element of version 2 with its index as item. -/
def itemV2 (ei : ElementV2 × ℕ) : Item := ⟨ei.1.type, ei.1.nodes, ei.2⟩

theorem readV2_done {geo : GmshGeo P G} {ops : GeoOps G} {chk : Bool} {file : FileV2 P} {r : Reader G}
    (hnd : (file.nodes.map (·.1)).Nodup) (h : readV2 geo ops chk file = some r) :
    ReadDone geo ops file.isMain file.nodes [file.elements.zipIdx.map itemV2] file.elements.zipIdx itemV2
      (fun ei => [ei.1.phys]) r := by
  unfold readV2 at h
  obtain ⟨main, hmain, h⟩ := Option.bind_eq_some_iff.mp h
  obtain ⟨s, hs, h⟩ := Option.bind_eq_some_iff.mp h
  obtain ⟨st, hst, h⟩ := Option.bind_eq_some_iff.mp h
  have hN := nodesV2 file.isMain (mainV2_spec hmain).1 hnd hs
  refine readDone (look := fun n => s.1[n]?) hN (st := st) ?_ h (by simp) ?_
  · have h1 : runBlock geo (fun n => s.1[n]?) (fun n => ((s.2.1[n]?).join.bind fun i => file.nodes[i]?).map (·.2))
        ⟨none, s.2.2, fun _ => []⟩ (file.elements.zipIdx.map itemV2) = some st := by
      unfold runBlock
      rw [List.foldlM_map]
      exact hst
    rw [List.foldlM_cons, h1]
    rfl
  · intro d hd c _ _ x hx
    obtain ⟨k, hk⟩ := List.mem_iff_getElem?.mp hd
    rw [List.getElem?_zipIdx] at hk
    obtain ⟨e, he, rfl⟩ := Option.map_eq_some_iff.mp hk
    simp only [itemV2, Nat.zero_add] at hx
    rw [he] at hx
    cases hx
    rfl

theorem zipIdx_filter_map {α β : Type} (l : List α) (f : α → Bool) (g : α → β) (k : ℕ) :
    ((l.zipIdx k).filter fun x => f x.1).flatMap (fun x => [g x.1]) = (l.filter f).map g := by
  induction l generalizing k with
  | nil => rfl
  | cons a l ih =>
    rw [List.zipIdx_cons, List.filter_cons, List.filter_cons]
    cases f a <;> simp [ih]

theorem physOf_v2 (file : FileV2 P) (d : ℕ) (cond : List ℕ → Bool) :
    (file.elements.zipIdx.filter fun e => decide ((itemV2 e).t.dim = d) &&
      (elementCorners (mainNumbers (file.nodes.map (·.1)) file.isMain) (itemV2 e).t (itemV2 e).nodes).any cond).flatMap
        (fun ei => [ei.1.phys]) = file.physOf d cond :=
  zipIdx_filter_map file.elements (fun e => decide (e.type.dim = d) &&
    (elementCorners file.nums e.type e.nodes).any cond) (·.phys) 0

theorem repeatsOk_v2 {file : FileV2 P} (h : file.RepeatsOk) :
    RepeatsOk (fun n => (mainNumbers (file.nodes.map (·.1)) file.isMain).idxOf? n) [file.elements.zipIdx.map itemV2] := by
  intro pre b post l x y r h1 h2 hx hy hxy
  have hpre : pre = [] := by
    cases pre with
    | nil => rfl
    | cons a pre =>
      have := congrArg List.length h1
      simp at this
  subst hpre
  simp only [List.nil_append, List.cons.injEq] at h1
  obtain ⟨rfl, _⟩ := h1
  have h3 : file.elements.map (fun e => (e.type, e.nodes)) = (l ++ x :: y :: r).map fun it => (it.t, it.nodes) := by
    rw [← h2, List.map_map]
    have : ((fun it : Item => (it.t, it.nodes)) ∘ itemV2) = (fun e : ElementV2 => (e.type, e.nodes)) ∘ Prod.fst := rfl
    rw [this, ← List.map_map, List.zipIdx_map_fst]
  rw [List.map_append, List.map_cons, List.map_cons] at h3
  obtain ⟨l', t, h4, h5, h6⟩ := List.map_eq_append_iff.mp h3
  obtain ⟨x', t', rfl, hx', h7⟩ := List.map_eq_cons_iff.mp h6
  obtain ⟨y', r', rfl, hy', h8⟩ := List.map_eq_cons_iff.mp h7
  simp only [Prod.mk.injEq] at hx' hy'
  obtain ⟨i, hi, hall⟩ := h l' x' y' r' h4 (hx'.1.trans hx) (hy'.1.trans hy) (by rw [hx'.2, hy'.2, hxy])
  refine ⟨i, ⟨hy, ?_⟩, ?_⟩
  · rw [hy, ← hy'.2]
    exact hi
  · intro z hz j hj
    refine hall (z.t, z.nodes) ?_ hj.1 j ?_
    · rw [List.map_append, h5, List.map_singleton, hx'.1, hx'.2]
      simp only [List.flatten_nil, List.nil_append] at hz
      have := List.mem_map_of_mem (f := fun it : Item => (it.t, it.nodes)) hz
      simpa using this
    · have := hj.2
      rw [hj.1] at this
      exact this

/-! ### Version 4 -/

/-- Element of version 4 with its block and the index of the block. -/
def itemV4 (d : (BlockV4 × ℕ) × List ℕ) : Item := ⟨d.1.1.type, d.2, d.1.2⟩

/-- All elements with their blocks and the indices of the blocks. -/
def elemsV4 (file : FileV4 P) : List ((BlockV4 × ℕ) × List ℕ) :=
  file.blocks.zipIdx.flatMap fun bi => bi.1.elements.map fun ns => (bi, ns)

/-- The blocks as lists of items. -/
def blocksV4 (file : FileV4 P) : List (List Item) :=
  file.blocks.zipIdx.map fun bi => bi.1.elements.map fun ns => ⟨bi.1.type, ns, bi.2⟩

theorem makeMap_get {es : List (ℕ × List ℕ)} (hnd : (es.map (·.1)).Nodup) {tag : ℕ} {x : List ℕ}
    (h : (makeMap es)[tag]? = some x) : x = ((es.find? fun e => decide (e.1 = tag)).map (·.2)).getD [] := by
  unfold makeMap at h
  generalize hm : es.foldl (fun m e => max m e.1) 0 + 1 = m at h
  have key : ∀ (es : List (ℕ × List ℕ)) (t : List (List ℕ)), (es.map (·.1)).Nodup → ∀ x,
      (es.foldl (fun t e => t.set e.1 e.2) t)[tag]? = some x →
      x = ((es.find? fun e => decide (e.1 = tag)).map (·.2)).getD (t.getD tag []) := by
    intro es
    induction es with
    | nil =>
      intro t _ x hx
      simp only [List.foldl_nil] at hx
      simp [hx]
    | cons e es ih =>
      intro t hnd x hx
      rw [List.map_cons, List.nodup_cons] at hnd
      rw [List.foldl_cons] at hx
      have h2 := ih _ hnd.2 x hx
      rw [List.find?_cons]
      by_cases he : e.1 = tag
      · have h3 : es.find? (fun e => decide (e.1 = tag)) = none := by
          rw [List.find?_eq_none]
          intro y hy
          simp only [decide_eq_true_eq]
          rintro hyt
          exact hnd.1 (by rw [he, ← hyt]; exact List.mem_map_of_mem hy)
        rw [h3] at h2
        have hlen : tag < t.length := by
          have h4 := (List.getElem?_eq_some_iff.mp hx).1
          have h5 : ∀ (es : List (ℕ × List ℕ)) (t : List (List ℕ)),
              (es.foldl (fun t e => t.set e.1 e.2) t).length = t.length := by
            intro es
            induction es with
            | nil => intro t; rfl
            | cons e es ih => intro t; rw [List.foldl_cons, ih, List.length_set]
          rw [h5, List.length_set] at h4
          exact h4
        rw [h2]
        simp [he, hlen]
      · rw [h2]
        have : (t.set e.1 e.2).getD tag [] = t.getD tag [] := by
          simp [List.getD_eq_getElem?_getD, List.getElem?_set_ne he]
        rw [this]
        simp [he]
  have := key es _ hnd x h
  rw [this]
  congr 1
  rw [List.getD_eq_getElem?_getD, List.getElem?_replicate]
  split_ifs <;> rfl

theorem readV4_done {geo : GmshGeo P G} {ops : GeoOps G} {chk : Bool} {file : FileV4 P} {r : Reader G}
    (hnd : (file.allNodes.map (·.1)).Nodup) (hent : ∀ d ≤ 2, ((file.entities d).map (·.1)).Nodup)
    (h : readV4 geo ops chk file = some r) :
    ReadDone geo ops file.isMain file.allNodes (blocksV4 file) (elemsV4 file) itemV4
      (fun d => file.entityTags d.1.1.type.dim d.1.1.entity) r := by
  unfold readV4 at h
  obtain ⟨main, hmain, h⟩ := Option.bind_eq_some_iff.mp h
  obtain ⟨s, hs, h⟩ := Option.bind_eq_some_iff.mp h
  obtain ⟨st, hst, h⟩ := Option.bind_eq_some_iff.mp h
  have hN := nodesV4 file.isMain (mainV4_spec hmain).1 hnd hs
  refine readDone (look := lookV4 file.minTag s.1) hN (st := st) ?_ h ?_ ?_
  · unfold blocksV4
    rw [List.foldlM_map, ← hst]
    congr 1
    funext st' bi
    unfold runBlock
    rw [List.foldlM_map]
    rfl
  · unfold blocksV4 elemsV4
    rw [List.map_flatMap, List.flatMap_def]
    congr 1
    refine List.map_congr_left fun bi _ => ?_
    rw [List.map_map]
    rfl
  · intro d hd c hc hdim x hx
    obtain ⟨bi, hbi, hd'⟩ := List.mem_flatMap.mp hd
    obtain ⟨ns, _, rfl⟩ := List.mem_map.mp hd'
    obtain ⟨k, hk⟩ := List.mem_iff_getElem?.mp hbi
    rw [List.getElem?_zipIdx] at hk
    obtain ⟨b, hb, rfl⟩ := Option.map_eq_some_iff.mp hk
    simp only [itemV4, Nat.zero_add] at hx hdim ⊢
    rw [hb] at hx
    rw [hdim]
    exact makeMap_get (hent _ (by omega)) hx

theorem physOf_v4 (file : FileV4 P) (d : ℕ) (cond : List ℕ → Bool) :
    ((elemsV4 file).filter fun e => decide ((itemV4 e).t.dim = d) &&
      (elementCorners (mainNumbers (file.allNodes.map (·.1)) file.isMain) (itemV4 e).t (itemV4 e).nodes).any cond).flatMap
        (fun e => file.entityTags e.1.1.type.dim e.1.1.entity) = file.physOf d cond := by
  have h1 : file.elements = (elemsV4 file).map fun e => (e.1.1, e.2) := by
    unfold FileV4.elements elemsV4
    rw [List.map_flatMap]
    have : file.blocks = file.blocks.zipIdx.map Prod.fst := by rw [List.zipIdx_map_fst]
    conv_lhs => rw [this]
    rw [List.flatMap_map]
    congr 1
    funext bi
    rw [List.map_map]
    rfl
  unfold FileV4.physOf
  rw [h1, List.filter_map, List.flatMap_map]
  have : ∀ (l : List ((BlockV4 × ℕ) × List ℕ)), (∀ e ∈ l, e.1.1.type.dim = d) →
      l.flatMap (fun e => file.entityTags e.1.1.type.dim e.1.1.entity) = l.flatMap fun e => file.entityTags d e.1.1.entity := by
    intro l hl
    rw [List.flatMap_def, List.flatMap_def]
    congr 1
    refine List.map_congr_left fun e he => ?_
    rw [hl e he]
  rw [this]
  · rfl
  · intro e he
    have := (List.mem_filter.mp he).2
    simp only [Bool.and_eq_true, decide_eq_true_eq] at this
    exact this.1

theorem repeatsOk_v4 {file : FileV4 P} (h : file.RepeatsOk) :
    RepeatsOk (fun n => (mainNumbers (file.allNodes.map (·.1)) file.isMain).idxOf? n) (blocksV4 file) := by
  intro pre b post l x y r h1 h2 hx hy hxy
  unfold blocksV4 at h1
  obtain ⟨pre', t, h3, hpre, h4⟩ := List.map_eq_append_iff.mp h1
  obtain ⟨bi, post', rfl, hb, _⟩ := List.map_eq_cons_iff.mp h4
  rw [← hb] at h2
  obtain ⟨l', t, h5, hl, h6⟩ := List.map_eq_append_iff.mp h2
  obtain ⟨x', t', rfl, rfl, h7⟩ := List.map_eq_cons_iff.mp h6
  obtain ⟨y', r', rfl, rfl, _⟩ := List.map_eq_cons_iff.mp h7
  simp only at hx hy hxy
  subst hxy
  have h8 : file.blocks = pre'.map Prod.fst ++ bi.1 :: post'.map Prod.fst := by
    have := congrArg (List.map Prod.fst) h3
    rw [List.zipIdx_map_fst] at this
    rw [this]
    simp
  obtain ⟨i, hi, hall⟩ := h _ _ _ h8 hx l' x' r' h5
  refine ⟨i, ⟨hy, by rw [← hi]; simp only [hx]; rfl⟩, ?_⟩
  intro z hz j hj
  refine hall (z.t, z.nodes) ?_ hj.1 j ?_
  · rcases List.mem_append.mp hz with hz | hz
    · refine List.mem_append_left _ ?_
      rw [← hpre] at hz
      obtain ⟨g, hg, hz⟩ := List.mem_flatten.mp hz
      obtain ⟨bi', hbi', rfl⟩ := List.mem_map.mp hg
      obtain ⟨ns, hns, rfl⟩ := List.mem_map.mp hz
      exact List.mem_flatMap.mpr ⟨bi'.1, List.mem_map_of_mem hbi', List.mem_map.mpr ⟨ns, hns, rfl⟩⟩
    · refine List.mem_append_right _ ?_
      rw [List.map_append]
      rcases List.mem_append.mp hz with hz | hz
      · refine List.mem_append_left _ ?_
        rw [← hl] at hz
        obtain ⟨ns, hns, rfl⟩ := List.mem_map.mp hz
        exact List.mem_map.mpr ⟨ns, hns, rfl⟩
      · refine List.mem_append_right _ ?_
        obtain rfl := List.mem_singleton.mp hz
        simp
  · have := hj.2
    rw [hj.1] at this
    exact this

end Verif
