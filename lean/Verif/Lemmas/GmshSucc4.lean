import Verif.Lemmas.GmshSucc3

/-! Reading does not fail: version 4. -/

namespace Verif
variable {P G : Type} {geo : GmshGeo P G} {ops : GeoOps G} {chk : Bool} {file : FileV4 P}

theorem FileV4.Valid.mem_elements (b : BlockV4) (hb : b ∈ file.blocks) (ns : List ℕ) (hns : ns ∈ b.elements) :
    (b, ns) ∈ file.elements :=
  List.mem_flatMap.mpr ⟨b, hb, List.mem_map.mpr ⟨ns, hns, rfl⟩⟩

theorem FileV4.Valid.tag_range (h : file.Valid geo chk) {n : ℕ} (hn : n ∈ file.allNodes.map (·.1)) :
    file.minTag ≤ n ∧ n ≤ file.maxTag := by
  obtain ⟨x, hx, rfl⟩ := List.mem_map.mp hn
  exact h.range x hx

theorem FileV4.Valid.min_le (h : file.Valid geo chk) : file.minTag ≤ file.maxTag := by
  obtain ⟨e, he, hd⟩ := h.cell
  have hv := h.elements e he (by intro hp; rw [hp] at hd; cases hd)
  have hl := hv.long
  have h3 : 0 < e.2.length := by
    rcases corners_of_dim2 hd with h | h <;> omega
  have := h.tag_range (hv.known e.2[0] (List.getElem_mem h3))
  omega

theorem mainV4_some (h : file.Valid geo chk) :
    ∃ main, mainV4 file = some main ∧ file.maxTag + 1 - file.minTag ≤ main.length := by
  unfold mainV4
  have hle := h.min_le
  rw [if_neg (by omega)]
  obtain ⟨m, hm, hl⟩ := foldlM_exists (l := file.blocks) (f := fun main (b : BlockV4) =>
      if b.dim ≤ 2 ∧ b.dim = b.type.dim then
        if b.dim = 2 then
          b.elements.foldlM (fun main nodes =>
            b.type.refEl.bind fun ref =>
              (List.range ref.numNodes).foldlM (fun main i => (nodes[i]?).bind fun n =>
                if n < file.minTag then none else some (markMain main (n - file.minTag))) main) main
        else some main
      else none) (s0 := List.replicate (file.maxTag + 1 - file.minTag) false)
    (fun _ (m : List Bool) => file.maxTag + 1 - file.minTag ≤ m.length) (by simp) (by
    intro pre b post hl s hs
    have hb : b ∈ file.blocks := by rw [hl]; simp
    rw [if_pos (h.dims b hb)]
    by_cases hd : b.dim = 2
    · rw [if_pos hd]
      refine foldlM_exists (fun _ (m : List Bool) => file.maxTag + 1 - file.minTag ≤ m.length) hs ?_
      intro pre' ns post' hl' s' hs'
      have hns : ns ∈ b.elements := by rw [hl']; simp
      have hpt : b.type ≠ .point := by
        intro hp
        have := (h.dims b hb).2
        rw [hp, hd] at this
        cases this
      have hv := h.elements (b, ns) (FileV4.Valid.mem_elements b hb ns hns) hpt
      obtain ⟨ref, hr⟩ := refEl_of_dim hv.dim
      simp only at hr
      rw [hr]
      simp only [Option.bind_some]
      obtain ⟨m, hm, hml⟩ := markLoop_some (k := ref.numNodes) (nodes := ns) (by rw [← corners_eq hr]; exact hv.long)
        (fun n => if n < file.minTag then none else some (n - file.minTag)) (fun n hn => by
          rw [if_neg]
          · rfl
          · have := (h.tag_range (hv.known n (List.mem_of_mem_take hn))).1
            omega) s'
      refine ⟨m, ?_, hs'.trans hml⟩
      rw [← hm]
      congr 1
      funext main i
      cases ns[i]? with
      | none => rfl
      | some n =>
        simp only [Option.bind_some]
        split_ifs <;> rfl
    · rw [if_neg hd]
      exact ⟨s, rfl, hs⟩)
  rw [hm]
  obtain ⟨e, he, hd⟩ := h.cell
  obtain ⟨b, hb, he⟩ := List.mem_flatMap.mp he
  obtain ⟨ns, hns, rfl⟩ := List.mem_map.mp he
  have hany : file.blocks.any (fun b => decide (b.dim = 2 ∧ b.elements ≠ [])) = true := by
    rw [List.any_eq_true]
    refine ⟨b, hb, ?_⟩
    simp only [decide_eq_true_eq]
    exact ⟨(h.dims b hb).2.trans hd, List.ne_nil_of_mem hns⟩
  exact ⟨m, by simp only [Option.bind_some]; rw [if_pos hany], hl⟩

theorem nodesV4_some (h : file.Valid geo chk) {main : List Bool}
    (hmain : ∀ n, file.minTag ≤ n → (main[n - file.minTag]? = some true ↔ file.isMain n = true))
    (hlen : file.maxTag + 1 - file.minTag ≤ main.length) :
    ∃ s, file.nodeBlocks.zipIdx.foldlM (fun s (bj : List (ℕ × P) × ℕ) => bj.1.zipIdx.foldlM (fun s nk =>
      insertNodeV4 geo file.minTag main s nk.1.1 nk.1.2 bj.2 nk.2) s)
      (List.replicate main.length none, List.replicate main.length none, {}) = some s ∧
      s.1.length = main.length ∧ s.2.1.length = main.length := by
  refine foldlM_exists (fun _ (s : List (Option ℕ) × List (Option (ℕ × ℕ)) × Factory G) => s.1.length = main.length ∧
    s.2.1.length = main.length) (by simp) ?_
  rintro pre ⟨b, j⟩ post hl s hs
  refine foldlM_exists (fun _ (s : List (Option ℕ) × List (Option (ℕ × ℕ)) × Factory G) => s.1.length = main.length ∧
    s.2.1.length = main.length) hs ?_
  rintro pre' ⟨⟨n, x⟩, k⟩ post' hl' s hs
  have hb : b ∈ file.nodeBlocks := by
    have : (b, j) ∈ file.nodeBlocks.zipIdx := by rw [hl]; simp
    exact (List.mem_zipIdx this).2.2 ▸ List.getElem_mem _
  have hx : (n, x) ∈ b := by
    have : ((n, x), k) ∈ b.zipIdx := by rw [hl']; simp
    exact (List.mem_zipIdx this).2.2 ▸ List.getElem_mem _
  have hx' : (n, x) ∈ file.allNodes := List.mem_flatten.mpr ⟨b, hb, hx⟩
  obtain ⟨h1, h2⟩ := h.range _ hx'
  simp only at h1 h2
  have hlt : n - file.minTag < main.length := by omega
  unfold insertNodeV4
  simp only
  rw [if_neg (by rw [hs.2]; omega), List.getElem?_eq_getElem hlt]
  simp only [Option.bind_some]
  cases hm : main[n - file.minTag] with
  | false => exact ⟨_, rfl, hs.1, by simpa using hs.2⟩
  | true =>
    obtain ⟨g, hg⟩ := Option.isSome_iff_exists.mp (h.nodes (n, x) hx' ((hmain n h1).mp (by
      rw [List.getElem?_eq_getElem hlt, hm])))
    simp only at hg
    simp only [Bool.not_true, Bool.false_eq_true, if_false, hg, Option.bind_some]
    rw [if_pos (by rw [hs.1]; exact hlt)]
    exact ⟨_, rfl, by simpa using hs.1, by simpa using hs.2⟩

theorem makeMap_isSome {es : List (ℕ × List ℕ)} {tag : ℕ} (h : tag ∈ es.map (·.1)) : ((makeMap es)[tag]?).isSome = true := by
  unfold makeMap
  have h5 : ∀ (es : List (ℕ × List ℕ)) (t : List (List ℕ)),
      (es.foldl (fun t e => t.set e.1 e.2) t).length = t.length := by
    intro es
    induction es with
    | nil => intro t; rfl
    | cons e es ih => intro t; rw [List.foldl_cons, ih, List.length_set]
  have h6 : ∀ (es : List (ℕ × List ℕ)) (m : ℕ), m ≤ es.foldl (fun m e => max m e.1) m ∧
      ∀ e ∈ es, e.1 ≤ es.foldl (fun m e => max m e.1) m := by
    intro es
    induction es with
    | nil => intro m; simp
    | cons e es ih =>
      intro m
      rw [List.foldl_cons]
      obtain ⟨h1, h2⟩ := ih (max m e.1)
      refine ⟨by omega, fun e' he' => ?_⟩
      rcases List.mem_cons.mp he' with rfl | he'
      · omega
      · exact h2 e' he'
  obtain ⟨e, he, rfl⟩ := List.mem_map.mp h
  have := (h6 es 0).2 e he
  rw [List.getElem?_eq_getElem (by rw [h5, List.length_replicate]; omega)]
  rfl

theorem readV4_some (h : file.Valid geo chk) : ∃ r, readV4 geo ops chk file = some r := by
  obtain ⟨main, hmain, hlen⟩ := mainV4_some h
  have hspec := (mainV4_spec hmain).1
  obtain ⟨s, hs, hsl, -⟩ := nodesV4_some h hspec hlen
  have hN := nodesV4 file.isMain hspec h.numbers hs
  have hmem : ∀ it ∈ (blocksV4 file).flatten, ∃ b k ns, file.blocks[k]? = some b ∧ (b, ns) ∈ file.elements ∧
      it = ⟨b.type, ns, k⟩ := by
    intro it hit
    obtain ⟨l, hl, hit⟩ := List.mem_flatten.mp hit
    obtain ⟨⟨b, k⟩, hbk, rfl⟩ := List.mem_map.mp hl
    obtain ⟨ns, hns, rfl⟩ := List.mem_map.mp hit
    have := List.mem_zipIdx hbk
    have hk : file.blocks[k]? = some b := by
      rw [List.getElem?_eq_getElem (by omega)]
      exact congrArg some this.2.2.symm
    exact ⟨b, k, ns, hk, FileV4.Valid.mem_elements b (List.mem_of_getElem? hk) ns hns, rfl⟩
  obtain ⟨st, r, hst, hr⟩ := read_some (ops := ops) (chk := chk) (look := lookV4 file.minTag s.1)
    (blocks := blocksV4 file)
    (tags := fun c i => (file.blocks[i]?).bind fun b => (makeMap (file.entities (2 - c)))[b.entity]?) h.numbers hN
    (by
      intro it hit
      obtain ⟨b, k, ns, hk, he, rfl⟩ := hmem it hit
      have := h.dims b (List.mem_of_getElem? hk)
      simp only
      omega)
    (by
      intro it hit hp
      obtain ⟨b, k, ns, hk, he, rfl⟩ := hmem it hit
      obtain ⟨n, hn, hnm⟩ := h.points _ he hp
      simp only at hn
      obtain ⟨h1, h2⟩ := h.tag_range hnm
      refine ⟨n, by simp [hn], ?_⟩
      unfold lookV4
      rw [if_neg (by omega), List.getElem?_eq_getElem (by omega)]
      rfl)
    (by
      intro it hit hp
      obtain ⟨b, k, ns, hk, he, rfl⟩ := hmem it hit
      exact h.elements _ he hp)
    (by
      intro it hit hp n hn
      obtain ⟨b, k, ns, hk, he, rfl⟩ := hmem it hit
      have hd := h.dims b (List.mem_of_getElem? hk)
      have hd0 : b.type.dim ≠ 0 := by
        intro h0
        cases htt : b.type <;> simp [htt, GmshType.dim] at h0 hp
      by_cases hd1 : b.type.dim = 1
      · exact h.ends _ he hd1 n hn
      · unfold FileV4.isMain
        rw [List.any_eq_true]
        refine ⟨_, he, ?_⟩
        simp only [Bool.and_eq_true, decide_eq_true_eq]
        exact ⟨by omega, hn⟩)
    (repeatsOk_v4 h.repeats)
    (by
      intro pre b post l y r h1 h2 hy x hx hxd hs
      unfold blocksV4 at h1
      obtain ⟨l1, b', k, l2, h3, rfl, l1', rfl, rfl⟩ := zipIdx_split h1
      simp only at h2
      obtain ⟨m1, t, h4, h5, h6⟩ := List.map_eq_append_iff.mp h2
      obtain ⟨y', m2, rfl, rfl, -⟩ := List.map_eq_cons_iff.mp h6
      have := h.once _ b' l2 h3 hy m1 y' m2 h4 (x.t, x.nodes) (by
        rcases List.mem_append.mp hx with hx | hx
        · refine List.mem_append_left _ ?_
          obtain ⟨g, hg, hxg⟩ := List.mem_flatten.mp hx
          obtain ⟨bi, hbi, rfl⟩ := List.mem_map.mp hg
          obtain ⟨ns, hns, rfl⟩ := List.mem_map.mp hxg
          exact List.mem_flatMap.mpr ⟨bi.1, List.mem_map_of_mem hbi, List.mem_map.mpr ⟨ns, hns, rfl⟩⟩
        · refine List.mem_append_right _ ?_
          rw [← h5] at hx
          obtain ⟨ns, hns, rfl⟩ := List.mem_map.mp hx
          exact List.mem_map.mpr ⟨ns, hns, rfl⟩) hxd hs
      rw [← h5, List.getLast?_map, this]
      exact ⟨_, rfl, rfl, rfl⟩)
    (by
      intro hchk
      have := h.complete hchk
      have he : ((blocksV4 file).flatten.map fun it => (it.t, it.nodes)) = file.elements.map fun e => (e.1.type, e.2) := by
        unfold blocksV4 FileV4.elements
        rw [List.map_flatten, List.map_map, List.map_flatMap, List.flatMap_def]
        conv_rhs => rw [← List.zipIdx_map_fst 0 file.blocks, List.map_map]
        congr 1
        refine List.map_congr_left fun bi _ => ?_
        simp only [Function.comp_def, List.map_map]
      rw [he]
      exact this)
    (by
      intro it hit
      obtain ⟨b, k, ns, hk, he, rfl⟩ := hmem it hit
      have hd := h.dims b (List.mem_of_getElem? hk)
      have h2 : 2 - (2 - b.type.dim) = b.dim := by omega
      simp only [hk, Option.bind_some, h2]
      exact makeMap_isSome (h.tags b (List.mem_of_getElem? hk)))
  refine ⟨r, ?_⟩
  unfold readV4
  rw [hmain]
  simp only [Option.bind_some]
  rw [hs]
  simp only [Option.bind_some]
  have h1 : file.blocks.zipIdx.foldlM (fun st (bi : BlockV4 × ℕ) =>
      bi.1.elements.foldlM (fun st nodes =>
        insertElement geo (fun n => if n < file.minTag then none else s.1[n - file.minTag]?)
          (fun n => if n < file.minTag then none else
            ((s.2.1[n - file.minTag]?).join.bind fun jk =>
              (file.nodeBlocks[jk.1]?).bind fun b => b[jk.2]?).map (·.2))
          st bi.1.type nodes bi.2) { st with begin := none })
    (⟨none, s.2.2, fun _ => []⟩ : ReadState G) = some st := by
    rw [← hst]
    unfold blocksV4
    rw [List.foldlM_map]
    congr 1
    funext st' bi
    unfold runBlock
    rw [List.foldlM_map]
    rfl
  rw [h1]
  exact hr

end Verif
