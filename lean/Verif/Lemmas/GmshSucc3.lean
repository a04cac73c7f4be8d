import Verif.Lemmas.GmshSucc2

/-! Reading does not fail: nodes, physical numbers, the two versions. -/

namespace Verif
variable {P G : Type}

theorem assignTags_some {m : List (List ℕ)} {tags : ℕ → Option (List ℕ)} {n : ℕ}
    (h : ∀ l ∈ m, ∀ p ∈ l, (tags p).isSome = true) : ∃ l, assignTags m tags n = some l := by
  unfold assignTags
  refine gmsh_mapM_isSome fun i _ => ?_
  cases hm : m[i]? with
  | none => rfl
  | some l =>
    obtain ⟨ts, hts⟩ := gmsh_mapM_isSome (h l (List.mem_of_getElem? hm))
    simp [hts]

section finish
variable {geo : GmshGeo P G} {L : ℕ → Option ℕ} {coord : ℕ → Option P} {nodes0 : List (Option G)} {done : List Item}
  {st : ReadState G} {ops : GeoOps G} {chk : Bool} {tags : ℕ → ℕ → Option (List ℕ)}

theorem finish_some (hE : ElemInv geo L coord nodes0 done st) (hP : PointInv L done st)
    (hv : ValidInput st.factory.nodes st.factory.edges st.factory.elements)
    (hc : chk = true → CompleteInput st.factory.nodes.length st.factory.edges st.factory.elements)
    (ht : ∀ it ∈ done, it.t.dim ≤ 2 → (tags (2 - it.t.dim) it.p).isSome = true) : ∃ r, finishRead ops chk tags st = some r := by
  have hb : ∃ M, st.factory.build ops chk = some M := by
    unfold Factory.build
    rcases buildMesh_spec ops st.factory.nodes st.factory.edges st.factory.elements chk hv.nodes_some with
      ⟨-, M, e, -⟩ | ⟨h, -⟩
    · rw [e]
      exact ⟨_, rfl⟩
    · exact absurd ⟨hv, hc⟩ h
  obtain ⟨M, hM⟩ := hb
  have key : ∀ c < 2, ∀ l ∈ st.mi2gi c, ∀ p ∈ l, (tags c p).isSome = true := by
    intro c hc l hl p hp
    obtain ⟨gs, h1, h2, -⟩ := hE.groups c hc
    rw [h1] at hl
    obtain ⟨g, hg, rfl⟩ := List.mem_map.mp hl
    obtain ⟨it, hit, rfl⟩ := List.mem_map.mp hp
    have hmem : it ∈ gs.flatten := List.mem_flatten.mpr ⟨g, hg, hit⟩
    rw [h2] at hmem
    obtain ⟨h4, h5⟩ := List.mem_filter.mp hmem
    have h5 : it.t.dim = 2 - c := by simpa using h5
    have := ht it h4 (by omega)
    have h6 : 2 - it.t.dim = c := by omega
    rwa [h6] at this
  have key2 : ∀ l ∈ st.mi2gi 2, ∀ p ∈ l, (tags 2 p).isSome = true := by
    intro l hl p hp
    obtain ⟨i, hi⟩ := List.mem_iff_getElem?.mp hl
    have := hP.entries i
    rw [hi] at this
    simp only [Option.getD_some] at this
    rw [this] at hp
    obtain ⟨it, hit, rfl⟩ := List.mem_map.mp hp
    obtain ⟨h4, h5⟩ := List.mem_filter.mp hit
    have h5 : PointAt L it i := by simpa using h5
    have h6 : it.t.dim = 0 := by rw [h5.1]; rfl
    have := ht it h4 (by omega)
    rwa [h6] at this
  obtain ⟨p0, hp0⟩ := assignTags_some (n := M.1.trias.length + M.1.quads.length) (key 0 (by omega))
  obtain ⟨p1, hp1⟩ := assignTags_some (n := M.1.segments.length) (key 1 (by omega))
  obtain ⟨p2, hp2⟩ := assignTags_some (n := M.1.points.length) key2
  unfold finishRead
  rw [hM]
  simp only [Option.bind_some]
  rw [hp0, hp1, hp2]
  exact ⟨_, rfl⟩

end finish

/-- Everything after the insertion of the nodes. -/
theorem read_some {geo : GmshGeo P G} {ops : GeoOps G} {chk : Bool} {isMain : ℕ → Bool} {nodes : List (ℕ × P)}
    {look : ℕ → Option (Option ℕ)} {coord : ℕ → Option P} {f0 : Factory G} {blocks : List (List Item)}
    {tags : ℕ → ℕ → Option (List ℕ)} (hnd : (nodes.map (·.1)).Nodup)
    (hn : NodesDone geo isMain nodes (fun n => (look n).join) coord f0)
    (hdim : ∀ it ∈ blocks.flatten, it.t.dim ≤ 2)
    (hpoint : ∀ it ∈ blocks.flatten, it.t = .point → ∃ n, it.nodes[0]? = some n ∧ (look n).isSome = true)
    (hel : ∀ it ∈ blocks.flatten, it.t ≠ .point → ElementValid geo nodes it.t it.nodes)
    (hmain : ∀ it ∈ blocks.flatten, it.t ≠ .point → ∀ n ∈ cornerNumbers it.t it.nodes, isMain n = true)
    (hrep : RepeatsOk (fun n => (mainNumbers (nodes.map (·.1)) isMain).idxOf? n) blocks)
    (honce : ∀ pre b post l y r, blocks = pre ++ b :: post → b = l ++ y :: r → y.t.dim = 1 → ∀ x ∈ pre.flatten ++ l,
      x.t.dim = 1 → SameEnds (cornerNumbers x.t x.nodes) (cornerNumbers y.t y.nodes) →
      ∃ z, l.getLast? = some z ∧ z.t = y.t ∧ z.nodes = y.nodes)
    (hcomp : chk = true → FileComplete (blocks.flatten.map fun it => (it.t, it.nodes)) isMain)
    (htags : ∀ it ∈ blocks.flatten, (tags (2 - it.t.dim) it.p).isSome = true) :
    ∃ st r, blocks.foldlM (runBlock geo look coord) ⟨none, f0, fun _ => []⟩ = some st ∧ finishRead ops chk tags st = some r := by
  have hL : (fun n => (look n).join) = fun n => (mainNumbers (nodes.map (·.1)) isMain).idxOf? n := funext hn.look
  have hC : coord = nodeCoord nodes := funext hn.coord
  have hlook : ∀ n i, (mainNumbers (nodes.map (·.1)) isMain).idxOf? n = some i →
      (mainNumbers (nodes.map (·.1)) isMain)[i]? = some n := by
    intro n i h
    rw [List.idxOf?_eq_some_iff] at h
    obtain ⟨hi, h, -⟩ := h
    rw [List.getElem?_eq_getElem hi]
    simpa using h
  have hlen : f0.nodes.length = (mainNumbers (nodes.map (·.1)) isMain).length := by
    rw [hn.nodes, List.length_map, mainNumbers_length]
  have hlt : ∀ n i, (look n).join = some i → i < f0.nodes.length := by
    intro n i h
    have h := (hn.look n).symm.trans h
    rw [hlen]
    exact (List.getElem?_eq_some_iff.mp (hlook n i h)).1
  have hinj : ∀ a b i, (look a).join = some i → (look b).join = some i → a = b := by
    intro a b i ha hb
    have ha := hlook a i ((hn.look a).symm.trans ha)
    have hb := hlook b i ((hn.look b).symm.trans hb)
    rw [ha] at hb
    simpa using hb
  have hfound : ∀ n, isMain n = true → n ∈ nodes.map (·.1) → ∃ i, (look n).join = some i := by
    intro n h1 h2
    have hmem : n ∈ mainNumbers (nodes.map (·.1)) isMain := List.mem_filter.mpr ⟨h2, h1⟩
    have := hn.look n
    rw [this]
    cases h : (mainNumbers (nodes.map (·.1)) isMain).idxOf? n with
    | none => exact absurd hmem (List.idxOf?_eq_none_iff.mp h)
    | some i => exact ⟨i, rfl⟩
  have hok : ∀ it ∈ blocks.flatten, ItemOk geo look coord it := by
    intro it hit
    refine ⟨hdim it hit, hpoint it hit, fun ht => ?_, fun ht => ?_⟩
    · unfold cornersBy
      have hv := hel it hit ht
      rw [if_neg (by have := hv.long; omega)]
      obtain ⟨l, hl⟩ := gmsh_mapM_isSome (g := fun n => (look n).join) (xs := it.nodes.take it.t.corners) fun n h => by
        obtain ⟨i, hi⟩ := hfound n (hmain it hit ht n h) (hv.known n (List.mem_of_mem_take h))
        rw [hi]
        rfl
      rw [hl]
      rfl
    · rw [hC]
      exact (hel it hit ht).made
  have honce' : EdgesOnce (fun n => (look n).join) blocks := by
    intro pre b post l y r h1 h2 hy x hx hxd p q hp hq hs
    refine honce pre b post l y r h1 h2 hy x hx hxd ?_
    obtain ⟨-, hpf⟩ := cornersBy_spec hp
    obtain ⟨-, hqf⟩ := cornersBy_spec hq
    revert hpf hqf
    generalize cornerNumbers x.t x.nodes = xs
    generalize cornerNumbers y.t y.nodes = ys
    intro hpf hqf
    match xs, ys, hpf, hqf with
    | [a, b], [c, d], hpf, hqf =>
      simp only [List.forall₂_cons, List.Forall₂.nil, and_true] at hpf hqf
      rcases hs with rfl | rfl
      · left
        rw [hinj a c _ hpf.1 hqf.1, hinj b d _ hpf.2 hqf.2]
      · right
        simp only [Prod.fst_swap, Prod.snd_swap] at hpf
        rw [hinj a d _ hpf.1 hqf.2, hinj b c _ hpf.2 hqf.1]
        rfl
  obtain ⟨st, hst, hE, hP, hd⟩ := run_some hn.edges hn.elements hlt hok (by rw [hL]; exact hrep) honce'
  have hv := validInput_run hE hn.isSome hinj hlt (fun it hit ht => (hel it hit ht).corners) hd
  have hcI : chk = true → CompleteInput st.factory.nodes.length st.factory.edges st.factory.elements := by
    intro h
    refine completeInput_run hE (main := isMain) (fun v hv => ?_) (hcomp h)
    rw [hlen] at hv
    refine ⟨(mainNumbers (nodes.map (·.1)) isMain)[v], (List.mem_filter.mp (List.getElem_mem hv)).2, ?_⟩
    rw [hn.look, List.idxOf?_eq_some_iff]
    refine ⟨hv, by simp, fun j hj => ?_⟩
    have hnd' : (mainNumbers (nodes.map (·.1)) isMain).Nodup := hnd.filter _
    intro h
    have h : (mainNumbers (nodes.map (·.1)) isMain)[j] = (mainNumbers (nodes.map (·.1)) isMain)[v] := by simpa using h
    have := (List.Nodup.getElem_inj_iff hnd').mp h
    omega
  obtain ⟨r, hr⟩ := finish_some (ops := ops) hE hP hv hcI fun it hit _ => htags it hit
  exact ⟨st, r, hst, hr⟩

theorem markMain_length (main : List Bool) (n : ℕ) : main.length ≤ (markMain main n).length ∧ n < (markMain main n).length := by
  unfold markMain
  rw [List.length_set]
  split_ifs with h
  · rw [grow_length]
    omega
  · omega

theorem markLoop_some {nodes : List ℕ} {k : ℕ} (hk : k ≤ nodes.length) (slot : ℕ → Option ℕ)
    (hs : ∀ n ∈ nodes.take k, (slot n).isSome = true) (main : List Bool) :
    ∃ main', (List.range k).foldlM (fun main i => (nodes[i]?).bind fun n => (slot n).bind fun q => some (markMain main q)) main =
      some main' ∧ main.length ≤ main'.length := by
  refine foldlM_exists (fun _ (m : List Bool) => main.length ≤ m.length) le_rfl ?_
  intro pre i post hl s hs'
  have hi : i < k := List.mem_range.mp (by rw [hl]; simp)
  have hin : i < nodes.length := by omega
  obtain ⟨q, hq⟩ := Option.isSome_iff_exists.mp (hs nodes[i] (by
    rw [List.mem_iff_getElem?]
    exact ⟨i, by rw [List.getElem?_take_of_lt hi, List.getElem?_eq_getElem hin]⟩))
  rw [List.getElem?_eq_getElem hin]
  simp only [Option.bind_some, hq]
  exact ⟨_, rfl, hs'.trans (markMain_length s q).1⟩

/-! ### Version 2 -/

section v2
variable {geo : GmshGeo P G} {ops : GeoOps G} {chk : Bool} {file : FileV2 P}

theorem mainV2_some (h : file.Valid geo chk) : ∃ main, mainV2 file = some main ∧ file.nodes.length ≤ main.length := by
  unfold mainV2
  obtain ⟨m, hm, hl⟩ := foldlM_exists (l := file.elements) (f := fun main (e : ElementV2) =>
      if e.type.dim ≤ 2 then
        if e.type ≠ .point then markCorners e.type e.nodes main else some main
      else none) (s0 := List.replicate file.nodes.length false) (fun _ m => file.nodes.length ≤ m.length) (by simp) (by
    intro pre e post hl s hs
    have he : e ∈ file.elements := by rw [hl]; simp
    by_cases hp : e.type = .point
    · rw [if_pos (by rw [hp]; decide), if_neg (by simpa using hp)]
      exact ⟨s, rfl, hs⟩
    · have hv := h.elements e he hp
      rw [if_pos hv.dim, if_pos hp]
      obtain ⟨ref, hr⟩ := refEl_of_dim hv.dim
      unfold markCorners
      rw [hr]
      simp only [Option.bind_some]
      obtain ⟨m, hm, hml⟩ := markLoop_some (k := ref.numNodes) (by rw [← corners_eq hr]; exact hv.long) some (fun _ _ => rfl) s
      exact ⟨m, hm, hs.trans hml⟩)
  rw [hm]
  obtain ⟨e, he, hd⟩ := h.cell
  have hany : file.elements.any (fun e => decide (e.type.dim = 2)) = true := by
    rw [List.any_eq_true]
    exact ⟨e, he, by simpa using hd⟩
  exact ⟨m, by simp only [Option.bind_some]; rw [if_pos hany], hl⟩

theorem nodesV2_some (h : file.Valid geo chk) {main : List Bool} (hmain : ∀ n, main[n]? = some true ↔ file.isMain n = true) :
    ∃ s, file.nodes.zipIdx.foldlM (insertNodeV2 geo main)
      (List.replicate main.length none, List.replicate main.length none, {}) = some s ∧ s.1.length = main.length := by
  refine foldlM_exists (fun _ (s : List (Option ℕ) × List (Option ℕ) × Factory G) => s.1.length = main.length) (by simp) ?_
  rintro pre ⟨⟨n, x⟩, i⟩ post hl s hs
  have hx : (n, x) ∈ file.nodes := by
    have : ((n, x), i) ∈ file.nodes.zipIdx := by rw [hl]; simp
    exact (List.mem_zipIdx this).2.2 ▸ List.getElem_mem _
  unfold insertNodeV2
  simp only
  by_cases h1 : main[n]? = some true
  · rw [if_neg (by simpa using h1)]
    obtain ⟨g, hg⟩ := Option.isSome_iff_exists.mp (h.nodes (n, x) hx ((hmain n).mp h1))
    simp only at hg
    rw [hg]
    simp only [Option.bind_some]
    rw [if_pos (by rw [hs]; exact (List.getElem?_eq_some_iff.mp h1).1)]
    exact ⟨_, rfl, by simpa using hs⟩
  · rw [if_pos h1]
    exact ⟨_, rfl, hs⟩

theorem zipIdx_split {α β : Type} {l : List α} {f : α × ℕ → β} {pre post : List β} {y : β}
    (h : l.zipIdx.map f = pre ++ y :: post) : ∃ l1 x k l2, l = l1 ++ x :: l2 ∧ f (x, k) = y ∧
      ∃ l1' : List (α × ℕ), pre = l1'.map f ∧ l1'.map (·.1) = l1 := by
  obtain ⟨l1, t, h1, h2, h3⟩ := List.map_eq_append_iff.mp h
  obtain ⟨xk, l2, rfl, h4, -⟩ := List.map_eq_cons_iff.mp h3
  refine ⟨l1.map (·.1), xk.1, xk.2, l2.map (·.1), ?_, h4, l1, h2.symm, rfl⟩
  have := congrArg (List.map (·.1)) h1
  rw [List.zipIdx_map_fst] at this
  rw [this]
  simp

theorem readV2_some (h : file.Valid geo chk) : ∃ r, readV2 geo ops chk file = some r := by
  obtain ⟨main, hmain, hlen⟩ := mainV2_some h
  have hspec := (mainV2_spec hmain).1
  obtain ⟨s, hs, hsl⟩ := nodesV2_some h hspec
  have hN := nodesV2 file.isMain hspec h.numbers hs
  have hmem : ∀ it ∈ [file.elements.zipIdx.map itemV2].flatten, ∃ e ∈ file.elements, ∃ k, it = itemV2 (e, k) ∧
      file.elements[k]? = some e := by
    intro it hit
    rw [List.flatten_singleton] at hit
    obtain ⟨⟨e, k⟩, hek, rfl⟩ := List.mem_map.mp hit
    have := List.mem_zipIdx hek
    have hk : file.elements[k]? = some e := by
      rw [List.getElem?_eq_getElem (by omega)]
      exact congrArg some this.2.2.symm
    exact ⟨e, List.mem_of_getElem? hk, k, rfl, hk⟩
  obtain ⟨st, r, hst, hr⟩ := read_some (ops := ops) (chk := chk) (look := fun n => s.1[n]?)
    (blocks := [file.elements.zipIdx.map itemV2]) (tags := fun _ i => (file.elements[i]?).map fun e => [e.phys]) h.numbers hN
    (by
      intro it hit
      obtain ⟨e, he, k, rfl, -⟩ := hmem it hit
      by_cases hp : e.type = .point
      · simp [itemV2, hp, GmshType.dim]
      · exact (h.elements e he hp).dim)
    (by
      intro it hit hp
      obtain ⟨e, he, k, rfl, -⟩ := hmem it hit
      obtain ⟨n, hn, hor⟩ := h.points e he hp
      refine ⟨n, by simp [itemV2, hn], ?_⟩
      have hlt : n < s.1.length := by
        rw [hsl]
        rcases hor with hor | hor
        · exact (List.getElem?_eq_some_iff.mp ((hspec n).mpr hor)).1
        · omega
      simp [hlt])
    (by
      intro it hit hp
      obtain ⟨e, he, k, rfl, -⟩ := hmem it hit
      exact h.elements e he hp)
    (by
      intro it hit hp n hn
      obtain ⟨e, he, k, rfl, -⟩ := hmem it hit
      unfold FileV2.isMain
      rw [List.any_eq_true]
      refine ⟨e, he, ?_⟩
      simp only [ne_eq, Bool.and_eq_true, decide_eq_true_eq]
      exact ⟨hp, hn⟩)
    (repeatsOk_v2 h.repeats)
    (by
      intro pre b post l y r h1 h2 hy x hx hxd hs
      have hpre : pre = [] := by
        cases pre with
        | nil => rfl
        | cons a pre =>
          have := congrArg List.length h1
          simp at this
      subst hpre
      simp only [List.nil_append, List.cons.injEq] at h1
      obtain ⟨rfl, -⟩ := h1
      obtain ⟨l1, y', k, l2, h3, rfl, l1', rfl, rfl⟩ := zipIdx_split h2
      simp only [List.flatten_nil, List.nil_append, List.mem_map] at hx
      obtain ⟨x', hx', rfl⟩ := hx
      obtain ⟨z, hz, hzt, hzn⟩ := h.once _ y' l2 h3 hy x'.1 (List.mem_map_of_mem hx') hxd hs
      rw [List.getLast?_map] at hz ⊢
      obtain ⟨z', hz', rfl⟩ := Option.map_eq_some_iff.mp hz
      exact ⟨itemV2 z', by rw [hz']; rfl, hzt, hzn⟩)
    (by
      intro hchk
      have := h.complete hchk
      have he : ([file.elements.zipIdx.map itemV2].flatten.map fun it => (it.t, it.nodes)) =
          file.elements.map fun e => (e.type, e.nodes) := by
        rw [List.flatten_singleton, List.map_map]
        conv_rhs => rw [← List.zipIdx_map_fst 0 file.elements, List.map_map]
        rfl
      rw [he]
      exact this)
    (by
      intro it hit
      obtain ⟨e, he, k, rfl, hk⟩ := hmem it hit
      simp [itemV2, hk])
  refine ⟨r, ?_⟩
  unfold readV2
  rw [hmain]
  simp only [Option.bind_some]
  rw [hs]
  simp only [Option.bind_some]
  have h1 : file.elements.zipIdx.foldlM (fun st ei =>
      insertElement geo (fun n => s.1[n]?) (fun n => ((s.2.1[n]?).join.bind fun i => file.nodes[i]?).map (·.2))
        st ei.1.type ei.1.nodes ei.2) (⟨none, s.2.2, fun _ => []⟩ : ReadState G) = some st := by
    rw [List.foldlM_cons] at hst
    obtain ⟨st', h2, h3⟩ := Option.bind_eq_some_iff.mp hst
    cases h3
    unfold runBlock at h2
    rw [List.foldlM_map] at h2
    exact h2
  rw [h1]
  exact hr

end v2
end Verif
