import Verif.Lemmas.MeshBuild3

/-! The mesh constructor as a whole. -/

namespace Verif
variable {G : Type}

theorem side_mem (nodes : List ℕ) (j : ℕ) (hj : j < nodes.length) :
    (side nodes j).1 ∈ nodes ∧ (side nodes j).2 ∈ nodes := by
  have hmod : (j + 1) % nodes.length < nodes.length := Nat.mod_lt _ (by omega)
  simp [side, hj, hmod]

theorem complete_iff (n : ℕ) (edges : List (EdgeIn G)) (cells : List (CellIn G)) (m : EdgeMap G)
    (hI : Inv n (edges.map (fun e => (e.p0, e.p1))) (allSides 0 cells) m) :
    complete n m = true ↔ CompleteInput n edges cells := by
  have hadj : ∀ r ∈ m, (!r.adj.isEmpty) = true ↔ ∃ c ∈ cells, ∃ j < c.nodes.length,
      SamePair (r.p0, r.p1) (side c.nodes j) := by
    intro r hr
    have : (!r.adj.isEmpty) = true ↔ ∃ a, a ∈ r.adj := by
      cases h : r.adj <;> simp
    rw [this]
    constructor
    · rintro ⟨a, ha⟩
      obtain ⟨s, hs, _, hsp⟩ := (hI.adj r hr a).1 ha
      obtain ⟨k, hk, j, hj, rfl⟩ := (mem_allSides 0 cells s).1 hs
      exact ⟨_, List.getElem_mem hk, j, hj, hsp⟩
    · rintro ⟨c, hc, j, hj, hsp⟩
      obtain ⟨k, hk, rfl⟩ := List.getElem_of_mem hc
      exact ⟨(0 + k, j), (hI.adj r hr _).2 ⟨_, (mem_allSides 0 cells _).2 ⟨k, hk, j, hj, rfl⟩, rfl, hsp⟩⟩
  unfold complete CompleteInput
  rw [Bool.and_eq_true, List.all_eq_true, List.all_eq_true]
  simp only [List.mem_range, List.any_eq_true, Bool.or_eq_true, decide_eq_true_eq]
  constructor
  · rintro ⟨h1, h2⟩
    constructor
    · intro e he
      obtain ⟨i, hi, rfl⟩ := List.getElem_of_mem he
      obtain ⟨r, hr, _, hre⟩ := hI.sup i (by simpa using hi)
      simp only [List.getElem_map] at hre
      have := (hadj r hr).1 (h1 r hr)
      rwa [hre] at this
    · intro v hv
      obtain ⟨r, hr, hrv⟩ := h2 v hv
      obtain ⟨c, hc, j, hj, hsp⟩ := (hadj r hr).1 (h1 r hr)
      refine ⟨c, hc, ?_⟩
      have hm := side_mem c.nodes j hj
      rcases hsp with hsp | hsp
      · simp only [Prod.ext_iff] at hsp
        rcases hrv with rfl | rfl
        · rw [hsp.1]; exact hm.1
        · rw [hsp.2]; exact hm.2
      · simp only [Prod.ext_iff, Prod.fst_swap, Prod.snd_swap] at hsp
        rcases hrv with rfl | rfl
        · rw [hsp.1]; exact hm.2
        · rw [hsp.2]; exact hm.1
  · rintro ⟨h1, h2⟩
    constructor
    · intro r hr
      rw [hadj r hr]
      cases hg : r.gidx with
      | none =>
        obtain ⟨s, hs, hsp⟩ := hI.new r hr hg
        obtain ⟨k, hk, j, hj, rfl⟩ := (mem_allSides 0 cells s).1 hs
        exact ⟨_, List.getElem_mem hk, j, hj, hsp⟩
      | some i =>
        obtain ⟨⟨hi, he⟩, _⟩ := hI.supInv r hr i hg
        simp only [List.getElem_map] at he
        rw [he]
        exact h1 _ (List.getElem_mem (by simpa using hi))
    · intro v hv
      obtain ⟨c, hc, hvc⟩ := h2 v hv
      obtain ⟨k, hk, rfl⟩ := List.getElem_of_mem hc
      obtain ⟨j, hj, rfl⟩ := List.getElem_of_mem hvc
      obtain ⟨r, hr, hsp⟩ := hI.cov _ ((mem_allSides 0 cells _).2 ⟨k, hk, j, hj, rfl⟩)
      refine ⟨r, hr, ?_⟩
      have e1 : (side (cells[k]).nodes j).1 = (cells[k]).nodes[j] := by simp [side, hj]
      rcases hsp with hsp | hsp
      · simp only [Prod.ext_iff] at hsp
        left; rw [hsp.1, e1]
      · simp only [Prod.ext_iff, Prod.fst_swap, Prod.snd_swap] at hsp
        right; rw [hsp.2, e1]

theorem validInput_iff (nodes : List (Option G)) (edges : List (EdgeIn G)) (cells : List (CellIn G))
    (hs : ∀ x ∈ nodes, x.isSome = true) :
    ValidInput nodes edges cells ↔ EdgesOk nodes.length [] edges ∧ ∀ c ∈ cells, CellOk nodes.length c := by
  rw [edgesOk_iff]
  constructor
  · intro h
    exact ⟨⟨fun e he => ⟨h.edge_ne e he, h.edge_lt e he, h.edge_geo e he, by simp⟩, h.edge_distinct⟩,
      fun c hc => ⟨h.cell_len c hc, h.cell_lt c hc, h.cell_ne c hc⟩⟩
  · rintro ⟨⟨h1, h2⟩, h3⟩
    exact ⟨hs, fun e he => (h1 e he).ne, fun e he => (h1 e he).lt, fun e he => (h1 e he).geo, h2,
      fun c hc => (h3 c hc).len, fun c hc => (h3 c hc).lt, fun c hc => (h3 c hc).ne⟩

theorem mapM_rel {α β : Type} (f : α → Option β) (P : α → β → Prop) (l : List α)
    (h : ∀ x ∈ l, ∃ y, f x = some y ∧ P x y) :
    ∃ ys, l.mapM f = some ys ∧ ys.length = l.length ∧
      ∀ i (h1 : i < l.length) (h2 : i < ys.length), P l[i] ys[i] := by
  induction l with
  | nil => exact ⟨[], rfl, rfl, by simp⟩
  | cons a l ih =>
    obtain ⟨y, e1, hp⟩ := h a (by simp)
    obtain ⟨ys, e2, hl, hp'⟩ := ih (fun x hx => h x (by simp [hx]))
    refine ⟨y :: ys, ?_, by simp [hl], ?_⟩
    · rw [List.mapM_cons, e1, e2]; rfl
    · intro i h1 h2
      cases i with
      | zero => exact hp
      | succ i => exact hp' i (by simpa using h1) (by simpa using h2)

/-- What is known about a created cell. -/
structure CellBuilt (ops : GeoOps G) (pts : List G) (segs : List (Segment G)) (ci : ℕ) (c : CellIn G)
    (ref : RefEl) (cell : Cell G) : Prop where
  ref_cell : ref = .tria ∨ ref = .quad
  numNodes : ref.numNodes = c.nodes.length
  index : cell.index = ci
  geo : cellGeo ops pts c cell.geo
  nodes : cell.nodes = c.nodes
  edges_len : cell.edges.length = c.nodes.length
  ori_len : cell.ori.length = c.nodes.length
  sides : ∀ j < c.nodes.length, ∃ e s, cell.edges[j]? = some e ∧ segs[e]? = some s ∧
    SamePair (s.p0, s.p1) (side c.nodes j) ∧ cell.ori[j]? = some (decide (s.p0 = c.nodes.getD j 0))

/-- Everything known about a constructed mesh. -/
structure Built (ops : GeoOps G) (nodes : List (Option G)) (edges : List (EdgeIn G))
    (cells : List (CellIn G)) (M : Mesh G) : Prop where
  points : M.points.map some = nodes
  numCells : M.trias.length + M.quads.length = cells.length
  trias : ∀ p (h : p < M.trias.length), ∃ c, cells[(M.trias[p]).index]? = some c ∧
    CellBuilt ops M.points M.segments (M.trias[p]).index c .tria M.trias[p] ∧
    M.ptrs0[(M.trias[p]).index]? = some (some (.tria p))
  quads : ∀ p (h : p < M.quads.length), ∃ c, cells[(M.quads[p]).index]? = some c ∧
    CellBuilt ops M.points M.segments (M.quads[p]).index c .quad M.quads[p] ∧
    M.ptrs0[(M.quads[p]).index]? = some (some (.quad p))
  ptr0 : ∀ i < cells.length, (∃ p, ∃ h : p < M.trias.length, (M.trias[p]).index = i) ∨
    (∃ p, ∃ h : p < M.quads.length, (M.quads[p]).index = i)
  segs : ∀ p (h : p < M.segments.length), (M.segments[p]).index < M.segments.length ∧
    M.ptrs1[(M.segments[p]).index]? = some (some (.seg p))
  ptr1 : ∀ i < M.segments.length, ∃ p, ∃ h : p < M.segments.length, (M.segments[p]).index = i
  ptr2 : ∀ i < M.points.length, M.ptrs2[i]? = some (some (.pt i))
  len0 : M.ptrs0.length = cells.length
  len1 : M.ptrs1.length = M.segments.length
  len2 : M.ptrs2.length = M.points.length
  seg_ne : ∀ s ∈ M.segments, s.p0 ≠ s.p1
  seg_lt : ∀ s ∈ M.segments, s.p0 < nodes.length ∧ s.p1 < nodes.length
  seg_inj : ∀ p (hp : p < M.segments.length) q (hq : q < M.segments.length),
    SamePair (M.segments[p].p0, M.segments[p].p1) (M.segments[q].p0, M.segments[q].p1) → p = q
  seg_count : edges.length ≤ M.segments.length
  seg_supplied : ∀ s ∈ M.segments, ∀ h : s.index < edges.length,
    (s.p0, s.p1) = (edges[s.index].p0, edges[s.index].p1) ∧ edges[s.index].geo = some s.geo
  seg_new : ∀ s ∈ M.segments, edges.length ≤ s.index →
    (∃ c ∈ cells, ∃ j < c.nodes.length, SamePair (s.p0, s.p1) (side c.nodes j)) ∧
    ((∃ c ∈ cells, ∃ j < c.nodes.length, ∃ cg, c.geo = some cg ∧ s.geo = ops.sub cg 1 j ∧
        (s.p0, s.p1) = side c.nodes j) ∨
     ((∀ c ∈ cells, ∀ j < c.nodes.length, SamePair (s.p0, s.p1) (side c.nodes j) → c.geo = none) ∧
       ∃ g0 g1, M.points[s.p0]? = some g0 ∧ M.points[s.p1]? = some g1 ∧ s.geo = ops.line g0 g1))

/-- Entities of one kind in a list of created cells. -/
def sel (ref : RefEl) (cs : List (RefEl × Cell G)) : List (Cell G) :=
  cs.filterMap (fun rc => if rc.1 = ref then some rc.2 else none)

theorem mem_sel (ref : RefEl) (cs : List (RefEl × Cell G)) (x : Cell G) :
    x ∈ sel ref cs ↔ (ref, x) ∈ cs := by
  unfold sel
  rw [List.mem_filterMap]
  constructor
  · rintro ⟨⟨r, c⟩, h, h2⟩
    split_ifs at h2 with h3
    cases h2
    simp only at h3
    rw [← h3]; exact h
  · intro h
    exact ⟨(ref, x), h, by simp⟩

theorem sel_length (cs : List (RefEl × Cell G)) (h : ∀ rc ∈ cs, rc.1 = .tria ∨ rc.1 = .quad) :
    (sel .tria cs).length + (sel .quad cs).length = cs.length := by
  induction cs with
  | nil => rfl
  | cons a l ih =>
    have ih := ih (fun rc hrc => h rc (by simp [hrc]))
    rcases h a (by simp) with ha | ha
    · simp [sel, ha] at ih ⊢; omega
    · simp [sel, ha] at ih ⊢; omega

theorem sel_sublist (ref : RefEl) (cs : List (RefEl × Cell G)) :
    ((sel ref cs).map (·.index)).Sublist (cs.map (·.2.index)) := by
  induction cs with
  | nil => simp [sel]
  | cons a l ih =>
    by_cases ha : a.1 = ref
    · have : sel ref (a :: l) = a.2 :: sel ref l := by simp [sel, ha]
      rw [this, List.map_cons, List.map_cons]
      exact ih.cons_cons _
    · have : sel ref (a :: l) = sel ref l := by simp [sel, ha]
      rw [this, List.map_cons]
      exact ih.cons _

theorem buildMesh_spec (ops : GeoOps G) (nodes : List (Option G)) (edges : List (EdgeIn G))
    (cells : List (CellIn G)) (chk : Bool) (hs : ∀ x ∈ nodes, x.isSome = true) :
    ((ValidInput nodes edges cells ∧ (chk = true → CompleteInput nodes.length edges cells)) ∧
      ∃ M, buildMesh ops nodes edges cells chk = some M ∧ Built ops nodes edges cells M) ∨
    (¬ (ValidInput nodes edges cells ∧ (chk = true → CompleteInput nodes.length edges cells)) ∧
      buildMesh ops nodes edges cells chk = none) := by
  unfold buildMesh
  rw [validInput_iff nodes edges cells hs]
  rcases registerAll_spec ops nodes.length nodes rfl hs edges [] [] (Inv.nil _) with
    ⟨hE, m1, e1, hI1⟩ | ⟨hE, e1⟩
  swap
  · right
    refine ⟨fun h => hE h.1.1, ?_⟩
    simp only [List.length_nil] at e1
    rw [e1]; rfl
  have hG0 : GInv ops ([] : List (EdgeIn G)) cells [] := ⟨by simp, by simp, by simp, by simp⟩
  have hG1 := registerAll_ginv ops cells edges [] nodes [] _ hG0 e1
  simp only [List.length_nil, Nat.zero_add] at e1
  rw [e1, Option.bind_some]
  simp only [List.nil_append] at hI1 hG1
  rcases scanAll_spec ops nodes.length _ nodes rfl hs cells [] m1 0 hI1 with ⟨hC, m, e2, hI⟩ | ⟨hC, e2⟩
  swap
  · right
    refine ⟨fun h => hC h.1.2, ?_⟩
    rw [e2]; rfl
  have hG := scanAll_ginv ops edges cells cells 0 nodes m1 _ (by simp) hG1 e2
  rw [e2, Option.bind_some]
  simp only [List.nil_append] at hI hG
  obtain ⟨pts, e3, hpts⟩ := buildPoints_spec nodes hs
  have hpl : pts.length = nodes.length := by rw [← hpts, List.length_map]
  simp only [e3, Option.bind_some]
  obtain ⟨segs, e4, hsl, hseg⟩ := buildSegments_spec ops pts m (by rw [hpl]; exact hI.lt) edges.length
  rw [e4, Option.bind_some]
  simp only
  have hcomp := complete_iff nodes.length edges cells m hI
  by_cases hchk : (chk && !complete pts.length m) = true
  · right
    rw [if_pos hchk]
    refine ⟨fun h => ?_, rfl⟩
    simp only [Bool.and_eq_true, Bool.not_eq_true'] at hchk
    have := hcomp.2 (h.2 hchk.1)
    rw [← hpl, hchk.2] at this
    simp at this
  left
  refine ⟨⟨⟨hE, hC⟩, ?_⟩, ?_⟩
  · intro h
    rw [← hcomp, ← hpl]
    simpa [h] using hchk
  rw [if_neg hchk]
  have hlen := hI.length_eq
  rw [List.length_map] at hlen
  rw [if_neg (by rw [hlen]; simp)]
  -- edge table
  have hadjlt : ∀ r ∈ m, ∀ a ∈ r.adj, a.1 < cells.length ∧ a.2 < 4 := by
    intro r hr a ha
    obtain ⟨s, hsm, rfl, _⟩ := (hI.adj r hr a).1 ha
    obtain ⟨k, hk, j, hj, rfl⟩ := (mem_allSides 0 cells s).1 hsm
    have := (hC _ (List.getElem_mem hk)).len
    simp only
    omega
  obtain ⟨tab, e5, hT, htab⟩ := edgeIndices_spec cells.length m hadjlt
  rw [e5, Option.bind_some]
  have hidx : ∀ p (h : p < m.length), segs[p].index = segIdx m edges.length p :=
    fun p h => (hseg p h (by omega)).1
  have hends : ∀ p (h : p < m.length), (segs[p].p0, segs[p].p1) = segEnds m[p] :=
    fun p h => (hseg p h (by omega)).2.1
  have hsame : ∀ p (h : p < m.length), SamePair (segs[p].p0, segs[p].p1) (m[p].p0, m[p].p1) := by
    intro p h
    rw [hends p h]; exact segEnds_samePair _
  -- the position of each side in the table
  have hpos : ∀ k (hk : k < cells.length), ∀ j < (cells[k]).nodes.length,
      ∃ p, ∃ hp : p < m.length, getTab tab k j = some p ∧
        SamePair (m[p].p0, m[p].p1) (side (cells[k]).nodes j) := by
    intro k hk j hj
    have hmem := (mem_allSides 0 cells ((k, j), side (cells[k]).nodes j)).2
      ⟨k, hk, j, hj, by rw [Nat.zero_add]⟩
    obtain ⟨r, hr, hsp⟩ := hI.cov _ hmem
    obtain ⟨p, hp, rfl⟩ := List.getElem_of_mem hr
    refine ⟨p, hp, htab k j p hp ((hI.adj _ hr _).2 ⟨_, hmem, rfl, hsp⟩) ?_, hsp⟩
    intro q hq hqa
    obtain ⟨s, hsm, hs1, hs2⟩ := (hI.adj _ (List.getElem_mem hq) _).1 hqa
    obtain ⟨k', hk', j', hj', rfl⟩ := (mem_allSides 0 cells s).1 hsm
    simp only [Prod.mk.injEq, Nat.zero_add] at hs1
    obtain ⟨rfl, rfl⟩ := hs1
    apply EdgeMap.sorted_unique_pos m hI.sorted q p hq hp
    rw [key_eq_samePair]
    exact samePair_trans hs2 (samePair_comm.1 hsp)
  -- cells
  obtain ⟨cs, e6, hcl, hcs⟩ := mapM_rel (fun ci : CellIn G × ℕ => buildCell ops pts segs tab ci.2 ci.1)
    (fun ci rc => CellBuilt ops pts segs ci.2 ci.1 rc.1 rc.2) cells.zipIdx (by
      rintro ⟨c, k⟩ hck
      obtain ⟨hk, rfl⟩ : ∃ hk : k < cells.length, cells[k] = c :=
        ⟨(List.mem_zipIdx' hck).1, (List.mem_zipIdx' hck).2.symm⟩
      simp only
      obtain ⟨ref, cell, h1, h2, h3, h4, h5, h6, h7, h8, h9, h10⟩ :=
        buildCell_spec ops pts segs tab k (cells[k]) (by rw [hpl]; exact hC _ (List.getElem_mem hk))
          hT.2 (by rw [hT.1]; exact hk) (by
            intro j hj
            obtain ⟨p, hp, h1, h2⟩ := hpos k hk j hj
            exact ⟨p, segs[p], h1, List.getElem?_eq_getElem (by omega), samePair_trans (hsame p hp) h2⟩)
      refine ⟨(ref, cell), h1, h2, h3, h4, h5, h6, h7, h8, ?_⟩
      intro j hj
      obtain ⟨p, hp, h11, h12⟩ := hpos k hk j hj
      have hcp : cell.edges[j]? = some p := by rw [h9 j hj]; exact h11
      have hsp : segs[p]? = some segs[p] := List.getElem?_eq_getElem (by omega)
      exact ⟨p, segs[p], hcp, hsp, samePair_trans (hsame p hp) h12, h10 j hj _ _ hcp hsp⟩)
  rw [e6, Option.bind_some]
  simp only [List.length_zipIdx] at hcl hcs
  have hcs' : ∀ k (h1 : k < cells.length) (h2 : k < cs.length),
      CellBuilt ops pts segs k (cells[k]) (cs[k]).1 (cs[k]).2 := by
    intro k h1 h2
    have := hcs k h1 h2
    simpa using this
  have hcidx : cs.map (·.2.index) = List.range cells.length := by
    apply List.ext_getElem
    · simp [hcl]
    · intro k h1 h2
      simp only [List.getElem_map, List.getElem_range]
      exact (hcs' k (by simpa using h2) (by simpa using h1)).index
  have hrefs : ∀ rc ∈ cs, rc.1 = .tria ∨ rc.1 = .quad := by
    intro rc hrc
    obtain ⟨k, hk, rfl⟩ := List.getElem_of_mem hrc
    exact (hcs' k (by omega) hk).ref_cell
  have hsum := sel_length cs hrefs
  have htr : cs.filterMap (fun rc => if rc.1 = .tria then some rc.2 else none) = sel .tria cs := rfl
  have hqr : cs.filterMap (fun rc => if rc.1 = .quad then some rc.2 else none) = sel .quad cs := rfl
  simp only [htr, hqr, hsum, hcl]
  have hselmem : ∀ ref x, x ∈ sel ref cs → ∃ h : x.index < cells.length,
      CellBuilt ops pts segs x.index (cells[x.index]) ref x ∧
      ∃ h2 : x.index < cs.length, cs[x.index] = (ref, x) := by
    intro ref x hx
    rw [mem_sel] at hx
    obtain ⟨k, hk, hkx⟩ := List.getElem_of_mem hx
    have hb := hcs' k (by omega) hk
    rw [hkx] at hb
    have := hb.index
    simp only at this
    subst this
    exact ⟨by omega, hb, hk, hkx⟩
  have hnd : ∀ ref, ((sel ref cs).map (·.index)).Nodup := by
    intro ref
    apply (sel_sublist ref cs).nodup
    rw [hcidx]; exact List.nodup_range
  have hdisj : ∀ i, i ∈ (sel .quad cs).map (·.index) → i ∉ (sel .tria cs).map (·.index) := by
    intro i hq ht
    obtain ⟨x, hx, rfl⟩ := List.mem_map.1 hq
    obtain ⟨y, hy, hyx⟩ := List.mem_map.1 ht
    obtain ⟨_, _, h1, h2⟩ := hselmem _ x hx
    obtain ⟨_, _, h3, h4⟩ := hselmem _ y hy
    simp only [hyx] at h4
    rw [h2] at h4
    simp at h4
  obtain ⟨p0, e7, hp0l, hp0, hp0'⟩ := storePtrs_spec true EntPtr.tria ((sel .tria cs).map (·.index))
    (List.replicate cells.length none) (by
      intro i hi
      obtain ⟨x, hx, rfl⟩ := List.mem_map.1 hi
      rw [List.length_replicate]
      exact (hselmem _ x hx).1) (hnd _) (by
      intro _ i hi
      obtain ⟨x, hx, rfl⟩ := List.mem_map.1 hi
      rw [List.getElem?_replicate, if_pos (hselmem _ x hx).1])
  rw [List.length_replicate] at hp0l
  rw [e7, Option.bind_some]
  obtain ⟨q0, e8, hq0l, hq0, hq0'⟩ := storePtrs_spec true EntPtr.quad ((sel .quad cs).map (·.index))
    p0 (by
      intro i hi
      obtain ⟨x, hx, rfl⟩ := List.mem_map.1 hi
      rw [hp0l]
      exact (hselmem _ x hx).1) (hnd _) (by
      intro _ i hi
      rw [hp0' i (hdisj i hi)]
      obtain ⟨x, hx, rfl⟩ := List.mem_map.1 hi
      rw [List.getElem?_replicate, if_pos (hselmem _ x hx).1])
  rw [e8, Option.bind_some]
  obtain ⟨q2, e9, hq2l, hq2, _⟩ := storePtrs_spec false EntPtr.pt (List.range pts.length)
    (List.replicate pts.length none) (by intro i hi; simpa using hi) List.nodup_range (by simp)
  rw [e9, Option.bind_some]
  have hsegidxlt : ∀ p (h : p < segs.length), segs[p].index < segs.length := by
    intro p hp
    rw [hidx p (by omega), hsl]
    have := segIdx_lt hI p (by omega)
    rwa [List.length_map] at this
  have hsnd : (segs.map (·.index)).Nodup := by
    rw [List.nodup_iff_getElem?_ne_getElem?]
    intro a b hab hb
    simp only [List.length_map] at hb
    simp only [List.getElem?_map, List.getElem?_eq_getElem hb,
      List.getElem?_eq_getElem (show a < segs.length by omega), Option.map_some, ne_eq,
      Option.some.injEq]
    intro heq
    rw [hidx a (by omega), hidx b (by omega)] at heq
    have := segIdx_inj hI a b (by omega) (by omega) (by rw [List.length_map]; exact heq)
    omega
  obtain ⟨q1, e10, hq1l, hq1, _⟩ := storePtrs_spec false EntPtr.seg (segs.map (·.index))
    (List.replicate segs.length none) (by
      intro i hi
      obtain ⟨x, hx, rfl⟩ := List.mem_map.1 hi
      obtain ⟨p, hp, rfl⟩ := List.getElem_of_mem hx
      rw [List.length_replicate]
      exact hsegidxlt p hp) hsnd (by simp)
  rw [e10, Option.bind_some]
  refine ⟨_, rfl, ?_⟩
  refine
    { points := hpts
      numCells := by simp only; omega
      trias := ?_
      quads := ?_
      ptr0 := ?_
      segs := ?_
      ptr1 := ?_
      ptr2 := ?_
      len0 := by simp only; omega
      len1 := by simp only [hq1l, List.length_replicate]
      len2 := by simp only [hq2l, List.length_replicate]
      seg_ne := ?_
      seg_lt := ?_
      seg_inj := ?_
      seg_count := ?_
      seg_supplied := ?_
      seg_new := ?_ }
  · intro p hp
    simp only at hp ⊢
    obtain ⟨h1, h2, _⟩ := hselmem .tria _ (List.getElem_mem hp)
    refine ⟨_, List.getElem?_eq_getElem h1, h2, ?_⟩
    have hmem : (sel .tria cs)[p].index ∈ (sel .tria cs).map (·.index) :=
      List.mem_map.2 ⟨_, List.getElem_mem hp, rfl⟩
    rw [hq0' _ (fun hq => hdisj _ hq hmem)]
    have := hp0 p (by simpa using hp)
    simpa using this
  · intro p hp
    simp only at hp ⊢
    obtain ⟨h1, h2, _⟩ := hselmem .quad _ (List.getElem_mem hp)
    refine ⟨_, List.getElem?_eq_getElem h1, h2, ?_⟩
    have := hq0 p (by simpa using hp)
    simpa using this
  · intro i hi
    simp only
    have hmem : cs[i] ∈ cs := List.getElem_mem (by omega)
    have hix : (cs[i]).2.index = i := (hcs' i hi (by omega)).index
    rcases hrefs _ hmem with h | h
    · left
      have : (cs[i]).2 ∈ sel .tria cs := by rw [mem_sel, ← h]; exact hmem
      obtain ⟨p, hp, hpe⟩ := List.getElem_of_mem this
      exact ⟨p, hp, by rw [hpe, hix]⟩
    · right
      have : (cs[i]).2 ∈ sel .quad cs := by rw [mem_sel, ← h]; exact hmem
      obtain ⟨p, hp, hpe⟩ := List.getElem_of_mem this
      exact ⟨p, hp, by rw [hpe, hix]⟩
  · intro p hp
    simp only at hp ⊢
    refine ⟨hsegidxlt p hp, ?_⟩
    have := hq1 p (by simpa using hp)
    simpa using this
  · intro i hi
    simp only at hi ⊢
    have hperm : (segs.map (·.index)).Perm (List.range segs.length) := by
      refine (List.subperm_of_subset hsnd ?_).perm_of_length_le (by simp)
      intro j hj
      obtain ⟨x, hx, rfl⟩ := List.mem_map.1 hj
      obtain ⟨p, hp, rfl⟩ := List.getElem_of_mem hx
      rw [List.mem_range]
      exact hsegidxlt p hp
    have : i ∈ segs.map (·.index) := hperm.mem_iff.2 (List.mem_range.2 hi)
    obtain ⟨x, hx, hxi⟩ := List.mem_map.1 this
    obtain ⟨p, hp, rfl⟩ := List.getElem_of_mem hx
    exact ⟨p, hp, hxi⟩
  · intro i hi
    simp only at hi ⊢
    have := hq2 i (by simpa using hi)
    simpa using this
  · intro s hsm
    simp only at hsm
    obtain ⟨p, hp, rfl⟩ := List.getElem_of_mem hsm
    have h1 := hsame p (by omega)
    have h2 := hI.ne _ (List.getElem_mem (show p < m.length by omega))
    rcases h1 with h1 | h1 <;> simp only [Prod.swap, Prod.mk.injEq] at h1 <;> rw [h1.1, h1.2]
    · exact h2
    · exact fun h => h2 h.symm
  · intro s hsm
    simp only at hsm
    obtain ⟨p, hp, rfl⟩ := List.getElem_of_mem hsm
    have h1 := hsame p (by omega)
    have h2 := hI.lt _ (List.getElem_mem (show p < m.length by omega))
    rcases h1 with h1 | h1 <;> simp only [Prod.swap, Prod.mk.injEq] at h1 <;> rw [h1.1, h1.2]
    · exact h2
    · exact ⟨h2.2, h2.1⟩
  · intro p hp q hq h
    simp only at hp hq h
    apply EdgeMap.sorted_unique_pos m hI.sorted p q (by omega) (by omega)
    rw [key_eq_samePair]
    exact samePair_trans (samePair_comm.1 (hsame p (by omega)))
      (samePair_trans h (hsame q (by omega)))
  · simp only; omega
  · intro s hsm hlt
    simp only at hsm
    obtain ⟨p, hp, rfl⟩ := List.getElem_of_mem hsm
    have hpm : p < m.length := by omega
    cases hg : m[p].gidx with
    | some i =>
      have hi : segs[p].index = i := by
        rw [hidx p hpm]; simp [segIdx, List.getElem?_eq_getElem hpm, hg]
      obtain ⟨⟨hil, he⟩, hgs, hrev⟩ := hI.supInv _ (List.getElem_mem hpm) i hg
      obtain ⟨e, he1, he2, he3⟩ := hG.sup _ (List.getElem_mem hpm) i hg
      subst hi
      simp only [List.getElem_map] at he
      refine ⟨?_, ?_⟩
      · rw [hends p hpm, segEnds, hrev]
        simpa using he
      · obtain ⟨g, hgg⟩ := Option.isSome_iff_exists.1 he3
        have h3 := (hseg p hpm hp).2.2
        simp only [hgg] at h3
        rw [List.getElem?_eq_getElem hlt] at he1
        cases he1
        rw [← he2, hgg, h3]
    | none =>
      exfalso
      have hi : segs[p].index = edges.length + numNew (m.take p) := by
        rw [hidx p hpm]; simp [segIdx, List.getElem?_eq_getElem hpm, hg]
      omega
  · intro s hsm hle
    simp only at hsm ⊢
    obtain ⟨p, hp, rfl⟩ := List.getElem_of_mem hsm
    have hpm : p < m.length := by omega
    have hmem := List.getElem_mem hpm
    cases hg : m[p].gidx with
    | some i =>
      exfalso
      have hi : segs[p].index = i := by
        rw [hidx p hpm]; simp [segIdx, List.getElem?_eq_getElem hpm, hg]
      obtain ⟨⟨hil, he⟩, hgs, hrev⟩ := hI.supInv _ hmem i hg
      rw [List.length_map] at hil
      omega
    | none =>
      constructor
      · obtain ⟨s, hsm, hsp⟩ := hI.new _ hmem hg
        obtain ⟨k, hk, j, hj, rfl⟩ := (mem_allSides 0 cells s).1 hsm
        exact ⟨_, List.getElem_mem hk, j, hj, samePair_trans (hsame p hpm) hsp⟩
      · have h3 := (hseg p hpm hp).2.2
        cases hgeo : m[p].geo with
        | some g =>
          left
          obtain ⟨c, j, cg, ci, h4, h5, h6, h7, h8⟩ := hG.new _ hmem hg g hgeo
          simp only [hgeo] at h3
          refine ⟨ci, List.mem_of_getElem? h4, j, h5, cg, h6, by rw [h3, h7], ?_⟩
          rw [hends p hpm, h8]
        | none =>
          right
          simp only [hgeo] at h3
          constructor
          · intro c hc j hj hsp
            obtain ⟨k, hk, rfl⟩ := List.getElem_of_mem hc
            have hadj : (0 + k, j) ∈ m[p].adj := (hI.adj _ hmem _).2
              ⟨_, (mem_allSides 0 cells _).2 ⟨k, hk, j, hj, rfl⟩, rfl,
                samePair_trans (samePair_comm.1 (hsame p hpm)) hsp⟩
            obtain ⟨ci, h4, h5⟩ := hG.bare _ hmem hgeo _ hadj
            simp only [Nat.zero_add, List.getElem?_eq_getElem hk, Option.some.injEq] at h4
            rw [h4]; exact h5
          · have hlt := hI.lt _ hmem
            have hE2 := hends p hpm
            have h0 : segs[p].p0 < pts.length := by
              have : segs[p].p0 = (segEnds m[p]).1 := by rw [← hE2]
              rw [this, hpl]; unfold segEnds; split <;> simp [hlt]
            have h1 : segs[p].p1 < pts.length := by
              have : segs[p].p1 = (segEnds m[p]).2 := by rw [← hE2]
              rw [this, hpl]; unfold segEnds; split <;> simp [hlt]
            refine ⟨_, _, List.getElem?_eq_getElem h0, List.getElem?_eq_getElem h1, ?_⟩
            rw [← hE2] at h3
            simp only [List.getD_eq_getElem?_getD, List.getElem?_eq_getElem h0,
              List.getElem?_eq_getElem h1, Option.getD_some] at h3
            exact h3

end Verif
