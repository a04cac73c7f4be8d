import Verif.Lemmas.MeshBuild1
import Mathlib.Data.List.Nodup
import Mathlib.Data.List.Perm.Basic
import Mathlib.Data.List.Range

/-! Step III of mesh construction: nodes, edges, cells, pointer tables. -/

namespace Verif
variable {G : Type}

theorem buildPoints_spec (nodes : List (Option G)) (hs : ∀ x ∈ nodes, x.isSome = true) :
    ∃ pts, buildPoints nodes = some pts ∧ pts.map some = nodes := by
  induction nodes with
  | nil => exact ⟨[], rfl, rfl⟩
  | cons a l ih =>
    obtain ⟨pts, e, h⟩ := ih (fun x hx => hs x (by simp [hx]))
    cases a with
    | none => have := hs none (by simp); simp at this
    | some g => exact ⟨g :: pts, by simp [buildPoints, e], by simp [h]⟩

/-! ### Edges -/

/-- Number of records without a preassigned index. -/
def numNew (m : EdgeMap G) : ℕ := m.countP (fun r => r.gidx.isNone)

/-- Index of the edge created from the record at position `p`. -/
def segIdx (m : EdgeMap G) (k p : ℕ) : ℕ :=
  match (m[p]?).bind (·.gidx) with
  | some i => i
  | none => k + numNew (m.take p)

/-- Ordered end nodes of the edge created from a record. -/
def segEnds (r : EdgeRec G) : ℕ × ℕ := if r.reversed then (r.p1, r.p0) else (r.p0, r.p1)

theorem segEnds_samePair (r : EdgeRec G) : SamePair (segEnds r) (r.p0, r.p1) := by
  unfold segEnds SamePair
  split <;> simp

theorem buildSegments_spec (ops : GeoOps G) (pts : List G) (m : EdgeMap G)
    (hlt : ∀ r ∈ m, r.p0 < pts.length ∧ r.p1 < pts.length) (k : ℕ) :
    ∃ segs : List (Segment G), buildSegments ops pts m k = some (segs, k + numNew m) ∧
      segs.length = m.length ∧
      ∀ p (h : p < m.length) (h' : p < segs.length), segs[p].index = segIdx m k p ∧
        (segs[p].p0, segs[p].p1) = segEnds m[p] ∧
        segs[p].geo = (match m[p].geo with
          | some g => g
          | none => ops.line (pts.getD (segEnds m[p]).1 segs[p].geo) (pts.getD (segEnds m[p]).2 segs[p].geo)) := by
  induction m generalizing k with
  | nil => exact ⟨[], by simp [buildSegments, numNew], rfl, by simp⟩
  | cons r m ih =>
    have hr := hlt r (by simp)
    have h0 : (if r.reversed then r.p1 else r.p0) < pts.length := by split <;> simp [hr]
    have h1 : (if r.reversed then r.p0 else r.p1) < pts.length := by split <;> simp [hr]
    have hends : segEnds r = (if r.reversed then r.p1 else r.p0, if r.reversed then r.p0 else r.p1) := by
      unfold segEnds; split <;> rfl
    obtain ⟨segs, e, hl, hp⟩ := ih (fun s hs => hlt s (by simp [hs]))
      (match r.gidx with | some _ => k | none => k + 1)
    refine ⟨⟨(match r.gidx with | some i => i | none => k),
      (match r.geo with
        | some g => g
        | none => ops.line (pts[if r.reversed then r.p1 else r.p0]) (pts[if r.reversed then r.p0 else r.p1])),
      if r.reversed then r.p1 else r.p0, if r.reversed then r.p0 else r.p1⟩ :: segs, ?_, ?_, ?_⟩
    · unfold buildSegments
      simp only [List.getElem?_eq_getElem h0, List.getElem?_eq_getElem h1, Option.bind_some]
      cases hg : r.gidx with
      | none =>
        simp only [hg] at e
        simp only [e, Option.bind_some]
        congr 2
        simp [numNew, hg]; omega
      | some i =>
        simp only [hg] at e
        simp only [e, Option.bind_some]
        congr 2
        simp [numNew, hg]
    · simp [hl]
    · intro p h h'
      cases p with
      | zero =>
        refine ⟨?_, ?_, ?_⟩
        · simp only [segIdx, List.getElem_cons_zero, List.getElem?_cons_zero, Option.bind_some]
          cases r.gidx <;> simp [numNew]
        · simp [hends]
        · simp only [List.getElem_cons_zero]
          cases hg : r.geo with
          | some g => rfl
          | none =>
            simp only [hends]
            simp [List.getElem?_eq_getElem h0, List.getElem?_eq_getElem h1]
      | succ p =>
        obtain ⟨h2, h3, h4⟩ := hp p (by simpa using h) (by simpa using h')
        refine ⟨?_, by simpa using h3, by simpa using h4⟩
        simp only [List.getElem_cons_succ, h2, segIdx, List.getElem?_cons_succ]
        cases (m[p]?).bind (·.gidx) with
        | some i => rfl
        | none =>
          cases hg : r.gidx with
          | none => simp [numNew, hg]; omega
          | some i => simp [numNew, hg]

theorem gidx_perm (n : ℕ) (es : List (ℕ × ℕ)) (ss : List ((ℕ × ℕ) × (ℕ × ℕ))) (m : EdgeMap G)
    (hI : Inv n es ss m) : (m.filterMap (·.gidx)).Perm (List.range es.length) := by
  rw [List.perm_ext_iff_of_nodup ?_ List.nodup_range]
  · intro i
    simp only [List.mem_filterMap, List.mem_range]
    constructor
    · rintro ⟨r, hr, hi⟩
      exact (hI.supInv r hr i hi).1.1
    · intro hi
      obtain ⟨r, hr, h, _⟩ := hI.sup i hi
      exact ⟨r, hr, h⟩
  · have : m.Pairwise (fun r s => ∀ i, r.gidx = some i → ∀ j, s.gidx = some j → i ≠ j) := by
      rw [List.pairwise_iff_getElem]
      intro a b ha hb hab i hi j hj hij
      subst hij
      obtain ⟨⟨hl, e1⟩, _⟩ := hI.supInv _ (List.getElem_mem ha) i hi
      obtain ⟨⟨_, e2⟩, _⟩ := hI.supInv _ (List.getElem_mem hb) i hj
      have : a = b := by
        apply EdgeMap.sorted_unique_pos m hI.sorted a b ha hb
        rw [key_eq_samePair, e1, e2]
        exact samePair_refl _
      omega
    clear hI
    induction m with
    | nil => simp
    | cons r m ih =>
      rw [List.pairwise_cons] at this
      cases hr : r.gidx with
      | none => simpa [List.filterMap_cons, hr] using ih this.2
      | some i =>
        simp only [List.filterMap_cons, hr, List.nodup_cons, List.mem_filterMap, not_exists, not_and]
        exact ⟨fun s hs hc => this.1 s hs i hr i hc rfl, ih this.2⟩

theorem length_split (m : EdgeMap G) : (m.filterMap (·.gidx)).length + numNew m = m.length := by
  induction m with
  | nil => rfl
  | cons r m ih =>
    cases hr : r.gidx with
    | none => simp [numNew, hr] at ih ⊢; omega
    | some i => simp [numNew, hr] at ih ⊢; omega

theorem Inv.length_eq {n : ℕ} {es : List (ℕ × ℕ)} {ss : List ((ℕ × ℕ) × (ℕ × ℕ))} {m : EdgeMap G}
    (hI : Inv n es ss m) : es.length + numNew m = m.length := by
  rw [← length_split m, (gidx_perm n es ss m hI).length_eq, List.length_range]

theorem numNew_take_lt (m : EdgeMap G) (p q : ℕ) (hp : p < m.length) (hpq : p < q)
    (h : m[p].gidx = none) : numNew (m.take p) < numNew (m.take q) := by
  have h1 : numNew (m.take (p + 1)) = numNew (m.take p) + 1 := by
    rw [List.take_succ_eq_append_getElem hp]
    unfold numNew
    rw [List.countP_append]
    simp [h]
  have h2 : numNew (m.take (p + 1)) ≤ numNew (m.take q) := by
    apply List.Sublist.countP_le
    exact List.take_sublist_take_left (by omega)
  omega

theorem segIdx_lt {n : ℕ} {es : List (ℕ × ℕ)} {ss : List ((ℕ × ℕ) × (ℕ × ℕ))} {m : EdgeMap G}
    (hI : Inv n es ss m) (p : ℕ) (hp : p < m.length) : segIdx m es.length p < m.length := by
  unfold segIdx
  have hl := hI.length_eq
  rw [List.getElem?_eq_getElem hp, Option.bind_some]
  cases h : m[p].gidx with
  | some i =>
    have := (hI.supInv _ (List.getElem_mem hp) i h).1.1
    simp only; omega
  | none =>
    have := numNew_take_lt m p m.length hp hp h
    rw [List.take_length] at this
    simp only; omega

theorem segIdx_inj {n : ℕ} {es : List (ℕ × ℕ)} {ss : List ((ℕ × ℕ) × (ℕ × ℕ))} {m : EdgeMap G}
    (hI : Inv n es ss m) (p q : ℕ) (hp : p < m.length) (hq : q < m.length)
    (h : segIdx m es.length p = segIdx m es.length q) : p = q := by
  unfold segIdx at h
  rw [List.getElem?_eq_getElem hp, List.getElem?_eq_getElem hq, Option.bind_some, Option.bind_some] at h
  cases h1 : m[p].gidx with
  | some i =>
    obtain ⟨⟨hi, e1⟩, _⟩ := hI.supInv _ (List.getElem_mem hp) i h1
    cases h2 : m[q].gidx with
    | some j =>
      obtain ⟨⟨hj, e2⟩, _⟩ := hI.supInv _ (List.getElem_mem hq) j h2
      simp only [h1, h2] at h
      subst h
      apply EdgeMap.sorted_unique_pos m hI.sorted p q hp hq
      rw [key_eq_samePair, e1, e2]
      exact samePair_refl _
    | none => simp only [h1, h2] at h; omega
  | none =>
    cases h2 : m[q].gidx with
    | some j =>
      obtain ⟨⟨hj, e2⟩, _⟩ := hI.supInv _ (List.getElem_mem hq) j h2
      simp only [h1, h2] at h; omega
    | none =>
      simp only [h1, h2] at h
      rcases Nat.lt_trichotomy p q with hlt | heq | hlt
      · have := numNew_take_lt m p q hp hlt h1; omega
      · exact heq
      · have := numNew_take_lt m q p hq hlt h2; omega

/-! ### Pointer tables -/

theorem storePtrs_aux (unique : Bool) (mk : ℕ → EntPtr) (idx : List ℕ) (k : ℕ)
    (arr : List (Option EntPtr)) (hlt : ∀ i ∈ idx, i < arr.length) (hnd : idx.Nodup)
    (hu : unique = true → ∀ i ∈ idx, arr[i]? = some none) :
    ∃ arr', (idx.zipIdx k).foldlM (fun (arr : List (Option EntPtr)) ip =>
      match arr[ip.1]? with
      | none => none
      | some old => if unique && old.isSome then none else some (arr.set ip.1 (some (mk ip.2)))) arr
      = some arr' ∧ arr'.length = arr.length ∧
      (∀ p (h : p < idx.length), arr'[idx[p]]? = some (some (mk (k + p)))) ∧
      (∀ i, i ∉ idx → arr'[i]? = arr[i]?) := by
  induction idx generalizing k arr with
  | nil => exact ⟨arr, rfl, rfl, by simp, by simp⟩
  | cons a l ih =>
    rw [List.nodup_cons] at hnd
    have ha : a < arr.length := hlt a (by simp)
    have hcond : (unique && (arr[a]).isSome) = false := by
      cases hu' : unique with
      | false => rfl
      | true =>
        have := hu hu' a (by simp)
        rw [List.getElem?_eq_getElem ha] at this
        simp at this
        simp [this]
    obtain ⟨arr', e, hl, h1, h2⟩ := ih (k + 1) (arr.set a (some (mk k)))
      (fun i hi => by simpa using hlt i (by simp [hi])) hnd.2
      (fun h i hi => by
        have hne : a ≠ i := by rintro rfl; exact hnd.1 hi
        rw [List.getElem?_set_ne hne]
        exact hu h i (by simp [hi]))
    refine ⟨arr', ?_, by simpa using hl, ?_, ?_⟩
    · rw [List.zipIdx_cons, List.foldlM_cons]
      simp only [List.getElem?_eq_getElem ha, hcond, Bool.false_eq_true, if_false]
      exact e
    · intro p hp
      cases p with
      | zero =>
        rw [List.getElem_cons_zero, h2 a hnd.1]
        simp [ha]
      | succ p =>
        rw [List.getElem_cons_succ, h1 p (by simpa using hp)]
        congr 3; omega
    · intro i hi
      simp only [List.mem_cons, not_or] at hi
      rw [h2 i hi.2, List.getElem?_set_ne (fun h => hi.1 h.symm)]

theorem storePtrs_spec (unique : Bool) (mk : ℕ → EntPtr) (idx : List ℕ)
    (arr : List (Option EntPtr)) (hlt : ∀ i ∈ idx, i < arr.length) (hnd : idx.Nodup)
    (hu : unique = true → ∀ i ∈ idx, arr[i]? = some none) :
    ∃ arr', storePtrs unique mk idx arr = some arr' ∧ arr'.length = arr.length ∧
      (∀ p (h : p < idx.length), arr'[idx[p]]? = some (some (mk p))) ∧
      (∀ i, i ∉ idx → arr'[i]? = arr[i]?) := by
  obtain ⟨arr', e, h1, h2, h3⟩ := storePtrs_aux unique mk idx 0 arr hlt hnd hu
  refine ⟨arr', e, h1, fun p hp => ?_, h3⟩
  have := h2 p hp
  rwa [Nat.zero_add] at this

/-! ### The table of edges of cells -/

/-- Entry of a table. -/
def getTab (tab : List (List ℕ)) (c j : ℕ) : Option ℕ := (tab[c]?).bind (fun row => row[j]?)

/-- A table with `n` rows of length four. -/
def TabShape (n : ℕ) (tab : List (List ℕ)) : Prop := tab.length = n ∧ ∀ row ∈ tab, row.length = 4

theorem tab_write (n : ℕ) (tab : List (List ℕ)) (hT : TabShape n tab) (c j v : ℕ) (hc : c < n)
    (hj : j < 4) :
    TabShape n (tab.modify c (fun row => row.set j v)) ∧
    ∀ c' j', getTab (tab.modify c (fun row => row.set j v)) c' j' =
      if c' = c ∧ j' = j then some v else getTab tab c' j' := by
  refine ⟨⟨by simp [hT.1], ?_⟩, ?_⟩
  · intro row hrow
    obtain ⟨i, hi, rfl⟩ := List.getElem_of_mem hrow
    rw [List.getElem_modify]
    simp only [List.length_modify] at hi
    split
    · rw [List.length_set]; exact hT.2 _ (List.getElem_mem hi)
    · exact hT.2 _ (List.getElem_mem hi)
  · intro c' j'
    unfold getTab
    rw [List.getElem?_modify]
    by_cases hcc : c' = c
    · subst hcc
      have hlen : c' < tab.length := by rw [hT.1]; exact hc
      rw [List.getElem?_eq_getElem hlen]
      have h4 := hT.2 _ (List.getElem_mem hlen)
      simp only [true_and, Option.map_some, Option.bind_some, if_true, Option.map_eq_map]
      rw [List.getElem?_set]
      by_cases hjj : j' = j
      · subst hjj; simp [h4, hj]
      · rw [if_neg (fun h => hjj h.symm), if_neg hjj]
    · have : ¬ c = c' := fun h => hcc h.symm
      simp [hcc, this]

theorem tab_adj (n : ℕ) (v : ℕ) (adj : List (ℕ × ℕ)) (hadj : ∀ a ∈ adj, a.1 < n ∧ a.2 < 4)
    (tab : List (List ℕ)) (hT : TabShape n tab) :
    ∃ tab', adj.foldlM (fun (tab : List (List ℕ)) a =>
        if a.1 < n ∧ a.2 < 4 then some (tab.modify a.1 (fun row => row.set a.2 v)) else none) tab
        = some tab' ∧ TabShape n tab' ∧
      ∀ c j, getTab tab' c j = if (c, j) ∈ adj then some v else getTab tab c j := by
  induction adj generalizing tab with
  | nil => exact ⟨tab, rfl, hT, by simp⟩
  | cons a l ih =>
    have ha := hadj a (by simp)
    obtain ⟨hS, hg⟩ := tab_write n tab hT a.1 a.2 v ha.1 ha.2
    obtain ⟨tab', e, hS', hg'⟩ := ih (fun x hx => hadj x (by simp [hx])) _ hS
    refine ⟨tab', ?_, hS', ?_⟩
    · rw [List.foldlM_cons, if_pos ha]
      exact e
    · intro c j
      rw [hg', hg]
      by_cases h1 : (c, j) ∈ l
      · simp [h1]
      · by_cases h2 : c = a.1 ∧ j = a.2
        · have : (c, j) = a := by obtain ⟨rfl, rfl⟩ := h2; rfl
          simp [h2]
        · have : (c, j) ≠ a := by rintro rfl; exact h2 ⟨rfl, rfl⟩
          simp [h1, h2, this]

theorem tab_all (n : ℕ) (l : List (EdgeRec G × ℕ)) (hadj : ∀ x ∈ l, ∀ a ∈ x.1.adj, a.1 < n ∧ a.2 < 4)
    (tab : List (List ℕ)) (hT : TabShape n tab) :
    ∃ tab', l.foldlM (fun tab rp =>
      rp.1.adj.foldlM (fun (tab : List (List ℕ)) a =>
        if a.1 < n ∧ a.2 < 4 then some (tab.modify a.1 (fun row => row.set a.2 rp.2)) else none) tab) tab
        = some tab' ∧ TabShape n tab' ∧
      ∀ c j p, (∀ x ∈ l, (c, j) ∈ x.1.adj → x.2 = p) →
        ((∃ x ∈ l, (c, j) ∈ x.1.adj) ∨ getTab tab c j = some p) → getTab tab' c j = some p := by
  induction l generalizing tab with
  | nil => exact ⟨tab, rfl, hT, by simp⟩
  | cons a l ih =>
    obtain ⟨tab1, e1, hS1, hg1⟩ := tab_adj n a.2 a.1.adj (hadj a (by simp)) tab hT
    obtain ⟨tab', e, hS', hg'⟩ := ih (fun x hx => hadj x (by simp [hx])) tab1 hS1
    refine ⟨tab', ?_, hS', ?_⟩
    · rw [List.foldlM_cons, e1]
      exact e
    · intro c j p hall hex
      apply hg' c j p (fun x hx => hall x (by simp [hx]))
      by_cases ha : (c, j) ∈ a.1.adj
      · right
        rw [hg1, if_pos ha, hall a (by simp) ha]
      · rcases hex with ⟨x, hx, hxa⟩ | h
        · rcases List.mem_cons.1 hx with rfl | hx
          · exact absurd hxa ha
          · exact Or.inl ⟨x, hx, hxa⟩
        · right; rw [hg1, if_neg ha]; exact h

theorem edgeIndices_spec (n : ℕ) (m : EdgeMap G)
    (hadj : ∀ r ∈ m, ∀ a ∈ r.adj, a.1 < n ∧ a.2 < 4) :
    ∃ tab, edgeIndices n m = some tab ∧ TabShape n tab ∧
      ∀ c j p (hp : p < m.length), (c, j) ∈ m[p].adj →
        (∀ q (hq : q < m.length), (c, j) ∈ m[q].adj → q = p) → getTab tab c j = some p := by
  obtain ⟨tab, e, hS, hg⟩ := tab_all n m.zipIdx
    (fun x hx a ha => by
      obtain ⟨r, i⟩ := x
      have := List.mem_zipIdx' hx
      exact hadj r (by rw [this.2]; exact List.getElem_mem _) a ha)
    (List.replicate n (List.replicate 4 0))
    ⟨by simp, fun row hrow => by rw [(List.mem_replicate.1 hrow).2]; rfl⟩
  refine ⟨tab, e, hS, ?_⟩
  intro c j p hp hmem huniq
  apply hg c j p
  · rintro ⟨r, i⟩ hx hxa
    have := List.mem_zipIdx' hx
    exact huniq i this.1 (this.2 ▸ hxa)
  · left
    refine ⟨(m[p], p), ?_, hmem⟩
    rw [List.mk_mem_zipIdx_iff_getElem?]
    exact List.getElem?_eq_getElem hp

/-! ### Cells -/

theorem mapM_some {α β : Type} (f : α → Option β) (g : α → β) (l : List α)
    (h : ∀ x ∈ l, f x = some (g x)) : l.mapM f = some (l.map g) := by
  induction l with
  | nil => rfl
  | cons a l ih =>
    rw [List.mapM_cons, h a (by simp), ih (fun x hx => h x (by simp [hx]))]
    rfl

theorem mkCell_spec (segs : List (Segment G)) (ref : RefEl) (hr : ref = .tria ∨ ref = .quad)
    (index : ℕ) (geo : G) (nodes edges : List ℕ) (hn : nodes.length = ref.numNodes)
    (h : ∀ j < nodes.length, ∃ e s, edges[j]? = some e ∧ segs[e]? = some s ∧
      SamePair (s.p0, s.p1) (side nodes j)) :
    ∃ c, mkCell segs ref index geo nodes edges = some c ∧ c.index = index ∧ c.geo = geo ∧
      c.nodes = nodes ∧ c.edges = edges ∧ c.ori.length = nodes.length ∧
      ∀ j < nodes.length, ∀ e s, edges[j]? = some e → segs[e]? = some s →
        c.ori[j]? = some (decide (s.p0 = nodes.getD j 0)) := by
  have := mapM_some (fun j =>
    (edges[j]?).bind fun e => (segs[e]?).bind fun s =>
    (ref.subSubEntity2SubEntity 1 j 1 0).bind fun l0 =>
    (ref.subSubEntity2SubEntity 1 j 1 1).bind fun l1 =>
    (nodes[l0]?).bind fun a => (nodes[l1]?).bind fun b => (nodes[j]?).bind fun v =>
      if (s.p0 = a ∨ s.p0 = b) ∧ (s.p1 = a ∨ s.p1 = b) then some (decide (s.p0 = v)) else none)
    (fun j => ((edges[j]?).bind (fun e => segs[e]?)).any (fun s => decide (s.p0 = nodes.getD j 0)))
    (List.range ref.numNodes) ?_
  · refine ⟨⟨index, geo, nodes, edges, (List.range ref.numNodes).map (fun j =>
      ((edges[j]?).bind (fun e => segs[e]?)).any (fun s => decide (s.p0 = nodes.getD j 0)))⟩,
      ?_, rfl, rfl, rfl, rfl, ?_, ?_⟩
    · unfold mkCell
      rw [this]; rfl
    · simp [hn]
    · intro j hj e s h1 h2
      simp [h1, h2, ← hn, hj]
  · intro j hj
    have hj' : j < nodes.length := by rw [hn]; simpa using hj
    obtain ⟨e, s, h1, h2, h3⟩ := h j hj'
    obtain ⟨s0, s1⟩ := subSub_side ref hr j (by omega)
    have hmod : (j + 1) % nodes.length < nodes.length := Nat.mod_lt _ (by omega)
    rw [← hn] at s1
    simp only [h1, h2, s0, s1, Option.bind_some, List.getElem?_eq_getElem hj',
      List.getElem?_eq_getElem hmod]
    have e0 : side nodes j = (nodes[j], nodes[(j + 1) % nodes.length]) := by
      simp [side, hj', hmod]
    rw [e0] at h3
    have hcond : (s.p0 = nodes[j] ∨ s.p0 = nodes[(j + 1) % nodes.length]) ∧
        (s.p1 = nodes[j] ∨ s.p1 = nodes[(j + 1) % nodes.length]) := by
      rcases h3 with h | h
      · simp only [Prod.mk.injEq] at h; exact ⟨Or.inl h.1, Or.inr h.2⟩
      · simp only [Prod.swap, Prod.mk.injEq] at h; exact ⟨Or.inr h.1, Or.inl h.2⟩
    rw [if_pos hcond]
    simp [hj']

/-- The geometry given to a cell. -/
def cellGeo (ops : GeoOps G) (pts : List G) (c : CellIn G) (g : G) : Prop :=
  match c.geo with
  | some g' => g = g'
  | none =>
    (∃ x y z, c.nodes.map (fun v => pts[v]?) = [some x, some y, some z] ∧ g = ops.tria x y z) ∨
    (∃ x y z w, c.nodes.map (fun v => pts[v]?) = [some x, some y, some z, some w] ∧
      g = ops.quad x y z w)

theorem buildCell_spec (ops : GeoOps G) (pts : List G) (segs : List (Segment G)) (tab : List (List ℕ))
    (ci : ℕ) (c : CellIn G) (hc : CellOk pts.length c) (hT : ∀ row ∈ tab, row.length = 4)
    (hci : ci < tab.length)
    (h : ∀ j < c.nodes.length, ∃ e s, getTab tab ci j = some e ∧ segs[e]? = some s ∧
      SamePair (s.p0, s.p1) (side c.nodes j)) :
    ∃ ref cell, buildCell ops pts segs tab ci c = some (ref, cell) ∧
      (ref = .tria ∨ ref = .quad) ∧ ref.numNodes = c.nodes.length ∧ cell.index = ci ∧
      cellGeo ops pts c cell.geo ∧
      cell.nodes = c.nodes ∧ cell.edges.length = c.nodes.length ∧ cell.ori.length = c.nodes.length ∧
      (∀ j < c.nodes.length, cell.edges[j]? = getTab tab ci j) ∧
      ∀ j < c.nodes.length, ∀ e s, cell.edges[j]? = some e → segs[e]? = some s →
        cell.ori[j]? = some (decide (s.p0 = c.nodes.getD j 0)) := by
  cases hr : cellRefEl c.nodes with
  | none => exact absurd hc.len (cellRefEl_none _ hr)
  | some ref =>
    obtain ⟨href, hlen⟩ := cellRefEl_some _ _ hr
    have hrow4 := hT _ (List.getElem_mem hci)
    have hle4 : c.nodes.length ≤ 4 := by rcases hc.len with h | h <;> omega
    have hedge : ∀ j < c.nodes.length, ((tab[ci]).take ref.numNodes)[j]? = getTab tab ci j := by
      intro j hj
      rw [List.getElem?_take, if_pos (by omega)]
      simp [getTab, List.getElem?_eq_getElem hci]
    have hel : ((tab[ci]).take ref.numNodes).length = c.nodes.length := by
      rw [List.length_take]; omega
    have hall1 : c.nodes.all (fun v => decide (v < pts.length)) = true := by
      simpa using hc.lt
    have hall2 : ((tab[ci]).take ref.numNodes).all (fun e => decide (e < segs.length)) = true := by
      rw [List.all_eq_true]
      intro e he
      obtain ⟨j, hj, rfl⟩ := List.getElem_of_mem he
      rw [hel] at hj
      obtain ⟨e', s, h1, h2, _⟩ := h j hj
      rw [← hedge j hj, List.getElem?_eq_getElem (by omega)] at h1
      cases h1
      simpa using (List.getElem?_eq_some_iff.1 h2).1
    have hgeo : ∃ g, chooseCellGeo ops pts c = some g ∧ cellGeo ops pts c g := by
      unfold cellGeo chooseCellGeo
      cases c.geo with
      | some g => exact ⟨g, rfl, rfl⟩
      | none =>
        obtain ⟨gs, hgs⟩ : ∃ gs : List G, c.nodes.map (fun v => pts[v]?) = gs.map some := by
          refine ⟨c.nodes.filterMap (fun v => pts[v]?), ?_⟩
          have : ∀ (l : List ℕ), (∀ v ∈ l, v < pts.length) →
              l.map (fun v => pts[v]?) = (l.filterMap (fun v => pts[v]?)).map some := by
            intro l
            induction l with
            | nil => simp
            | cons a l ih =>
              intro hl
              have ha := hl a (by simp)
              rw [List.filterMap_cons]
              simp only [List.getElem?_eq_getElem ha, List.map_cons]
              rw [ih (fun v hv => hl v (by simp [hv]))]
          exact this _ hc.lt
        have hfm : c.nodes.filterMap (fun v => pts[v]?) = gs := by
          have : c.nodes.filterMap (fun v => pts[v]?) =
              (c.nodes.map (fun v => pts[v]?)).filterMap id := by
            rw [List.filterMap_map]; rfl
          rw [this, hgs, List.filterMap_map]
          simp
        have hgl : gs.length = c.nodes.length := by
          have := congrArg List.length hgs
          simpa using this.symm
        rw [hfm, hgs]
        rcases hc.len with h3 | h4
        · match gs, hgl with
          | [x, y, z], _ => exact ⟨_, rfl, Or.inl ⟨x, y, z, rfl, rfl⟩⟩
          | [], h => simp at h; omega
          | [_], h => simp at h; omega
          | [_, _], h => simp at h; omega
          | _ :: _ :: _ :: _ :: _, h => simp at h; omega
        · match gs, hgl with
          | [x, y, z, w], _ => exact ⟨_, rfl, Or.inr ⟨x, y, z, w, rfl, rfl⟩⟩
          | [], h => simp at h; omega
          | [_], h => simp at h; omega
          | [_, _], h => simp at h; omega
          | [_, _, _], h => simp at h; omega
          | _ :: _ :: _ :: _ :: _ :: _, h => simp at h; omega
    obtain ⟨g, hg, hgs⟩ := hgeo
    obtain ⟨cell, e, h1, h2, h3, h4, h5, h6⟩ := mkCell_spec segs ref href ci g c.nodes
      ((tab[ci]).take ref.numNodes) (by omega) (by
        intro j hj
        obtain ⟨e, s, h1, h2, h3⟩ := h j hj
        exact ⟨e, s, by rw [hedge j hj]; exact h1, h2, h3⟩)
    refine ⟨ref, cell, ?_, href, hlen, h1, h2 ▸ hgs, h3, by rw [h4, hel], h5, ?_, ?_⟩
    · unfold buildCell
      rw [hr, Option.bind_some, List.getElem?_eq_getElem hci, Option.bind_some]
      simp only
      rw [if_pos ⟨hall1, hall2⟩, hg, Option.bind_some, e]
      rfl
    · intro j hj
      rw [h4, hedge j hj]
    · intro j hj e s he hs
      rw [h4] at he
      exact h6 j hj e s he hs

end Verif
