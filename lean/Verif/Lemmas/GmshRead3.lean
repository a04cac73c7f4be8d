import Verif.Lemmas.GmshRead1
import Mathlib.Data.List.Forall2

/-! The loop which inserts the elements. -/

namespace Verif
variable {P G : Type}

/-- An element as it is handed to the body of the loop. -/
structure Item where
  t : GmshType
  nodes : List ℕ
  p : ℕ

/-- Corners of an element, for any map of the numbers of the nodes. -/
def cornersBy (L : ℕ → Option ℕ) (t : GmshType) (nodes : List ℕ) : Option (List ℕ) :=
  if nodes.length < t.corners then none else (nodes.take t.corners).mapM L

theorem mapM_range_getElem? {α : Type} (g : ℕ → Option α) (k : ℕ) (nodes : List ℕ) :
    ((List.range k).mapM fun i => (nodes[i]?).bind g) =
      if nodes.length < k then none else (nodes.take k).mapM g := by
  induction k generalizing nodes with
  | zero => simp
  | succ k ih =>
    rw [List.range_succ_eq_map]
    cases nodes with
    | nil => simp
    | cons a l =>
      have := ih l
      rw [List.mapM_cons, List.mapM_map]
      simp only [List.getElem?_cons_zero, Option.bind_some, List.getElem?_cons_succ, Function.comp_def, List.length_cons,
        Nat.add_lt_add_iff_right, List.take_succ_cons, List.mapM_cons]
      rw [this]
      split_ifs
      · cases g a <;> rfl
      · rfl

theorem mapM_corners {look : ℕ → Option (Option ℕ)} {t : GmshType} {ref : RefEl} (hr : t.refEl = some ref) (nodes : List ℕ) :
    ((List.range ref.numNodes).mapM fun i => (nodes[i]?).bind fun n => (look n).bind fun mi => mi) =
      cornersBy (fun n => (look n).join) t nodes := by
  rw [cornersBy, corners_eq hr, ← mapM_range_getElem?]
  rfl

/-- The cells or edges in the factory. -/
def addedOf (f : Factory G) (c : ℕ) : List (List ℕ × Option G) :=
  if c = 0 then f.elements.map fun x => (x.nodes, x.geo) else f.edges.map fun x => ([x.p0, x.p1], x.geo)

theorem addEntity_added {f f' : Factory G} {ref : RefEl} {nodes : List ℕ} {geo : Option G} {i : ℕ}
    (h : f.addEntity ref nodes geo = some (f', i)) :
    ref ≠ .point ∧ f'.nodes = f.nodes ∧ addedOf f' (2 - ref.dimension) = addedOf f (2 - ref.dimension) ++ [(nodes, geo)] ∧
      ∀ c < 2, c ≠ 2 - ref.dimension → addedOf f' c = addedOf f c := by
  unfold Factory.addEntity at h
  split_ifs at h with h1 h2
  have key : ∀ ref : RefEl, ref = .tria ∨ ref = .quad →
      (if nodes.length = ref.numNodes then
        some (({ f with elements := f.elements ++ [(⟨nodes, geo⟩ : CellIn G)] } : Factory G),
          (f.elements ++ [(⟨nodes, geo⟩ : CellIn G)]).length - 1)
      else none) = some (f', i) →
      ref ≠ .point ∧ f'.nodes = f.nodes ∧ addedOf f' (2 - ref.dimension) = addedOf f (2 - ref.dimension) ++ [(nodes, geo)] ∧
      ∀ c < 2, c ≠ 2 - ref.dimension → addedOf f' c = addedOf f c := by
    intro ref href h
    split_ifs at h
    cases h
    rcases href with rfl | rfl
    · refine ⟨by decide, rfl, ?_, fun c hc hc' => ?_⟩
      · simp [addedOf, RefEl.dimension]
      · simp only [RefEl.dimension] at hc'
        have : c ≠ 0 := by omega
        simp [addedOf, this]
    · refine ⟨by decide, rfl, ?_, fun c hc hc' => ?_⟩
      · simp [addedOf, RefEl.dimension]
      · simp only [RefEl.dimension] at hc'
        have : c ≠ 0 := by omega
        simp [addedOf, this]
  match ref, nodes, h with
  | .point, _, _ => exact absurd rfl h1
  | .segment, [a, b], h =>
    simp only [Option.some.injEq, Prod.mk.injEq] at h
    obtain ⟨rfl, rfl⟩ := h
    refine ⟨by decide, rfl, ?_, fun c hc hc' => ?_⟩
    · simp [addedOf, RefEl.dimension]
    · simp only [RefEl.dimension] at hc'
      have : c = 0 := by omega
      simp [addedOf, this]
  | .tria, nodes, h => exact key .tria (Or.inl rfl) h
  | .quad, nodes, h => exact key .quad (Or.inr rfl) h

section inv
variable (geo : GmshGeo P G) (L : ℕ → Option ℕ) (coord : ℕ → Option P)

/-- What the groups of elements stored in `mi2gi` have to do with the entities given to the factory. -/
def GroupOk (g : List Item) (a : List ℕ × Option G) : Prop :=
  (g ≠ [] ∧ a.2 ≠ none) ∧ ∀ it ∈ g, cornersBy L it.t it.nodes = some a.1 ∧ (it.nodes.mapM coord).bind (geo.make it.t) = a.2

/-- State after the elements `done`. -/
structure ElemInv (nodes0 : List (Option G)) (done : List Item) (st : ReadState G) : Prop where
  nodes : st.factory.nodes = nodes0
  groups : ∀ c < 2, ∃ gs : List (List Item), st.mi2gi c = gs.map (·.map Item.p) ∧
    gs.flatten = done.filter (fun it => decide (it.t.dim = 2 - c)) ∧
    List.Forall₂ (GroupOk geo L coord) gs (addedOf st.factory c)
  start : ∀ t ns, st.begin = some (t, ns) → t ≠ .point → ∃ a, (addedOf st.factory (2 - t.dim)).getLast? = some a ∧
    cornersBy L t ns = some a.1 ∧ (ns.mapM coord).bind (geo.make t) = a.2

variable {geo L coord}

theorem forall₂_concat {α β : Type} {R : α → β → Prop} {l : List α} {m : List β} {a : α} {b : β} :
    List.Forall₂ R (l ++ [a]) (m ++ [b]) ↔ List.Forall₂ R l m ∧ R a b := by
  rw [← List.forall₂_reverse_iff, List.reverse_append, List.reverse_append]
  simp only [List.reverse_cons, List.reverse_nil, List.nil_append, List.singleton_append, List.forall₂_cons,
    List.forall₂_reverse_iff]
  exact and_comm

theorem pushLast_concat (gs : List (List Item)) (g : List Item) (it : Item) :
    pushLast ((gs ++ [g]).map (·.map Item.p)) it.p = some ((gs ++ [g ++ [it]]).map (·.map Item.p)) := by
  unfold pushLast
  rw [List.map_append]
  simp

theorem ElemInv.reset {nodes0 : List (Option G)} {done : List Item} {st : ReadState G}
    (h : ElemInv geo L coord nodes0 done st) : ElemInv geo L coord nodes0 done { st with begin := none } where
  nodes := h.nodes
  groups := h.groups
  start := by
    intro t ns hb
    cases hb

theorem ElemInv.step {look : ℕ → Option (Option ℕ)} {nodes0 : List (Option G)} {done : List Item} {st st' : ReadState G}
    (h : ElemInv geo (fun n => (look n).join) coord nodes0 done st) (it : Item)
    (hs : insertElement geo look coord st it.t it.nodes it.p = some st') :
    ElemInv geo (fun n => (look n).join) coord nodes0 (done ++ [it]) st' := by
  unfold insertElement at hs
  obtain ⟨ref, hr, hs⟩ := Option.bind_eq_some_iff.mp hs
  have hdim := dim_eq hr
  simp only at hs
  have hskip : ∀ c, it.t.dim ≠ 2 - c → (done ++ [it]).filter (fun it => decide (it.t.dim = 2 - c)) =
      done.filter fun it => decide (it.t.dim = 2 - c) := by
    intro c hc
    rw [List.filter_append]
    simp [hc]
  have htake : ∀ c, it.t.dim = 2 - c → (done ++ [it]).filter (fun it => decide (it.t.dim = 2 - c)) =
      done.filter (fun it => decide (it.t.dim = 2 - c)) ++ [it] := by
    intro c hc
    rw [List.filter_append]
    simp [hc]
  have hle : ref.dimension ≤ 2 := by cases ref <;> decide
  by_cases hb : st.begin = some (it.t, it.nodes)
  · rw [if_pos hb] at hs
    obtain ⟨l, hl, hs⟩ := Option.bind_eq_some_iff.mp hs
    cases hs
    by_cases hpt : it.t = .point
    · have hd : it.t.dim = 0 := by rw [hpt]; rfl
      refine ⟨h.nodes, fun c hc => ?_, fun t ns hbn hne => ?_⟩
      · obtain ⟨gs, h1, h2, h3⟩ := h.groups c hc
        refine ⟨gs, ?_, ?_, h3⟩
        · simp only
          rw [Function.update_of_ne (by omega)]
          exact h1
        · rw [hskip c (by omega)]
          exact h2
      · rw [hb] at hbn
        cases hbn
        exact absurd hpt hne
    · obtain ⟨a, ha, hac, hag⟩ := h.start _ _ hb hpt
      have hd0 : it.t.dim ≠ 0 := by
        intro h0
        cases htt : it.t <;> simp [htt, GmshType.dim] at h0 hpt
      refine ⟨h.nodes, fun c hc => ?_, fun t ns hbn _ => ?_⟩
      · obtain ⟨gs, h1, h2, h3⟩ := h.groups c hc
        by_cases hcc : c = 2 - ref.dimension
        · subst hcc
          rw [← hdim] at hl h1 h2 h3 ⊢
          obtain ⟨A, hA⟩ : ∃ A, addedOf st.factory (2 - it.t.dim) = A ++ [a] := by
            refine ⟨(addedOf st.factory (2 - it.t.dim)).dropLast, ?_⟩
            rw [List.dropLast_append_getLast? a ha]
          rw [hA] at h3
          rcases List.eq_nil_or_concat gs with rfl | ⟨gs', g, rfl⟩
          · have := h3.length_eq
            simp at this
          · rw [List.concat_eq_append] at h1 h2 h3
            obtain ⟨h4, h5⟩ := forall₂_concat.mp h3
            rw [h1, pushLast_concat] at hl
            cases hl
            refine ⟨gs' ++ [g ++ [it]], ?_, ?_, ?_⟩
            · simp only
              rw [Function.update_self]
            · rw [htake _ (by omega), ← h2]
              simp
            · simp only
              rw [hA]
              refine forall₂_concat.mpr ⟨h4, ⟨by simp, h5.1.2⟩, fun it' hit' => ?_⟩
              rcases List.mem_append.mp hit' with hit' | hit'
              · exact h5.2 it' hit'
              · obtain rfl := List.mem_singleton.mp hit'
                exact ⟨hac, hag⟩
        · refine ⟨gs, ?_, ?_, h3⟩
          · simp only
            rw [Function.update_of_ne hcc]
            exact h1
          · rw [hskip c (by omega)]
            exact h2
      · rw [hb] at hbn
        cases hbn
        exact ⟨a, ha, hac, hag⟩
  · rw [if_neg hb] at hs
    by_cases hpt : ref = .point
    · rw [if_pos hpt] at hs
      subst hpt
      have hd : it.t.dim = 0 := hdim
      have htp : it.t = .point := by cases htt : it.t <;> simp [htt, GmshType.dim] at hd ⊢
      obtain ⟨n, hn, hs⟩ := Option.bind_eq_some_iff.mp hs
      obtain ⟨mi, hmi, hs⟩ := Option.bind_eq_some_iff.mp hs
      have hgr : ∀ m : ℕ → List (List ℕ), (∀ c < 2, m c = st.mi2gi c) →
          ElemInv geo (fun n => (look n).join) coord nodes0 (done ++ [it])
            { st with begin := some (it.t, it.nodes), mi2gi := m } := by
        intro m hm
        refine ⟨h.nodes, fun c hc => ?_, fun t ns hbn hne => ?_⟩
        · obtain ⟨gs, h1, h2, h3⟩ := h.groups c hc
          refine ⟨gs, ?_, ?_, h3⟩
          · simp only
            rw [hm c hc]
            exact h1
          · rw [hskip c (by omega)]
            exact h2
        · cases hbn
          exact absurd htp hne
      cases mi with
      | none =>
        cases hs
        exact hgr st.mi2gi fun _ _ => rfl
      | some i =>
        cases hs
        exact hgr _ fun c hc => Function.update_of_ne (by omega) _ _
    · rw [if_neg hpt] at hs
      obtain ⟨coords, hco, hs⟩ := Option.bind_eq_some_iff.mp hs
      obtain ⟨g, hg, hs⟩ := Option.bind_eq_some_iff.mp hs
      obtain ⟨ns, hns, hs⟩ := Option.bind_eq_some_iff.mp hs
      obtain ⟨f, hf, hs⟩ := Option.bind_eq_some_iff.mp hs
      cases hs
      rw [mapM_corners hr] at hns
      obtain ⟨_, hA1, hA2, hA3⟩ := addEntity_added (f' := f.1) (i := f.2) hf
      have hgeo : (it.nodes.mapM coord).bind (geo.make it.t) = some g := by
        rw [hco]
        exact hg
      refine ⟨hA1.trans h.nodes, fun c hc => ?_, fun t ns' hbn _ => ?_⟩
      · obtain ⟨gs, h1, h2, h3⟩ := h.groups c hc
        by_cases hcc : c = 2 - ref.dimension
        · subst hcc
          refine ⟨gs ++ [[it]], ?_, ?_, ?_⟩
          · simp only
            rw [Function.update_self, h1]
            simp
          · rw [htake _ (by omega), ← h2]
            simp
          · simp only
            rw [hA2]
            refine forall₂_concat.mpr ⟨h3, by simp, fun it' hit' => ?_⟩
            obtain rfl := List.mem_singleton.mp hit'
            exact ⟨hns, hgeo⟩
        · refine ⟨gs, ?_, ?_, ?_⟩
          · simp only
            rw [Function.update_of_ne hcc]
            exact h1
          · rw [hskip c (by omega)]
            exact h2
          · simp only
            rw [hA3 c hc hcc]
            exact h3
      · simp only [Option.some.injEq, Prod.mk.injEq] at hbn
        obtain ⟨rfl, rfl⟩ := hbn
        refine ⟨(ns, some g), ?_, hns, hgeo⟩
        rw [hdim]
        simp only
        rw [hA2]
        simp

end inv

/-! ### The points -/

/-- The point element `it` is at the node with index `i`. -/
def PointAt (L : ℕ → Option ℕ) (it : Item) (i : ℕ) : Prop := it.t = .point ∧ cornersBy L it.t it.nodes = some [i]

instance (L : ℕ → Option ℕ) (it : Item) (i : ℕ) : Decidable (PointAt L it i) := by unfold PointAt; infer_instance

theorem pointAt_iff {L : ℕ → Option ℕ} {it : Item} {i : ℕ} (ht : it.t = .point) :
    PointAt L it i ↔ ∃ n, it.nodes[0]? = some n ∧ L n = some i := by
  unfold PointAt cornersBy
  simp only [ht, true_and]
  have : GmshType.point.corners = 1 := rfl
  rw [this]
  cases it.nodes with
  | nil => simp
  | cons n l =>
    rw [if_neg (by simp)]
    simp only [List.take_succ_cons, List.take_zero,
      List.mapM_cons, List.mapM_nil, List.getElem?_cons_zero, Option.some.injEq, exists_eq_left']
    cases L n <;> simp

theorem PointAt.unique {L : ℕ → Option ℕ} {it : Item} {i j : ℕ} (h : PointAt L it i) (h' : PointAt L it j) : i = j := by
  have := h.2.symm.trans h'.2
  simpa using this

/-- State of the table of the points after the elements `done`. -/
structure PointInv (L : ℕ → Option ℕ) (done : List Item) (st : ReadState G) : Prop where
  entries : ∀ i, ((st.mi2gi 2)[i]?).getD [] = (done.filter fun it => decide (PointAt L it i)).map Item.p
  long : ∀ it ∈ done, ∀ i, PointAt L it i → i < (st.mi2gi 2).length
  short : ∀ k < (st.mi2gi 2).length, ∃ it ∈ done, ∃ i, PointAt L it i ∧ k ≤ i
  start : ∀ t ns, st.begin = some (t, ns) → ∃ l it, done = l ++ [it] ∧ it.t = t ∧ it.nodes = ns

theorem PointInv.reset {L : ℕ → Option ℕ} {done : List Item} {st : ReadState G} (h : PointInv L done st) :
    PointInv L done { st with begin := none } := ⟨h.entries, h.long, h.short, by intro t ns hb; cases hb⟩

theorem PointInv.step {geo : GmshGeo P G} {look : ℕ → Option (Option ℕ)} {coord : ℕ → Option P} {done : List Item}
    {st st' : ReadState G} (h : PointInv (fun n => (look n).join) done st) (it : Item)
    (hs : insertElement geo look coord st it.t it.nodes it.p = some st')
    (hrep : it.t = .point → st.begin = some (it.t, it.nodes) → ∃ i, PointAt (fun n => (look n).join) it i ∧
      ∀ z ∈ done, ∀ j, PointAt (fun n => (look n).join) z j → j ≤ i) :
    PointInv (fun n => (look n).join) (done ++ [it]) st' := by
  unfold insertElement at hs
  obtain ⟨ref, hr, hs⟩ := Option.bind_eq_some_iff.mp hs
  have hdim := dim_eq hr
  simp only at hs
  have hno : ∀ m : ReadState G, (m.mi2gi 2 = st.mi2gi 2) → m.begin = some (it.t, it.nodes) →
      (∀ i, ¬ PointAt (fun n => (look n).join) it i) → PointInv (fun n => (look n).join) (done ++ [it]) m := by
    intro m hm hb hnot
    refine ⟨fun i => ?_, fun z hz i hi => ?_, fun k hk => ?_, fun t ns hbn => ?_⟩
    · rw [hm, h.entries i, List.filter_append]
      simp [hnot i]
    · rw [hm]
      rcases List.mem_append.mp hz with hz | hz
      · exact h.long z hz i hi
      · obtain rfl := List.mem_singleton.mp hz
        exact absurd hi (hnot i)
    · rw [hm] at hk
      obtain ⟨z, hz, i, h1, h2⟩ := h.short k hk
      exact ⟨z, by simp [hz], i, h1, h2⟩
    · rw [hb] at hbn
      cases hbn
      exact ⟨done, it, rfl, rfl, rfl⟩
  have hyes : ∀ (m : ReadState G) (i : ℕ), PointAt (fun n => (look n).join) it i → m.begin = some (it.t, it.nodes) →
      (∀ j, ((m.mi2gi 2)[j]?).getD [] = if j = i then ((st.mi2gi 2)[i]?).getD [] ++ [it.p] else ((st.mi2gi 2)[j]?).getD []) →
      (m.mi2gi 2).length = max (i + 1) (st.mi2gi 2).length → PointInv (fun n => (look n).join) (done ++ [it]) m := by
    intro m i hi hb hent hlen
    refine ⟨fun j => ?_, fun z hz j hj => ?_, fun k hk => ?_, fun t ns hbn => ?_⟩
    · rw [hent j, List.filter_append, List.map_append]
      by_cases hj : j = i
      · subst hj
        rw [if_pos rfl, h.entries]
        simp [hi]
      · rw [if_neg hj, h.entries]
        have : ¬ PointAt (fun n => (look n).join) it j := fun h' => hj (h'.unique hi)
        simp [this]
    · rw [hlen]
      rcases List.mem_append.mp hz with hz | hz
      · have := h.long z hz j hj
        omega
      · obtain rfl := List.mem_singleton.mp hz
        have := hi.unique hj
        omega
    · rw [hlen] at hk
      by_cases hk2 : k < (st.mi2gi 2).length
      · obtain ⟨z, hz, i, h1, h2⟩ := h.short k hk2
        exact ⟨z, by simp [hz], i, h1, h2⟩
      · exact ⟨it, by simp, i, hi, by omega⟩
    · rw [hb] at hbn
      cases hbn
      exact ⟨done, it, rfl, rfl, rfl⟩
  by_cases hb : st.begin = some (it.t, it.nodes)
  · rw [if_pos hb] at hs
    obtain ⟨l, hl, hs⟩ := Option.bind_eq_some_iff.mp hs
    cases hs
    by_cases hpt : it.t = .point
    · have hd : ref.dimension = 0 := by rw [← hdim, hpt]; rfl
      obtain ⟨i, hi, hmax⟩ := hrep hpt hb
      obtain ⟨l0, z, hz, hzt, hzn⟩ := h.start _ _ hb
      have hzi : PointAt (fun n => (look n).join) z i := by
        unfold PointAt at hi ⊢
        rw [hzt, hzn]
        exact hi
      have h1 : (st.mi2gi 2).length = i + 1 := by
        have h2 := h.long z (by rw [hz]; simp) i hzi
        have h3 : (st.mi2gi 2).length ≤ i + 1 := by
          by_contra hc
          obtain ⟨y, hy, j, hj, hle⟩ := h.short (i + 1) (by omega)
          have := hmax y hy j hj
          omega
        omega
      rw [hd] at hl
      simp only [Nat.sub_zero] at hl
      rcases List.eq_nil_or_concat (st.mi2gi 2) with hnil | ⟨A, g, hA⟩
      · rw [hnil] at h1
        simp at h1
      rw [List.concat_eq_append] at hA
      have hAl : A.length = i := by
        rw [hA] at h1
        simpa using h1
      have hl' : l = A ++ [g ++ [it.p]] := by
        rw [hA] at hl
        simp [pushLast] at hl
        exact hl.symm
      refine hyes _ i hi hb (fun j => ?_) ?_
      · simp only [hd, Nat.sub_zero, Function.update_self]
        rw [hl', hA]
        by_cases hj : j = i
        · subst hj
          rw [if_pos rfl, ← hAl]
          simp
        · rw [if_neg hj]
          by_cases hj2 : j < A.length
          · rw [List.getElem?_append_left hj2, List.getElem?_append_left hj2]
          · rw [List.getElem?_eq_none (by simp; omega), List.getElem?_eq_none (by simp; omega)]
      · simp only [hd, Nat.sub_zero, Function.update_self]
        rw [hl', hA]
        simp
        omega
    · refine hno _ ?_ hb fun i hi => hpt hi.1
      simp only
      rw [Function.update_of_ne]
      have hd0 : it.t.dim ≠ 0 := by
        intro h0
        cases htt : it.t <;> simp [htt, GmshType.dim] at h0 hpt
      omega
  · rw [if_neg hb] at hs
    by_cases hpt : ref = .point
    · rw [if_pos hpt] at hs
      subst hpt
      have hd : it.t.dim = 0 := hdim
      have htp : it.t = .point := by cases htt : it.t <;> simp [htt, GmshType.dim] at hd ⊢
      obtain ⟨n, hn, hs⟩ := Option.bind_eq_some_iff.mp hs
      obtain ⟨mi, hmi, hs⟩ := Option.bind_eq_some_iff.mp hs
      cases mi with
      | none =>
        cases hs
        refine hno _ rfl rfl fun i hi => ?_
        obtain ⟨m, hm, hL⟩ := (pointAt_iff htp).mp hi
        rw [hn] at hm
        cases hm
        rw [hmi] at hL
        cases hL
      | some i =>
        cases hs
        have hi : PointAt (fun n => (look n).join) it i := (pointAt_iff htp).mpr ⟨n, hn, by rw [hmi]; rfl⟩
        have hgrow : ∀ j : ℕ, ((if (st.mi2gi 2).length ≤ i then grow (i + 1) [] (st.mi2gi 2) else st.mi2gi 2)[j]?).getD [] =
            ((st.mi2gi 2)[j]?).getD [] := by
          intro j
          split_ifs with hle
          · rw [grow_getElem?]
            by_cases hj : j < (st.mi2gi 2).length
            · rw [if_pos hj]
            · rw [if_neg hj, List.getElem?_eq_none (not_lt.mp hj)]
              split_ifs <;> rfl
          · rfl
        have hlen : (if (st.mi2gi 2).length ≤ i then grow (i + 1) [] (st.mi2gi 2) else st.mi2gi 2).length =
            max (i + 1) (st.mi2gi 2).length := by
          split_ifs with hle
          · rw [grow_length]
          · omega
        generalize (if (st.mi2gi 2).length ≤ i then grow (i + 1) [] (st.mi2gi 2) else st.mi2gi 2) = l at hgrow hlen
        refine hyes _ i hi rfl (fun j => ?_) ?_
        · simp only [Function.update_self]
          rw [List.getElem?_modify]
          by_cases hj : j = i
          · subst hj
            rw [if_pos rfl, ← hgrow j, List.getElem?_eq_getElem (by omega)]
            simp
          · have hj' : ¬ i = j := fun h => hj h.symm
            rw [if_neg hj, ← hgrow j]
            simp [hj']
        · simp only [Function.update_self, List.length_modify]
          exact hlen
    · rw [if_neg hpt] at hs
      obtain ⟨coords, hco, hs⟩ := Option.bind_eq_some_iff.mp hs
      obtain ⟨g, hg, hs⟩ := Option.bind_eq_some_iff.mp hs
      obtain ⟨ns, hns, hs⟩ := Option.bind_eq_some_iff.mp hs
      obtain ⟨f, hf, hs⟩ := Option.bind_eq_some_iff.mp hs
      cases hs
      have hd : ref.dimension ≠ 0 := by cases ref <;> simp [RefEl.dimension] at hpt ⊢
      have hd2 : ref.dimension ≤ 2 := by cases ref <;> decide
      refine hno _ ?_ rfl fun i hi => ?_
      · simp only
        rw [Function.update_of_ne (by omega)]
      · have := hi.1
        rw [this] at hdim
        exact hd hdim.symm

end Verif
