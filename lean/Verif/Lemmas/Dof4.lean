import Verif.Lemmas.Dof3
import Verif.Spec.DofHandler
import Mathlib.Data.List.GetD

/-!
# Consequences of the abstract numbering
-/

namespace Verif

theorem psum_find (f : ℕ → ℕ) (n d : ℕ) (h : d < psum f n) :
    ∃ i < n, psum f i ≤ d ∧ d < psum f i + f i := by
  induction n with
  | zero => simp at h
  | succ n ih =>
    by_cases h1 : d < psum f n
    · obtain ⟨i, hi, h2⟩ := ih h1
      exact ⟨i, by omega, h2⟩
    · rw [psum_succ] at h
      exact ⟨n, by omega, by omega, by omega⟩

theorem psum_lt (f : ℕ → ℕ) {i n : ℕ} (h : i < n) : psum f i + f i ≤ psum f n := by
  rw [← psum_succ]; exact psum_mono f h

theorem psum_congr (f g : ℕ → ℕ) (n : ℕ) (h : ∀ i < n, f i = g i) : psum f n = psum g n := by
  induction n with
  | zero => rfl
  | succ n ih => rw [psum_succ, psum_succ, ih (fun i hi => h i (by omega)), h n (by omega)]

theorem IsEnt_iff {T : Topo} (hT : T.WF) (e : Ent) : T.IsEnt e ↔ T.refEl e ≠ none := by
  constructor
  · rintro ⟨h1, h2⟩
    obtain ⟨k, i⟩ := e
    match k, h1, h2 with
    | 2, _, h2 => rw [refEl_node T h2]; simp
    | 1, _, h2 => rw [refEl_edge T h2]; simp
    | 0, _, h2 => obtain ⟨r, hr, _⟩ := refEl_cell hT h2; rw [hr]; simp
  · intro h
    obtain ⟨k, i⟩ := e
    rcases refEl_ne_none h with ⟨rfl, h1⟩ | ⟨rfl, h1⟩ | ⟨rfl, h1⟩
    · exact ⟨Nat.le_refl _, h1⟩
    · exact ⟨by show 1 ≤ 2; omega, h1⟩
    · exact ⟨Nat.zero_le _, h1⟩

theorem IsEnt_node {T : Topo} {v : ℕ} (h : v < T.numNodes) : T.IsEnt (2, v) := ⟨Nat.le_refl _, h⟩
theorem IsEnt_edge {T : Topo} {v : ℕ} (h : v < T.numEdges) : T.IsEnt (1, v) := ⟨by show 1 ≤ 2; omega, h⟩
theorem IsEnt_cell {T : Topo} {v : ℕ} (h : v < T.numCells) : T.IsEnt (0, v) := ⟨Nat.zero_le _, h⟩

namespace Num
variable {T : Topo} {cnt : Ent → ℕ}

theorem mem_intr {e : Ent} {d : ℕ} : d ∈ intr T cnt e ↔ start T cnt e ≤ d ∧ d < start T cnt e + cnt e := by
  simp [intr]

theorem intr_getElem? (e : Ent) (i d : ℕ) :
    (intr T cnt e)[i]? = some d ↔ i < cnt e ∧ d = start T cnt e + i := by
  unfold intr
  constructor
  · intro h
    have hi : i < cnt e := by
      have := (List.getElem?_eq_some_iff.1 h).1
      simpa using this
    rw [List.getElem?_range' hi] at h
    simp at h
    exact ⟨hi, by omega⟩
  · rintro ⟨hi, rfl⟩
    rw [List.getElem?_range' hi]; simp

theorem start_lt_total {e : Ent} (he : T.IsEnt e) : start T cnt e + cnt e ≤ total T cnt := by
  obtain ⟨k, i⟩ := e
  obtain ⟨h1, h2⟩ := he
  match k, h1, h2 with
  | 2, _, h2 =>
    have := psum_lt (fun v => cnt (2, v)) h2
    simp only [start, base, total, Topo.num] at *; omega
  | 1, _, h2 =>
    have := psum_lt (fun v => cnt (1, v)) h2
    simp only [start, base, total, Topo.num] at *; omega
  | 0, _, h2 =>
    have := psum_lt (fun v => cnt (0, v)) h2
    simp only [start, base, total, Topo.num] at *; omega

theorem start_order {e f : Ent} (he : T.IsEnt e) (hf : T.IsEnt f)
    (h : f.1 < e.1 ∨ (e.1 = f.1 ∧ e.2 < f.2)) : start T cnt e + cnt e ≤ start T cnt f := by
  obtain ⟨k, i⟩ := e
  obtain ⟨m, j⟩ := f
  rcases h with h | ⟨h, h'⟩
  · obtain ⟨h1, h2⟩ := he
    obtain ⟨h3, h4⟩ := hf
    simp only at h h1 h3
    match k, m, h, h1, h2, h4 with
    | 2, 0, _, _, h2, h4 =>
      have := psum_lt (fun v => cnt (2, v)) h2
      simp only [start, base, Topo.num] at *; omega
    | 2, 1, _, _, h2, h4 =>
      have := psum_lt (fun v => cnt (2, v)) h2
      simp only [start, base, Topo.num] at *; omega
    | 1, 0, _, _, h2, h4 =>
      have := psum_lt (fun v => cnt (1, v)) h2
      simp only [start, base, Topo.num] at *; omega
  · simp only at h h'
    subst h
    have := psum_lt (fun v => cnt (k, v)) h'
    simp only [start]; omega

theorem exists_owner (T : Topo) (cnt : Ent → ℕ) {d : ℕ} (h : d < total T cnt) :
    ∃ e, T.IsEnt e ∧ d ∈ intr T cnt e := by
  simp only [total, base] at h
  by_cases h1 : d < psum (fun v => cnt (2, v)) T.numNodes
  · obtain ⟨i, hi, h2, h3⟩ := psum_find _ _ _ h1
    exact ⟨(2, i), IsEnt_node hi, mem_intr.2 (by simp only [start, base]; omega)⟩
  by_cases h1' : d < psum (fun v => cnt (2, v)) T.numNodes + psum (fun v => cnt (1, v)) T.numEdges
  · obtain ⟨i, hi, h2, h3⟩ := psum_find (fun v => cnt (1, v)) T.numEdges
      (d - psum (fun v => cnt (2, v)) T.numNodes) (by omega)
    exact ⟨(1, i), IsEnt_edge hi, mem_intr.2 (by simp only [start, base]; omega)⟩
  · obtain ⟨i, hi, h2, h3⟩ := psum_find (fun v => cnt (0, v)) T.numCells
      (d - (psum (fun v => cnt (2, v)) T.numNodes + psum (fun v => cnt (1, v)) T.numEdges)) (by omega)
    exact ⟨(0, i), IsEnt_cell hi, mem_intr.2 (by simp only [start, base]; omega)⟩

theorem owner_unique {e f : Ent} (he : T.IsEnt e) (hf : T.IsEnt f) {d : ℕ} (h1 : d ∈ intr T cnt e)
    (h2 : d ∈ intr T cnt f) : e = f := by
  rw [mem_intr] at h1 h2
  have key : ∀ a b : Ent, a = b ∨ (b.1 < a.1 ∨ (a.1 = b.1 ∧ a.2 < b.2)) ∨ (a.1 < b.1 ∨ (b.1 = a.1 ∧ b.2 < a.2)) := by
    rintro ⟨a1, a2⟩ ⟨b1, b2⟩
    rcases Nat.lt_trichotomy a1 b1 with h | h | h
    · exact Or.inr (Or.inr (Or.inl h))
    · rcases Nat.lt_trichotomy a2 b2 with h' | h' | h'
      · exact Or.inr (Or.inl (Or.inr ⟨h, h'⟩))
      · left; rw [h, h']
      · exact Or.inr (Or.inr (Or.inr ⟨h.symm, h'⟩))
    · exact Or.inr (Or.inl (Or.inl h))
  rcases key e f with h | h | h
  · exact h
  · have := start_order (cnt := cnt) he hf h; omega
  · have := start_order (cnt := cnt) hf he h; omega

theorem entsOf_length (k n : ℕ) : (entsOf cnt k n).length = psum (fun i => cnt (k, i)) n := by
  induction n with
  | zero => rfl
  | succ n ih => rw [entsOf_succ, List.length_append, ih, psum_succ]; simp

theorem entsOf_get (k n i d : ℕ) (hi : i < n) (h1 : psum (fun i => cnt (k, i)) i ≤ d)
    (h2 : d < psum (fun i => cnt (k, i)) i + cnt (k, i)) : (entsOf cnt k n)[d]? = some (k, i) := by
  induction n with
  | zero => omega
  | succ n ih =>
    rw [entsOf_succ]
    rcases Nat.lt_or_ge i n with h | h
    · have := psum_lt (fun i => cnt (k, i)) h
      rw [List.getElem?_append_left (by rw [entsOf_length]; omega)]
      exact ih h
    · have : i = n := by omega
      subst this
      rw [List.getElem?_append_right (by rw [entsOf_length]; exact h1), entsOf_length]
      rw [List.getElem?_replicate, if_pos (by omega)]

theorem ents_length : (ents T cnt).length = total T cnt := by
  simp only [ents, List.length_append, entsOf_length, total, base]

theorem ents_get {e : Ent} (he : T.IsEnt e) {d : ℕ} (h : d ∈ intr T cnt e) : (ents T cnt)[d]? = some e := by
  rw [mem_intr] at h
  obtain ⟨k, i⟩ := e
  obtain ⟨h1, h2⟩ := he
  unfold ents
  match k, h1, h2, h with
  | 2, _, h2, h =>
    have := psum_lt (fun v => cnt (2, v)) h2
    simp only [start, base, Nat.zero_add] at h
    simp only [Topo.num] at this
    rw [List.getElem?_append_left, List.getElem?_append_left]
    · exact entsOf_get _ _ _ _ h2 h.1 h.2
    · rw [entsOf_length]; omega
    · rw [List.length_append, entsOf_length]; omega
  | 1, _, h2, h =>
    have := psum_lt (fun v => cnt (1, v)) h2
    simp only [start, base] at h
    simp only [Topo.num] at this
    rw [List.getElem?_append_left, List.getElem?_append_right]
    · exact entsOf_get _ _ _ _ h2 (by rw [entsOf_length]; omega) (by rw [entsOf_length]; omega)
    · rw [entsOf_length]; omega
    · rw [List.length_append, entsOf_length, entsOf_length]; omega
  | 0, _, h2, h =>
    have := psum_lt (fun v => cnt (0, v)) h2
    simp only [start, base] at h
    simp only [Topo.num] at this
    rw [List.getElem?_append_right]
    · exact entsOf_get _ _ _ _ h2 (by rw [List.length_append, entsOf_length, entsOf_length]; omega)
        (by rw [List.length_append, entsOf_length, entsOf_length]; omega)
    · rw [List.length_append, entsOf_length, entsOf_length]; omega

theorem intr_nodup (e : Ent) : (intr T cnt e).Nodup := List.nodup_range'

theorem intr_disjoint {e f : Ent} (he : T.IsEnt e) (hf : T.IsEnt f) (h : e ≠ f) :
    (intr T cnt e).Disjoint (intr T cnt f) := by
  intro d h1 h2
  exact h (owner_unique he hf h1 h2)

/-! ### The specification predicates -/

variable {chk : Bool} {h : DofHandler} (hI : Is T cnt chk h) (hT : T.WF)
include hI hT

theorem Is.own {e : Ent} (he : T.IsEnt e) : h.own e = intr T cnt e := by
  unfold DofHandler.own; rw [hI.interior e ((IsEnt_iff hT e).1 he)]; rfl

theorem Is.all {e : Ent} (he : T.IsEnt e) : h.all e = glob T cnt chk e := by
  unfold DofHandler.all; rw [hI.global e ((IsEnt_iff hT e).1 he)]; rfl

theorem Is.answers : h.Answers T := by
  intro e he
  have hr := (IsEnt_iff hT e).1 he
  rw [hI.own hT he, hI.all hT he]
  exact ⟨hI.interior e hr, hI.global e hr, by rw [hI.numInterior e hr]; simp, hI.numLocal e hr⟩

theorem Is.own_length {e : Ent} (he : T.IsEnt e) : (h.own e).length = cnt e := by
  rw [hI.own hT he]; simp

theorem Is.partitions : h.Partitions T := by
  constructor
  · intro e he d hd
    rw [hI.own hT he, mem_intr] at hd
    rw [hI.numDofs]
    have := start_lt_total (cnt := cnt) he
    omega
  · intro d hd
    rw [hI.numDofs] at hd
    obtain ⟨e, he, hde⟩ := exists_owner T cnt hd
    rw [mem_intr] at hde
    refine ⟨(e, d - start T cnt e), ⟨he, ?_⟩, ?_⟩
    · rw [hI.own hT he, intr_getElem?]
      omega
    · rintro ⟨f, j⟩ ⟨hf, hfd⟩
      simp only at hf hfd
      rw [hI.own hT hf, intr_getElem?] at hfd
      have : e = f := owner_unique (cnt := cnt) (d := d) he hf (mem_intr.2 hde) (mem_intr.2 (by omega))
      subst this
      congr 1
      omega

theorem Is.ordered : h.Ordered T := by
  constructor
  · intro e f he hf hlt d hd d' hd'
    rw [hI.own hT he, mem_intr] at hd
    rw [hI.own hT hf, mem_intr] at hd'
    have := start_order (cnt := cnt) he hf hlt
    omega
  · intro e he
    refine ⟨start T cnt e, ?_⟩
    rw [hI.own hT he, intr_length]; rfl

theorem Is.cell_part {c : ℕ} (hc : c < T.numCells) :
    h.all (0, c) = ((T.cell c).nodes.flatMap fun v => h.own (2, v)) ++
    (((T.cell c).edges.zip (T.cell c).ori).flatMap fun p =>
      if !chk || p.2 then h.own (1, p.1) else (h.own (1, p.1)).reverse) ++
    h.own (0, c) := by
  rw [hI.all hT (IsEnt_cell hc), hI.own hT (IsEnt_cell hc)]
  simp only [glob]
  congr 2
  · apply List.flatMap_congr
    intro v hv
    rw [hI.own hT (IsEnt_node (hT.cell_nodes c hc v hv))]
  · apply List.flatMap_congr
    intro p hp
    rw [hI.own hT (IsEnt_edge (hT.cell_edges c hc p.1 (List.of_mem_zip hp).1))]
    rfl

theorem Is.node_part {v : ℕ} (hv : v < T.numNodes) : h.all (2, v) = h.own (2, v) := by
  rw [hI.all hT (IsEnt_node hv), hI.own hT (IsEnt_node hv)]; rfl

theorem Is.edge_part {e : ℕ} (he : e < T.numEdges) : h.all (1, e) =
    h.own (2, (T.edge e).1) ++ h.own (2, (T.edge e).2) ++ h.own (1, e) := by
  rw [hI.all hT (IsEnt_edge he), hI.own hT (IsEnt_edge he), hI.own hT (IsEnt_node (hT.edge_lt e he).1),
    hI.own hT (IsEnt_node (hT.edge_lt e he).2)]; rfl

omit hI in
theorem edges_nodup {c : ℕ} (hc : c < T.numCells) (hn : (T.cell c).nodes.Nodup) :
    (T.cell c).edges.Nodup := by
  rw [List.nodup_iff_injective_getElem]
  rintro ⟨i, hi⟩ ⟨j, hj⟩ hij
  simp only at hij
  have hlen := hT.cell_edges_len c hc
  have s1 := hT.cell_side c hc i (by omega)
  have s2 := hT.cell_side c hc j (by omega)
  rw [List.getD_eq_getElem _ _ hi] at s1
  rw [List.getD_eq_getElem _ _ hj, ← hij] at s2
  have hss : SamePair (side (T.cell c).nodes i) (side (T.cell c).nodes j) := by
    unfold SamePair at *
    rcases s1 with s1 | s1 <;> rcases s2 with s2 | s2 <;> rw [s1] at s2
    · exact Or.inl s2
    · exact Or.inr s2
    · right
      rw [← s2]; simp
    · left
      have := congrArg Prod.swap s2
      simpa using this
  have l3 := hT.cell_len c hc
  have hL : (T.cell c).nodes.length = 3 ∨ (T.cell c).nodes.length = 4 := l3
  have inj : ∀ a b, a < (T.cell c).nodes.length → b < (T.cell c).nodes.length →
      (T.cell c).nodes.getD a 0 = (T.cell c).nodes.getD b 0 → a = b := by
    intro a b ha hb hab
    rw [List.getD_eq_getElem _ _ ha, List.getD_eq_getElem _ _ hb] at hab
    exact (List.Nodup.getElem_inj_iff hn).1 hab
  have hpos : 0 < (T.cell c).nodes.length := by omega
  congr 1
  rcases hss with h | h
  · exact inj i j (by omega) (by omega) (congrArg Prod.fst h)
  · have h1 := inj i _ (by omega) (Nat.mod_lt _ hpos) (congrArg Prod.fst h)
    have h2 := inj _ j (Nat.mod_lt _ hpos) (by omega) (congrArg Prod.snd h)
    exfalso
    rcases hL with hL | hL <;> rw [hL] at h1 h2 hlen <;> omega

theorem Is.distinctInRange : h.DistinctInRange T := by
  intro e he
  constructor
  · intro d hd
    rw [hI.numDofs]
    have hown : ∀ f, T.IsEnt f → d ∈ h.own f → d < total T cnt := by
      intro f hf hdf
      rw [← hI.numDofs]
      exact (hI.partitions hT).1 f hf d hdf
    obtain ⟨k, i⟩ := e
    rcases refEl_ne_none ((IsEnt_iff hT _).1 he) with ⟨rfl, h1⟩ | ⟨rfl, h1⟩ | ⟨rfl, h1⟩
    · rw [hI.node_part hT h1] at hd
      exact hown _ he hd
    · rw [hI.edge_part hT h1] at hd
      simp only [List.mem_append] at hd
      rcases hd with (hd | hd) | hd
      · exact hown _ (IsEnt_node (hT.edge_lt i h1).1) hd
      · exact hown _ (IsEnt_node (hT.edge_lt i h1).2) hd
      · exact hown _ he hd
    · rw [hI.cell_part hT h1] at hd
      simp only [List.mem_append, List.mem_flatMap] at hd
      rcases hd with (⟨v, hv, hd⟩ | ⟨p, hp, hd⟩) | hd
      · exact hown _ (IsEnt_node (hT.cell_nodes i h1 v hv)) hd
      · refine hown (1, p.1) (IsEnt_edge (hT.cell_edges i h1 _ (List.of_mem_zip hp).1)) ?_
        split_ifs at hd
        · exact hd
        · exact List.mem_reverse.1 hd
      · exact hown _ he hd
  · intro hn
    have hown : ∀ f, T.IsEnt f → (h.own f).Nodup := by
      intro f hf; rw [hI.own hT hf]; exact intr_nodup f
    have hdis : ∀ f g, T.IsEnt f → T.IsEnt g → f ≠ g → (h.own f).Disjoint (h.own g) := by
      intro f g hf hg hfg
      rw [hI.own hT hf, hI.own hT hg]; exact intr_disjoint hf hg hfg
    obtain ⟨k, i⟩ := e
    rcases refEl_ne_none ((IsEnt_iff hT _).1 he) with ⟨rfl, h1⟩ | ⟨rfl, h1⟩ | ⟨rfl, h1⟩
    · rw [hI.node_part hT h1]
      exact hown _ he
    · rw [hI.edge_part hT h1]
      have ha := IsEnt_node (hT.edge_lt i h1).1
      have hb := IsEnt_node (hT.edge_lt i h1).2
      refine List.Nodup.append (List.Nodup.append (hown _ ha) (hown _ hb) (hdis _ _ ha hb ?_)) (hown _ he) ?_
      · intro heq
        exact hT.edge_ne i h1 (congrArg Prod.snd heq)
      · intro d hd1 hd2
        rcases List.mem_append.1 hd1 with hd1 | hd1
        · exact hdis _ _ ha he (by simp) hd1 hd2
        · exact hdis _ _ hb he (by simp) hd1 hd2
    · rw [hI.cell_part hT h1]
      have hnn : (T.cell i).nodes.Nodup := hn rfl
      have hee := edges_nodup hT h1 hnn
      have hv : ∀ v ∈ (T.cell i).nodes, T.IsEnt (2, v) := fun v hv => IsEnt_node (hT.cell_nodes i h1 v hv)
      have hE : ∀ p ∈ (T.cell i).edges.zip (T.cell i).ori, T.IsEnt (1, p.1) :=
        fun p hp => IsEnt_edge (hT.cell_edges i h1 _ (List.of_mem_zip hp).1)
      have hz : ((T.cell i).edges.zip (T.cell i).ori).Pairwise (fun p q => p.1 ≠ q.1) := by
        have : (((T.cell i).edges.zip (T.cell i).ori).map Prod.fst) = (T.cell i).edges := by
          apply List.map_fst_zip
          rw [hT.cell_edges_len i h1, hT.cell_ori_len i h1]
        rw [← this] at hee
        exact (List.pairwise_map.1 hee)
      refine List.Nodup.append (List.Nodup.append ?_ ?_ ?_) (hown _ he) ?_
      · rw [List.nodup_flatMap]
        refine ⟨fun v hv' => hown _ (hv v hv'), ?_⟩
        refine List.Pairwise.imp_of_mem ?_ hnn
        intro a b ha hb hab
        exact hdis _ _ (hv a ha) (hv b hb) (by simpa using hab)
      · rw [List.nodup_flatMap]
        refine ⟨fun p hp => ?_, ?_⟩
        · split_ifs
          · exact hown _ (hE p hp)
          · exact List.nodup_reverse.2 (hown _ (hE p hp))
        · refine List.Pairwise.imp_of_mem ?_ hz
          intro a b ha hb hab d hd1 hd2
          simp only at hd1 hd2
          have h3 : d ∈ h.own (1, a.1) := by
            split_ifs at hd1
            · exact hd1
            · exact List.mem_reverse.1 hd1
          have h4 : d ∈ h.own (1, b.1) := by
            split_ifs at hd2
            · exact hd2
            · exact List.mem_reverse.1 hd2
          exact hdis _ _ (hE a ha) (hE b hb) (by simpa using hab) h3 h4
      · intro d hd1 hd2
        obtain ⟨v, hv', hd1⟩ := List.mem_flatMap.1 hd1
        obtain ⟨p, hp, hd2⟩ := List.mem_flatMap.1 hd2
        have h4 : d ∈ h.own (1, p.1) := by
          split_ifs at hd2
          · exact hd2
          · exact List.mem_reverse.1 hd2
        exact hdis _ _ (hv v hv') (hE p hp) (by simp) hd1 h4
      · intro d hd1 hd2
        rcases List.mem_append.1 hd1 with hd1 | hd1
        · obtain ⟨v, hv', hd1⟩ := List.mem_flatMap.1 hd1
          exact hdis _ _ (hv v hv') he (by simp) hd1 hd2
        · obtain ⟨p, hp, hd1⟩ := List.mem_flatMap.1 hd1
          have h4 : d ∈ h.own (1, p.1) := by
            split_ifs at hd1
            · exact hd1
            · exact List.mem_reverse.1 hd1
          exact hdis _ _ (hE p hp) he (by simp) h4 hd2

theorem Is.entityInverts : h.EntityInverts T := by
  constructor
  · intro d hd
    rw [hI.numDofs] at hd
    obtain ⟨e, he, hde⟩ := exists_owner T cnt hd
    refine ⟨e, by rw [hI.entity]; exact ents_get he hde, he, by rw [hI.own hT he]; exact hde, ?_⟩
    intro f hf hdf
    rw [hI.own hT hf] at hdf
    exact owner_unique hf he hdf hde
  · intro d hd
    rw [hI.entity, List.getElem?_eq_none]
    rw [ents_length, ← hI.numDofs]; exact hd

omit hI hT in
theorem flatMap_section {α : Type} (L : List α) (f : α → List ℕ) (g : α → ℕ) (hg : ∀ x ∈ L, (f x).length = g x)
    (j : ℕ) (x : α) (hx : L[j]? = some x) (rest : List ℕ) :
    (((L.flatMap f) ++ rest).drop (((L.take j).map g).sum)).take (g x) = f x := by
  induction L generalizing j with
  | nil => simp at hx
  | cons a L ih =>
    cases j with
    | zero =>
      simp only [List.getElem?_cons_zero, Option.some.injEq] at hx
      subst hx
      simp only [List.take_zero, List.map_nil, List.sum_nil, List.drop_zero, List.flatMap_cons,
        List.append_assoc]
      rw [List.take_append_of_le_length (by rw [hg a (by simp)]), List.take_of_length_le (by rw [hg a (by simp)])]
    | succ j =>
      simp only [List.getElem?_cons_succ] at hx
      simp only [List.take_succ_cons, List.map_cons, List.sum_cons, List.flatMap_cons, List.append_assoc]
      rw [← hg a (by simp), ← List.drop_drop, List.drop_left' rfl]
      exact ih (fun x hx => hg x (by simp [hx])) j hx

theorem Is.edgeSection {c : ℕ} (hc : c < T.numCells) {j : ℕ} (hj : j < (T.cell c).edges.length) :
    h.edgeSection T c j =
      if !chk || (T.cell c).ori.getD j false then h.own (1, (T.cell c).edges.getD j 0)
      else (h.own (1, (T.cell c).edges.getD j 0)).reverse := by
  unfold DofHandler.edgeSection
  rw [hI.cell_part hT hc]
  rw [List.append_assoc, ← List.drop_drop, List.drop_left']
  · have hlen : (T.cell c).edges.length = (T.cell c).ori.length := by
      rw [hT.cell_edges_len c hc, hT.cell_ori_len c hc]
    have hzip : ((T.cell c).edges.zip (T.cell c).ori)[j]? =
        some ((T.cell c).edges.getD j 0, (T.cell c).ori.getD j false) := by
      rw [List.getElem?_zip_eq_some]
      constructor
      · simp only [List.getElem?_eq_getElem hj, List.getD_eq_getElem _ _ hj]
      · have hj' : j < (T.cell c).ori.length := by omega
        simp only [List.getElem?_eq_getElem hj', List.getD_eq_getElem _ _ hj']
    have hmap : (((T.cell c).edges.take j).map fun e => (h.own (1, e)).length) =
        ((((T.cell c).edges.zip (T.cell c).ori).take j).map fun p => (h.own (1, p.1)).length) := by
      have : ((T.cell c).edges.zip (T.cell c).ori).map Prod.fst = (T.cell c).edges :=
        List.map_fst_zip (by omega)
      conv_lhs => rw [← this]
      rw [← List.map_take, List.map_map]
      rfl
    rw [hmap]
    have := flatMap_section ((T.cell c).edges.zip (T.cell c).ori)
      (fun p => if !chk || p.2 then h.own (1, p.1) else (h.own (1, p.1)).reverse)
      (fun p => (h.own (1, p.1)).length)
      (by intro p hp; split_ifs <;> simp) j _ hzip (h.own (0, c))
    exact this
  · rw [List.length_flatMap]

end Num

end Verif
