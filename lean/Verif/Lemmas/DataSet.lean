import Verif.Model.DataSet
import Verif.Lemmas.Dof4
import Mathlib.Algebra.BigOperators.Group.List.Basic

namespace Verif

theorem contains_iff (m : MeshObj) (e : EntObj) :
    m.contains e = true ↔ e.mesh = m.id ∧ m.topo.IsEnt e.ent := by
  simp [MeshObj.contains, Topo.IsEnt, and_assoc]

/-- Invariants of `foldlM` over a list, the property indexed by the processed prefix. -/
theorem foldlM_list_inv {σ α : Type} (f : σ → α → Option σ) (P : List α → σ → Prop) (l : List α) (s0 : σ)
    (h0 : P [] s0) (hs : ∀ pre x s, x ∈ l → P pre s → ∃ s', f s x = some s' ∧ P (pre ++ [x]) s') :
    ∃ s, l.foldlM f s0 = some s ∧ P l s := by
  have gen : ∀ (l' : List α), (∀ x ∈ l', x ∈ l) → ∀ pre s, P pre s →
      ∃ s', l'.foldlM f s = some s' ∧ P (pre ++ l') s' := by
    intro l'
    induction l' with
    | nil => intro _ pre s h; exact ⟨s, rfl, by simpa using h⟩
    | cons a l' ih =>
      intro hl pre s h
      obtain ⟨s1, h1, h2⟩ := hs pre a s (hl a (by simp)) h
      obtain ⟨s2, h3, h4⟩ := ih (fun x hx => hl x (by simp [hx])) _ s1 h2
      refine ⟨s2, ?_, by simpa using h4⟩
      rw [List.foldlM_cons, h1]
      exact h3
  simpa using gen l (fun x hx => hx) [] s0 h0

namespace CodimDS
variable {α : Type}

/-- A data set of the right size. -/
structure Ok (m : MeshObj) (k : ℕ) (d : CodimDS α) : Prop where
  mesh : d.mesh = m
  codim : d.codim = k
  le : k ≤ 2
  len : d.data.length = m.topo.num k

theorem make_ok (m : MeshObj) (k : ℕ) (hk : k ≤ 2) (x : α) :
    ∃ d, CodimDS.make m k x = some d ∧ Ok m k d ∧ ∀ i < m.topo.num k, d.data[i]? = some x := by
  refine ⟨_, by unfold CodimDS.make; rw [if_pos hk], ⟨rfl, rfl, hk, by simp⟩, ?_⟩
  intro i hi
  simp [hi]

theorem Ok.definedOn {m : MeshObj} {k : ℕ} {d : CodimDS α} (h : Ok m k d) (e : EntObj) :
    d.definedOn e = true ↔ e.mesh = m.id ∧ m.topo.IsEnt e.ent ∧ e.ent.1 = k := by
  unfold CodimDS.definedOn
  rw [h.mesh, h.codim, Bool.and_eq_true, contains_iff]
  simp only [decide_eq_true_eq]
  constructor
  · rintro ⟨h1, h2, h3⟩; exact ⟨h2, h3, h1⟩
  · rintro ⟨h1, h2, h3⟩; exact ⟨h3, h1, h2⟩

theorem Ok.read {m : MeshObj} {k : ℕ} {d : CodimDS α} (h : Ok m k d) {i : ℕ} (hi : i < m.topo.num k) :
    d.read ⟨m.id, (k, i)⟩ = d.data[i]? := by
  unfold CodimDS.read
  rw [if_pos ((h.definedOn _).2 ⟨rfl, ⟨h.le, hi⟩, rfl⟩)]

theorem Ok.write {m : MeshObj} {k : ℕ} {d : CodimDS α} (h : Ok m k d) {i : ℕ} (hi : i < m.topo.num k) (v : α) :
    ∃ d', d.write ⟨m.id, (k, i)⟩ v = some d' ∧ Ok m k d' ∧
      ∀ j < m.topo.num k, d'.data[j]? = if j = i then some v else d.data[j]? := by
  have hlen := h.len
  refine ⟨{ d with data := d.data.set i v }, ?_, ⟨h.mesh, h.codim, h.le, by simpa using h.len⟩, ?_⟩
  · unfold CodimDS.write
    rw [if_pos ((h.definedOn _).2 ⟨rfl, ⟨h.le, hi⟩, rfl⟩), if_pos (by rw [hlen]; exact hi)]
  · intro j hj
    simp only [List.getElem?_set]
    by_cases hji : j = i
    · subst hji; simp [hlen, hj]
    · have : ¬ i = j := fun h => hji h.symm
      simp [hji, this]

end CodimDS

theorem bump_spec {m : MeshObj} {k : ℕ} {d : CodimDS ℕ} (h : CodimDS.Ok m k d) {i : ℕ} (hi : i < m.topo.num k)
    (f : ℕ → ℕ) (hf : ∀ j < m.topo.num k, d.data[j]? = some (f j)) :
    ∃ d', bump m d (k, i) = some d' ∧ CodimDS.Ok m k d' ∧
      ∀ j < m.topo.num k, d'.data[j]? = some (f j + if j = i then 1 else 0) := by
  obtain ⟨d', h1, h2, h3⟩ := h.write hi (f i + 1)
  refine ⟨d', ?_, h2, ?_⟩
  · unfold bump
    rw [h.read hi, hf i hi]
    exact h1
  · intro j hj
    rw [h3 j hj]
    by_cases hji : j = i
    · subst hji; simp
    · simp [hji, hf j hj]

theorem subEntities_spec {T : Topo} (hT : T.WF) {e : Ent} (he : T.IsEnt e) {rel : ℕ} (hr : e.1 + rel ≤ 2) :
    ∃ L : List ℕ, T.subEntities e rel = some (L.map fun i => (e.1 + rel, i)) ∧ ∀ i ∈ L, i < T.num (e.1 + rel) := by
  obtain ⟨k, i⟩ := e
  obtain ⟨h1, h2⟩ := he
  match k, rel, h1, h2, hr with
  | k, 0, h1, h2, hr => exact ⟨[i], by simp [Topo.subEntities], by simpa using h2⟩
  | 1, 1, _, h2, _ =>
    refine ⟨[(T.edge i).1, (T.edge i).2], by simp [Topo.subEntities], ?_⟩
    have := hT.edge_lt i h2
    intro j hj
    simp only [List.mem_cons, List.not_mem_nil, or_false] at hj
    rcases hj with rfl | rfl
    · exact this.1
    · exact this.2
  | 0, 1, _, h2, _ => exact ⟨(T.cell i).edges, by simp [Topo.subEntities], fun e he => hT.cell_edges i h2 e he⟩
  | 0, 2, _, h2, _ => exact ⟨(T.cell i).nodes, by simp [Topo.subEntities], fun e he => hT.cell_nodes i h2 e he⟩

/-- Sub-entity list (empty if not defined). -/
def Topo.subs (T : Topo) (e : Ent) (rel : ℕ) : List Ent := (T.subEntities e rel).getD []

theorem count_spec (m : MeshObj) (hT : m.topo.WF) (k r : ℕ) (hk : k ≤ 2) (hr : r ≤ k) :
    ∃ d, countNumSuperEntities m k r = some d ∧ CodimDS.Ok m k d ∧
      ∀ i < m.topo.num k, d.data[i]? =
        some (((m.topo.entities (k - r)).map fun e => (m.topo.subs e r).count (k, i)).sum) := by
  unfold countNumSuperEntities
  rw [if_pos ⟨hk, hr⟩]
  obtain ⟨d0, hd0, hok, hz⟩ := CodimDS.make_ok m k hk 0
  rw [hd0]
  simp only [Option.bind_some]
  have main := foldlM_list_inv (fun d e =>
      (m.topo.subEntities e r).bind fun subs => subs.foldlM (bump m) d)
    (fun pre d => CodimDS.Ok m k d ∧ ∀ i < m.topo.num k, d.data[i]? =
        some ((pre.map fun e => (m.topo.subs e r).count (k, i)).sum))
    (m.topo.entities (k - r)) d0 ⟨hok, by simpa using hz⟩
  apply main
  intro pre e d he ⟨h1, h2⟩
  simp only [Topo.entities, List.mem_map, List.mem_range] at he
  obtain ⟨j, hj, rfl⟩ := he
  obtain ⟨L, hL, hL2⟩ := subEntities_spec hT (e := (k - r, j)) ⟨by show k - r ≤ 2; omega, hj⟩ (rel := r)
    (by show k - r + r ≤ 2; omega)
  have hkr : k - r + r = k := by omega
  simp only [hkr] at hL hL2
  rw [hL]
  simp only [Option.bind_some]
  have inner := foldlM_list_inv (bump m)
    (fun pre' d' => CodimDS.Ok m k d' ∧ ∀ i < m.topo.num k, d'.data[i]? =
        some ((pre.map fun e => (m.topo.subs e r).count (k, i)).sum + pre'.count (k, i)))
    (L.map fun i => (k, i)) d ⟨h1, by simpa using h2⟩ (by
      intro pre' x d' hx ⟨h3, h4⟩
      obtain ⟨i, hi, rfl⟩ := List.mem_map.1 hx
      obtain ⟨d'', h5, h6, h7⟩ := bump_spec h3 (hL2 i hi) _ h4
      refine ⟨d'', h5, h6, ?_⟩
      intro j hj
      rw [h7 j hj, List.count_append]
      congr 1
      rw [Nat.add_assoc]
      congr 1
      by_cases hji : j = i
      · subst hji; simp
      · rw [if_neg hji]
        have : ((k, j) : Ent) ∉ [((k, i) : Ent)] := by simpa using hji
        rw [List.count_eq_zero_of_not_mem this])
  obtain ⟨d', h5, h6, h7⟩ := inner
  refine ⟨d', h5, h6, ?_⟩
  intro i hi
  rw [h7 i hi]
  simp [Topo.subs, hL]

/-! ### Sums -/

theorem sum_ind (n j : ℕ) (hj : j < n) :
    ((List.range n).map fun i => if i = j then 1 else 0).sum = 1 := by
  induction n with
  | zero => omega
  | succ n ih =>
    rw [List.range_succ, List.map_append, List.sum_append]
    by_cases h : j = n
    · subst h
      have : ((List.range j).map fun i => if i = j then 1 else 0).sum = 0 := by
        rw [List.sum_eq_zero]
        intro x hx
        obtain ⟨a, ha, rfl⟩ := List.mem_map.1 hx
        have := List.mem_range.1 ha
        simp; omega
      simp [this]
    · rw [ih (by omega)]
      have : ¬ n = j := fun h' => h h'.symm
      simp [this]

theorem sum_add' (l : List ℕ) (f g : ℕ → ℕ) :
    (l.map fun i => f i + g i).sum = (l.map f).sum + (l.map g).sum := by
  induction l with
  | nil => rfl
  | cons a l ih => simp only [List.map_cons, List.sum_cons, ih]; omega

theorem sum_zero' (l : List ℕ) : (l.map fun _ => 0).sum = 0 := by
  induction l with
  | nil => rfl
  | cons a l ih => simp only [List.map_cons, List.sum_cons, ih]

theorem sum_count_range (n : ℕ) (l : List ℕ) (h : ∀ a ∈ l, a < n) :
    ((List.range n).map fun i => l.count i).sum = l.length := by
  induction l with
  | nil => simp only [List.count_nil, sum_zero', List.length_nil]
  | cons a l ih =>
    have hc : (fun i => (a :: l).count i) = fun i => l.count i + (if i = a then 1 else 0) := by
      funext i
      rw [List.count_cons]
      by_cases h : i = a
      · subst h; simp
      · have : ¬ a = i := fun h' => h h'.symm
        simp [h, this]
    rw [hc, sum_add', ih (fun x hx => h x (by simp [hx])), sum_ind n a (h a (by simp))]
    rfl

theorem sum_comm' (l1 l2 : List ℕ) (f : ℕ → ℕ → ℕ) :
    (l1.map fun i => (l2.map fun s => f i s).sum).sum = (l2.map fun s => (l1.map fun i => f i s).sum).sum := by
  induction l2 with
  | nil => simp only [List.map_nil, List.sum_nil, sum_zero']
  | cons a l ih =>
    simp only [List.map_cons, List.sum_cons]
    rw [sum_add', ih]

/-! ### Exactly one incidence -/

theorem countP_eq_one {β : Type} (p : β → Bool) (l : List β) (hl : l.Nodup) :
    l.countP p = 1 ↔ ∃! x, x ∈ l ∧ p x = true := by
  rw [List.countP_eq_length_filter, List.length_eq_one_iff]
  constructor
  · rintro ⟨a, ha⟩
    have hmem : ∀ x, x ∈ l ∧ p x = true ↔ x = a := by
      intro x
      rw [← List.mem_filter, ha]; simp
    exact ⟨a, (hmem a).2 rfl, fun y hy => (hmem y).1 hy⟩
  · rintro ⟨a, ⟨h1, h2⟩, h3⟩
    refine ⟨a, ?_⟩
    have hn : (l.filter p).Nodup := hl.filter p
    have hall : ∀ x ∈ l.filter p, x = a := fun x hx => h3 x (List.mem_filter.1 hx)
    have hin : a ∈ l.filter p := List.mem_filter.2 ⟨h1, h2⟩
    match h : l.filter p with
    | [] => rw [h] at hin; simp at hin
    | [x] => rw [h] at hall; simp at hall; rw [hall]
    | x :: y :: t =>
      rw [h] at hall hn
      have hx := hall x (by simp)
      have hy := hall y (by simp)
      subst hx; subst hy
      simp at hn

theorem count_eq_countP_range (l : List ℕ) (e : ℕ) :
    l.count e = (List.range l.length).countP (fun j => decide (l[j]? = some e)) := by
  induction l with
  | nil => rfl
  | cons a l ih =>
    rw [List.length_cons, List.range_succ_eq_map, List.countP_cons, List.countP_map, List.count_cons, ih]
    congr 1
    by_cases h : a = e <;> simp [h]

theorem sum_count_eq_countP (n : ℕ) (L : ℕ → List ℕ) (e : ℕ) :
    ((List.range n).map fun c => (L c).count e).sum =
      (((List.range n).flatMap fun c => (List.range (L c).length).map fun j => (c, j))).countP
        (fun p => decide ((L p.1)[p.2]? = some e)) := by
  induction n with
  | zero => rfl
  | succ n ih =>
    rw [List.range_succ, List.map_append, List.sum_append, ih, List.flatMap_append, List.countP_append]
    congr 1
    simp only [List.map_cons, List.map_nil, List.sum_cons, List.sum_nil, Nat.add_zero,
      List.flatMap_cons, List.flatMap_nil, List.append_nil, List.countP_map]
    exact count_eq_countP_range (L n) e

theorem pairs_nodup (n : ℕ) (len : ℕ → ℕ) :
    ((List.range n).flatMap fun c => (List.range (len c)).map fun j => (c, j)).Nodup := by
  rw [List.nodup_flatMap]
  constructor
  · intro c _
    exact List.Nodup.map (fun a b h => by simpa using h) List.nodup_range
  · refine List.Pairwise.imp ?_ (List.nodup_range (n := n))
    intro a b hab p h1 h2
    simp only [List.mem_map] at h1 h2
    obtain ⟨i, _, rfl⟩ := h1
    obtain ⟨j, _, h⟩ := h2
    exact hab (by simpa using (congrArg Prod.fst h).symm)

theorem sum_count_eq_one (n : ℕ) (L : ℕ → List ℕ) (e : ℕ) :
    ((List.range n).map fun c => (L c).count e).sum = 1 ↔
      ∃! p : ℕ × ℕ, p.1 < n ∧ (L p.1)[p.2]? = some e := by
  rw [sum_count_eq_countP, countP_eq_one _ _ (pairs_nodup n _)]
  have : ∀ p : ℕ × ℕ, (p ∈ ((List.range n).flatMap fun c => (List.range (L c).length).map fun j => (c, j)) ∧
      decide ((L p.1)[p.2]? = some e) = true) ↔ (p.1 < n ∧ (L p.1)[p.2]? = some e) := by
    rintro ⟨c, j⟩
    simp only [List.mem_flatMap, List.mem_map, List.mem_range, Prod.mk.injEq, decide_eq_true_eq]
    constructor
    · rintro ⟨⟨a, ha, b, hb, rfl, rfl⟩, h2⟩
      exact ⟨ha, h2⟩
    · rintro ⟨h1, h2⟩
      exact ⟨⟨c, h1, j, (List.getElem?_eq_some_iff.1 h2).1, rfl, rfl⟩, h2⟩
  simp only [this]

/-! ### `AllDS` -/

namespace AllDS
variable {α : Type}

structure Ok (m : MeshObj) (d : AllDS α) : Prop where
  mesh : d.mesh = m
  len : d.data.length = 3
  row : ∀ k ≤ 2, ∃ r, d.data[k]? = some r ∧ r.length = m.topo.num k

/-- Raw access. -/
def get (d : AllDS α) (e : Ent) : Option α := (d.data[e.1]?).bind fun row => row[e.2]?

theorem make_ok (m : MeshObj) (x : α) :
    Ok m (AllDS.make m x) ∧ ∀ e, m.topo.IsEnt e → (AllDS.make m x).get e = some x := by
  have key : ∀ k ≤ 2, (AllDS.make m x).data[k]? = some (List.replicate (m.topo.num k) x) := by
    intro k hk
    have : k < 3 := by omega
    simp [AllDS.make, this]
  refine ⟨⟨rfl, by simp [AllDS.make], fun k hk => ⟨_, key k hk, by simp⟩⟩, ?_⟩
  rintro ⟨k, i⟩ ⟨h1, h2⟩
  simp only [get, key k h1, Option.bind_some]
  rw [List.getElem?_replicate, if_pos h2]

theorem Ok.definedOn {m : MeshObj} {d : AllDS α} (h : Ok m d) (e : EntObj) :
    d.definedOn e = true ↔ e.mesh = m.id ∧ m.topo.IsEnt e.ent := by
  unfold AllDS.definedOn
  rw [h.mesh, contains_iff]

theorem Ok.read {m : MeshObj} {d : AllDS α} (h : Ok m d) {e : Ent} (he : m.topo.IsEnt e) :
    d.read ⟨m.id, e⟩ = d.get e := by
  unfold AllDS.read
  rw [if_pos ((h.definedOn _).2 ⟨rfl, he⟩)]
  rfl

theorem Ok.write {m : MeshObj} {d : AllDS α} (h : Ok m d) {e : Ent} (he : m.topo.IsEnt e) (v : α) :
    ∃ d', d.write ⟨m.id, e⟩ v = some d' ∧ Ok m d' ∧
      ∀ e', m.topo.IsEnt e' → d'.get e' = if e' = e then some v else d.get e' := by
  obtain ⟨k, i⟩ := e
  obtain ⟨hk, hi⟩ := he
  obtain ⟨r, hr, hrl⟩ := h.row k hk
  have hlen := h.len
  have hk3 : k < d.data.length := by rw [hlen]; exact Nat.lt_succ_of_le hk
  have hi' : i < r.length := by rw [hrl]; exact hi
  refine ⟨{ d with data := d.data.set k (r.set i v) }, ?_, ⟨h.mesh, by simpa using h.len, ?_⟩, ?_⟩
  · unfold AllDS.write
    rw [if_pos ((h.definedOn _).2 ⟨rfl, ⟨hk, hi⟩⟩)]
    simp only [hr, Option.bind_some]
    rw [if_pos hi']
  · intro k' hk'
    by_cases hkk : k = k'
    · subst hkk
      exact ⟨r.set i v, by simp [hk3], by simpa using hrl⟩
    · obtain ⟨r', h1, h2⟩ := h.row k' hk'
      exact ⟨r', by simpa [List.getElem?_set, hkk] using h1, h2⟩
  · rintro ⟨k', i'⟩ ⟨h1, h2⟩
    simp only [get, List.getElem?_set, Prod.mk.injEq]
    by_cases hkk : k = k'
    · subst hkk
      simp only [if_true, hk3, Option.bind_some, true_and, List.getElem?_set, hr]
      by_cases hii : i = i'
      · subst hii; simp [hi']
      · have : ¬ i' = i := fun h => hii h.symm
        simp [hii, this]
    · have : ¬ k' = k := fun h => hkk h.symm
      simp [hkk, this]

end AllDS

/-! ### Flagging -/

/-- Boundary edge: exactly one incidence. -/
def Topo.BdEdge (T : Topo) (e : ℕ) : Prop :=
  e < T.numEdges ∧ ((List.range T.numCells).map fun c => (T.cell c).edges.count e).sum = 1

theorem count_map_pair (k : ℕ) (l : List ℕ) (e : ℕ) :
    (l.map fun i => ((k, i) : Ent)).count (k, e) = l.count e := by
  induction l with
  | nil => rfl
  | cons a l ih =>
    rw [List.map_cons, List.count_cons, List.count_cons, ih]
    congr 1
    by_cases h : a = e <;> simp [h]

theorem count_edges (m : MeshObj) (hT : m.topo.WF) :
    ∃ d, countNumSuperEntities m 1 1 = some d ∧ CodimDS.Ok m 1 d ∧
      ∀ e < m.topo.numEdges, d.data[e]? =
        some (((List.range m.topo.numCells).map fun c => (m.topo.cell c).edges.count e).sum) := by
  obtain ⟨d, h1, h2, h3⟩ := count_spec m hT 1 1 (by omega) (by omega)
  refine ⟨d, h1, h2, ?_⟩
  intro e he
  rw [h3 e he]
  congr 1
  simp only [Topo.entities, Topo.num, List.map_map]
  congr 1
  apply List.map_congr_left
  intro c _
  simp only [Function.comp, Topo.subs, Topo.subEntities, Option.getD_some]
  exact count_map_pair 1 _ e

theorem flag_codim (m : MeshObj) (hT : m.topo.WF) (k : ℕ) (hk : 1 ≤ k) (hk2 : k ≤ 2) :
    ∃ d, flagEntitiesOnBoundary m k = some d ∧ CodimDS.Ok m k d ∧
      ∀ i < m.topo.num k, ∃ b, d.data[i]? = some b ∧
        (b = true ↔ ∃ e, m.topo.BdEdge e ∧ (k, i) ∈ m.topo.subs (1, e) (k - 1)) := by
  unfold flagEntitiesOnBoundary
  rw [if_pos ⟨hk, hk2⟩]
  obtain ⟨cnt, hc1, hc2, hc3⟩ := count_edges m hT
  rw [hc1]
  obtain ⟨d0, hd0, hok, hz⟩ := CodimDS.make_ok m k hk2 false
  simp only [Option.bind_some, hd0]
  obtain ⟨d, h1, h2, h3⟩ := foldlM_list_inv (fun (fl : CodimDS Bool) (e : Ent) =>
      (cnt.read ⟨m.id, e⟩).bind fun n =>
      if n = 1 then
        (m.topo.subEntities e (k - 1)).bind fun subs =>
          subs.foldlM (fun (fl : CodimDS Bool) s => fl.write ⟨m.id, s⟩ true) fl
      else some fl)
    (fun pre d => CodimDS.Ok m k d ∧ ∀ i < m.topo.num k, ∃ b, d.data[i]? = some b ∧
        (b = true ↔ ∃ e, (1, e) ∈ pre ∧ m.topo.BdEdge e ∧ (k, i) ∈ m.topo.subs (1, e) (k - 1)))
    (m.topo.entities 1) d0 ⟨hok, fun i hi => ⟨false, hz i hi, by simp⟩⟩ (by
      intro pre x d hx ⟨h1, h2⟩
      simp only [Topo.entities, List.mem_map, List.mem_range] at hx
      obtain ⟨e, he, rfl⟩ := hx
      have he' : e < m.topo.numEdges := he
      rw [hc2.read he, hc3 e he']
      simp only [Option.bind_some]
      obtain ⟨L, hL, hL2⟩ := subEntities_spec hT (e := (1, e)) ⟨by show 1 ≤ 2; omega, he⟩ (rel := k - 1)
        (by show 1 + (k - 1) ≤ 2; omega)
      have hkr : 1 + (k - 1) = k := by omega
      simp only [hkr] at hL hL2
      by_cases hbd : ((List.range m.topo.numCells).map fun c => (m.topo.cell c).edges.count e).sum = 1
      · rw [if_pos hbd, hL]
        simp only [Option.bind_some]
        obtain ⟨d', h5, h6, h7⟩ := foldlM_list_inv
          (fun (fl : CodimDS Bool) (s : Ent) => fl.write ⟨m.id, s⟩ true)
          (fun pre' d' => CodimDS.Ok m k d' ∧ ∀ i < m.topo.num k, ∃ b, d'.data[i]? = some b ∧
            (b = true ↔ ((∃ e, (1, e) ∈ pre ∧ m.topo.BdEdge e ∧ (k, i) ∈ m.topo.subs (1, e) (k - 1)) ∨
              (k, i) ∈ pre')))
          (L.map fun i => (k, i)) d ⟨h1, fun i hi => by simpa using h2 i hi⟩ (by
            intro pre' x d' hx ⟨h3, h4⟩
            obtain ⟨j, hj, rfl⟩ := List.mem_map.1 hx
            obtain ⟨d'', h5, h6, h7⟩ := h3.write (hL2 j hj) true
            refine ⟨d'', h5, h6, ?_⟩
            intro i hi
            rw [h7 i hi]
            by_cases hij : i = j
            · subst hij; exact ⟨true, by simp, by simp⟩
            · obtain ⟨b, h8, h9⟩ := h4 i hi
              refine ⟨b, by simpa [hij] using h8, ?_⟩
              rw [h9]
              simp [hij])
        refine ⟨d', h5, h6, ?_⟩
        intro i hi
        obtain ⟨b, h8, h9⟩ := h7 i hi
        refine ⟨b, h8, ?_⟩
        have hsub : m.topo.subs (1, e) (k - 1) = L.map fun i => (k, i) := by
          simp only [Topo.subs, hL, Option.getD_some]
        rw [h9, ← hsub]
        constructor
        · rintro (⟨e', a, b, c⟩ | h)
          · exact ⟨e', by simp [a], b, c⟩
          · exact ⟨e, by simp, ⟨he', hbd⟩, h⟩
        · rintro ⟨e', a, b, c⟩
          simp only [List.mem_append, List.mem_cons, List.not_mem_nil, or_false, Prod.mk.injEq, true_and] at a
          rcases a with a | rfl
          · exact Or.inl ⟨e', a, b, c⟩
          · exact Or.inr c
      · rw [if_neg hbd]
        refine ⟨d, rfl, h1, ?_⟩
        intro i hi
        obtain ⟨b, h8, h9⟩ := h2 i hi
        refine ⟨b, h8, ?_⟩
        rw [h9]
        constructor
        · rintro ⟨e', a, b, c⟩
          exact ⟨e', by simp [a], b, c⟩
        · rintro ⟨e', a, b, c⟩
          simp only [List.mem_append, List.mem_cons, List.not_mem_nil, or_false, Prod.mk.injEq, true_and] at a
          rcases a with a | rfl
          · exact ⟨e', a, b, c⟩
          · exact absurd b.2 hbd)
  refine ⟨d, h1, h2, ?_⟩
  intro i hi
  obtain ⟨b, h8, h9⟩ := h3 i hi
  refine ⟨b, h8, h9.trans ?_⟩
  constructor
  · rintro ⟨e', a, b, c⟩; exact ⟨e', b, c⟩
  · rintro ⟨e', b, c⟩
    exact ⟨e', by simpa [Topo.entities, Topo.num] using b.1, b, c⟩

/-- Everything flagged for one boundary edge. -/
def Topo.closure (T : Topo) (e : ℕ) : List Ent := [(1, e), (2, (T.edge e).1), (2, (T.edge e).2)]

theorem flag_all (m : MeshObj) (hT : m.topo.WF) :
    ∃ d, flagAllEntitiesOnBoundary m = some d ∧ AllDS.Ok m d ∧
      ∀ x, m.topo.IsEnt x → ∃ b, d.get x = some b ∧
        (b = true ↔ ∃ e, m.topo.BdEdge e ∧ x ∈ m.topo.closure e) := by
  unfold flagAllEntitiesOnBoundary
  obtain ⟨cnt, hc1, hc2, hc3⟩ := count_edges m hT
  rw [hc1]
  obtain ⟨hok, hz⟩ := AllDS.make_ok m false
  simp only [Option.bind_some]
  obtain ⟨d, h1, h2, h3⟩ := foldlM_list_inv (fun (fl : AllDS Bool) (e : Ent) =>
      (cnt.read ⟨m.id, e⟩).bind fun n =>
      if n = 1 then
        (List.range 2).foldlM (fun fl rel =>
        (m.topo.subEntities e rel).bind fun subs =>
          subs.foldlM (fun (fl : AllDS Bool) s => fl.write ⟨m.id, s⟩ true) fl) fl
      else some fl)
    (fun pre d => AllDS.Ok m d ∧ ∀ x, m.topo.IsEnt x → ∃ b, d.get x = some b ∧
        (b = true ↔ ∃ e, (1, e) ∈ pre ∧ m.topo.BdEdge e ∧ x ∈ m.topo.closure e))
    (m.topo.entities 1) (AllDS.make m false) ⟨hok, fun i hi => ⟨false, hz i hi, by simp⟩⟩ (by
      intro pre x d hx ⟨h1, h2⟩
      simp only [Topo.entities, List.mem_map, List.mem_range] at hx
      obtain ⟨e, he, rfl⟩ := hx
      have he' : e < m.topo.numEdges := he
      rw [hc2.read he, hc3 e he']
      simp only [Option.bind_some]
      by_cases hbd : ((List.range m.topo.numCells).map fun c => (m.topo.cell c).edges.count e).sum = 1
      · rw [if_pos hbd]
        have hfold : (List.range 2).foldlM (fun fl rel =>
            (m.topo.subEntities (1, e) rel).bind fun subs =>
              subs.foldlM (fun (fl : AllDS Bool) s => fl.write ⟨m.id, s⟩ true) fl) d =
            (m.topo.closure e).foldlM (fun (fl : AllDS Bool) s => fl.write ⟨m.id, s⟩ true) d := by
          simp only [show List.range 2 = [0, 1] from rfl, List.foldlM_cons, List.foldlM_nil, Topo.subEntities,
            Topo.closure, Option.bind_some]
          simp
        rw [hfold]
        have hcl : ∀ s ∈ m.topo.closure e, m.topo.IsEnt s := by
          have := hT.edge_lt e he'
          intro s hs
          simp only [Topo.closure, List.mem_cons, List.not_mem_nil, or_false] at hs
          rcases hs with rfl | rfl | rfl
          · exact ⟨by show 1 ≤ 2; omega, he'⟩
          · exact ⟨Nat.le_refl 2, this.1⟩
          · exact ⟨Nat.le_refl 2, this.2⟩
        obtain ⟨d', h5, h6, h7⟩ := foldlM_list_inv
          (fun (fl : AllDS Bool) (s : Ent) => fl.write ⟨m.id, s⟩ true)
          (fun pre' d' => AllDS.Ok m d' ∧ ∀ x, m.topo.IsEnt x → ∃ b, d'.get x = some b ∧
            (b = true ↔ ((∃ e, (1, e) ∈ pre ∧ m.topo.BdEdge e ∧ x ∈ m.topo.closure e) ∨
              x ∈ pre')))
          (m.topo.closure e) d ⟨h1, fun i hi => by simpa using h2 i hi⟩ (by
            intro pre' y d' hx ⟨h3, h4⟩
            obtain ⟨d'', h5, h6, h7⟩ := h3.write (hcl y hx) true
            refine ⟨d'', h5, h6, ?_⟩
            intro x hx
            rw [h7 x hx]
            by_cases hij : x = y
            · subst hij; exact ⟨true, by simp, by simp⟩
            · obtain ⟨b, h8, h9⟩ := h4 x hx
              refine ⟨b, by simpa [hij] using h8, ?_⟩
              rw [h9]
              simp [hij])
        refine ⟨d', h5, h6, ?_⟩
        intro x hx
        obtain ⟨b, h8, h9⟩ := h7 x hx
        refine ⟨b, h8, ?_⟩
        rw [h9]
        constructor
        · rintro (⟨e', a, b, c⟩ | h)
          · exact ⟨e', by simp [a], b, c⟩
          · exact ⟨e, by simp, ⟨he', hbd⟩, h⟩
        · rintro ⟨e', a, b, c⟩
          simp only [List.mem_append, List.mem_cons, List.not_mem_nil, or_false, Prod.mk.injEq, true_and] at a
          rcases a with a | rfl
          · exact Or.inl ⟨e', a, b, c⟩
          · exact Or.inr c
      · rw [if_neg hbd]
        refine ⟨d, rfl, h1, ?_⟩
        intro i hi
        obtain ⟨b, h8, h9⟩ := h2 i hi
        refine ⟨b, h8, ?_⟩
        rw [h9]
        constructor
        · rintro ⟨e', a, b, c⟩
          exact ⟨e', by simp [a], b, c⟩
        · rintro ⟨e', a, b, c⟩
          simp only [List.mem_append, List.mem_cons, List.not_mem_nil, or_false, Prod.mk.injEq, true_and] at a
          rcases a with a | rfl
          · exact ⟨e', a, b, c⟩
          · exact absurd b.2 hbd)
  refine ⟨d, h1, h2, ?_⟩
  intro i hi
  obtain ⟨b, h8, h9⟩ := h3 i hi
  refine ⟨b, h8, h9.trans ?_⟩
  constructor
  · rintro ⟨e', a, b, c⟩; exact ⟨e', b, c⟩
  · rintro ⟨e', b, c⟩
    exact ⟨e', by simpa [Topo.entities, Topo.num] using b.1, b, c⟩

end Verif
