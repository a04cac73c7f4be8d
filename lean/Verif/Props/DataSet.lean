import Verif.Lemmas.DataSet
import Verif.Spec.DataSet
import Verif.Props.DofHandler

/-!
# C20-C22: super-entity counts, boundary flags, mesh data sets
-/

namespace Verif

/-! ### C20 -/

/-- `CountNumSuperEntities(mesh, k, r)` succeeds for all admissible codimensions and assigns to the entity
of codimension `k` and index `i` the number of pairs (entity `s` of codimension `k - r`, position `p`)
such that the `p`-th sub-entity of relative codimension `r` of `s` is that entity. -/
theorem C20_count (m : MeshObj) (hT : m.topo.WF) (k r : ℕ) (hk : k ≤ 2) (hr : r ≤ k) :
    ∃ d, countNumSuperEntities m k r = some d ∧ ∀ i < m.topo.num k,
      d.read ⟨m.id, (k, i)⟩ = some (((List.range (m.topo.num (k - r))).map fun s =>
        ((m.topo.subEntities (k - r, s) r).getD []).count (k, i)).sum) := by
  obtain ⟨d, h1, h2, h3⟩ := count_spec m hT k r hk hr
  refine ⟨d, h1, ?_⟩
  intro i hi
  rw [h2.read hi, h3 i hi]
  congr 1
  simp only [Topo.entities, List.map_map]
  rfl

/-- The counts add up to the total number of sub-entity slots. -/
theorem C20_sum (m : MeshObj) (hT : m.topo.WF) (k r : ℕ) (hk : k ≤ 2) (hr : r ≤ k) (d : CodimDS ℕ)
    (hd : countNumSuperEntities m k r = some d) :
    ((List.range (m.topo.num k)).map fun i => (d.read ⟨m.id, (k, i)⟩).getD 0).sum =
      ((List.range (m.topo.num (k - r))).map fun s =>
        ((m.topo.subEntities (k - r, s) r).getD []).length).sum := by
  obtain ⟨d', h1, h2⟩ := C20_count m hT k r hk hr
  rw [hd] at h1
  cases h1
  have e1 : (List.range (m.topo.num k)).map (fun i => (d.read ⟨m.id, (k, i)⟩).getD 0) =
      (List.range (m.topo.num k)).map fun i => ((List.range (m.topo.num (k - r))).map fun s =>
        ((m.topo.subEntities (k - r, s) r).getD []).count (k, i)).sum := by
    apply List.map_congr_left
    intro i hi
    rw [h2 i (List.mem_range.1 hi), Option.getD_some]
  rw [e1, sum_comm']
  congr 1
  apply List.map_congr_left
  intro s hs
  obtain ⟨L, hL, hL2⟩ := subEntities_spec hT (e := (k - r, s))
    ⟨by show k - r ≤ 2; omega, List.mem_range.1 hs⟩ (rel := r) (by show k - r + r ≤ 2; omega)
  have hkr : k - r + r = k := by omega
  simp only [hkr] at hL hL2
  simp only [hL, Option.getD_some, List.length_map, count_map_pair]
  exact sum_count_range _ L hL2

/-- Inadmissible codimensions are rejected. -/
theorem C20_rejects (m : MeshObj) (k r : ℕ) (h : 2 < k ∨ k < r) : countNumSuperEntities m k r = none := by
  unfold countNumSuperEntities
  rw [if_neg (by omega)]

example : ∃ d, countNumSuperEntities ⟨7, sampleTopo⟩ 1 1 = some d ∧
    d.data = [1, 2, 1, 1, 1, 1] := ⟨_, rfl, rfl⟩
example : ∃ d, countNumSuperEntities ⟨7, sampleTopo⟩ 2 2 = some d ∧
    d.data = [1, 2, 2, 1, 1] := ⟨_, rfl, rfl⟩
example : ∃ d, countNumSuperEntities ⟨7, sampleTopo⟩ 2 1 = some d ∧
    d.data = [2, 3, 3, 2, 2] := ⟨_, rfl, rfl⟩

/-! ### C21 -/

private theorem bdEdge_iff (T : Topo) (e : ℕ) (he : e < T.numEdges) : T.BdEdge e ↔ T.OnBoundary e := by
  unfold Topo.BdEdge Topo.OnBoundary
  rw [sum_count_eq_one]
  exact ⟨fun h => h.2, fun h => ⟨he, h⟩⟩

/-- An edge is flagged iff it is a side of exactly one cell. -/
theorem C21_edges (m : MeshObj) (hT : m.topo.WF) :
    ∃ d, flagEntitiesOnBoundary m 1 = some d ∧ ∀ e < m.topo.numEdges,
      ∃ b, d.read ⟨m.id, (1, e)⟩ = some b ∧ (b = true ↔ m.topo.OnBoundary e) := by
  obtain ⟨d, h1, h2, h3⟩ := flag_codim m hT 1 (by omega) (by omega)
  refine ⟨d, h1, ?_⟩
  intro e he
  obtain ⟨b, h4, h5⟩ := h3 e he
  refine ⟨b, by rw [h2.read he]; exact h4, ?_⟩
  rw [h5, ← bdEdge_iff m.topo e he]
  constructor
  · rintro ⟨e', h6, h7⟩
    simp [Topo.subs, Topo.subEntities] at h7
    rw [h7]; exact h6
  · intro h; exact ⟨e, h, by simp [Topo.subs, Topo.subEntities]⟩

/-- A node is flagged iff it is an endpoint of an edge that is a side of exactly one cell. -/
theorem C21_nodes (m : MeshObj) (hT : m.topo.WF) :
    ∃ d, flagEntitiesOnBoundary m 2 = some d ∧ ∀ v < m.topo.numNodes,
      ∃ b, d.read ⟨m.id, (2, v)⟩ = some b ∧ (b = true ↔
        ∃ e < m.topo.numEdges, m.topo.OnBoundary e ∧ ((m.topo.edge e).1 = v ∨ (m.topo.edge e).2 = v)) := by
  obtain ⟨d, h1, h2, h3⟩ := flag_codim m hT 2 (by omega) (by omega)
  refine ⟨d, h1, ?_⟩
  intro v hv
  obtain ⟨b, h4, h5⟩ := h3 v hv
  refine ⟨b, by rw [h2.read hv]; exact h4, ?_⟩
  rw [h5]
  have hmem : ∀ e, (2, v) ∈ m.topo.subs (1, e) (2 - 1) ↔ (m.topo.edge e).1 = v ∨ (m.topo.edge e).2 = v := by
    intro e
    simp [Topo.subs, Topo.subEntities, eq_comm]
  constructor
  · rintro ⟨e, h6, h7⟩
    exact ⟨e, h6.1, (bdEdge_iff _ e h6.1).1 h6, (hmem e).1 h7⟩
  · rintro ⟨e, he, h6, h7⟩
    exact ⟨e, (bdEdge_iff _ e he).2 h6, (hmem e).2 h7⟩

/-- Codimension 0 (and anything above 2) is rejected. -/
theorem C21_rejects (m : MeshObj) (k : ℕ) (h : k = 0 ∨ 2 < k) : flagEntitiesOnBoundary m k = none := by
  unfold flagEntitiesOnBoundary
  rw [if_neg (by omega)]

/-- The variant for all codimensions: edges and nodes as above, cells are never flagged. -/
theorem C21_all (m : MeshObj) (hT : m.topo.WF) :
    ∃ d, flagAllEntitiesOnBoundary m = some d ∧
      (∀ c < m.topo.numCells, d.read ⟨m.id, (0, c)⟩ = some false) ∧
      (∀ e < m.topo.numEdges, ∃ b, d.read ⟨m.id, (1, e)⟩ = some b ∧ (b = true ↔ m.topo.OnBoundary e)) ∧
      (∀ v < m.topo.numNodes, ∃ b, d.read ⟨m.id, (2, v)⟩ = some b ∧ (b = true ↔
        ∃ e < m.topo.numEdges, m.topo.OnBoundary e ∧
          ((m.topo.edge e).1 = v ∨ (m.topo.edge e).2 = v))) := by
  obtain ⟨d, h1, h2, h3⟩ := flag_all m hT
  refine ⟨d, h1, ?_, ?_, ?_⟩
  · intro c hc
    have hent : m.topo.IsEnt (0, c) := ⟨by show 0 ≤ 2; omega, hc⟩
    obtain ⟨b, h4, h5⟩ := h3 _ hent
    rw [h2.read hent, h4]
    cases b with
    | false => rfl
    | true =>
      obtain ⟨e, _, h7⟩ := h5.1 rfl
      simp [Topo.closure] at h7
  · intro e he
    have hent : m.topo.IsEnt (1, e) := ⟨by show 1 ≤ 2; omega, he⟩
    obtain ⟨b, h4, h5⟩ := h3 _ hent
    refine ⟨b, by rw [h2.read hent]; exact h4, ?_⟩
    rw [h5, ← bdEdge_iff m.topo e he]
    constructor
    · rintro ⟨e', h6, h7⟩
      simp [Topo.closure] at h7
      rw [h7]; exact h6
    · intro h; exact ⟨e, h, by simp [Topo.closure]⟩
  · intro v hv
    have hent : m.topo.IsEnt (2, v) := ⟨Nat.le_refl 2, hv⟩
    obtain ⟨b, h4, h5⟩ := h3 _ hent
    refine ⟨b, by rw [h2.read hent]; exact h4, ?_⟩
    have hmem : ∀ e, (2, v) ∈ m.topo.closure e ↔ (m.topo.edge e).1 = v ∨ (m.topo.edge e).2 = v := by
      intro e
      simp [Topo.closure, eq_comm]
    rw [h5]
    constructor
    · rintro ⟨e, h6, h7⟩
      exact ⟨e, h6.1, (bdEdge_iff _ e h6.1).1 h6, (hmem e).1 h7⟩
    · rintro ⟨e, he, h6, h7⟩
      exact ⟨e, (bdEdge_iff _ e he).2 h6, (hmem e).2 h7⟩

example : ∃ d, flagEntitiesOnBoundary ⟨7, sampleTopo⟩ 1 = some d ∧
    d.data = [true, false, true, true, true, true] := ⟨_, rfl, rfl⟩

/-! ### C22 -/

/-- `CodimMeshDataSet`: every history of writes to entities of that codimension of the mesh succeeds; after
it `DefinedOn` is true exactly for these entities, each of them reads as the last value written to it (the
initial value, if there was none), and everything else cannot be read. -/
theorem C22_codim {α : Type} (m : MeshObj) (k : ℕ) (hk : k ≤ 2) (init : α) (ws : List (EntObj × α))
    (hws : ∀ w ∈ ws, w.1.mesh = m.id ∧ m.topo.IsEnt w.1.ent ∧ w.1.ent.1 = k) :
    ∃ d, ((CodimDS.make m k init).bind fun d0 =>
        ws.foldlM (fun (d : CodimDS α) w => d.write w.1 w.2) d0) = some d ∧
      (∀ e, d.definedOn e = true ↔ e.mesh = m.id ∧ m.topo.IsEnt e.ent ∧ e.ent.1 = k) ∧
      ∀ e, d.read e = if d.definedOn e then some (lastWrite init ws e) else none := by
  obtain ⟨d0, h0, hok, hz⟩ := CodimDS.make_ok m k hk init
  rw [h0, Option.bind_some]
  have gen : ∀ (ws : List (EntObj × α)), (∀ w ∈ ws, w.1.mesh = m.id ∧ m.topo.IsEnt w.1.ent ∧ w.1.ent.1 = k) →
      ∀ (d : CodimDS α) (f : ℕ → α), CodimDS.Ok m k d → (∀ i < m.topo.num k, d.data[i]? = some (f i)) →
      ∃ d', ws.foldlM (fun (d : CodimDS α) w => d.write w.1 w.2) d = some d' ∧ CodimDS.Ok m k d' ∧
        ∀ i < m.topo.num k, d'.data[i]? = some (lastWrite (f i) ws ⟨m.id, (k, i)⟩) := by
    intro ws
    induction ws with
    | nil => intro _ d f h1 h2; exact ⟨d, rfl, h1, h2⟩
    | cons w ws ih =>
      intro hw d f h1 h2
      obtain ⟨⟨me, k', i⟩, v⟩ := w
      obtain ⟨h3, h4, h5⟩ := hw ⟨⟨me, k', i⟩, v⟩ (by simp)
      simp only at h3 h5
      subst h3 h5
      obtain ⟨d1, h6, h7, h8⟩ := h1.write h4.2 v
      obtain ⟨d', h9, h10, h11⟩ := ih (fun x hx => hw x (by simp [hx])) d1 (fun j => if j = i then v else f j) h7 (by
        intro j hj
        rw [h8 j hj]
        by_cases h : j = i
        · simp [h]
        · simp [h, h2 j hj])
      refine ⟨d', ?_, h10, ?_⟩
      · rw [List.foldlM_cons]
        show (d.write ⟨m.id, (k', i)⟩ v).bind _ = _
        rw [h6]
        exact h9
      · intro j hj
        rw [h11 j hj]
        simp only [lastWrite]
        congr 2
        by_cases h : j = i
        · simp [h]
        · have : ¬ i = j := fun h' => h h'.symm
          simp [h, this]
  obtain ⟨d, h1, h2, h3⟩ := gen ws hws d0 (fun _ => init) hok hz
  refine ⟨d, h1, h2.definedOn, ?_⟩
  intro e
  by_cases he : d.definedOn e = true
  · rw [if_pos he]
    obtain ⟨h4, h5, h6⟩ := (h2.definedOn e).1 he
    obtain ⟨me, k', i⟩ := e
    simp only at h4 h6
    subst h4 h6
    rw [h2.read h5.2, h3 i h5.2]
  · rw [if_neg he]
    unfold CodimDS.read
    rw [if_neg he]

/-- Writing to an entity on which the data set is not defined is rejected. -/
theorem C22_codim_rejects {α : Type} (d : CodimDS α) (e : EntObj) (v : α) (h : d.definedOn e = false) :
    d.write e v = none := by
  unfold CodimDS.write
  rw [if_neg (by simp [h])]

/-- `AllCodimMeshDataSet`: as `C22_codim`, for the entities of all codimensions. -/
theorem C22_all {α : Type} (m : MeshObj) (init : α) (ws : List (EntObj × α))
    (hws : ∀ w ∈ ws, w.1.mesh = m.id ∧ m.topo.IsEnt w.1.ent) :
    ∃ d, ws.foldlM (fun (d : AllDS α) w => d.write w.1 w.2) (AllDS.make m init) = some d ∧
      (∀ e, d.definedOn e = true ↔ e.mesh = m.id ∧ m.topo.IsEnt e.ent) ∧
      ∀ e, d.read e = if d.definedOn e then some (lastWrite init ws e) else none := by
  obtain ⟨hok, hz⟩ := AllDS.make_ok m init
  have gen : ∀ (ws : List (EntObj × α)), (∀ w ∈ ws, w.1.mesh = m.id ∧ m.topo.IsEnt w.1.ent) →
      ∀ (d : AllDS α) (f : Ent → α), AllDS.Ok m d → (∀ x, m.topo.IsEnt x → d.get x = some (f x)) →
      ∃ d', ws.foldlM (fun (d : AllDS α) w => d.write w.1 w.2) d = some d' ∧ AllDS.Ok m d' ∧
        ∀ x, m.topo.IsEnt x → d'.get x = some (lastWrite (f x) ws ⟨m.id, x⟩) := by
    intro ws
    induction ws with
    | nil => intro _ d f h1 h2; exact ⟨d, rfl, h1, h2⟩
    | cons w ws ih =>
      intro hw d f h1 h2
      obtain ⟨⟨me, x⟩, v⟩ := w
      obtain ⟨h3, h4⟩ := hw ⟨⟨me, x⟩, v⟩ (by simp)
      simp only at h3
      subst h3
      obtain ⟨d1, h6, h7, h8⟩ := h1.write h4 v
      obtain ⟨d', h9, h10, h11⟩ := ih (fun x hx => hw x (by simp [hx])) d1 (fun j => if j = x then v else f j) h7 (by
        intro j hj
        rw [h8 j hj]
        by_cases h : j = x
        · simp [h]
        · simp [h, h2 j hj])
      refine ⟨d', ?_, h10, ?_⟩
      · rw [List.foldlM_cons]
        show (d.write ⟨m.id, x⟩ v).bind _ = _
        rw [h6]
        exact h9
      · intro j hj
        rw [h11 j hj]
        simp only [lastWrite]
        congr 2
        by_cases h : j = x
        · simp [h]
        · have : ¬ x = j := fun h' => h h'.symm
          simp [h, this]
  obtain ⟨d, h1, h2, h3⟩ := gen ws hws _ (fun _ => init) hok hz
  refine ⟨d, h1, h2.definedOn, ?_⟩
  intro e
  by_cases he : d.definedOn e = true
  · rw [if_pos he]
    obtain ⟨h4, h5⟩ := (h2.definedOn e).1 he
    obtain ⟨me, x⟩ := e
    simp only at h4
    subst h4
    rw [h2.read h5, h3 x h5]
  · rw [if_neg he]
    unfold AllDS.read
    rw [if_neg he]

/-- Writing to an entity on which the data set is not defined is rejected. -/
theorem C22_all_rejects {α : Type} (d : AllDS α) (e : EntObj) (v : α) (h : d.definedOn e = false) :
    d.write e v = none := by
  unfold AllDS.write
  rw [if_neg (by simp [h])]

example : ∃ d, ((CodimDS.make ⟨7, sampleTopo⟩ 1 'a').bind fun d0 =>
    [((⟨7, (1, 2)⟩ : EntObj), 'x'), (⟨7, (1, 4)⟩, 'y'), (⟨7, (1, 2)⟩, 'z')].foldlM
      (fun (d : CodimDS Char) w => d.write w.1 w.2) d0) = some d ∧
    d.data = ['a', 'a', 'z', 'a', 'y', 'a'] ∧ d.definedOn ⟨8, (1, 2)⟩ = false := ⟨_, rfl, rfl, rfl⟩

end Verif
