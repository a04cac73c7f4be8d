import Verif.Spec.FeTools
import Verif.Lemmas.Conform
import Verif.Lemmas.HierCell

/-!
# Lemmas on `lf/fe/fe_tools.h`: writing dof values into a global vector
-/

namespace Verif
open Geo

section
variable {V A : Type}

/-- A sequence of assignments. -/
def assigns (W : List (ℕ × V)) (init : List V) : List V := W.foldl (fun g w => g.set w.1 w.2) init

theorem assigns_length (W : List (ℕ × V)) (init : List V) : (assigns W init).length = init.length := by
  induction W generalizing init with
  | nil => rfl
  | cons w W ih => rw [assigns, List.foldl_cons]; exact (ih _).trans (by simp)

theorem assigns_append (W W' : List (ℕ × V)) (init : List V) :
    assigns (W ++ W') init = assigns W' (assigns W init) := by simp [assigns]

theorem assigns_other (W : List (ℕ × V)) (init : List V) (d : ℕ) (h : ∀ w ∈ W, w.1 ≠ d) :
    (assigns W init)[d]? = init[d]? := by
  induction W generalizing init with
  | nil => rfl
  | cons w W ih =>
    rw [assigns, List.foldl_cons]
    refine (ih _ fun w hw => h w (by simp [hw])).trans ?_
    rw [List.getElem?_set_ne (h w (by simp))]

/-- After assignments to `d` the entry has one of the assigned values. -/
theorem assigns_some (W : List (ℕ × V)) (init : List V) (d : ℕ) (hd : d < init.length)
    (h : ∃ w ∈ W, w.1 = d) : ∃ w ∈ W, w.1 = d ∧ (assigns W init)[d]? = some w.2 := by
  induction W generalizing init with
  | nil => simp at h
  | cons w W ih =>
    rw [assigns, List.foldl_cons]
    by_cases hW : ∃ w ∈ W, w.1 = d
    · obtain ⟨w', h1, h2, h3⟩ := ih (init.set w.1 w.2) (by simpa using hd) hW
      exact ⟨w', by simp [h1], h2, h3⟩
    · have hw : w.1 = d := by
        obtain ⟨w', h1, h2⟩ := h
        rcases List.mem_cons.mp h1 with rfl | h1
        · exact h2
        · exact absurd ⟨w', h1, h2⟩ hW
      refine ⟨w, by simp, hw, ?_⟩
      have := assigns_other W (init.set w.1 w.2) d fun w' hw' he => hW ⟨w', hw', he⟩
      rw [assigns] at this
      rw [this, ← hw, List.getElem?_set_self (by rw [hw]; exact hd)]

/-- The loop over the dofs of an entity. -/
theorem setLoop_eq (gidx : List ℕ) (vals : List A) (φ : A → V) (glob : List V)
    (hl : gidx.length = vals.length) (hr : ∀ d ∈ gidx, d < glob.length) :
    ((List.range gidx.length).foldlM (fun glob j =>
      (gidx[j]?).bind fun d => (vals[j]?).bind fun v => setEntry glob d (φ v)) glob : Option (List V)) =
      some (assigns (gidx.zip (vals.map φ)) glob) := by
  have key : ∀ k ≤ gidx.length, ((List.range k).foldlM (fun glob j =>
      (gidx[j]?).bind fun d => (vals[j]?).bind fun v => setEntry glob d (φ v)) glob : Option (List V)) =
      some (assigns ((gidx.zip (vals.map φ)).take k) glob) := by
    intro k hk
    induction k with
    | zero => rfl
    | succ k ih =>
      have h1 : k < gidx.length := by omega
      have h2 : k < vals.length := by omega
      have h3 : k < (gidx.zip (vals.map φ)).length := by simp; omega
      rw [List.range_succ, List.foldlM_append, ih (by omega), List.take_succ_eq_append_getElem h3,
        assigns_append]
      simp only [Option.bind_eq_bind, Option.bind_some, List.foldlM_cons, List.foldlM_nil,
        List.getElem?_eq_getElem h1, List.getElem?_eq_getElem h2, List.getElem_zip, List.getElem_map]
      rw [setEntry, if_pos (by rw [assigns_length]; exact hr _ (List.getElem_mem _))]
      rfl
  have := key gidx.length (le_refl _)
  rw [this, List.take_of_length_le (by simp)]

/-- All assignments. -/
def allWrites (n : ℕ) (sel : ℕ → Bool) (G : ℕ → List ℕ) (I : ℕ → List V) : List (ℕ × V) :=
  (List.range n).flatMap fun c => if sel c then (G c).zip (I c) else []

/-- The loop over the entities. -/
theorem entityLoop_eq (n : ℕ) (sel : ℕ → Bool) (G : ℕ → List ℕ) (I : ℕ → List V) (init : List V)
    (step : List V → ℕ → Option (List V)) (N : ℕ) (hN : init.length = N)
    (h0 : ∀ g c, c < n → sel c = false → step g c = some g)
    (h1 : ∀ g c, g.length = N → c < n → sel c = true → step g c = some (assigns ((G c).zip (I c)) g)) :
    (List.range n).foldlM step init = some (assigns (allWrites n sel G I) init) := by
  have key : ∀ k ≤ n, (List.range k).foldlM step init = some (assigns (allWrites k sel G I) init) := by
    intro k hk
    induction k with
    | zero => rfl
    | succ k ih =>
      rw [List.range_succ, List.foldlM_append, ih (by omega)]
      simp only [Option.bind_eq_bind, Option.bind_some, List.foldlM_cons, List.foldlM_nil, allWrites,
        List.range_succ, List.flatMap_append, assigns_append, List.flatMap_cons, List.flatMap_nil,
        List.append_nil]
      rw [show ((List.range k).flatMap fun c => if sel c then (G c).zip (I c) else []) =
        allWrites k sel G I from rfl]
      cases hs : sel k with
      | false => rw [h0 _ _ (by omega) hs]; rfl
      | true => rw [h1 _ _ (by rw [assigns_length, hN]) (by omega) hs]; rfl
  exact key n (le_refl n)

theorem foldlM_none {α β : Type} (l : List α) (step : β → α → Option β) (init : β) (a : α) (ha : a ∈ l)
    (h : ∀ s, step s a = none) : l.foldlM step init = none := by
  induction l generalizing init with
  | nil => simp at ha
  | cons b l ih =>
    rw [List.foldlM_cons]
    rcases List.mem_cons.mp ha with rfl | ha
    · rw [h]; rfl
    · cases hs : step init b with
      | none => rfl
      | some s => exact ih s ha

theorem mem_allWrites {n : ℕ} {sel : ℕ → Bool} {G : ℕ → List ℕ} {I : ℕ → List V} {w : ℕ × V} :
    w ∈ allWrites n sel G I ↔ ∃ c < n, sel c = true ∧ ∃ j : ℕ, (G c)[j]? = some w.1 ∧ (I c)[j]? = some w.2 := by
  rw [allWrites, List.mem_flatMap]
  constructor
  · rintro ⟨c, hc, hw⟩
    split at hw
    · rename_i hs
      obtain ⟨j, hj, rfl⟩ := List.mem_iff_getElem.mp hw
      have hj' := hj
      rw [List.length_zip] at hj'
      refine ⟨c, List.mem_range.mp hc, hs, j, ?_, ?_⟩
      · rw [List.getElem_zip]; exact List.getElem?_eq_getElem (by omega)
      · rw [List.getElem_zip]; exact List.getElem?_eq_getElem (by omega)
    · simp at hw
  · rintro ⟨c, hc, hs, j, h1, h2⟩
    refine ⟨c, List.mem_range.mpr hc, ?_⟩
    rw [if_pos hs]
    apply List.mem_of_getElem? (i := j)
    rw [List.getElem?_zip_eq_some]
    exact ⟨h1, h2⟩

/-- The last entity which has `d` among its dofs decides. -/
theorem allWrites_last (n : ℕ) (sel : ℕ → Bool) (G : ℕ → List ℕ) (I : ℕ → List V) (init : List V)
    (hl : ∀ c < n, sel c = true → (I c).length = (G c).length) (c d : ℕ) (hc : c < n) (hs : sel c = true)
    (hd : d ∈ G c) (hdi : d < init.length) (hlast : ∀ c', c < c' → c' < n → sel c' = true → d ∉ G c') :
    ∃ j : ℕ, (G c)[j]? = some d ∧ (I c)[j]?.isSome ∧ (assigns (allWrites n sel G I) init)[d]? = (I c)[j]? := by
  have hsplit : List.range n = List.range (c + 1) ++ (List.range (n - (c + 1))).map (c + 1 + ·) := by
    rw [← List.range_add]; congr 1; omega
  rw [allWrites, hsplit, List.flatMap_append, List.range_succ, List.flatMap_append, List.flatMap_cons,
    List.flatMap_nil, List.append_nil, if_pos hs, assigns_append, assigns_append]
  rw [assigns_other _ _ d]
  · obtain ⟨j, hj, he⟩ := List.mem_iff_getElem.mp hd
    have hjI : j < (I c).length := by rw [hl c hc hs]; exact hj
    have hex : ∃ w ∈ (G c).zip (I c), w.1 = d := by
      refine ⟨((G c).zip (I c))[j]'(by simp; omega), List.getElem_mem _, ?_⟩
      rw [List.getElem_zip]; exact he
    obtain ⟨w, h1, h2, h3⟩ := assigns_some _ (assigns (allWrites c sel G I) init) d
      (by rw [assigns_length]; exact hdi) hex
    obtain ⟨k, hk⟩ := List.mem_iff_getElem?.mp h1
    rw [List.getElem?_zip_eq_some] at hk
    exact ⟨k, by rw [hk.1, h2], by rw [hk.2]; rfl, h3.trans hk.2.symm⟩
  · intro w hw he
    rw [List.mem_flatMap] at hw
    obtain ⟨c', hc', hw⟩ := hw
    obtain ⟨i, hi, rfl⟩ := List.mem_map.mp hc'
    have hi' := List.mem_range.mp hi
    split at hw
    · rename_i hs'
      refine hlast (c + 1 + i) (by omega) (by omega) hs' ?_
      rw [← he]
      exact (List.of_mem_zip hw).1
    · simp at hw

end

section
variable {K : Type} [Field K] {S : FeSpace K}

theorem projectCell_eq (hA : S.dofh.Answers S.mesh) (hD : S.dofh.DistinctInRange S.mesh) {u : MeshFn K K}
    {pred : ℕ → Bool} {c : ℕ} (hc : c < S.mesh.numCells) (hp : pred c = true) {v : List K}
    (h : S.Interpolant u (0, c) v) {g : List K} (hg : g.length = S.dofh.numDofs) :
    projectCell S u pred g c = some (assigns ((S.dofh.all (0, c)).zip v) g) := by
  obtain ⟨fe, vals, h1, h2, h3, h4, h5, -⟩ := h
  have he : S.mesh.IsEnt (0, c) := ⟨Nat.zero_le 2, hc⟩
  obtain ⟨-, a2, -, a4⟩ := hA _ he
  rw [projectCell, hp, if_neg (by simp), h1, Option.bind_some, h2, Option.bind_some, mapVector,
    if_neg (by rwa [List.length_eq_zero_iff]), Option.bind_some, h4, Option.bind_some, a4,
    Option.bind_some, if_pos h5, a2, Option.bind_some]
  have := setLoop_eq (S.dofh.all (0, c)) v id g h5.symm (by rw [hg]; exact (hD _ he).1)
  rw [List.map_id] at this
  exact this

theorem projectCell_none (hA : S.dofh.Answers S.mesh) {u : MeshFn K K}
    {pred : ℕ → Bool} {c : ℕ} (hc : c < S.mesh.numCells) (hp : pred c = true)
    (h : ¬ ∃ v, S.Interpolant u (0, c) v) (g : List K) : projectCell S u pred g c = none := by
  have he : S.mesh.IsEnt (0, c) := ⟨Nat.zero_le 2, hc⟩
  obtain ⟨-, a2, -, a4⟩ := hA _ he
  by_contra hn
  obtain ⟨r, hr⟩ := Option.ne_none_iff_exists'.mp hn
  rw [projectCell, hp] at hr
  simp only [Bool.not_true, Bool.false_eq_true, if_false, Option.bind_eq_some_iff] at hr
  obtain ⟨fe, h1, vals, h2, row, h3, v, h4, n, h5, h6⟩ := hr
  rw [mapVector] at h3
  split at h3
  · cases h3
  rename_i h0
  cases h3
  split at h6
  · rename_i hl
    rw [a4] at h5
    cases h5
    exact h ⟨v, fe, vals, h1, h2, fun hz => h0 (by simp [hz]), h4, hl, by simp⟩
  · cases h6

theorem essentialEdge_eq (hA : S.dofh.Answers S.mesh) (hD : S.dofh.DistinctInRange S.mesh) {u : MeshFn K K}
    {flag : ℕ → Bool} {e : ℕ} (hc : e < S.mesh.numEdges) (hp : flag e = true) {v : List K}
    (h : S.Interpolant u (1, e) v) {g : List (Bool × K)} (hg : g.length = S.dofh.numDofs) :
    essentialEdge S flag u g e = some (assigns ((S.dofh.all (1, e)).zip (v.map fun x => (true, x))) g) := by
  obtain ⟨fe, vals, h1, h2, h3, h4, h5, h6⟩ := h
  have he : S.mesh.IsEnt (1, e) := ⟨one_le_two, hc⟩
  obtain ⟨-, a2, -, a4⟩ := hA _ he
  rw [essentialEdge, if_pos hp, h1, Option.bind_some, h2, Option.bind_some, mapVector,
    if_neg (by rwa [List.length_eq_zero_iff]), Option.bind_some, h4, Option.bind_some, a4,
    Option.bind_some, if_pos ⟨h6 rfl, h5.symm⟩, a2, Option.bind_some]
  exact setLoop_eq (S.dofh.all (1, e)) v (fun x => (true, x)) g h5.symm (by rw [hg]; exact (hD _ he).1)

theorem essentialEdge_none (hA : S.dofh.Answers S.mesh) {u : MeshFn K K}
    {flag : ℕ → Bool} {e : ℕ} (hc : e < S.mesh.numEdges) (hp : flag e = true)
    (h : ¬ ∃ v, S.Interpolant u (1, e) v) (g : List (Bool × K)) : essentialEdge S flag u g e = none := by
  have he : S.mesh.IsEnt (1, e) := ⟨one_le_two, hc⟩
  obtain ⟨-, a2, -, a4⟩ := hA _ he
  by_contra hn
  obtain ⟨r, hr⟩ := Option.ne_none_iff_exists'.mp hn
  rw [essentialEdge, if_pos hp] at hr
  simp only [Option.bind_eq_some_iff] at hr
  obtain ⟨fe, h1, vals, h2, row, h3, v, h4, n, h5, h6⟩ := hr
  rw [mapVector] at h3
  split at h3
  · cases h3
  rename_i h0
  cases h3
  split at h6
  · rename_i hl
    rw [a4] at h5
    cases h5
    exact h ⟨v, fe, vals, h1, h2, fun hz => h0 (by simp [hz]), h4, hl.2.symm, fun _ => hl.1⟩
  · cases h6

end

/-- The interpolant of a finite element function are its coefficients. -/
theorem FeSpace.Unisolvent.interpolant {S : FeSpace ℝ} {e : Ent} (h : S.Unisolvent e)
    (ha : S.dofh.globalDofIndices e = some (S.dofh.all e)) {u : List ℝ}
    (hr : ∀ d ∈ S.dofh.all e, d < u.length) :
    S.Interpolant (S.meshFunction u) e ((S.dofh.all e).map fun d => u.getD d 0) := by
  obtain ⟨fe, h1, h2, h3, h4, h5⟩ := h
  refine ⟨fe, fe.nodes.map fun x => ∑ i ∈ Finset.range fe.num,
    ((S.dofh.all e).map fun d => u.getD d 0).getD i 0 * fe.shape i x, h1, ?_, by simpa using h3,
    h2 _ (by simpa using h5), by simp, fun _ => by simpa using h5⟩
  apply mapM_some_map
  intro p hp
  obtain ⟨v, hv, hvl⟩ := h4 p hp
  rw [FeSpace.evalFE, h1, Option.bind_some, hv, Option.bind_some,
    localDofs_eq ha (by rw [hvl, h5]) hr, Option.map_some, RefFE.sum_shape hv hvl (by simpa using h5)]

section
variable {K : Type} [Field K] {S : FeSpace K} {cnt : Ent → ℕ}

theorem length_cellCoeffs (n : ℕ) (ori : ℕ → Bool) (me : ℕ → ℕ) (mi : ℕ) (V : ℕ → K) (E : ℕ → ℕ → K) (I : ℕ → K) :
    (cellCoeffs n ori me mi V E I).length = n + ((List.range n).map me).sum + mi := by
  have : ∀ i, (if ori i then (List.range (me i)).map (E i) else ((List.range (me i)).map (E i)).reverse).length =
      me i := fun i => by split <;> simp
  simp [cellCoeffs, List.length_flatMap, this, Nat.add_assoc]

/-- Number of dofs of a cell. -/
theorem Conforming.all_length (h : Conforming S cnt) {c : ℕ} {r : RefEl} (hr : S.mesh.refEl (0, c) = some r) :
    (S.dofh.all (0, c)).length = r.numNodes +
      ((List.range r.numNodes).map fun j => cnt (1, (S.mesh.cell c).edges.getD j 0)).sum + cnt (0, c) := by
  obtain ⟨hc, hn⟩ := Topo.refEl_cell h.wf hr
  have hel := h.wf.cell_edges_len c hc
  have hol := h.wf.cell_ori_len c hc
  rw [h.laid.2.2 c hc, List.length_append, List.length_append, h.own (0, c) ⟨Nat.zero_le 2, hc⟩,
    flatMap_zip_range (S.mesh.cell c).edges (S.mesh.cell c).ori (by omega)
      (fun e o => if o = true then S.dofh.own (1, e) else (S.dofh.own (1, e)).reverse), hel, hn]
  congr 2
  · rw [List.length_flatMap, List.map_congr_left (g := fun _ => 1)]
    · simp
    · intro v hv
      rw [h.own (2, v) ⟨le_refl 2, h.wf.cell_nodes c hc v hv⟩, h.node]
  · rw [List.length_flatMap]
    congr 1
    apply List.map_congr_left
    intro i hi
    have : (S.mesh.cell c).edges.getD i 0 < S.mesh.numEdges := by
      apply h.wf.cell_edges c hc
      rw [List.getD_eq_getElem _ _ (by rw [hel]; exact List.mem_range.mp hi)]
      exact List.getElem_mem _
    rw [← h.own (1, (S.mesh.cell c).edges.getD i 0) ⟨one_le_two, this⟩]
    split <;> simp

theorem Conforming.num_cell (h : Conforming S cnt) {c : ℕ} {r : RefEl}
    (hr : S.mesh.refEl (0, c) = some r) {fe : RefFE K} (hfe : S.layout (0, c) = some fe) (he : fe.Evaluates) :
    (S.dofh.all (0, c)).length = fe.num := by
  obtain ⟨fe', fs, h1, h2, h3, h4⟩ := h.cell c r hr
  rw [hfe] at h1
  cases h1
  obtain ⟨hc, hn⟩ := Topo.refEl_cell h.wf hr
  have := h.wf.cell_len c hc
  obtain ⟨v, w, e1, -, e3, -⟩ := h4 (fun _ => 0) (fun _ _ => 0) (fun _ => 0) 0 (by rw [h2]; omega) 0
  rw [length_cellCoeffs, h2] at e3
  rw [h.all_length hr, ← e3]
  by_contra hv
  by_cases hx : (sidePoint fe.ref 0 (if (S.mesh.cell c).ori.getD 0 false then (0 : K) else 1 - 0)).length =
      fe.ref.dimension
  · obtain ⟨v', e, hl⟩ := he.1 _ hx
    rw [e1] at e
    cases e
    exact hv hl
  · rw [he.2 _ hx] at e1
    cases e1

theorem Conforming.unisolvent_cell (h : Conforming S cnt) {c : ℕ} {r : RefEl}
    (hr : S.mesh.refEl (0, c) = some r) {fe : RefFE K} (hfe : S.layout (0, c) = some fe) (he : fe.Evaluates)
    (hd : fe.Dual) (hne : fe.nodes ≠ []) (hp : ∀ p ∈ fe.nodes, p.length = fe.ref.dimension) :
    S.Unisolvent (0, c) :=
  ⟨fe, hfe, hd, hne, fun p hx => he.1 p (hp p hx), h.num_cell hr hfe he⟩

theorem Conforming.num_edge (h : Conforming S cnt) {e : ℕ} (hlt : e < S.mesh.numEdges)
    {fe : RefFE K} (hfe : S.layout (1, e) = some fe) (he : fe.Evaluates) :
    (S.dofh.all (1, e)).length = fe.num := by
  obtain ⟨fe', h1, w0, w1, e1, -, e3, -⟩ := h.edge e hlt
  rw [hfe] at h1
  cases h1
  obtain ⟨v0, v1⟩ := h.wf.edge_lt e hlt
  rw [h.laid.2.1 e hlt, List.length_append, List.length_append, h.own _ ⟨le_refl 2, v0⟩,
    h.own _ ⟨le_refl 2, v1⟩, h.own _ ⟨one_le_two, hlt⟩, h.node, h.node, ← e3]
  by_cases hx : ([0] : List K).length = fe.ref.dimension
  · obtain ⟨v', e', hl⟩ := he.1 _ hx
    rw [e1] at e'
    cases e'
    exact hl
  · rw [he.2 _ hx] at e1
    cases e1

theorem Conforming.unisolvent_edge (h : Conforming S cnt) {e : ℕ} (hlt : e < S.mesh.numEdges)
    {fe : RefFE K} (hfe : S.layout (1, e) = some fe) (he : fe.Evaluates)
    (hd : fe.Dual) (hne : fe.nodes ≠ []) (hp : ∀ p ∈ fe.nodes, p.length = fe.ref.dimension) :
    S.Unisolvent (1, e) :=
  ⟨fe, hfe, hd, hne, fun p hx => he.1 p (hp p hx), h.num_edge hlt hfe he⟩

end

/-- Lagrangian elements: the values at the nodes are dual to the shape functions. -/
theorem RefFE.IsLagrange.dual {fe : RefFE ℝ} (h : fe.IsLagrange) : fe.Dual := by
  intro c hc
  have hpoly : IsPolyOn fe.ref fe.degree fun x => ∑ i ∈ Finset.range fe.num, c.getD i 0 * fe.shape i x := by
    have h0 := h.polynomial
    rw [RefFE.Polynomial] at h0
    clear hc h
    revert h0
    generalize fe.num = n
    generalize fe.shape = s
    generalize fe.degree = d
    intro h0
    cases hr : fe.ref with
    | point => trivial
    | segment =>
      rw [hr] at h0
      choose! a ha using h0
      refine ⟨fun k => ∑ i ∈ Finset.range n, c.getD i 0 * a i k, fun x => ?_⟩
      simp only [Finset.sum_mul]
      rw [Finset.sum_comm]
      apply Finset.sum_congr rfl
      intro i hi
      rw [ha i (Finset.mem_range.mp hi) x, Finset.mul_sum]
      exact Finset.sum_congr rfl fun k _ => by ring
    | tria =>
      rw [hr] at h0
      choose! a ha using h0
      refine ⟨fun k l => ∑ i ∈ Finset.range n, c.getD i 0 * a i k l, fun x y => ?_⟩
      have : ∀ i ∈ Finset.range n, c.getD i 0 * s i [x, y] = ∑ k ∈ Finset.range (d + 1),
          ∑ l ∈ Finset.range (d + 1 - k), c.getD i 0 * a i k l * (x ^ k * y ^ l) := by
        intro i hi
        rw [ha i (Finset.mem_range.mp hi) x, Finset.mul_sum]
        refine Finset.sum_congr rfl fun k _ => ?_
        rw [Finset.mul_sum]
        exact Finset.sum_congr rfl fun l _ => by ring
      refine (Finset.sum_congr rfl this).trans ?_
      rw [Finset.sum_comm]
      refine Finset.sum_congr rfl fun k _ => ?_
      rw [Finset.sum_comm]
      exact Finset.sum_congr rfl fun l _ => by rw [Finset.sum_mul]
    | quad =>
      rw [hr] at h0
      choose! a ha using h0
      refine ⟨fun k l => ∑ i ∈ Finset.range n, c.getD i 0 * a i k l, fun x y => ?_⟩
      have : ∀ i ∈ Finset.range n, c.getD i 0 * s i [x, y] = ∑ k ∈ Finset.range (d + 1),
          ∑ l ∈ Finset.range (d + 1), c.getD i 0 * a i k l * (x ^ k * y ^ l) := by
        intro i hi
        rw [ha i (Finset.mem_range.mp hi) x, Finset.mul_sum]
        refine Finset.sum_congr rfl fun k _ => ?_
        rw [Finset.mul_sum]
        exact Finset.sum_congr rfl fun l _ => by ring
      refine (Finset.sum_congr rfl this).trans ?_
      rw [Finset.sum_comm]
      refine Finset.sum_congr rfl fun k _ => ?_
      rw [Finset.sum_comm]
      exact Finset.sum_congr rfl fun l _ => by rw [Finset.sum_mul]
  obtain ⟨c', h1, h2, h3⟩ := h.reproduces _ hpoly
  rw [h1]
  congr 1
  obtain ⟨hn, hpl, hcard⟩ := h.cardinal
  apply List.ext_getElem (by omega)
  intro j hj1 hj2
  have hj : j < fe.num := by omega
  have hval : ∀ b : List ℝ, b.length = fe.num →
      ∑ i ∈ Finset.range fe.num, b.getD i 0 * fe.shape i (fe.nodes.getD j []) = b.getD j 0 := by
    intro b hb
    rw [Finset.sum_eq_single j]
    · rw [hcard j hj j hj, if_pos rfl, mul_one]
    · intro i hi hij
      rw [hcard i (Finset.mem_range.mp hi) j hj, if_neg hij, mul_zero]
    · intro hn'
      exact absurd (Finset.mem_range.mpr hj) hn'
  have := h3 (fe.nodes.getD j []) (by
    apply hpl
    rw [List.getD_eq_getElem _ _ (by omega)]
    exact List.getElem_mem _)
  beta_reduce at this
  rw [hval c' h2, hval c hc, List.getD_eq_getElem _ _ hj1, List.getD_eq_getElem _ _ hj2] at this
  exact this

end Verif
