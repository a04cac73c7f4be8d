import Mathlib.Tactic.Ring
import Mathlib.Algebra.CharZero.Defs
import Verif.Spec.Conform
import Verif.Lemmas.Lagrange

/-!
# Lemmas: from reference elements to global continuity
-/

namespace Verif
open Geo
variable {K : Type} [Field K]

/-- Local coefficients of a cell: values at the `n` vertices, coefficients of the sides (in the order
of the edge, i.e. reversed if the edge is traversed backwards), interior coefficients. -/
def cellCoeffs (n : ℕ) (ori : ℕ → Bool) (me : ℕ → ℕ) (mi : ℕ) (V : ℕ → K) (E : ℕ → ℕ → K) (I : ℕ → K) :
    List K :=
  (List.range n).map V ++
  ((List.range n).flatMap fun i =>
    if ori i then (List.range (me i)).map (E i) else ((List.range (me i)).map (E i)).reverse) ++
  (List.range mi).map I

/-- What the shape functions of a cell and those of its edges have to satisfy. -/
def RefFE.Conforms (fe : RefFE K) (ori : ℕ → Bool) (fs : ℕ → RefFE K) (me : ℕ → ℕ) (mi : ℕ) : Prop :=
  ∀ (V : ℕ → K) (E : ℕ → ℕ → K) (I : ℕ → K), ∀ j < fe.ref.numNodes, ∀ t : K, ∃ v w,
    fe.eval (sidePoint fe.ref j (if ori j then t else 1 - t)) = some v ∧ (fs j).eval [t] = some w ∧
    v.length = (cellCoeffs fe.ref.numNodes ori me mi V E I).length ∧ w.length = 2 + me j ∧
    dotRow (cellCoeffs fe.ref.numNodes ori me mi V E I) v =
      dotRow ((if ori j then [V j, V ((j + 1) % fe.ref.numNodes)] else
        [V ((j + 1) % fe.ref.numNodes), V j]) ++ (List.range (me j)).map (E j)) w

/-- End points: the first two shape functions on an edge are those of its end points. -/
def RefFE.EndPoints (fs : RefFE K) (me : ℕ) : Prop :=
  ∃ w0 w1, fs.eval [0] = some w0 ∧ fs.eval [1] = some w1 ∧ w0.length = 2 + me ∧ w1.length = 2 + me ∧
    ∀ l : List K, l.length = me → ∀ a b : K, dotRow ([a, b] ++ l) w0 = a ∧ dotRow ([a, b] ++ l) w1 = b

theorem list_eq_range_map (l : List K) : l = (List.range l.length).map fun i => l.getD i 0 := by
  apply List.ext_getElem
  · simp
  · intro i h1 h2
    simp [List.getD_eq_getElem, h1]

/-- Collecting local coefficients. -/
theorem localDofs_eq {S : FeSpace K} {u : List K} {e : Ent} {gd : List ℕ} {n : ℕ}
    (h : S.dofh.globalDofIndices e = some gd) (hn : gd.length = n) (hr : ∀ d ∈ gd, d < u.length) :
    S.localDofs u e n = some (gd.map fun d => u.getD d 0) := by
  rw [FeSpace.localDofs, h, Option.bind_some]
  rw [mapM_some_map (List.range n) _ (fun i => u.getD (gd.getD i 0) 0)]
  · congr 1
    apply List.ext_getElem
    · simp [hn]
    · intro i h1 h2
      simp only [List.length_map, List.length_range] at h1
      simp [List.getD_eq_getElem, hn, h1]
  · intro i hi
    have hi' : i < gd.length := by rw [hn]; exact List.mem_range.mp hi
    rw [getElem?_getD gd i 0 hi', Option.bind_some, getElem?_getD u _ 0]
    apply hr
    rw [List.getD_eq_getElem _ _ hi']
    exact List.getElem_mem _

/-- The hypotheses on a space under which it is conforming. -/
structure Conforming (S : FeSpace K) (cnt : Ent → ℕ) : Prop where
  wf : S.mesh.WF
  answers : S.dofh.Answers S.mesh
  laid : S.dofh.LaidOut S.mesh
  range : S.dofh.DistinctInRange S.mesh
  own : ∀ e, S.mesh.IsEnt e → (S.dofh.own e).length = cnt e
  node : ∀ v, cnt (2, v) = 1
  point : ∀ v < S.mesh.numNodes, ∃ fe, S.layout (2, v) = some fe ∧ fe.eval [] = some [1]
  edge : ∀ e < S.mesh.numEdges, ∃ fs, S.layout (1, e) = some fs ∧ fs.EndPoints (cnt (1, e))
  cell : ∀ c r, S.mesh.refEl (0, c) = some r → ∃ fe fs, S.layout (0, c) = some fe ∧ fe.ref = r ∧
    (∀ j < r.numNodes, S.layout (1, (S.mesh.cell c).edges.getD j 0) = some (fs j)) ∧
    fe.Conforms (fun j => (S.mesh.cell c).ori.getD j false) fs
      (fun j => cnt (1, (S.mesh.cell c).edges.getD j 0)) (cnt (0, c))

section
variable {S : FeSpace K} {cnt : Ent → ℕ}

theorem Topo.refEl_cell {T : Topo} (hT : T.WF) {c : ℕ} {r : RefEl} (h : T.refEl (0, c) = some r) :
    c < T.numCells ∧ r.numNodes = (T.cell c).nodes.length := by
  simp only [Topo.refEl] at h
  split at h
  · rename_i hc
    refine ⟨hc, ?_⟩
    simp only [OfNat.zero_ne_ofNat, zero_ne_one, if_false] at h
    split at h
    · cases h; simp_all [RefEl.numNodes]
    · split at h
      · cases h; simp_all [RefEl.numNodes]
      · cases h
  · cases h

theorem Conforming.ownNode (h : Conforming S cnt) {v : ℕ} (hv : v < S.mesh.numNodes) (u : List K) :
    (S.dofh.own (2, v)).map (fun d => u.getD d 0) = [u.getD ((S.dofh.own (2, v)).getD 0 0) 0] := by
  have := h.own (2, v) ⟨le_refl 2, hv⟩
  rw [h.node] at this
  obtain ⟨d, hd⟩ := List.length_eq_one_iff.mp this
  simp [hd]

/-- Coefficient of a node. -/
def FeSpace.nodeVal (S : FeSpace K) (u : List K) (v : ℕ) : K := u.getD ((S.dofh.own (2, v)).getD 0 0) 0

theorem Conforming.evalNode (h : Conforming S cnt) {v : ℕ} (hv : v < S.mesh.numNodes) {u : List K}
    (hu : u.length = S.dofh.numDofs) : S.evalFE u (2, v) [] = some (S.nodeVal u v) := by
  obtain ⟨fe, h1, h2⟩ := h.point v hv
  have he : S.mesh.IsEnt (2, v) := ⟨le_refl 2, hv⟩
  have hl := h.own (2, v) he
  rw [h.node] at hl
  rw [FeSpace.evalFE, h1, Option.bind_some, h2, Option.bind_some,
    localDofs_eq (h.answers _ he).2.1 (by rw [h.laid.1 v hv, hl]; rfl)
      (by rw [hu]; exact (h.range _ he).1), h.laid.1 v hv, h.ownNode hv]
  simp [dotRow, FeSpace.nodeVal]

/-- Coefficients of an edge. -/
theorem Conforming.evalEdge (h : Conforming S cnt) {e : ℕ} (he : e < S.mesh.numEdges) {u : List K}
    (hu : u.length = S.dofh.numDofs) {fs : RefFE K} (hfs : S.layout (1, e) = some fs) {t : K} {w : List K}
    (hw : fs.eval [t] = some w) (hwl : w.length = 2 + cnt (1, e)) :
    S.evalFE u (1, e) [t] = some (dotRow ([S.nodeVal u (S.mesh.edge e).1, S.nodeVal u (S.mesh.edge e).2] ++
      (S.dofh.own (1, e)).map fun d => u.getD d 0) w) := by
  have hE : S.mesh.IsEnt (1, e) := ⟨one_le_two, he⟩
  obtain ⟨v0, v1⟩ := h.wf.edge_lt e he
  have l0 := h.own (2, (S.mesh.edge e).1) ⟨le_refl 2, v0⟩
  have l1 := h.own (2, (S.mesh.edge e).2) ⟨le_refl 2, v1⟩
  have l2 := h.own (1, e) hE
  rw [h.node] at l0 l1
  rw [FeSpace.evalFE, hfs, Option.bind_some, hw, Option.bind_some,
    localDofs_eq (h.answers _ hE).2.1 (by
      rw [h.laid.2.1 e he, hwl]
      simp only [List.length_append, l0, l1, l2])
      (by rw [hu]; exact (h.range _ hE).1), h.laid.2.1 e he, List.map_append, List.map_append,
    h.ownNode v0, h.ownNode v1]
  rfl

end

theorem flatMap_zip_range {α : Type} (l : List ℕ) (o : List Bool) (hl : l.length = o.length)
    (f : ℕ → Bool → List α) : ((l.zip o).flatMap fun p => f p.1 p.2) =
      (List.range l.length).flatMap fun i => f (l.getD i 0) (o.getD i false) := by
  induction l generalizing o with
  | nil => simp
  | cons a l ih =>
    cases o with
    | nil => simp at hl
    | cons b o =>
      have hl' : l.length = o.length := by simpa using hl
      rw [List.zip_cons_cons, List.flatMap_cons, ih o hl', List.length_cons, List.range_succ_eq_map,
        List.flatMap_cons, List.flatMap_map]
      rfl

variable {S : FeSpace K} {cnt : Ent → ℕ}

/-- The cell and its edge. -/
theorem Conforming.matchesEdges (h : Conforming S cnt) : S.MatchesEdges := by
  intro u hu c r hr j hj t
  obtain ⟨hc, hn⟩ := Topo.refEl_cell h.wf hr
  obtain ⟨fe, fs, h1, h2, h3, h4⟩ := h.cell c r hr
  set C := S.mesh.cell c with hC
  have hel := h.wf.cell_edges_len c hc
  have hol := h.wf.cell_ori_len c hc
  rw [← hC] at hel hol
  have hjC : j < C.nodes.length := by omega
  have hmem : ∀ i < C.nodes.length, C.edges.getD i 0 < S.mesh.numEdges := by
    intro i hi
    apply h.wf.cell_edges c hc
    rw [List.getD_eq_getElem _ _ (by omega)]
    exact List.getElem_mem _
  have hmemN : ∀ i < C.nodes.length, C.nodes.getD i 0 < S.mesh.numNodes := by
    intro i hi
    apply h.wf.cell_nodes c hc
    rw [List.getD_eq_getElem _ _ hi]
    exact List.getElem_mem _
  let V : ℕ → K := fun i => S.nodeVal u (C.nodes.getD i 0)
  let E : ℕ → ℕ → K := fun i k => ((S.dofh.own (1, C.edges.getD i 0)).map fun d => u.getD d 0).getD k 0
  let I : ℕ → K := fun k => ((S.dofh.own (0, c)).map fun d => u.getD d 0).getD k 0
  have hE : ∀ i < C.nodes.length, (List.range (cnt (1, C.edges.getD i 0))).map (E i) =
      (S.dofh.own (1, C.edges.getD i 0)).map fun d => u.getD d 0 := by
    intro i hi
    have := h.own (1, C.edges.getD i 0) ⟨one_le_two, hmem i hi⟩
    rw [← this]
    conv_rhs => rw [list_eq_range_map ((S.dofh.own (1, C.edges.getD i 0)).map fun d => u.getD d 0)]
    rw [List.length_map]
  have hI : (List.range (cnt (0, c))).map I = (S.dofh.own (0, c)).map fun d => u.getD d 0 := by
    have := h.own (0, c) ⟨Nat.zero_le 2, hc⟩
    rw [← this]
    conv_rhs => rw [list_eq_range_map ((S.dofh.own (0, c)).map fun d => u.getD d 0)]
    rw [List.length_map]
  have hEc : S.mesh.IsEnt (0, c) := ⟨Nat.zero_le 2, hc⟩
  have hall : (S.dofh.all (0, c)).map (fun d => u.getD d 0) =
      cellCoeffs r.numNodes (fun j => C.ori.getD j false) (fun j => cnt (1, C.edges.getD j 0)) (cnt (0, c))
        V E I := by
    rw [h.laid.2.2 c hc, List.map_append, List.map_append, cellCoeffs, hI, hn, ← hC]
    congr 1
    congr 1
    · rw [List.map_flatMap]
      have : ∀ l : List ℕ, (∀ v ∈ l, v < S.mesh.numNodes) →
          (l.flatMap fun v => (S.dofh.own (2, v)).map fun d => u.getD d 0) =
          (List.range l.length).map fun i => S.nodeVal u (l.getD i 0) := by
        intro l hl
        induction l with
        | nil => rfl
        | cons a l ih =>
          rw [List.flatMap_cons, ih fun v hv => hl v (by simp [hv]), h.ownNode (hl a (by simp)),
            List.length_cons, List.range_succ_eq_map, List.map_cons, List.map_map]
          rfl
      exact this C.nodes fun v hv => h.wf.cell_nodes c hc v hv
    · rw [flatMap_zip_range C.edges C.ori (by omega)
        (fun e o => if o = true then S.dofh.own (1, e) else (S.dofh.own (1, e)).reverse),
        List.map_flatMap, hel]
      apply List.flatMap_congr
      intro i hi
      rw [hE i (List.mem_range.mp hi), apply_ite (List.map fun d => u.getD d 0), List.map_reverse]
  obtain ⟨v, w, e1, e2, e3, e4, e5⟩ := h4 V E I j (by rw [h2]; exact hj) t
  rw [h2] at e1 e3 e5
  refine ⟨_, ?_, h.evalEdge (hmem j hjC) hu (h3 j hj) e2 e4⟩
  rw [FeSpace.evalFE, h1, Option.bind_some]
  have e1' : fe.eval (S.mesh.onSide r c j t) = some v := e1
  rw [e1', Option.bind_some, localDofs_eq (h.answers _ hEc).2.1 (by
      rw [e3, ← hall, List.length_map]) (by rw [hu]; exact (h.range _ hEc).1), Option.map_some, hall, e5,
    hE j hjC]
  congr 3
  have hori := h.wf.cell_ori c hc j hjC
  have hside := h.wf.cell_side c hc j hjC
  rw [← hC] at hori hside
  have hj2 : (j + 1) % r.numNodes = (j + 1) % C.nodes.length := by rw [hn]
  by_cases ho : C.ori.getD j false = true
  · rw [if_pos ho, hori.mp ho]
    simp only [side, V, hj2]
  · rw [if_neg ho]
    rcases hside with hs | hs
    · exact absurd (hori.mpr hs) ho
    · rw [hs]
      simp only [side, V, hj2, Prod.swap]

theorem FeSpace.MatchesEdges.continuous (h : S.MatchesEdges) : S.ContinuousAcrossEdges := by
  intro u hu c r c' r' hr hr' j hj j' hj' he t
  obtain ⟨y, h1, h2⟩ := h u hu c r hr j hj t
  obtain ⟨y', h3, h4⟩ := h u hu c' r' hr' j' hj' t
  rw [he, h4] at h2
  cases h2
  exact ⟨y, h1, h3⟩

theorem Conforming.matchesNodes (h : Conforming S cnt) : S.MatchesNodes := by
  intro u hu
  have hedge : ∀ e < S.mesh.numEdges,
      (∃ y, S.evalFE u (1, e) [0] = some y ∧ S.evalFE u (2, (S.mesh.edge e).1) [] = some y) ∧
      ∃ y, S.evalFE u (1, e) [1] = some y ∧ S.evalFE u (2, (S.mesh.edge e).2) [] = some y := by
    intro e he
    obtain ⟨fs, h1, w0, w1, h2, h3, h4, h5, h6⟩ := h.edge e he
    obtain ⟨v0, v1⟩ := h.wf.edge_lt e he
    have hl : ((S.dofh.own (1, e)).map fun d => u.getD d 0).length = cnt (1, e) := by
      rw [List.length_map]; exact h.own (1, e) ⟨one_le_two, he⟩
    refine ⟨⟨_, h.evalEdge he hu h1 h2 h4, ?_⟩, _, h.evalEdge he hu h1 h3 h5, ?_⟩
    · rw [h.evalNode v0 hu, (h6 _ hl _ _).1]
    · rw [h.evalNode v1 hu, (h6 _ hl _ _).2]
  refine ⟨fun c r hr i hi => ?_, hedge⟩
  obtain ⟨hc, hn⟩ := Topo.refEl_cell h.wf hr
  have hi' : i < (S.mesh.cell c).nodes.length := by omega
  have hE : (S.mesh.cell c).edges.getD i 0 < S.mesh.numEdges := by
    apply h.wf.cell_edges c hc
    rw [List.getD_eq_getElem _ _ (by rw [h.wf.cell_edges_len c hc]; omega)]
    exact List.getElem_mem _
  have hcor : sidePoint r i (0 : K) = (r.corners : List (List K)).getD i [] := by
    simp only [Topo.refEl] at hr
    cases r with
    | point => change i < 1 at hi; interval_cases i; rfl
    | segment => change i < 2 at hi; interval_cases i <;> simp [sidePoint, RefEl.corners, RefEl.numNodes]
    | tria => change i < 3 at hi; interval_cases i <;> simp [sidePoint, RefEl.corners, RefEl.numNodes]
    | quad => change i < 4 at hi; interval_cases i <;> simp [sidePoint, RefEl.corners, RefEl.numNodes]
  have hori := h.wf.cell_ori c hc i hi'
  have hside := h.wf.cell_side c hc i hi'
  by_cases ho : (S.mesh.cell c).ori.getD i false = true
  · obtain ⟨y, h1, h2⟩ := h.matchesEdges u hu c r hr i hi 0
    rw [Topo.onSide, if_pos ho, hcor] at h1
    obtain ⟨y', h3, h4⟩ := (hedge _ hE).1
    rw [h2] at h3
    cases h3
    refine ⟨y, h1, ?_⟩
    rw [hori.mp ho] at h4
    exact h4
  · obtain ⟨y, h1, h2⟩ := h.matchesEdges u hu c r hr i hi 1
    rw [Topo.onSide, if_neg ho, sub_self, hcor] at h1
    obtain ⟨y', h3, h4⟩ := (hedge _ hE).2
    rw [h2] at h3
    cases h3
    refine ⟨y, h1, ?_⟩
    rcases hside with hs | hs
    · exact absurd (hori.mpr hs) ho
    · rw [hs] at h4
      exact h4

/-! ### Elements which do not depend on the orientation -/

/-- The shape functions of the edge are symmetric under reversal of the edge. -/
def RefFE.Symmetric (fs : RefFE K) (me : ℕ) : Prop :=
  ∀ (a b : K) (l : List K), l.length = me → ∀ t, ∃ w w', fs.eval [t] = some w ∧
    fs.eval [1 - t] = some w' ∧ w.length = 2 + me ∧ w'.length = 2 + me ∧
    dotRow ([b, a] ++ l.reverse) w' = dotRow ([a, b] ++ l) w

/-- For such elements it suffices to look at positive orientations. -/
theorem RefFE.conforms_of_symmetric (fe fs : RefFE K) (me mi : ℕ) (hs : fs.Symmetric me)
    (h : fe.Conforms (fun _ => true) (fun _ => fs) (fun _ => me) mi) (ori : ℕ → Bool) :
    fe.Conforms ori (fun _ => fs) (fun _ => me) mi := by
  intro V E I j hj t
  let E' : ℕ → ℕ → K := fun i k => if ori i then E i k else E i (me - 1 - k)
  have hrev : ∀ i, (List.range me).map (E' i) =
      if ori i then (List.range me).map (E i) else ((List.range me).map (E i)).reverse := by
    intro i
    by_cases ho : ori i
    · simp only [E', ho, if_true]
    · simp only [E', ho]
      apply List.ext_getElem
      · simp
      · intro k h1 h2
        simp
  have hcc : cellCoeffs fe.ref.numNodes (fun _ => true) (fun _ => me) mi V E' I =
      cellCoeffs fe.ref.numNodes ori (fun _ => me) mi V E I := by
    simp only [cellCoeffs, if_true, hrev]
  obtain ⟨v, w, h1, h2, h3, h4, h5⟩ := h V E' I j hj (if ori j then t else 1 - t)
  rw [hcc] at h3 h5
  simp only [if_true] at h1 h5
  rw [hrev] at h5
  by_cases ho : ori j
  · simp only [ho, if_true] at h1 h2 h5 ⊢
    exact ⟨v, w, h1, h2, h3, h4, h5⟩
  · simp only [ho] at h1 h2 h5 ⊢
    obtain ⟨w1, w2, g1, g2, g3, g4, g5⟩ := hs (V ((j + 1) % fe.ref.numNodes)) (V j)
      ((List.range me).map (E j)) (by simp) t
    have : w2 = w := by
      have := g2.symm.trans h2
      simpa using this
    subst this
    exact ⟨v, w1, h1, g1, h3, g3, by rw [h5]; exact g5⟩

end Verif
