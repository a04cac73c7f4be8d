import Verif.Lemmas.Dof4
import Verif.Lemmas.MeshBuild4

/-!
# Independence of counts outside of the mesh; product dof handler
-/

namespace Verif

namespace Num
variable {T : Topo} {cnt cnt' : Ent → ℕ}

theorem base_congr (hc : ∀ e, T.IsEnt e → cnt e = cnt' e) (k : ℕ) : base T cnt k = base T cnt' k := by
  have e2 := psum_congr (fun v => cnt (2, v)) (fun v => cnt' (2, v)) T.numNodes
    (fun i hi => hc _ (IsEnt_node hi))
  have e1 := psum_congr (fun v => cnt (1, v)) (fun v => cnt' (1, v)) T.numEdges
    (fun i hi => hc _ (IsEnt_edge hi))
  match k with
  | 0 => simp only [base, e1, e2]
  | 1 => simp only [base, e2]
  | _ + 2 => rfl

theorem total_congr (hc : ∀ e, T.IsEnt e → cnt e = cnt' e) : total T cnt = total T cnt' := by
  unfold total
  rw [base_congr hc, psum_congr (fun v => cnt (0, v)) (fun v => cnt' (0, v)) T.numCells
    (fun i hi => hc _ (IsEnt_cell hi))]

theorem intr_congr (hc : ∀ e, T.IsEnt e → cnt e = cnt' e) {e : Ent} (he : T.IsEnt e) :
    intr T cnt e = intr T cnt' e := by
  unfold intr start
  rw [base_congr hc, hc e he, psum_congr (fun v => cnt (e.1, v)) (fun v => cnt' (e.1, v)) e.2]
  intro i hi
  exact hc _ ⟨he.1, Nat.lt_trans hi he.2⟩

theorem glob_congr (hT : T.WF) (hc : ∀ e, T.IsEnt e → cnt e = cnt' e) (chk : Bool) {e : Ent} (he : T.IsEnt e) :
    glob T cnt chk e = glob T cnt' chk e := by
  obtain ⟨k, i⟩ := e
  obtain ⟨h1, h2⟩ := he
  match k, h1, h2 with
  | 2, h1, h2 => exact intr_congr hc ⟨h1, h2⟩
  | 1, h1, h2 =>
    simp only [glob]
    rw [intr_congr hc ⟨h1, h2⟩, intr_congr hc (IsEnt_node (hT.edge_lt i h2).1),
      intr_congr hc (IsEnt_node (hT.edge_lt i h2).2)]
  | 0, h1, h2 =>
    simp only [glob]
    rw [intr_congr hc ⟨h1, h2⟩]
    congr 2
    · apply List.flatMap_congr
      intro v hv
      exact intr_congr hc (IsEnt_node (hT.cell_nodes i h2 v hv))
    · apply List.flatMap_congr
      intro p hp
      unfold edgePart
      rw [intr_congr hc (IsEnt_edge (hT.cell_edges i h2 p.1 (List.of_mem_zip hp).1))]

theorem entsOf_congr (k n : ℕ) (hc : ∀ i < n, cnt (k, i) = cnt' (k, i)) : entsOf cnt k n = entsOf cnt' k n := by
  unfold entsOf
  apply List.flatMap_congr
  intro i hi
  rw [hc i (List.mem_range.1 hi)]

theorem ents_congr (hc : ∀ e, T.IsEnt e → cnt e = cnt' e) : ents T cnt = ents T cnt' := by
  unfold ents
  rw [entsOf_congr 2 _ (fun i hi => hc _ (IsEnt_node hi)), entsOf_congr 1 _ (fun i hi => hc _ (IsEnt_edge hi)),
    entsOf_congr 0 _ (fun i hi => hc _ (IsEnt_cell hi))]

end Num

namespace ProductFE

/-- Offset of component `i` of a list of handlers. -/
def poff (hs : List DofHandler) (i : ℕ) : ℕ := psum (fun j => ((hs[j]?).map DofHandler.numDofs).getD 0) i

theorem poff_cons (h : DofHandler) (hs : List DofHandler) (i : ℕ) :
    poff (h :: hs) (i + 1) = h.numDofs + poff hs i := by
  unfold poff
  induction i with
  | zero => simp [psum_succ]
  | succ i ih => rw [psum_succ, ih, psum_succ]; simp [Nat.add_assoc]

theorem initComps_spec (T : Topo) (hT : T.WF) (ls : List UniformLayout) (off : ℕ) :
    ∃ hs, initComps T ls off = some (hs, (List.range (ls.length + 1)).map fun i => off + poff hs i) ∧
      hs.length = ls.length ∧
      ∀ (i : ℕ) (l : UniformLayout), ls[i]? = some l → ∃ h, hs[i]? = some h ∧ uniformDofHandler T l true = some h ∧
        Num.Is T (ucnt T l) true h := by
  induction ls generalizing off with
  | nil => exact ⟨[], by simp [initComps, poff], rfl, by simp⟩
  | cons l ls ih =>
    obtain ⟨h, h1, h2⟩ := uniform_is T hT l true
    obtain ⟨hs, h3, h4, h5⟩ := ih (off + h.numDofs)
    refine ⟨h :: hs, ?_, by simp [h4], ?_⟩
    · unfold initComps
      rw [h1]
      simp only [Option.bind_some]
      rw [h3]
      simp only [Option.bind_some, Option.some.injEq, Prod.mk.injEq, true_and]
      rw [List.length_cons, List.range_succ_eq_map (n := ls.length + 1), List.map_cons, List.map_map]
      congr 1
      apply List.map_congr_left
      intro i _
      simp only [Function.comp, poff_cons, Nat.add_assoc]
    · intro i l' hi
      cases i with
      | zero =>
        simp only [List.getElem?_cons_zero, Option.some.injEq] at hi
        subst hi
        exact ⟨h, rfl, h1, h2⟩
      | succ i =>
        simp only [List.getElem?_cons_succ] at hi
        obtain ⟨g, hg⟩ := h5 i l' hi
        exact ⟨g, by simpa using hg.1, hg.2⟩

/-- Everything about a constructed product handler. -/
structure Is (T : Topo) (ls : List UniformLayout) (D : Data) : Prop where
  len : D.comps.length = ls.length
  pos : 0 < ls.length
  comp : ∀ (i : ℕ) (l : UniformLayout), ls[i]? = some l → ∃ h, D.comps[i]? = some h ∧ uniformDofHandler T l true = some h ∧
        Num.Is T (ucnt T l) true h
  offs : ∀ i ≤ D.comps.length, D.offs[i]? = some (poff D.comps i)
  dofs : ∀ e, T.refEl e ≠ none → lookup T D.dofs e =
    some ((List.range D.comps.length).flatMap fun i =>
      (((D.comps[i]?).map (DofHandler.all · e)).getD []).map (· + poff D.comps i))
  internal : ∀ e, T.refEl e ≠ none → lookup T D.internal e =
    some ((List.range D.comps.length).flatMap fun i =>
      (((D.comps[i]?).map (DofHandler.own · e)).getD []).map (· + poff D.comps i))

theorem refEl_codim {T : Topo} (hT : T.WF) {e : Ent} (he : T.refEl e ≠ none) :
    ∃ r, T.refEl e = some r ∧ 2 - r.dimension = e.1 := by
  obtain ⟨k, i⟩ := e
  rcases refEl_ne_none he with ⟨rfl, hi⟩ | ⟨rfl, hi⟩ | ⟨rfl, hi⟩
  · exact ⟨_, refEl_node T hi, rfl⟩
  · exact ⟨_, refEl_edge T hi, rfl⟩
  · obtain ⟨r, hr, hd, _⟩ := refEl_cell hT hi
    exact ⟨r, hr, by rw [hd]⟩

theorem init_spec (T : Topo) (hT : T.WF) (ls : List UniformLayout) (hls : ls ≠ []) :
    ∃ D, init T ls = some D ∧ Is T ls D := by
  obtain ⟨hs, h1, h2, h3⟩ := initComps_spec T hT ls 0
  simp only [Nat.zero_add] at h1
  have hpos : 0 < ls.length := List.length_pos_iff.2 hls
  have hoffs : ∀ i ≤ hs.length, ((List.range (ls.length + 1)).map fun i => poff hs i)[i]? = some (poff hs i) := by
    intro i hi
    rw [List.getElem?_map, List.getElem?_range (by omega)]; rfl
  have hcol : ∀ (f : DofHandler → Option (List ℕ)) (g : DofHandler → List ℕ),
      (∀ (i : ℕ) (h : DofHandler), hs[i]? = some h → f h = some (g h)) →
      collect hs ((List.range (ls.length + 1)).map fun i => poff hs i) f =
        some ((List.range hs.length).flatMap fun i =>
          (((hs[i]?).map g).getD []).map (· + poff hs i)) := by
    intro f g hfg
    unfold collect
    rw [mapM_some _ (fun i => (((hs[i]?).map g).getD []).map (· + poff hs i))]
    · rw [List.flatMap_def]; rfl
    · intro i hi
      have hi' := List.mem_range.1 hi
      have hx : hs[i]? = some hs[i] := List.getElem?_eq_getElem hi'
      rw [hoffs i (Nat.le_of_lt hi')]
      simp only [hx, Option.bind_some, Option.map_some, Option.getD_some, hfg i _ hx]
  have hans : ∀ (i : ℕ) (h : DofHandler), hs[i]? = some h → h.Answers T := by
    intro i h hi
    have : i < hs.length := (List.getElem?_eq_some_iff.1 hi).1
    obtain ⟨h', h4, _, h5⟩ := h3 i ls[i] (List.getElem?_eq_getElem (by omega))
    rw [hi] at h4
    cases h4
    exact h5.answers hT
  have harr : ∀ (f : DofHandler → Ent → Option (List ℕ)) (g : DofHandler → Ent → List ℕ),
      (∀ (i : ℕ) (h : DofHandler) (e : Ent), hs[i]? = some h → T.IsEnt e → f h e = some (g h e)) →
      ∃ a, ((List.range 3).mapM fun codim => (List.range (T.num codim)).mapM fun i =>
          collect hs ((List.range (ls.length + 1)).map fun i => poff hs i) fun h => f h (codim, i)) = some a ∧
        ∀ e, T.refEl e ≠ none → lookup T a e = some ((List.range hs.length).flatMap fun i =>
          (((hs[i]?).map (g · e)).getD []).map (· + poff hs i)) := by
    intro f g hfg
    let row : ℕ → List (List ℕ) := fun codim => (List.range (T.num codim)).map fun j =>
      (List.range hs.length).flatMap fun i => (((hs[i]?).map (g · (codim, j))).getD []).map (· + poff hs i)
    refine ⟨(List.range 3).map row, ?_, ?_⟩
    · apply mapM_some
      intro codim hcd
      apply mapM_some
      intro j hj
      apply hcol
      intro i h hi
      exact hfg i h _ hi ⟨by have := List.mem_range.1 hcd; simp only; omega, List.mem_range.1 hj⟩
    · intro e he
      have hE := (IsEnt_iff hT e).2 he
      obtain ⟨r, hr, hcd⟩ := refEl_codim hT he
      unfold lookup
      rw [hr]
      simp only [Option.bind_some, hcd]
      rw [List.getElem?_map, List.getElem?_range (by have := hE.1; omega)]
      simp only [Option.map_some, Option.bind_some, row]
      rw [List.getElem?_map, List.getElem?_range hE.2]
      rfl
  obtain ⟨a, ha1, ha2⟩ := harr DofHandler.globalDofIndices DofHandler.all
    (fun i h e hi he => (hans i h hi e he).2.1)
  obtain ⟨b, hb1, hb2⟩ := harr DofHandler.interiorGlobalDofIndices DofHandler.own
    (fun i h e hi he => (hans i h hi e he).1)
  refine ⟨⟨hs, (List.range (ls.length + 1)).map fun i => poff hs i, a, b⟩, ?_, ?_⟩
  · unfold init
    rw [if_neg (by omega), h1]
    simp only [Option.bind_some]
    rw [ha1]
    simp only [Option.bind_some]
    rw [hb1]
    rfl
  · exact ⟨h2, hpos, h3, hoffs, ha2, hb2⟩

variable {T : Topo} {ls : List UniformLayout} {D : Data} (hI : Is T ls D) (hT : T.WF)

theorem Is.compAt (hI : Is T ls D) {i : ℕ} (hi : i < D.comps.length) :
    ∃ l h, ls[i]? = some l ∧ D.comps[i]? = some h ∧ uniformDofHandler T l true = some h ∧
      Num.Is T (ucnt T l) true h := by
  have hi' : i < ls.length := by rw [← hI.len]; exact hi
  obtain ⟨h, h1, h2, h3⟩ := hI.comp i ls[i] (List.getElem?_eq_getElem hi')
  exact ⟨_, h, List.getElem?_eq_getElem hi', h1, h2, h3⟩

theorem find_range (n : ℕ) (p : ℕ → Bool) (i : ℕ) (hi : i < n) (hp : p i = true) (hmin : ∀ j < i, p j = false) :
    (List.range n).find? p = some i := by
  rw [List.find?_range_eq_some]
  refine ⟨hp, List.mem_range.2 hi, ?_⟩
  intro j hj
  simp [hmin j hj]

theorem poff_succ {hs : List DofHandler} {i : ℕ} {h : DofHandler} (hi : hs[i]? = some h) :
    poff hs (i + 1) = poff hs i + h.numDofs := by
  unfold poff; rw [psum_succ, hi]; rfl

theorem poff_mono (hs : List DofHandler) {i j : ℕ} (h : i ≤ j) : poff hs i ≤ poff hs j := psum_mono _ h

theorem Is.numDofs (hI : Is T ls D) : (D.handler T).numDofs = poff D.comps D.comps.length := by
  simp only [Data.handler, hI.offs _ (Nat.le_refl _), Option.getD_some]

theorem Is.exists_comp (hI : Is T ls D) {d : ℕ} (hd : d < (D.handler T).numDofs) :
    ∃ (i : ℕ) (h : DofHandler), i < D.comps.length ∧ D.comps[i]? = some h ∧ poff D.comps i ≤ d ∧ d < poff D.comps i + h.numDofs := by
  rw [hI.numDofs] at hd
  obtain ⟨i, hi, h1, h2⟩ := psum_find _ _ _ hd
  obtain ⟨l, h, _, h3, _⟩ := hI.compAt hi
  rw [h3] at h2
  exact ⟨i, h, hi, h3, h1, h2⟩

theorem Is.component_eq (hI : Is T ls D) {d i : ℕ} {h : DofHandler} (hc : D.comps[i]? = some h)
    (h1 : poff D.comps i ≤ d) (h2 : d < poff D.comps i + h.numDofs) : D.component d = some i := by
  have hi : i < D.comps.length := (List.getElem?_eq_some_iff.1 hc).1
  have hs := poff_succ hc
  have hle := poff_mono D.comps (i := i + 1) (j := D.comps.length) hi
  unfold Data.component
  rw [hI.offs _ (Nat.le_refl _)]
  simp only [Option.bind_some]
  rw [if_pos (by omega)]
  apply find_range _ _ _ hi
  · rw [hI.offs (i + 1) hi]
    simp; omega
  · intro j hj
    rw [hI.offs (j + 1) (by omega)]
    have := poff_mono D.comps (i := j + 1) (j := i) hj
    simp; omega

theorem Is.mem_own (hI : Is T ls D) (hT : T.WF) {e : Ent} (he : T.IsEnt e) (d : ℕ) :
    d ∈ (D.handler T).own e ↔ ∃ (i : ℕ) (h : DofHandler), D.comps[i]? = some h ∧ poff D.comps i ≤ d ∧ (d - poff D.comps i) ∈ h.own e := by
  unfold DofHandler.own
  simp only [Data.handler]
  rw [hI.internal e ((IsEnt_iff hT e).1 he)]
  simp only [Option.getD_some, List.mem_flatMap, List.mem_map, List.mem_range]
  constructor
  · rintro ⟨i, hi, x, hx, rfl⟩
    obtain ⟨l, h, _, h3, _⟩ := hI.compAt hi
    rw [h3] at hx
    refine ⟨i, h, h3, by omega, ?_⟩
    rw [Nat.add_sub_cancel]
    exact hx
  · rintro ⟨i, h, h3, h4, h5⟩
    refine ⟨i, (List.getElem?_eq_some_iff.1 h3).1, d - poff D.comps i, ?_, by omega⟩
    rw [h3]
    exact h5

theorem Is.comp_unique (hI : Is T ls D) {d i j : ℕ} {h g : DofHandler} (hi : D.comps[i]? = some h)
    (hj : D.comps[j]? = some g) (h1 : poff D.comps i ≤ d) (h2 : d < poff D.comps i + h.numDofs)
    (h3 : poff D.comps j ≤ d) (h4 : d < poff D.comps j + g.numDofs) : i = j := by
  have := hI.component_eq hi h1 h2
  rw [hI.component_eq hj h3 h4] at this
  cases this; rfl

end ProductFE
end Verif
