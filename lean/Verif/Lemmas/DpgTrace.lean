import Verif.Lemmas.DpgSpace
import Verif.Props.Conform
import Mathlib.Tactic.Ring

/-!
# Lemmas: components with continuous functions on the skeleton
-/

namespace Verif.Dpg
open Verif Geo

variable {K : Type} [Field K]

theorem referenceFE_lagr (p : ℕ) (hp : 1 ≤ p ∧ p ≤ 3) (r : RefEl) : (referenceFE r p : Option (RefFE K)) = some (lagrFE p r) := by
  obtain ⟨h1, h3⟩ := hp
  cases r <;> interval_cases p <;> rfl

theorem lagrFE_numCodim0 (p : ℕ) (hp : 1 ≤ p ∧ p ≤ 3) (r : RefEl) (hr : r = .tria ∨ r = .quad) :
    (lagrFE p r : RefFE K).numCodim 0 = some ((lagrangeLayout p).interior r) ∧
      (lagrFE p r : RefFE K).num = r.numNodes * p + (lagrangeLayout p).interior r := by
  obtain ⟨h1, h3⟩ := hp
  rcases hr with rfl | rfl <;> interval_cases p <;> exact ⟨rfl, rfl⟩

theorem dotRow_append_zero (a v : List K) (n : ℕ) : dotRow (a ++ (List.range n).map fun _ => (0 : K)) v = dotRow a (v.take a.length) := by
  induction a generalizing v with
  | nil =>
    simp only [dotRow, List.nil_append, List.length_nil, List.take_zero, List.zipWith_nil_left, List.sum_nil]
    apply List.sum_eq_zero
    intro x hx
    obtain ⟨i, hi, rfl⟩ := List.mem_iff_getElem.1 hx
    simp
  | cons x a ih =>
    cases v with
    | nil => simp [dotRow]
    | cons y v =>
      have := ih v
      simp only [dotRow] at this
      simp only [dotRow, List.cons_append, List.zipWith_cons_cons, List.sum_cons, List.length_cons, List.take_succ_cons, this]

theorem cellCoeffs_length (n : ℕ) (ori : ℕ → Bool) (m mi : ℕ) (V : ℕ → K) (E : ℕ → ℕ → K) (I : ℕ → K) :
    (cellCoeffs n ori (fun _ => m) mi V E I).length = n + n * m + mi := by
  have : ∀ i : ℕ, (if ori i = true then (List.range m).map (E i) else ((List.range m).map (E i)).reverse).length = m := by
    intro i; split_ifs <;> simp
  simp only [cellCoeffs, List.length_append, List.length_map, List.length_range, List.length_flatMap, this]
  simp

/-- Trace elements conform, too. -/
theorem traceFE_conforms [CharZero K] (p : ℕ) (hp : 1 ≤ p ∧ p ≤ 3) (r : RefEl) (hr : r = .tria ∨ r = .quad) (ori : ℕ → Bool)
    (t : RefFE K) (ht : traceFE (lagrFE p r) = some t) :
    t.ref = r ∧ t.Conforms ori (fun _ => lagrFE p .segment) (fun _ => p - 1) 0 := by
  obtain ⟨h1, h2⟩ := lagrFE_conforms (K := K) p hp r hr ori
  obtain ⟨n1, n2⟩ := lagrFE_numCodim0 (K := K) p hp r hr
  rw [traceFE, n1] at ht
  cases ht
  refine ⟨h1, ?_⟩
  intro V E I j hj x
  obtain ⟨v, w, a1, a2, a3, a4, a5⟩ := h2 V E (fun _ => 0) j hj x
  have hsplit : cellCoeffs (lagrFE p r : RefFE K).ref.numNodes ori (fun _ => p - 1) ((lagrangeLayout p).interior r) V E (fun _ => 0) =
      cellCoeffs (lagrFE p r : RefFE K).ref.numNodes ori (fun _ => p - 1) 0 V E I ++
        (List.range ((lagrangeLayout p).interior r)).map fun _ => (0 : K) := by
    simp [cellCoeffs]
  have hlen := cellCoeffs_length (lagrFE p r : RefFE K).ref.numNodes ori (p - 1) 0 V E I
  have hnum : (lagrFE p r : RefFE K).num - (lagrangeLayout p).interior r =
      (cellCoeffs (lagrFE p r : RefFE K).ref.numNodes ori (fun _ => p - 1) 0 V E I).length := by
    rw [n2, hlen, h1, Nat.add_sub_cancel]
    obtain ⟨q, rfl⟩ : ∃ q, p = q + 1 := ⟨p - 1, by omega⟩
    rw [Nat.add_sub_cancel]; ring
  refine ⟨v.take ((lagrFE p r : RefFE K).num - (lagrangeLayout p).interior r), w, ?_, a2, ?_, a4, ?_⟩
  · simp only [a1, Option.map_some]
  · rw [List.length_take, a3, hsplit, List.length_append, hnum]
    exact Nat.min_eq_left (Nat.le_add_right _ _)
  · rw [← a5, hsplit, dotRow_append_zero, hnum]

/-- Uniform spaces of Lagrangian elements, possibly without interior shape functions of cells. -/
theorem uniform_conforming (T : Topo) (hT : T.WF) (l : UniformLayout) (h : DofHandler)
    (hh : uniformDofHandler T l true = some h) (U : UniformFESpace K) (hU : U.dofh = h) (hpt : l.point = 1)
    (fp fs ft fq : RefFE K) (hp : U.point = some fp) (hs : U.edge = some fs) (ht : U.tria = some ft) (hq : U.quad = some fq)
    (hpe : fp.eval [] = some [1]) (hse : fs.EndPoints l.segment)
    (htc : ∀ ori, ft.ref = .tria ∧ ft.Conforms ori (fun _ => fs) (fun _ => l.segment) l.tria)
    (hqc : ∀ ori, fq.ref = .quad ∧ fq.Conforms ori (fun _ => fs) (fun _ => l.segment) l.quad) :
    ∃ cnt, Conforming (U.space T) cnt := by
  obtain ⟨h', hh', -, -, hcnt⟩ := C09_uniform T hT l true
  rw [hh] at hh'; cases hh'
  subst hU
  obtain ⟨a1, a2, a3⟩ := C11_uniform T hT _ U.dofh hh
  have hent : ∀ e, T.IsEnt e → ∃ r, T.refEl e = some r := by
    rintro ⟨k, i⟩ ⟨hk, hi⟩
    simp only at hk hi
    interval_cases k
    · have := hT.cell_len i hi
      simp only [Topo.refEl, if_pos hi]
      rcases this with h | h <;> simp [h]
    · exact ⟨.segment, by simp only [Topo.refEl, if_pos hi]; simp⟩
    · exact ⟨.point, by simp only [Topo.refEl, if_pos hi]; simp⟩
  have hnode : ∀ v, v < T.numNodes → T.refEl (2, v) = some .point := fun v hv => by
    rw [Topo.refEl, if_pos (show v < T.num 2 from hv)]; simp
  have hedge : ∀ e, e < T.numEdges → T.refEl (1, e) = some .segment := fun e he => by
    rw [Topo.refEl, if_pos (show e < T.num 1 from he)]; simp
  refine ⟨fun e => match e with
    | (0, i) => ((T.refEl (0, i)).map l.interior).getD 0
    | (1, _) => l.segment
    | _ => 1, hT, a1, a2, a3, ?_, fun v => rfl, ?_, ?_, ?_⟩
  · rintro ⟨k, i⟩ he
    obtain ⟨r, hr⟩ := hent _ he
    have := hcnt _ r he hr
    rw [show (U.space T).dofh = U.dofh from rfl, this]
    obtain ⟨hk, hi⟩ := he
    simp only at hk hi
    interval_cases k
    · simp [hr]
    · rw [hedge i hi] at hr; cases hr; rfl
    · rw [hnode i hi] at hr; cases hr; exact hpt
  · intro v hv
    refine ⟨fp, ?_, hpe⟩
    change (T.refEl (2, v)).bind _ = _
    rw [hnode v hv]
    exact hp
  · intro e he
    refine ⟨fs, ?_, hse⟩
    change (T.refEl (1, e)).bind _ = _
    rw [hedge e he]
    exact hs
  · intro c r hr
    obtain ⟨hc, hn⟩ := Topo.refEl_cell hT hr
    have hr2 : T.refEl (0, c) = some r := hr
    have hedges : ∀ j < r.numNodes, (U.space T).layout (1, ((U.space T).mesh.cell c).edges.getD j 0) = some fs := by
      intro j hj
      change (T.refEl (1, (T.cell c).edges.getD j 0)).bind _ = _
      rw [hedge]
      · exact hs
      · apply hT.cell_edges c hc
        rw [List.getD_eq_getElem _ _ (by rw [hT.cell_edges_len c hc]; omega)]
        exact List.getElem_mem _
    have hr' : r = .tria ∨ r = .quad := by
      have := hT.cell_len c hc
      rw [← hn] at this
      revert this
      cases r <;> simp [RefEl.numNodes]
    rcases hr' with rfl | rfl
    · obtain ⟨b1, b2⟩ := htc fun j => (T.cell c).ori.getD j false
      refine ⟨ft, fun _ => fs, ?_, b1, hedges, ?_⟩
      · change (T.refEl (0, c)).bind _ = _
        rw [hr2]; exact ht
      · simp only [hr2, Option.map_some, Option.getD_some]
        exact b2
    · obtain ⟨b1, b2⟩ := hqc fun j => (T.cell c).ori.getD j false
      refine ⟨fq, fun _ => fs, ?_, b1, hedges, ?_⟩
      · change (T.refEl (0, c)).bind _ = _
        rw [hr2]; exact hq
      · simp only [hr2, Option.map_some, Option.getD_some]
        exact b2

/-- The values on cells and edges do not depend on the shape function of points. -/
theorem matchesEdges_point (T : Topo) (hT : T.WF) (U : UniformFESpace K) (pt : Option (RefFE K))
    (h : (UniformFESpace.space { U with point := pt } T).MatchesEdges) : (U.space T).MatchesEdges := by
  intro u hu c r hr j hj t
  obtain ⟨y, h1, h2⟩ := h u hu c r hr j hj t
  obtain ⟨hc, hn⟩ := Topo.refEl_cell hT hr
  have hr2 : T.refEl (0, c) = some r := hr
  have hr' : r = .tria ∨ r = .quad := by
    have := hT.cell_len c hc
    rw [← hn] at this
    revert this
    cases r <;> simp [RefEl.numNodes]
  have he : T.refEl (1, (T.cell c).edges.getD j 0) = some .segment := by
    rw [Topo.refEl, if_pos (show _ < T.num 1 from ?_)]
    · simp
    · apply hT.cell_edges c hc
      rw [List.getD_eq_getElem _ _ (by rw [hT.cell_edges_len c hc]; omega)]
      exact List.getElem_mem _
  have l1 : (UniformFESpace.space { U with point := pt } T).layout (0, c) = (U.space T).layout (0, c) := by
    change (T.refEl (0, c)).bind _ = (T.refEl (0, c)).bind _
    rw [hr2]
    rcases hr' with rfl | rfl <;> rfl
  have l2 : (UniformFESpace.space { U with point := pt } T).layout (1, (T.cell c).edges.getD j 0) =
      (U.space T).layout (1, (T.cell c).edges.getD j 0) := by
    change (T.refEl (1, _)).bind _ = (T.refEl (1, _)).bind _
    rw [he]; rfl
  refine ⟨y, ?_, ?_⟩
  · rw [← h1, FeSpace.evalFE, FeSpace.evalFE, l1]; rfl
  · rw [← h2]
    change FeSpace.evalFE _ _ (1, (T.cell c).edges.getD j 0) _ = FeSpace.evalFE _ _ (1, (T.cell c).edges.getD j 0) _
    rw [FeSpace.evalFE, FeSpace.evalFE, l2]; rfl

end Verif.Dpg
