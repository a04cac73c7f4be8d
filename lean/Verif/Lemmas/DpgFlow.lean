import Verif.Lemmas.DpgTools
import Verif.Spec.DataSet

namespace Verif
namespace Dpg

/-- What is known about the flags after the pairs `(cell, local side)` in `S` were processed. -/
def FlowInv (m : MeshObj) (IN : ℕ → ℕ → Prop) (S : ℕ → ℕ → Prop) (d : CodimDS Bool) : Prop :=
  CodimDS.Ok m 1 d ∧ ∀ j < m.topo.num 1, ∃ b, d.data[j]? = some b ∧
    (b = true ↔ m.topo.OnBoundary j ∧ ∃ c i, S c i ∧ (m.topo.cell c).edges[i]? = some j ∧ IN c i)

theorem flow_congr {m : MeshObj} {IN S S' : ℕ → ℕ → Prop} {d : CodimDS Bool} (h : FlowInv m IN S d)
    (hS : ∀ c i, S c i ↔ S' c i) : FlowInv m IN S' d := by
  have : S = S' := funext fun c => funext fun i => propext (hS c i)
  exact this ▸ h

theorem inflowEdge_spec {m : MeshObj} (hT : m.topo.WF) {beta : MeshFn ℝ (Vec ℝ 2)} {β : ℕ → Vec ℝ 2}
    (hβ : ∀ e < m.topo.numEdges, ((beta (1, e) [[1 / 2]]).bind fun vs => vs[0]?) = some (β e))
    {bd : CodimDS Bool} (hbd : ∀ e < m.topo.numEdges, ∃ b, bd.read ⟨m.id, (1, e)⟩ = some b ∧
      (b = true ↔ m.topo.OnBoundary e)) {N : ℕ → List (Vec ℝ 2)} {c i : ℕ} (hc : c < m.topo.numCells)
    (hi : i < (m.topo.cell c).edges.length) (hN : (N c).length = (m.topo.cell c).edges.length)
    {S : ℕ → ℕ → Prop} (hS : ∀ c i, S c i → c < m.topo.numCells) {d : CodimDS Bool}
    (h : FlowInv m (fun c i => ∃ e n, (m.topo.cell c).edges[i]? = some e ∧ (N c)[i]? = some n ∧ Geo.dot n (β e) < 0) S d) :
    ∃ d', inflowEdge m beta bd (N c) ((m.topo.cell c).edges.map fun i => (1, i)) d i = some d' ∧
      FlowInv m (fun c i => ∃ e n, (m.topo.cell c).edges[i]? = some e ∧ (N c)[i]? = some n ∧ Geo.dot n (β e) < 0)
        (fun c' i' => S c' i' ∨ (c' = c ∧ i' = i)) d' := by
  obtain ⟨h1, h2⟩ := h
  have he : (m.topo.cell c).edges[i]? = some (m.topo.cell c).edges[i] := List.getElem?_eq_getElem hi
  have hn : (N c)[i]? = some ((N c)[i]'(by omega)) := List.getElem?_eq_getElem (by omega)
  generalize (m.topo.cell c).edges[i] = e at he
  generalize (N c)[i]'(by omega) = n at hn
  have hlt : e < m.topo.numEdges := hT.cell_edges c hc e (List.mem_of_getElem? he)
  obtain ⟨b, hb1, hb2⟩ := hbd e hlt
  obtain ⟨d', h3, h4, h5⟩ := h1.write (i := e) hlt (b && decide (Geo.dot n (β e) < 0))
  refine ⟨d', ?_, h4, ?_⟩
  · unfold inflowEdge
    simp only [List.getElem?_map, he, Option.map_some, Option.bind_some, hn, hβ e hlt, hb1]
    exact h3
  · intro j hj
    rw [h5 j hj]
    by_cases hje : j = e
    · subst hje
      refine ⟨_, by rw [if_pos rfl], ?_⟩
      rw [Bool.and_eq_true, hb2, decide_eq_true_eq]
      refine and_congr_right fun hon => ?_
      constructor
      · intro hneg
        exact ⟨c, i, .inr ⟨rfl, rfl⟩, he, j, n, he, hn, hneg⟩
      · rintro ⟨c', i', hs, he', e', n', he2, hn', hneg⟩
        have hc' : c' < m.topo.numCells := by
          rcases hs with hs | ⟨rfl, -⟩
          · exact hS _ _ hs
          · exact hc
        obtain ⟨p, -, hu⟩ := hon
        have a1 := hu (c', i') ⟨hc', he'⟩
        have a2 := hu (c, i) ⟨hc, he⟩
        obtain ⟨rfl, rfl⟩ := Prod.mk.inj (a1.trans a2.symm)
        rw [he'] at he2
        obtain rfl := Option.some.inj he2
        rw [hn] at hn'
        obtain rfl := Option.some.inj hn'
        exact hneg
    · obtain ⟨b', hb3, hb4⟩ := h2 j hj
      refine ⟨b', by rw [if_neg hje]; exact hb3, hb4.trans (and_congr_right fun hon => ?_)⟩
      constructor
      · rintro ⟨c', i', hs, r⟩; exact ⟨c', i', .inl hs, r⟩
      · rintro ⟨c', i', hs | ⟨rfl, rfl⟩, r⟩
        · exact ⟨c', i', hs, r⟩
        · rw [he] at r
          exact absurd (Option.some.inj r.1).symm hje

theorem refEl_cellE {T : Topo} (hT : T.WF) {c : ℕ} (hc : c < T.numCells) :
    ∃ r, T.refEl (0, c) = some r ∧ r.numSubEntities 1 = some (T.cell c).edges.length := by
  have hl := hT.cell_edges_len c hc
  have hc' : c < T.num 0 := hc
  rcases hT.cell_len c hc with h | h
  · refine ⟨.tria, ?_, by rw [hl, h]; rfl⟩
    simp [Topo.refEl, hc', h]
  · refine ⟨.quad, ?_, by rw [hl, h]; rfl⟩
    simp [Topo.refEl, hc', h]

theorem flagInflow_spec (m : MeshObj) (hT : m.topo.WF) (geo : Ent → Option (Geo ℝ 2)) (beta : MeshFn ℝ (Vec ℝ 2))
    (β : ℕ → Vec ℝ 2)
    (hβ : ∀ e < m.topo.numEdges, ((beta (1, e) [[1 / 2]]).bind fun vs => vs[0]?) = some (β e))
    (N : ℕ → List (Vec ℝ 2))
    (hN : ∀ c < m.topo.numCells, ∃ g, geo (0, c) = some g ∧ outerNormals g = some (N c) ∧
      (N c).length = (m.topo.cell c).edges.length)
    (bd : CodimDS Bool) (hf : flagEntitiesOnBoundary m 1 = some bd)
    (hbd : ∀ e < m.topo.numEdges, ∃ b, bd.read ⟨m.id, (1, e)⟩ = some b ∧ (b = true ↔ m.topo.OnBoundary e)) :
    ∃ d, flagInflow m geo beta = some d ∧
      FlowInv m (fun c i => ∃ e n, (m.topo.cell c).edges[i]? = some e ∧ (N c)[i]? = some n ∧ Geo.dot n (β e) < 0)
        (fun c _ => c < m.topo.numCells) d := by
  unfold flagInflow
  obtain ⟨d0, hd0, hok, hz⟩ := CodimDS.make_ok m 1 (by omega) false
  rw [hf, hd0]
  simp only [Option.bind_some]
  have main := foldlM_list_inv (fun d (cell : Ent) =>
      (geo cell).bind fun g => (m.topo.subEntities cell 1).bind fun subs => (outerNormals g).bind fun normals =>
      (m.topo.refEl cell).bind fun r => (r.numSubEntities 1).bind fun n =>
      (List.range n).foldlM (inflowEdge m beta bd normals subs) d)
    (fun pre d => (∀ x ∈ pre, x ∈ m.topo.entities 0) ∧ FlowInv m
      (fun c i => ∃ e n, (m.topo.cell c).edges[i]? = some e ∧ (N c)[i]? = some n ∧ Geo.dot n (β e) < 0)
        (fun c _ => (0, c) ∈ pre) d)
    (m.topo.entities 0) d0 ⟨by simp, hok, fun j hj => ⟨false, hz j hj, by simp⟩⟩ ?_
  · obtain ⟨d, h1, -, h2⟩ := main
    refine ⟨d, h1, flow_congr h2 ?_⟩
    intro c _
    simp [Topo.entities, Topo.num]
  · intro pre e d he ⟨hpre, h1⟩
    obtain ⟨c, hc, rfl⟩ : ∃ c, c < m.topo.numCells ∧ (0, c) = e := by
      simpa [Topo.entities, Topo.num] using he
    have hsub : m.topo.subEntities (0, c) 1 = some ((m.topo.cell c).edges.map fun i => (1, i)) := by
      simp [Topo.subEntities]
    obtain ⟨g, hg1, hg2, hg3⟩ := hN c hc
    obtain ⟨r, hr1, hr2⟩ := refEl_cellE hT hc
    simp only [hsub, hg1, hg2, hr1, hr2, Option.bind_some]
    have hpre' : ∀ c', (0, c') ∈ pre → c' < m.topo.numCells := by
      intro c' h
      simpa [Topo.entities, Topo.num] using hpre _ h
    have inner := foldlM_list_inv
      (inflowEdge m beta bd (N c) ((m.topo.cell c).edges.map fun i => (1, i)))
      (fun pre' d => FlowInv m
        (fun c i => ∃ e n, (m.topo.cell c).edges[i]? = some e ∧ (N c)[i]? = some n ∧ Geo.dot n (β e) < 0)
        (fun c' i' => (0, c') ∈ pre ∨ (c' = c ∧ i' ∈ pre')) d)
      (List.range (m.topo.cell c).edges.length) d (flow_congr h1 (by simp)) ?_
    · obtain ⟨d', h3, h4⟩ := inner
      refine ⟨d', h3, ?_, h4.1, ?_⟩
      · intro x hx
        rcases List.mem_append.1 hx with hx | hx
        · exact hpre x hx
        · rw [List.mem_singleton.1 hx]; exact he
      · intro j hj
        obtain ⟨b, hb1, hb2⟩ := h4.2 j hj
        refine ⟨b, hb1, hb2.trans (and_congr_right fun _ => ?_)⟩
        constructor
        · rintro ⟨c', i', h | ⟨rfl, h⟩, r⟩
          · exact ⟨c', i', by simp [h], r⟩
          · exact ⟨c', i', by simp, r⟩
        · rintro ⟨c', i', h, r⟩
          rcases List.mem_append.1 h with h | h
          · exact ⟨c', i', .inl h, r⟩
          · obtain rfl : c' = c := by simpa using h
            refine ⟨c', i', .inr ⟨rfl, ?_⟩, r⟩
            rw [List.mem_range]
            exact (List.getElem?_eq_some_iff.1 r.1).1
    · intro pre' i d' hi h3
      obtain ⟨d2, h5, h6⟩ := inflowEdge_spec hT hβ hbd hc (List.mem_range.1 hi) hg3
        (by rintro c' i' (h | ⟨rfl, -⟩)
            · exact hpre' c' h
            · exact hc) h3
      refine ⟨d2, h5, flow_congr h6 ?_⟩
      intro c' i'
      simp only [List.mem_append, List.mem_singleton]
      tauto

theorem flagOutflow_spec (m : MeshObj) (geo : Ent → Option (Geo ℝ 2)) (beta : MeshFn ℝ (Vec ℝ 2))
    (bd : CodimDS Bool) (hf : flagEntitiesOnBoundary m 1 = some bd)
    (hbd : ∀ e < m.topo.numEdges, ∃ b, bd.read ⟨m.id, (1, e)⟩ = some b ∧ (b = true ↔ m.topo.OnBoundary e))
    (inf : CodimDS Bool) (hi : flagInflow m geo beta = some inf) (hok : CodimDS.Ok m 1 inf) :
    ∃ d, flagOutflow m geo beta = some d ∧ CodimDS.Ok m 1 d ∧ ∀ e < m.topo.numEdges, ∃ f b,
      inf.read ⟨m.id, (1, e)⟩ = some f ∧ d.read ⟨m.id, (1, e)⟩ = some b ∧
      (b = true ↔ m.topo.OnBoundary e ∧ f = false) := by
  unfold flagOutflow
  obtain ⟨d0, hd0, hok0, hz⟩ := CodimDS.make_ok m 1 (by omega) false
  rw [hf, hi, hd0]
  simp only [Option.bind_some]
  have hlen := hok.len
  have main := foldlM_list_inv (fun (d : CodimDS Bool) (edge : Ent) =>
    (bd.read ⟨m.id, edge⟩).bind fun b => (inf.read ⟨m.id, edge⟩).bind fun f =>
    d.write ⟨m.id, edge⟩ (b && !f))
    (fun pre d => CodimDS.Ok m 1 d ∧ ∀ e < m.topo.numEdges, (1, e) ∈ pre → ∃ f b,
      inf.read ⟨m.id, (1, e)⟩ = some f ∧ d.read ⟨m.id, (1, e)⟩ = some b ∧
      (b = true ↔ m.topo.OnBoundary e ∧ f = false)) (m.topo.entities 1) d0 ⟨hok0, by simp⟩ ?_
  · obtain ⟨d, h1, h2, h3⟩ := main
    refine ⟨d, h1, h2, ?_⟩
    intro e he
    exact h3 e he (by simpa [Topo.entities, Topo.num] using he)
  · intro pre x d hx ⟨h1, h2⟩
    obtain ⟨e, he, rfl⟩ : ∃ e, e < m.topo.numEdges ∧ (1, e) = x := by
      simpa [Topo.entities, Topo.num] using hx
    obtain ⟨b, hb1, hb2⟩ := hbd e he
    have he' : e < inf.data.length := by rw [hlen]; exact he
    have hread : inf.read ⟨m.id, (1, e)⟩ = some inf.data[e] := by
      rw [hok.read (i := e) he]; exact List.getElem?_eq_getElem he'
    obtain ⟨d', h3, h4, h5⟩ := h1.write (i := e) he (b && !inf.data[e])
    refine ⟨d', ?_, h4, ?_⟩
    · simp only [hb1, hread, Option.bind_some]
      exact h3
    · intro j hj hmem
      by_cases hje : j = e
      · subst hje
        refine ⟨_, _, hread, by rw [h4.read (i := j) hj, h5 j hj, if_pos rfl], ?_⟩
        rw [Bool.and_eq_true, hb2]
        simp
      · have hm : (1, j) ∈ pre := by
          rcases List.mem_append.1 hmem with h | h
          · exact h
          · simp [hje] at h
        obtain ⟨f, b', r1, r2, r3⟩ := h2 j hj hm
        refine ⟨f, b', r1, ?_, r3⟩
        rw [h4.read (i := j) hj, h5 j hj, if_neg hje, ← h1.read (i := j) hj]
        exact r2

/-- One side of `boundaryQuadRule`. -/
theorem bqr_side (r : RefEl) (hr : r = .tria ∨ r = .quad) (q : QuadRule ℝ) (h1 : ∀ c ∈ q.points, c.length = 1)
    (h2 : q.weights.length = q.points.length) (a b : Vec ℝ 2) :
    ∃ q', ((q.points.mapM (Geo.segO1 a b).global).bind fun pts =>
      ((Geo.segO1 a b).integrationElement [1 / 2]).bind fun len =>
      QuadRule.make r (pts.map fun p => [p 0, p 1]) (q.weights.map fun w => w * len) 0) = some q' ∧
      q'.ref = r ∧ q'.degree = 0 ∧
      q'.points = q.points.map (fun x => [(1 - x.getD 0 0) * a 0 + x.getD 0 0 * b 0, (1 - x.getD 0 0) * a 1 + x.getD 0 0 * b 1]) ∧
      q'.weights = q.weights.map (fun w => w * Real.sqrt (Geo.dot (b - a) (b - a))) := by
  have hm : q.points.mapM (Geo.segO1 a b).global = some (q.points.map fun x => x.getD 0 0 • b + (1 - x.getD 0 0) • a) := by
    generalize q.points = l at h1
    induction l with
    | nil => rfl
    | cons c l ih =>
      rw [List.mapM_cons, ih (fun x hx => h1 x (by simp [hx]))]
      have hc := h1 c (by simp)
      match c, hc with
      | [t], _ => rfl
  rw [hm]
  simp only [Option.bind_some, Geo.integrationElement]
  unfold QuadRule.make
  rw [if_pos]
  · refine ⟨_, rfl, rfl, rfl, ?_, rfl⟩
    simp only [List.map_map]
    apply List.map_congr_left
    intro x hx
    simp only [Function.comp, List.cons.injEq, and_true, Pi.add_apply, Pi.smul_apply, smul_eq_mul]
    constructor <;> ring
  · refine ⟨?_, by simpa using h2⟩
    intro c hc
    obtain ⟨p, -, rfl⟩ := List.mem_map.1 hc
    rcases hr with rfl | rfl <;> rfl

end Dpg
end Verif
