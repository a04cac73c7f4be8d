import Verif.Spec.Interpolation
import Verif.Props.FeTools

/-! Nodal projection onto Lagrangian spaces. -/

namespace Verif
open Geo

/-- Nodes of a Lagrangian element: corners, nodes on the sides, interior nodes. -/
theorem lagrFE_nodes (p : ℕ) (hp : 1 ≤ p ∧ p ≤ 3) (r : RefEl) (hr : r = .tria ∨ r = .quad) :
    (lagrFE p r : RefFE ℝ).nodes = (r.corners : List (List ℝ)) ++
      ((List.range r.numNodes).flatMap fun j => (List.range (p - 1)).map fun k : ℕ =>
        sidePoint r j (((k : ℝ) + 1) / p)) ++ (lagrFE p r : RefFE ℝ).nodes.drop (r.numNodes * p) := by
  obtain ⟨h1, h3⟩ := hp
  rcases hr with rfl | rfl <;> interval_cases p <;>
    simp [lagrFE, lagrO1Tria, lagrO2Tria, lagrO3Tria, lagrO1Quad, lagrO2Quad, lagrO3Quad, RefEl.corners, RefEl.numNodes,
      List.range_succ, sidePoint] <;> norm_num

theorem lagrFE_contains (p : ℕ) (hp : 1 ≤ p ∧ p ≤ 3) (r : RefEl) (hr : r = .tria ∨ r = .quad) :
    ∀ x ∈ (lagrFE p r : RefFE ℝ).nodes, r.Contains x := by
  obtain ⟨h1, h3⟩ := hp
  rcases hr with rfl | rfl <;> interval_cases p <;>
    simp [lagrFE, lagrO1Tria, lagrO2Tria, lagrO3Tria, lagrO1Quad, lagrO2Quad, lagrO3Quad, RefEl.Contains] <;> norm_num

theorem lagrFE_toDofs (p : ℕ) (hp : 1 ≤ p ∧ p ≤ 3) (r : RefEl) (hr : r = .tria ∨ r = .quad) (v : List ℝ)
    (hv : v.length = (lagrFE p r : RefFE ℝ).num) : (lagrFE p r : RefFE ℝ).toDofs v = some v := by
  obtain ⟨h1, h3⟩ := hp
  rcases hr with rfl | rfl <;> interval_cases p <;> exact if_pos hv

/-- Points which belong to the dofs of an entity. -/
noncomputable def dofPoint (T : Topo) (p : ℕ) (e : Ent) (k : ℕ) : List ℝ :=
  match e.1 with
  | 0 => ((T.refEl e).elim [] fun r => (lagrFE p r : RefFE ℝ).nodes.drop (r.numNodes * p)).getD k []
  | 1 => [((k : ℝ) + 1) / p]
  | _ => []

/-- Values at the points which belong to the dofs. -/
theorem exists_dofVals (T : Topo) (p : ℕ) (U : UniformFESpace ℝ)
    (hP : U.dofh.Partitions T) (f : Ent → List ℝ → ℝ) :
    ∃ V : ℕ → ℝ, ∀ e, T.IsEnt e → (U.dofh.own e).map V =
      (List.range (U.dofh.own e).length).map fun k => f e (dofPoint T p e k) := by
  classical
  refine ⟨fun d => if h : d < U.dofh.numDofs then
    f (hP.2 d h).choose.1 (dofPoint T p (hP.2 d h).choose.1 (hP.2 d h).choose.2) else 0, ?_⟩
  intro e he
  apply List.ext_getElem (by simp)
  intro k h1 h2
  have hk : k < (U.dofh.own e).length := by simpa using h1
  simp only [List.getElem_map, List.getElem_range]
  have hd := hP.1 e he _ (List.getElem_mem hk)
  rw [dif_pos hd]
  have hu := (hP.2 _ hd).choose_spec.2 (e, k) ⟨he, List.getElem?_eq_getElem hk⟩
  rw [← hu]

/-- On every cell these are the values at the nodes of the finite element. -/
theorem dofVals_cell (T : Topo) (hT : T.WF) (p : ℕ) (hp : 1 ≤ p ∧ p ≤ 3) (U : UniformFESpace ℝ)
    (hL : U.dofh.LaidOut T) (hlen : ∀ e r, T.IsEnt e → T.refEl e = some r → (U.dofh.own e).length = (lagrangeLayout p).interior r)
    (f : Ent → List ℝ → ℝ) (hf : T.SingleValued f) (V : ℕ → ℝ)
    (hV : ∀ e, T.IsEnt e → (U.dofh.own e).map V =
      (List.range (U.dofh.own e).length).map fun k => f e (dofPoint T p e k)) (c : ℕ) (r : RefEl)
    (hr : T.refEl (0, c) = some r) (hrp : r = .tria ∨ r = .quad) :
    (U.dofh.all (0, c)).map V = (lagrFE p r : RefFE ℝ).nodes.map (f (0, c)) := by
  obtain ⟨hc, hn⟩ := Topo.refEl_cell hT hr
  have hel := hT.cell_edges_len c hc
  have hol := hT.cell_ori_len c hc
  have hp0 : (p : ℝ) ≠ 0 := by
    have : p ≠ 0 := by omega
    exact_mod_cast this
  rw [lagrFE_nodes p hp r hrp, hL.2.2 c hc, List.map_append, List.map_append, List.map_append, List.map_append]
  congr 1
  · congr 1
    · rw [List.map_flatMap]
      have hcor : (r.corners : List (List ℝ)).length = r.numNodes := by rcases hrp with rfl | rfl <;> rfl
      have h1 : (T.cell c).nodes.flatMap (fun v => (U.dofh.own (2, v)).map V) = (T.cell c).nodes.map fun v => f (2, v) [] := by
        have h0 : ∀ v ∈ (T.cell c).nodes, (U.dofh.own (2, v)).map V = [f (2, v) []] := by
          intro v hv
          have hv' := hT.cell_nodes c hc v hv
          have hE : T.IsEnt (2, v) := ⟨le_refl 2, hv'⟩
          have hrv : T.refEl (2, v) = some .point := by
            rw [Topo.refEl, if_pos (show v < T.num 2 from hv')]; simp
          rw [hV _ hE, hlen _ _ hE hrv]
          rfl
        rw [List.flatMap_congr h0, ← List.map_eq_flatMap]
      rw [h1]
      apply List.ext_getElem
      · simp [hcor, hn]
      · intro i h2 h3
        simp only [List.length_map] at h2 h3
        simp only [List.getElem_map]
        have := (hf c r hr i (by omega)).2
        rw [List.getD_eq_getElem _ _ h2, List.getD_eq_getElem _ _ h3] at this
        exact this.symm
    · rw [List.map_flatMap, List.map_flatMap, flatMap_zip_range (T.cell c).edges (T.cell c).ori (by omega)
        (fun e o => (if o = true then U.dofh.own (1, e) else (U.dofh.own (1, e)).reverse).map V), hel, hn]
      apply List.flatMap_congr
      intro j hj
      have hj' : j < (T.cell c).nodes.length := List.mem_range.mp hj
      have he : (T.cell c).edges.getD j 0 < T.numEdges := by
        apply hT.cell_edges c hc
        rw [List.getD_eq_getElem _ _ (by omega)]
        exact List.getElem_mem _
      have hE : T.IsEnt (1, (T.cell c).edges.getD j 0) := ⟨one_le_two, he⟩
      have hre : T.refEl (1, (T.cell c).edges.getD j 0) = some .segment := by
        rw [Topo.refEl, if_pos (show _ < T.num 1 from he)]; simp
      have hl := hlen _ _ hE hre
      change _ = p - 1 at hl
      have hside := (hf c r hr j (by omega)).1
      have hown := hV _ hE
      rw [hl] at hown
      have hpt : ∀ k : ℕ, k < p - 1 → (0 : ℝ) ≤ ((k : ℝ) + 1) / p ∧ ((k : ℝ) + 1) / p ≤ 1 := by
        intro k hk
        have h1 : ((k : ℝ) + 1) ≤ p := by
          have : k + 1 ≤ p := by omega
          exact_mod_cast this
        have h2 : (0 : ℝ) < p := lt_of_le_of_ne (Nat.cast_nonneg p) (Ne.symm hp0)
        exact ⟨by positivity, (div_le_one h2).2 h1⟩
      rw [apply_ite (List.map V), List.map_reverse, hown, List.map_map]
      by_cases ho : (T.cell c).ori.getD j false = true
      · rw [if_pos ho]
        apply List.map_congr_left
        intro k hk
        have hk' := List.mem_range.mp hk
        have := hside _ (hpt k hk').1 (hpt k hk').2
        rw [Topo.onSide, if_pos ho] at this
        exact this.symm
      · rw [if_neg ho]
        apply List.ext_getElem (by simp)
        intro k h1 h2
        have hk' : k < p - 1 := by simpa using h2
        simp only [List.getElem_reverse, List.getElem_map, List.getElem_range, List.length_map, List.length_range,
          Function.comp]
        have hq := hpt (p - 1 - 1 - k) (by omega)
        have := hside _ hq.1 hq.2
        rw [Topo.onSide, if_neg ho] at this
        have hcast : (1 : ℝ) - (((p - 1 - 1 - k : ℕ) : ℝ) + 1) / p = ((k : ℝ) + 1) / p := by
          have : ((p - 1 - 1 - k : ℕ) : ℝ) = p - 1 - 1 - k := by
            rw [Nat.cast_sub (by omega), Nat.cast_sub (by omega), Nat.cast_sub (by omega)]; simp
          rw [this]
          field_simp
          ring
        rw [hcast] at this
        exact this.symm
  · have hE : T.IsEnt (0, c) := ⟨Nat.zero_le 2, hc⟩
    have hl := hlen _ _ hE hr
    rw [hV _ hE, hl]
    apply List.ext_getElem
    · simp only [List.length_map, List.length_range, List.length_drop]
      obtain ⟨h1, h3⟩ := hp
      rcases hrp with rfl | rfl <;> interval_cases p <;> rfl
    · intro k h1 h2
      simp only [List.length_map, List.length_range] at h1 h2
      simp only [List.getElem_map, List.getElem_range, dofPoint, hr, Option.elim_some]
      rw [List.getD_eq_getElem _ _ h2]

end Verif
