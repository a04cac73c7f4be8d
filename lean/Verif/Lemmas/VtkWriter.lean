import Verif.Lemmas.VtkCells

/-!
# The grid of `VtkWriter`
-/

namespace Verif
open Geo

variable {K : Type} [Field K] [LinearOrder K] [IsStrictOrderedRing K] {V : Type} {w : ℕ}

theorem vtkTria_split (n : ℕ) (hn : 1 ≤ n) : vtkTria n = [[0, 0], [n, 0], [0, n]] ++ ((mids n).map fun i => [i, 0]) ++
    ((mids n).map fun i => [n - i, i]) ++ ((mids n).map fun i => [0, n - i]) ++ (vtkTria n).drop (3 * n) := by
  match n, hn with
  | 1, _ => rfl
  | 2, _ => rfl
  | n + 3, _ =>
    conv_lhs => rw [vtkTria]
    congr 1
    rw [vtkTria, List.drop_append, List.drop_eq_nil_of_le (by simp [mids_length]; omega), List.nil_append]
    simp only [List.length_append, List.length_map, List.length_cons, List.length_nil, mids_length]
    rw [show 3 * (n + 3) - (0 + 1 + 1 + 1 + (n + 3 - 1) + (n + 3 - 1) + (n + 3 - 1)) = 0 by omega, List.drop_zero]

/-- Corners and sides in terms of VTK's order. -/
theorem tria_nodes {n : ℕ} (hn : 1 ≤ n) (inner : List (List K)) :
    (RefEl.tria.corners : List (List K)) ++ ((List.range RefEl.tria.numNodes).flatMap fun j => (mids n).map fun i : ℕ =>
      sidePoint .tria j (if (sideInv .tria).getD j false then 1 - (i : K) / n else (i : K) / n)) ++ inner =
    (([[0, 0], [n, 0], [0, n]] ++ ((mids n).map fun i => [i, 0]) ++ ((mids n).map fun i => [n - i, i]) ++
      ((mids n).map fun i => [0, n - i])).map fun p : List ℕ => p.map fun i : ℕ => (i : K) / n) ++ inner := by
  have hn0 : (n : K) ≠ 0 := by exact_mod_cast (by omega : n ≠ 0)
  congr 1
  have hrev : ∀ i ∈ mids n, ((n - i : ℕ) : K) / n = 1 - (i : K) / n := by
    intro i hi
    have := (mem_mids.1 hi).2
    rw [Nat.cast_sub this.le, sub_div, div_self hn0]
  have h3 : (List.range RefEl.tria.numNodes) = [0, 1, 2] := rfl
  rw [h3]
  simp only [List.flatMap_cons, List.flatMap_nil, List.append_nil, List.map_append, List.map_map, List.append_assoc]
  congr 1
  · simp [RefEl.corners, hn0]
  congr 1
  · refine List.map_congr_left fun i hi => ?_
    simp [sidePoint, RefEl.corners, sideInv, RefEl.numNodes]
  congr 1
  · refine List.map_congr_left fun i hi => ?_
    simp [sidePoint, RefEl.corners, sideInv, RefEl.numNodes, hrev i hi]
  · refine List.map_congr_left fun i hi => ?_
    simp [sidePoint, RefEl.corners, sideInv, RefEl.numNodes, hrev i hi]

theorem quad_nodes {n : ℕ} (hn : 1 ≤ n) :
    (RefEl.quad.corners : List (List K)) ++ ((List.range RefEl.quad.numNodes).flatMap fun j => (mids n).map fun i : ℕ =>
      sidePoint .quad j (if (sideInv .quad).getD j false then 1 - (i : K) / n else (i : K) / n)) ++
      ((mids n).flatMap fun j : ℕ => (mids n).map fun i : ℕ => [(i : K) / n, (j : K) / n]) = vtkNodes .quad n := by
  have hn0 : (n : K) ≠ 0 := by exact_mod_cast (by omega : n ≠ 0)
  have h3 : (List.range RefEl.quad.numNodes) = [0, 1, 2, 3] := rfl
  rw [h3]
  unfold vtkNodes vtkLattice
  simp only [List.flatMap_cons, List.flatMap_nil, List.append_nil, List.map_append, List.map_map, List.append_assoc]
  congr 1
  · simp [RefEl.corners, hn0]
  congr 1
  · refine List.map_congr_left fun i hi => ?_
    simp [sidePoint, RefEl.corners, sideInv, RefEl.numNodes]
  congr 1
  · refine List.map_congr_left fun i hi => ?_
    simp [sidePoint, RefEl.corners, sideInv, RefEl.numNodes, hn0]
  congr 1
  · refine List.map_congr_left fun i hi => ?_
    simp [sidePoint, RefEl.corners, sideInv, RefEl.numNodes, hn0]
  congr 1
  · refine List.map_congr_left fun i hi => ?_
    simp [sidePoint, RefEl.corners, sideInv, RefEl.numNodes]
  · rw [List.map_flatMap]
    refine List.flatMap_congr fun j _ => ?_
    rw [List.map_map]
    rfl

/-- What is known about the grid of a writer. -/
structure VtkBuilt (T : Topo) (cd n : ℕ) (W : VtkWriter K) : Prop where
  mesh : W.mesh = T
  codim : W.codim = cd
  order : W.order = n
  auxs : auxNodes n = some W.aux
  ok : AuxOk n W.aux
  seg : W.aux .segment = (mids n).map fun i : ℕ => [(i : K) / n]
  quad : W.aux .quad = (mids n).flatMap fun j : ℕ => (mids n).map fun i : ℕ => [(i : K) / n, (j : K) / n]
  tria : auxNodesTria n = some (W.aux .tria)
  pointsLen : W.points.length = (vtkAll T W.aux (fun _ _ => ()) cd).length
  off : OffsetsOk T W.aux (fun _ _ => ()) n cd W.offset
  cellsLen : W.cells.length = T.num cd
  typesLen : W.types.length = T.num cd
  cell : ∀ i < T.num cd, vtkCell T cd n W.offset (cd, i) = some (W.cells.getD i [], W.types.getD i .line)

omit [IsStrictOrderedRing K] in
theorem coords_evaluates {T : Topo} {geo : Ent → Option (Geo K w)} {pos : Ent → List K → Vec K w}
    (hfit : FitsTogether T geo pos) (hw : 1 ≤ w ∧ w ≤ 3) :
    T.EvaluatesAll (vtkCoords geo) fun e x => inSpace (pos e x) := by
  intro e r hr pts hpts
  obtain ⟨g, hg, hpos⟩ := hfit.geo e r hr
  unfold vtkCoords
  rw [hg, Option.bind_some]
  refine mapM_pure _ _ _ fun x hx => ?_
  rw [hpos x (hpts x hx), Option.bind_some, pad3, if_pos hw]
  rfl

omit [IsStrictOrderedRing K] in
theorem SingleValued.comp {T : Topo} {V' : Type} {f : Ent → List K → V} (h : T.SingleValued f) (g : V → V') :
    T.SingleValued fun e x => g (f e x) :=
  fun c r hr j hj => ⟨fun t h0 h1 => congrArg g ((h c r hr j hj).1 t h0 h1), congrArg g (h c r hr j hj).2⟩

omit [LinearOrder K] [IsStrictOrderedRing K] in
theorem MatchesEnds.comp {T : Topo} {V' : Type} {f : Ent → List K → V} (h : T.MatchesEnds f) (g : V → V') :
    T.MatchesEnds fun e x => g (f e x) :=
  fun e he => ⟨congrArg g (h e he).1, congrArg g (h e he).2⟩

theorem OffsetsOk.indep {T : Topo} {aux : RefEl → List (List K)} {f : Ent → List K → V} {n cd : ℕ} {off : ℕ → List ℕ}
    (h : OffsetsOk T aux f n cd off) {V' : Type} (f' : Ent → List K → V') : OffsetsOk T aux f' n cd off := by
  intro c hc
  refine ⟨(h c hc).1, fun hcd i hi r hr h0 => ?_⟩
  rw [(h c hc).2 hcd i hi r hr h0, vtkStart_indep f']

/-- The construction succeeds. -/
theorem vtk_make {T : Topo} (hT : T.WF) {geo : Ent → Option (Geo K w)} {pos : Ent → List K → Vec K w}
    (hfit : FitsTogether T geo pos) (hw : 1 ≤ w ∧ w ≤ 3) {codim n : ℕ} (hc : codim < 2) (hn : 1 ≤ n ∧ n ≤ 10) :
    ∃ W, VtkWriter.make T geo codim n = some W ∧ VtkBuilt T codim n W ∧
      W.points = (vtkAll T W.aux (fun e x => inSpace (pos e x)) codim).map some ∧
      W.header = "" ∧ W.fieldData = [] ∧ W.pointData = [] ∧ W.cellData = [] := by
  obtain ⟨aux, h1, h2, h3, h4, h5⟩ := auxNodes_ok (K := K) n hn.1
  have hev := coords_evaluates hfit hw
  obtain ⟨off, k1, k2⟩ := vtkPoints_eq hT hn.1 h2 hev hc
  have hcell : ∀ e ∈ T.entities codim, ∃ y, vtkCell T codim n off e = some y := by
    intro e he
    obtain ⟨i, hi, rfl⟩ := List.mem_map.1 he
    have hi' := List.mem_range.1 hi
    interval_cases codim
    · obtain ⟨r, hr, -⟩ := refEl_low hT (Nat.zero_le 1) hi'
      exact ⟨_, (vtkCell_cell hT (SingleValued.comp hfit.sides inSpace) hn.1 h2 h3 k2 hi' hr).1⟩
    · exact ⟨_, (vtkCell_edge hT (MatchesEnds.comp hfit.ends inSpace) h3 k2 hi').1⟩
  obtain ⟨cells, hcells⟩ := mapM_isSome _ _ hcell
  have hget := mapM_get _ _ _ hcells
  have hlen : cells.length = T.num codim := by rw [hget.1]; simp [Topo.entities]
  unfold VtkWriter.make
  rw [if_pos ⟨by omega, by omega, hc, by omega, hn.2⟩, h1, Option.bind_some, k1, Option.bind_some, hcells, Option.map_some]
  refine ⟨_, rfl, ⟨rfl, rfl, rfl, h1, h2, h3, h4, h5, ?_, OffsetsOk.indep k2 _, ?_, ?_, ?_⟩, rfl, rfl, rfl, rfl, rfl⟩
  · rw [List.length_map]
    exact vtkAll_length_indep _ _
  · simpa using hlen
  · simpa using hlen
  · intro i hi
    obtain ⟨y, hy1, hy2⟩ := hget.2 i (codim, i) (by simp [Topo.entities, hi])
    have hic : i < cells.length := by omega
    rw [hy2]
    have : cells[i] = y := by
      rw [List.getElem?_eq_getElem hic] at hy1
      exact Option.some.inj hy1
    simp [hic, this]

/-- The nodes of a Lagrange cell. -/
theorem nodes_of_cell {n : ℕ} (hn : 1 ≤ n) {aux : RefEl → List (List K)}
    (quad : aux .quad = (mids n).flatMap fun j : ℕ => (mids n).map fun i : ℕ => [(i : K) / n, (j : K) / n])
    (tria : auxNodesTria n = some (aux .tria)) {r : RefEl} (hr : r = .tria ∨ r = .quad) (h6 : r = .tria → n ≤ 6) :
    (r.corners : List (List K)) ++ ((List.range r.numNodes).flatMap fun j => (mids n).map fun i : ℕ =>
      sidePoint r j (if (sideInv r).getD j false then 1 - (i : K) / n else (i : K) / n)) ++ aux r = vtkNodes r n := by
  rcases hr with rfl | rfl
  · rw [auxNodesTria_vtk n hn (h6 rfl)] at tria
    rw [← Option.some.inj tria, tria_nodes hn]
    unfold vtkNodes vtkLattice
    simp only []
    conv_rhs => rw [vtkTria_split n hn, List.map_append]
  · rw [quad, quad_nodes hn]

/-- The local coordinates of the points of a cell of the grid. -/
def gridNodes (aux : RefEl → List (List K)) (n : ℕ) (r : RefEl) : List (List K) :=
  match r with
  | .segment => [[0], [1]] ++ (mids n).map fun i : ℕ => [(i : K) / n]
  | r => (r.corners : List (List K)) ++ ((List.range r.numNodes).flatMap fun j => (mids n).map fun i : ℕ =>
      sidePoint r j (if (sideInv r).getD j false then 1 - (i : K) / n else (i : K) / n)) ++ aux r

theorem VtkBuilt.gridNodes_eq {T : Topo} {cd n : ℕ} (hn : 1 ≤ n) {W : VtkWriter K}
    (hW : VtkBuilt T cd n W) {r : RefEl} (hp : r ≠ .point) (h6 : r = .tria → n ≤ 6) : gridNodes W.aux n r = vtkNodes r n := by
  cases r
  · exact absurd rfl hp
  · have hn0 : (n : K) ≠ 0 := by exact_mod_cast (by omega : n ≠ 0)
    simp [gridNodes, vtkNodes, vtkLattice, hn0]
  · exact nodes_of_cell hn hW.quad hW.tria (.inl rfl) h6
  · exact nodes_of_cell hn hW.quad hW.tria (.inr rfl) h6

/-- The values at the points of a cell of the grid. -/
theorem VtkBuilt.values {T : Topo} (hT : T.WF) {cd n : ℕ} (hcd : cd < 2) (hn : 1 ≤ n) {W : VtkWriter K}
    (hW : VtkBuilt T cd n W) {f : Ent → List K → V} (hs : T.SingleValued f) (he : T.MatchesEnds f) {i : ℕ}
    (hi : i < T.num cd) {r : RefEl} (hr : T.refEl (cd, i) = some r) :
    W.types.getD i .line = vtkTypeOf r n ∧
    (W.cells.getD i []).map (fun k => (vtkAll T W.aux f cd)[k]?) = (gridNodes W.aux n r).map fun x => some (f (cd, i) x) := by
  have hcell := hW.cell i hi
  interval_cases cd
  · obtain ⟨h1, h2⟩ := vtkCell_cell hT hs hn hW.ok hW.seg (hW.off.indep f) hi hr
    rw [hcell] at h1
    obtain ⟨h3, h4⟩ := Prod.mk.inj (Option.some.inj h1)
    refine ⟨h4, ?_⟩
    rw [h3, h2]
    rcases refEl_cell_or hT hi with h | h <;> obtain rfl := Option.some.inj (hr.symm.trans h) <;> rfl
  · obtain ⟨h1, h2⟩ := vtkCell_edge hT he hW.seg (hW.off.indep f) hi
    rw [hcell] at h1
    obtain ⟨h3, h4⟩ := Prod.mk.inj (Option.some.inj h1)
    obtain rfl : r = .segment := Option.some.inj (hr.symm.trans (vtkRefEl_edge hi))
    exact ⟨h4, by rw [h3, h2]; rfl⟩

end Verif
