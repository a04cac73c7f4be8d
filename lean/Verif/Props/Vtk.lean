import Verif.Lemmas.VtkVals
import Verif.Props.DofHandler
import Mathlib.Tactic.NormNum
import Mathlib.Tactic.LinearCombination

/-!
# C79-C82: `VtkWriter`
-/

namespace Verif
open Geo

variable {K : Type} [Field K] [LinearOrder K] [IsStrictOrderedRing K] {w : ℕ}

/-! ### Meshes to which the theorems apply -/

/-- Every mesh with straight edges meets the requirement on the geometries. -/
theorem straight_fits (T : Topo) (hT : T.WF) (P : ℕ → Vec K w) :
    FitsTogether T (straightGeo T P) fun e x => ((straightGeo T P e).bind fun g => g.global x).getD 0 := by
  have hcell3 : ∀ c, T.refEl (0, c) = some .tria → c < T.numCells ∧ ∃ a b d, (T.cell c).nodes = [a, b, d] := by
    intro c h
    have hc : c < T.num 0 := by
      by_contra h'
      simp [Topo.refEl, h'] at h
    refine ⟨hc, ?_⟩
    rcases hT.cell_len c hc with h3 | h4
    · exact List.length_eq_three.1 h3
    · simp [Topo.refEl, hc, h4] at h
  have hcell4 : ∀ c, T.refEl (0, c) = some .quad → c < T.numCells ∧ ∃ a b d e, (T.cell c).nodes = [a, b, d, e] := by
    intro c h
    have hc : c < T.num 0 := by
      by_contra h'
      simp [Topo.refEl, h'] at h
    refine ⟨hc, ?_⟩
    rcases hT.cell_len c hc with h3 | h4
    · simp [Topo.refEl, hc, h3] at h
    · match hn : (T.cell c).nodes, h4 with
      | [a, b, d, e], _ => exact ⟨a, b, d, e, rfl⟩
  have hcd : ∀ e r, T.refEl e = some r → (r = .tria ∨ r = .quad) → e.1 = 0 := by
    rintro ⟨cd, i⟩ r h hr
    rcases cd with _ | _ | _ | cd
    · rfl
    all_goals
      simp only [Topo.refEl] at h
      rcases hr with rfl | rfl
      all_goals
        split_ifs at h <;> simp_all [Topo.num]
  refine ⟨?_, ?_, ?_⟩
  · intro e r hr
    unfold straightGeo
    rw [hr]
    cases r with
    | point =>
      refine ⟨_, rfl, fun x hx => ?_⟩
      match x, hx with
      | [], _ => rfl
    | segment =>
      refine ⟨_, rfl, fun x hx => ?_⟩
      match x, hx with
      | [x], _ => rfl
    | tria =>
      obtain ⟨cd, c⟩ := e
      obtain rfl : cd = 0 := hcd _ _ hr (.inl rfl)
      obtain ⟨-, a, b, d, h⟩ := hcell3 c hr
      simp only [h]
      refine ⟨_, rfl, fun x hx => ?_⟩
      match x, hx with
      | [x, y], _ => rfl
    | quad =>
      obtain ⟨cd, c⟩ := e
      obtain rfl : cd = 0 := hcd _ _ hr (.inr rfl)
      obtain ⟨-, a, b, d, f, h⟩ := hcell4 c hr
      simp only [h]
      refine ⟨_, rfl, fun x hx => ?_⟩
      match x, hx with
      | [x, y], _ => rfl
  · intro c r hr j hj
    have hseg : ∀ s, s < T.numEdges → ∀ t : K, ((straightGeo T P (1, s)).bind fun g => g.global [t]).getD 0 =
        t • P (T.edge s).2 + (1 - t) • P (T.edge s).1 := by
      intro s hs t
      unfold straightGeo
      rw [vtkRefEl_edge hs]
      rfl
    have hnode : ∀ v, v < T.numNodes → ((straightGeo T P (2, v)).bind fun g => g.global []).getD 0 = P v := by
      intro v hv
      unfold straightGeo
      have : T.refEl (2, v) = some .point := by
        have : v < T.num 2 := hv
        simp [Topo.refEl, this]
      rw [this]
      rfl
    have key : ∀ (nodes : List ℕ), c < T.numCells → (T.cell c).nodes = nodes → j < nodes.length →
        ((T.cell c).edges.getD j 0 < T.numEdges ∧ nodes.getD j 0 < T.numNodes ∧
        ((T.cell c).ori.getD j false = true → T.edge ((T.cell c).edges.getD j 0) = side nodes j) ∧
        ((T.cell c).ori.getD j false = false → T.edge ((T.cell c).edges.getD j 0) = (side nodes j).swap)) := by
      intro nodes hc hn hj
      have hj' : j < (T.cell c).nodes.length := by rw [hn]; exact hj
      have he : j < (T.cell c).edges.length := by rw [hT.cell_edges_len c hc]; exact hj'
      refine ⟨hT.cell_edges c hc _ (by rw [List.getD_eq_getElem _ _ he]; exact List.getElem_mem _),
        hT.cell_nodes c hc _ (by rw [hn, List.getD_eq_getElem _ _ hj]; exact List.getElem_mem _), ?_, ?_⟩
      · intro h
        rw [← hn]
        exact (hT.cell_ori c hc j hj').1 h
      · intro h
        rcases hT.cell_side c hc j hj' with h1 | h1
        · rw [(hT.cell_ori c hc j hj').2 h1] at h
          simp at h
        · rw [← hn]
          exact h1
    have hrr : r = .tria ∨ r = .quad := by
      have hc : c < T.num 0 := by
        by_contra h'
        simp [Topo.refEl, h'] at hr
      rcases refEl_cell_or hT hc with h | h
      · exact .inl (Option.some.inj (hr.symm.trans h))
      · exact .inr (Option.some.inj (hr.symm.trans h))
    rcases hrr with rfl | rfl
    · obtain ⟨hc, a, b, d, h⟩ := hcell3 c hr
      have hg : straightGeo T P (0, c) = some (.triaO1 (P a) (P b) (P d)) := by
        unfold straightGeo
        rw [hr]
        simp only [h]
      replace hj : j < 3 := hj
      obtain ⟨k1, k2, k3, k4⟩ := key _ hc h (by simpa using hj)
      beta_reduce
      rw [h, hnode _ k2, hg]
      constructor
      · intro t _ _
        rw [hseg _ k1]
        unfold Topo.onSide
        cases ho : (T.cell c).ori.getD j false
        · rw [k4 ho]
          interval_cases j <;>
            simp [sidePoint, RefEl.corners, RefEl.numNodes, side, Geo.global] <;> module
        · rw [k3 ho]
          interval_cases j <;>
            simp [sidePoint, RefEl.corners, RefEl.numNodes, side, Geo.global] <;> module
      · interval_cases j <;> simp [RefEl.corners, Geo.global]
    · obtain ⟨hc, a, b, d, e, h⟩ := hcell4 c hr
      have hg : straightGeo T P (0, c) = some (.quadO1 (P a) (P b) (P d) (P e)) := by
        unfold straightGeo
        rw [hr]
        simp only [h]
      replace hj : j < 4 := hj
      obtain ⟨k1, k2, k3, k4⟩ := key _ hc h (by simpa using hj)
      beta_reduce
      rw [h, hnode _ k2, hg]
      constructor
      · intro t _ _
        rw [hseg _ k1]
        unfold Topo.onSide
        cases ho : (T.cell c).ori.getD j false
        · rw [k4 ho]
          interval_cases j <;>
            simp [sidePoint, RefEl.corners, RefEl.numNodes, side, Geo.global] <;> module
        · rw [k3 ho]
          interval_cases j <;>
            simp [sidePoint, RefEl.corners, RefEl.numNodes, side, Geo.global] <;> module
      · interval_cases j <;> simp [RefEl.corners, Geo.global]
  · intro e he
    obtain ⟨n1, n2⟩ := hT.edge_lt e he
    have r1 : T.refEl (2, (T.edge e).1) = some .point := by
      have : (T.edge e).1 < T.num 2 := n1
      simp [Topo.refEl, this]
    have r2 : T.refEl (2, (T.edge e).2) = some .point := by
      have : (T.edge e).2 < T.num 2 := n2
      simp [Topo.refEl, this]
    unfold straightGeo
    simp only [vtkRefEl_edge he, r1, r2]
    constructor <;> simp [Geo.global]

/-! ### C79: the grid -/

/-- The constructor succeeds.  All points of the grid have been assigned a position, the nodes of the mesh come first, and
there are as many points as nodes, points inside of edges and points inside of cells.  Cell `i` of the grid is of the type of
entity `i` of the mesh; its points are the images of the nodes of VTK's Lagrange cell, in the order prescribed by VTK.

Missing: triangles for orders 7 to 10, for which it does not hold (`C79_triangle_order7`). -/
theorem C79_grid_partial (T : Topo) (hT : T.WF) (geo : Ent → Option (Geo K w)) (pos : Ent → List K → Vec K w)
    (hfit : FitsTogether T geo pos) (hw : 1 ≤ w ∧ w ≤ 3) (codim order : ℕ) (hc : codim < 2) (ho : 1 ≤ order ∧ order ≤ 10) :
    ∃ W, VtkWriter.make T geo codim order = some W ∧ W.points.length = vtkCount T codim order ∧
      (∀ p ∈ W.points, p.isSome = true) ∧
      (∀ v < T.numNodes, W.points.getD v none = some (inSpace (pos (2, v) []))) ∧
      W.cells.length = T.num codim ∧ W.types.length = T.num codim ∧
      ∀ i < T.num codim, ∀ r, T.refEl (codim, i) = some r → W.types.getD i .line = vtkTypeOf r order ∧
        ((r = .tria → order ≤ 6) → (W.cells.getD i []).map (fun k => W.points.getD k none) =
          (vtkNodes r order).map fun x => some (inSpace (pos (codim, i) x))) := by
  obtain ⟨W, h1, h2, h3, -⟩ := vtk_make hT hfit hw hc ho
  have hget : ∀ k, W.points.getD k none = (vtkAll T W.aux (fun e x => inSpace (pos e x)) codim)[k]? := by
    intro k
    rw [h3]
    simp [List.getD, Option.join]
    cases (vtkAll T W.aux (fun e x => inSpace (pos e x)) codim)[k]? <;> rfl
  refine ⟨W, h1, ?_, ?_, ?_, h2.cellsLen, h2.typesLen, ?_⟩
  · rw [h2.pointsLen, vtkAll_count hT ho.1 h2.ok]
  · rw [h3]
    simp
  · intro v hv
    rw [hget, vtkAll_main hv]
  · intro i hi r hr
    obtain ⟨k1, k2⟩ := h2.values hT hc ho.1 (SingleValued.comp hfit.sides inSpace) (MatchesEnds.comp hfit.ends inSpace) hi hr
    refine ⟨k1, fun h6 => ?_⟩
    obtain ⟨r', hr', hne⟩ := refEl_low hT (by omega) hi
    rw [hr] at hr'
    cases hr'
    rw [← h2.gridNodes_eq ho.1 hne h6]
    simp only [hget]
    exact k2

/-- For orders 7 to 10 the triangles of the grid are wrong: node number `6 n - 9` of the Lagrange triangle is the image of
`(2 / n, 2 / n)`; in the grid it is the image of a different point of the triangle. -/
theorem C79_triangle_order7 (T : Topo) (hT : T.WF) (geo : Ent → Option (Geo K w)) (pos : Ent → List K → Vec K w)
    (hfit : FitsTogether T geo pos) (hw : 1 ≤ w ∧ w ≤ 3) (order : ℕ) (ho : 7 ≤ order ∧ order ≤ 10) (c : ℕ)
    (hr : T.refEl (0, c) = some .tria)
    (hinj : ∀ x y, RefEl.tria.Contains x → RefEl.tria.Contains y → pos (0, c) x = pos (0, c) y → x = y) :
    ∃ W, VtkWriter.make T geo 0 order = some W ∧
      (vtkNodes .tria order)[6 * order - 9]? = some ([2 / order, 2 / order] : List K) ∧
      (∃ k v, (W.cells.getD c [])[6 * order - 9]? = some k ∧ W.points.getD k none = some v ∧
        v ≠ inSpace (pos (0, c) [2 / order, 2 / order])) ∧
      (W.cells.getD c []).map (fun k => W.points.getD k none) ≠
        (vtkNodes .tria order).map fun x => some (inSpace (pos (0, c) x)) := by
  have hc : c < T.num 0 := by
    by_contra h'
    simp [Topo.refEl, h'] at hr
  obtain ⟨W, h1, h2, h3, -⟩ := vtk_make hT hfit hw (codim := 0) (by omega) (n := order) (by omega)
  have hget : ∀ k, W.points.getD k none = (vtkAll T W.aux (fun e x => inSpace (pos e x)) 0)[k]? := by
    intro k
    rw [h3]
    simp [List.getD, Option.join]
    cases (vtkAll T W.aux (fun e x => inSpace (pos e x)) 0)[k]? <;> rfl
  obtain ⟨-, k2⟩ := h2.values hT (by omega) (by omega) (SingleValued.comp hfit.sides inSpace)
    (MatchesEnds.comp hfit.ends inSpace) hc hr
  have hn7 : (7 : K) ≤ order := by exact_mod_cast ho.1
  have hnode : (vtkNodes .tria order)[6 * order - 9]? = some ([2 / order, 2 / order] : List K) := by
    have := vtkTria_right ho.1
    rw [show 3 * order + (3 * order - 9) = 6 * order - 9 by omega] at this
    simp [vtkNodes, vtkLattice, this]
  have hwrong := gridNodes_wrong ho.1 h2
  rw [show 3 * order + (3 * order - 9) = 6 * order - 9 by omega] at hwrong
  set y : K := ((order : K) - 6) / (order * ((order : K) - 3)) + 2 / order with hy
  have hpos : (0 : K) < ((order : K) - 6) / (order * ((order : K) - 3)) :=
    div_pos (by linarith) (mul_pos (by linarith) (by linarith))
  have h2n : (0 : K) < 2 / order := div_pos (by norm_num) (by linarith)
  have hy1 : y ≤ 1 / 2 := by
    have e : y = (3 * (order : K) - 12) / (order * ((order : K) - 3)) := by
      have a1 : (order : K) ≠ 0 := by linarith
      have a2 : (order : K) - 3 ≠ 0 := by linarith
      rw [hy]
      field_simp
      ring
    rw [e, div_le_iff₀ (mul_pos (by linarith) (by linarith))]
    nlinarith
  have h2n1 : (2 : K) / order ≤ 1 / 2 := by
    rw [div_le_iff₀ (by linarith)]
    linarith
  have hat := congrArg (fun l => l[6 * order - 9]?) k2
  simp only [List.getElem?_map, hwrong, Option.map_some] at hat
  obtain ⟨k, hk1, hk2⟩ := Option.map_eq_some_iff.mp hat
  have hne : inSpace (pos (0, c) [y, y]) ≠ inSpace (pos (0, c) [2 / (order : K), 2 / order]) := by
    intro h
    have hv : pos (0, c) [y, y] = pos (0, c) [2 / (order : K), 2 / order] := by
      funext i
      have := congrFun h ⟨i.val, by omega⟩
      simpa [inSpace] using this
    have := hinj [y, y] [2 / (order : K), 2 / order] ⟨by linarith, by linarith, by linarith⟩
      ⟨h2n.le, h2n.le, by linarith⟩ hv
    simp only [List.cons.injEq, and_true] at this
    linarith [this.1]
  refine ⟨W, h1, hnode, ⟨k, _, hk1, (hget k).trans hk2, hne⟩, ?_⟩
  intro heq
  have := congrArg (fun l => l[6 * order - 9]?) heq
  simp only [List.getElem?_map, hnode, hk1, Option.map_some, hget, hk2] at this
  exact hne (Option.some.inj (Option.some.inj this))

/-- Cells which have an edge in common share the points on this edge: if node `k` of cell `c` and node `k'` of cell `c'` lie on
the same edge and have the same parameter on this edge, then they are the same point of the grid. -/
theorem C79_shared (T : Topo) (hT : T.WF) (geo : Ent → Option (Geo K w)) (pos : Ent → List K → Vec K w)
    (hfit : FitsTogether T geo pos) (hw : 1 ≤ w ∧ w ≤ 3) (order : ℕ) (ho : 1 ≤ order ∧ order ≤ 10) (W : VtkWriter K)
    (hW : VtkWriter.make T geo 0 order = some W) (c c' : ℕ) (r r' : RefEl) (hr : T.refEl (0, c) = some r)
    (hr' : T.refEl (0, c') = some r') (j j' : ℕ) (hj : j < r.numNodes) (hj' : j' < r'.numNodes)
    (he : (T.cell c).edges.getD j 0 = (T.cell c').edges.getD j' 0) (t : K) (k k' : ℕ)
    (hk : (vtkNodes r order)[k]? = some (T.onSide r c j t)) (hk' : (vtkNodes r' order)[k']? = some (T.onSide r' c' j' t)) :
    ∃ p, (W.cells.getD c [])[k]? = some p ∧ (W.cells.getD c' [])[k']? = some p := by
  obtain ⟨W', h1, h2, -⟩ := vtk_make hT hfit hw (codim := 0) (by omega) ho
  rw [hW] at h1
  cases h1
  have get : ∀ {c : ℕ} {r : RefEl} (hr : T.refEl (0, c) = some r) {j k : ℕ} (hj : j < r.numNodes)
      (hk : (vtkNodes r order)[k]? = some (T.onSide r c j t)), ∃ p, (W.cells.getD c [])[k]? = some p ∧
      EdgePoint T (fun e => vtkStart T W.aux (fun _ _ => ()) (1, e)) order ((T.cell c).edges.getD j 0) t p := by
    intro c r hr j k hj hk
    have hs := h2.sidePoints hT ho.1 hr
    obtain ⟨hlen, hall⟩ := List.forall₂_iff_get.1 hs
    obtain ⟨hk1, hk2⟩ := List.getElem?_eq_some_iff.1 hk
    refine ⟨_, List.getElem?_eq_getElem (by omega), ?_⟩
    exact hall k (by omega) hk1 j hj t hk2
  obtain ⟨p, hp1, hp2⟩ := get hr hj hk
  obtain ⟨p', hp1', hp2'⟩ := get hr' hj' hk'
  rw [he] at hp2
  exact ⟨p, hp1, hp2.unique ho.1 hp2' ▸ hp1'⟩

/-! ### C80: point data -/

theorem inSpace_pad {v : Vec K w} (hw : w = 2 ∨ w = 3) : padWithZeros (List.ofFn v) = some (inSpace v) := by
  rcases hw with rfl | rfl
  · simp only [List.ofFn_succ, List.ofFn_zero, padWithZeros]
    congr 1
    funext i
    fin_cases i <;> rfl
  · simp only [List.ofFn_succ, List.ofFn_zero, padWithZeros]
    congr 1
    funext i
    fin_cases i <;> rfl

/-- Point data from mesh functions.  There are points `X r` of the reference elements, those of VTK's Lagrange cells for
orders up to six and for quadrilaterals and edges, such that the points of cell `i` of the grid are their images, and such that
after every history of calls: if the name is admissible, `WritePointData` for a scalar function `f` which has one value at every
point of the mesh succeeds and appends data whose values at the points of cell `i` are the values of `f` on entity `i` in the
points `X r`.  The same for vectors with two or three components, to which zeros are appended. -/
theorem C80_pointData (T : Topo) (hT : T.WF) (geo : Ent → Option (Geo K w)) (pos : Ent → List K → Vec K w)
    (hfit : FitsTogether T geo pos) (hw : 1 ≤ w ∧ w ≤ 3) (codim order : ℕ) (hc : codim < 2) (ho : 1 ≤ order ∧ order ≤ 10) :
    ∃ W, VtkWriter.make T geo codim order = some W ∧ ∃ X : RefEl → List (List K),
      (∀ r, r ≠ .point → (r = .tria → order ≤ 6) → X r = vtkNodes r order) ∧
      (∀ i < T.num codim, ∀ r, T.refEl (codim, i) = some r →
        (W.cells.getD i []).map (fun k => W.points.getD k none) = (X r).map fun x => some (inSpace (pos (codim, i) x))) ∧
      ∀ calls name, name ∉ (W.after calls).pointData.map (fun d => d.1) → ' ' ∉ name.toList → ∀ ty,
        (∀ (mf : MeshFn K K) (f : Ent → List K → K), T.EvaluatesAll mf f → T.SingleValued f → T.MatchesEnds f →
          ∃ d, (W.after calls).writePointScalar name ty mf =
              some { W.after calls with pointData := (W.after calls).pointData ++ [(name, .scalar ty d)] } ∧
            d.length = W.points.length ∧ (∀ v ∈ d, v.isSome = true) ∧
            ∀ i < T.num codim, ∀ r, T.refEl (codim, i) = some r →
              (W.cells.getD i []).map (fun k => d.getD k none) = (X r).map fun x => some (f (codim, i) x)) ∧
        (∀ (m : ℕ), m = 2 ∨ m = 3 → ∀ (mf : MeshFn K (List K)) (f : Ent → List K → Vec K m),
          T.EvaluatesAll mf (fun e x => List.ofFn (f e x)) → T.SingleValued f → T.MatchesEnds f →
          ∃ d, (W.after calls).writePointVector name ty mf =
              some { W.after calls with pointData := (W.after calls).pointData ++ [(name, .vector ty d)] } ∧
            d.length = W.points.length ∧ (∀ v ∈ d, v.isSome = true) ∧
            ∀ i < T.num codim, ∀ r, T.refEl (codim, i) = some r →
              (W.cells.getD i []).map (fun k => d.getD k none) = (X r).map fun x => some (inSpace (f (codim, i) x))) := by
  obtain ⟨W, h1, h2, h3, -⟩ := vtk_make hT hfit hw hc ho
  have getAll : ∀ {V : Type} (f : Ent → List K → V), T.SingleValued f → T.MatchesEnds f → ∀ i < T.num codim, ∀ r,
      T.refEl (codim, i) = some r → (W.cells.getD i []).map (fun k => ((vtkAll T W.aux f codim).map some).getD k none) =
        (gridNodes W.aux order r).map fun x => some (f (codim, i) x) := by
    intro V f hs he i hi r hr
    rw [← (h2.values hT hc ho.1 hs he hi hr).2]
    refine List.map_congr_left fun k _ => ?_
    simp [List.getD, Option.join]
    cases (vtkAll T W.aux f codim)[k]? <;> rfl
  refine ⟨W, h1, gridNodes W.aux order, fun r hne h6 => h2.gridNodes_eq ho.1 hne h6, ?_, ?_⟩
  · intro i hi r hr
    rw [h3]
    exact getAll _ (SingleValued.comp hfit.sides inSpace) (MatchesEnds.comp hfit.ends inSpace) i hi r hr
  · intro calls name hn1 hn2 ty
    have hg := after_sameGrid W calls
    have hW := h2.sameGrid hg
    have hname : checkName ((W.after calls).pointData.map fun d => d.1) name = true := (checkName_iff _ _).2 ⟨hn1, hn2⟩
    constructor
    · intro mf f hmf hs he
      have hv := pointValues_eq hT hc ho.1 hW (evaluates_conv hmf (conv := some) (g := f) fun _ _ _ _ _ => rfl)
      rw [hg.aux] at hv
      refine ⟨_, ?_, ?_, ?_, getAll f hs he⟩
      · rw [VtkWriter.writePointScalar, if_pos hname, hv, Option.map_some]
      · rw [List.length_map, h2.pointsLen]
        exact vtkAll_length_indep _ _
      · simp
    · intro m hm mf f hmf hs he
      have hv := pointValues_eq hT hc ho.1 hW (evaluates_conv hmf (conv := padWithZeros)
        (g := fun e x => inSpace (f e x)) fun _ _ _ _ _ => inSpace_pad hm)
      rw [hg.aux] at hv
      refine ⟨_, ?_, ?_, ?_, getAll _ (SingleValued.comp hs inSpace) (MatchesEnds.comp he inSpace)⟩
      · rw [VtkWriter.writePointVector, if_pos hname, hv, Option.map_some]
      · rw [List.length_map, h2.pointsLen]
        exact vtkAll_length_indep _ _
      · simp

/-- Point data from data sets, for order one: the point with number `v`, which is node `v`, gets the value of the node, or the
given value if there is none.  For other orders the call fails. -/
theorem C80_pointDataSet (T : Topo) (geo : Ent → Option (Geo K w)) (codim order : ℕ) (W : VtkWriter K)
    (hW : VtkWriter.make T geo codim order = some W) (calls : List (VtkCall K)) (name : String)
    (hn1 : name ∉ (W.after calls).pointData.map (fun d => d.1)) (hn2 : ' ' ∉ name.toList) (ty : VtkScalar)
    (mds : Ent → Option K) (undef : K) :
    (order = 1 → ∃ d, (W.after calls).writePointDSScalar name ty mds undef =
        some { W.after calls with pointData := (W.after calls).pointData ++ [(name, .scalar ty d)] } ∧
      d.length = W.points.length ∧ ∀ v < T.numNodes, d.getD v none = some ((mds (2, v)).getD undef)) ∧
    (order ≠ 1 → (W.after calls).writePointDSScalar name ty mds undef = none) ∧
    ∀ (m : ℕ), m = 2 ∨ m = 3 → ∀ (mvs : Ent → Option (Vec K m)) (uv : Vec K m),
    (order = 1 → ∃ d, (W.after calls).writePointDSVector name ty (fun e => (mvs e).map fun v => List.ofFn v) (List.ofFn uv) =
        some { W.after calls with pointData := (W.after calls).pointData ++ [(name, .vector ty d)] } ∧
      d.length = W.points.length ∧ ∀ v < T.numNodes, d.getD v none = some (inSpace ((mvs (2, v)).getD uv))) ∧
    (order ≠ 1 → (W.after calls).writePointDSVector name ty (fun e => (mvs e).map fun v => List.ofFn v) (List.ofFn uv) = none)
    := by
  obtain ⟨k1, k2, k3, -⟩ := make_sizes hW
  have hg := after_sameGrid W calls
  have hgood := (GoodWriter.make hW).after calls
  have hname : checkName ((W.after calls).pointData.map fun d => d.1) name = true := (checkName_iff _ _).2 ⟨hn1, hn2⟩
  have hord : (W.after calls).order = order := hg.order.trans k3
  have hmesh : (W.after calls).mesh = T := hg.mesh.trans k1
  have hlen : order = 1 → T.num 2 = W.points.length := by
    intro h
    rw [← hmesh, ← hgood.points (hord.trans h), hg.points]
  refine ⟨?_, ?_, ?_⟩
  · intro h
    have hv := dataSetValues_eq (W := W.after calls) (cd := 2) (mds := mds) (u := undef) (conv := some) (g := id)
      fun _ _ => rfl
    refine ⟨_, by rw [VtkWriter.writePointDSScalar, if_pos (hord.trans h), if_pos hname, hv, Option.map_some], ?_, ?_⟩
    · rw [List.length_map, List.length_range, hmesh, hlen h]
    · intro v hv
      have : v < T.num 2 := hv
      simp [hmesh, this, List.getD]
  · intro h
    rw [VtkWriter.writePointDSScalar, if_neg (by rw [hord]; exact h)]
  · intro m hm mvs uv
    constructor
    · intro h
      have hv := dataSetValues_eq (W := W.after calls) (cd := 2) (mds := fun e => (mvs e).map fun v => List.ofFn v)
        (u := List.ofFn uv) (conv := padWithZeros) (g := fun l => (padWithZeros l).getD 0) (by
          rintro v (rfl | ⟨i, -, hi⟩)
          · rw [inSpace_pad hm]; rfl
          · obtain ⟨v', -, rfl⟩ := Option.map_eq_some_iff.mp hi
            rw [inSpace_pad hm]; rfl)
      refine ⟨_, by rw [VtkWriter.writePointDSVector, if_pos (hord.trans h), if_pos hname, hv, Option.map_some], ?_, ?_⟩
      · rw [List.length_map, List.length_range, hmesh, hlen h]
      · intro v hv
        have : v < T.num 2 := hv
        simp only [hmesh, List.getD, List.getElem?_map, List.getElem?_range this, Option.map_some, Option.getD_some]
        cases mvs (2, v) <;> simp [inSpace_pad hm]
    · intro h
      rw [VtkWriter.writePointDSVector, if_neg (by rw [hord]; exact h)]

/-! ### C81: cell data -/

/-- Cell data from mesh functions: for edges and triangles the value of the cell is that of the function in its centroid.

Missing: quadrilaterals, for which it does not hold (`C81_quad`). -/
theorem C81_cellData_partial (T : Topo) (hT : T.WF) (geo : Ent → Option (Geo K w)) (codim order : ℕ) (W : VtkWriter K)
    (hW : VtkWriter.make T geo codim order = some W) (calls : List (VtkCall K)) (name : String)
    (hn1 : name ∉ (W.after calls).cellData.map (fun d => d.1)) (hn2 : ' ' ∉ name.toList) (ty : VtkScalar) :
    (∀ (mf : MeshFn K K) (f : Ent → List K → K), T.EvaluatesAll mf f →
      ∃ d, (W.after calls).writeCellScalar name ty mf =
          some { W.after calls with cellData := (W.after calls).cellData ++ [(name, .scalar ty d)] } ∧
        d.length = W.cells.length ∧ ∀ i < T.num codim, ∀ r, T.refEl (codim, i) = some r → r ≠ .quad →
          d.getD i none = some (f (codim, i) (centroid r))) ∧
    (∀ m, m = 2 ∨ m = 3 → ∀ (mf : MeshFn K (List K)) (f : Ent → List K → Vec K m),
      T.EvaluatesAll mf (fun e x => List.ofFn (f e x)) →
      ∃ d, (W.after calls).writeCellVector name ty mf =
          some { W.after calls with cellData := (W.after calls).cellData ++ [(name, .vector ty d)] } ∧
        d.length = W.cells.length ∧ ∀ i < T.num codim, ∀ r, T.refEl (codim, i) = some r → r ≠ .quad →
          d.getD i none = some (inSpace (f (codim, i) (centroid r)))) := by
  obtain ⟨k1, k2, k3, -, k5, -⟩ := make_sizes hW
  have hcod : codim < 2 := by
    unfold VtkWriter.make at hW
    split_ifs at hW with hh
    exact hh.2.2.1
  have hg := after_sameGrid W calls
  have hname : checkName ((W.after calls).cellData.map fun d => d.1) name = true := (checkName_iff _ _).2 ⟨hn1, hn2⟩
  have hmesh : (W.after calls).mesh = T := hg.mesh.trans k1
  have hcd : (W.after calls).codim = codim := hg.codim.trans k2
  obtain ⟨b1, b2, b3⟩ := barycenter_values (K := K)
  have hb : ∀ i < T.num codim, ∀ r, T.refEl (codim, i) = some r → r ≠ .quad →
      (VtkWriter.barycenter ((T.refEl (codim, i)).getD .point) : List K) = centroid r := by
    intro i hi r hr hq
    rw [hr, Option.getD_some]
    cases r
    · rfl
    · exact b1
    · exact b2
    · exact absurd rfl hq
  constructor
  · intro mf f hmf
    have hv := cellValues_eq hT hmesh (by omega) (evaluates_conv hmf (conv := some) (g := f) fun _ _ _ _ _ => rfl)
    rw [hcd] at hv
    refine ⟨_, by rw [VtkWriter.writeCellScalar, if_pos hname, hv, Option.map_some], by simp [k5], ?_⟩
    intro i hi r hr hq
    simp only [List.getD, List.getElem?_map, List.getElem?_range hi, Option.map_some, Option.getD_some]
    rw [hb i hi r hr hq]
  · intro m hm mf f hmf
    have hv := cellValues_eq hT hmesh (by omega) (evaluates_conv hmf (conv := padWithZeros)
        (g := fun e x => inSpace (f e x)) fun _ _ _ _ _ => inSpace_pad hm)
    rw [hcd] at hv
    refine ⟨_, by rw [VtkWriter.writeCellVector, if_pos hname, hv, Option.map_some], by simp [k5], ?_⟩
    intro i hi r hr hq
    simp only [List.getD, List.getElem?_map, List.getElem?_range hi, Option.map_some, Option.getD_some]
    rw [hb i hi r hr hq]

/-- For quadrilaterals the function is evaluated in `(1/4, 1/4)` instead of the centroid `(1/2, 1/2)`: if its values differ, the
value of the cell is wrong. -/
theorem C81_quad (T : Topo) (hT : T.WF) (geo : Ent → Option (Geo K w)) (order : ℕ) (W : VtkWriter K)
    (hW : VtkWriter.make T geo 0 order = some W) (name : String) (hn : ' ' ∉ name.toList) (ty : VtkScalar)
    (mf : MeshFn K K) (f : Ent → List K → K) (hf : T.EvaluatesAll mf f) (c : ℕ) (hr : T.refEl (0, c) = some .quad)
    (hne : f (0, c) [1 / 4, 1 / 4] ≠ f (0, c) [1 / 2, 1 / 2]) :
    ∃ d, W.writeCellScalar name ty mf = some { W with cellData := [(name, .scalar ty d)] } ∧
      d.getD c none = some (f (0, c) [1 / 4, 1 / 4]) ∧ d.getD c none ≠ some (f (0, c) (centroid .quad)) := by
  obtain ⟨k1, k2, k3, -, k5, -, -, -, -, k10⟩ := make_sizes hW
  have hc : c < T.num 0 := by
    by_contra h'
    simp [Topo.refEl, h'] at hr
  have hname : checkName (W.cellData.map fun d => d.1) name = true :=
    (checkName_iff _ _).2 ⟨by simp [k10], hn⟩
  have hv := cellValues_eq hT k1 (by omega) (evaluates_conv hf (conv := some) (g := f) fun _ _ _ _ _ => rfl)
  rw [k2] at hv
  have hval : ((List.range (T.num 0)).map fun i => some (f (0, i)
      (VtkWriter.barycenter ((T.refEl (0, i)).getD .point)))).getD c none = some (f (0, c) [1 / 4, 1 / 4]) := by
    simp only [List.getD, List.getElem?_map, List.getElem?_range hc, Option.map_some, Option.getD_some]
    rw [hr, Option.getD_some, (barycenter_values (K := K)).2.2]
  refine ⟨_, by rw [VtkWriter.writeCellScalar, if_pos hname, hv, Option.map_some, k10, List.nil_append], hval, ?_⟩
  rw [hval]
  intro h
  exact hne (Option.some.inj h)

/-- Cell data from data sets: the value of cell `i` is that of entity `i`, or the given value if there is none. -/
theorem C81_cellDataSet (T : Topo) (geo : Ent → Option (Geo K w)) (codim order : ℕ) (W : VtkWriter K)
    (hW : VtkWriter.make T geo codim order = some W) (calls : List (VtkCall K)) (name : String)
    (hn1 : name ∉ (W.after calls).cellData.map (fun d => d.1)) (hn2 : ' ' ∉ name.toList) (ty : VtkScalar)
    (mds : Ent → Option K) (undef : K) :
    (∃ d, (W.after calls).writeCellDSScalar name ty mds undef =
        some { W.after calls with cellData := (W.after calls).cellData ++ [(name, .scalar ty d)] } ∧
      d.length = W.cells.length ∧ ∀ i < T.num codim, d.getD i none = some ((mds (codim, i)).getD undef)) ∧
    ∀ (m : ℕ), m = 2 ∨ m = 3 → ∀ (mvs : Ent → Option (Vec K m)) (uv : Vec K m),
    ∃ d, (W.after calls).writeCellDSVector name ty (fun e => (mvs e).map fun v => List.ofFn v) (List.ofFn uv) =
        some { W.after calls with cellData := (W.after calls).cellData ++ [(name, .vector ty d)] } ∧
      d.length = W.cells.length ∧ ∀ i < T.num codim, d.getD i none = some (inSpace ((mvs (codim, i)).getD uv)) := by
  obtain ⟨k1, k2, k3, -, k5, -⟩ := make_sizes hW
  have hg := after_sameGrid W calls
  have hname : checkName ((W.after calls).cellData.map fun d => d.1) name = true := (checkName_iff _ _).2 ⟨hn1, hn2⟩
  have hmesh : (W.after calls).mesh = T := hg.mesh.trans k1
  have hcd : (W.after calls).codim = codim := hg.codim.trans k2
  constructor
  · have hv := dataSetValues_eq (W := W.after calls) (cd := (W.after calls).codim) (mds := mds) (u := undef) (conv := some) (g := id)
      fun _ _ => rfl
    refine ⟨_, by rw [VtkWriter.writeCellDSScalar, if_pos hname, hv, Option.map_some], ?_, ?_⟩
    · rw [List.length_map, List.length_range, hmesh, hcd, k5]
    · intro i hi
      simp [hmesh, hcd, hi, List.getD]
  · intro m hm mvs uv
    have hv := dataSetValues_eq (W := W.after calls) (cd := (W.after calls).codim) (mds := fun e => (mvs e).map fun v => List.ofFn v)
      (u := List.ofFn uv) (conv := padWithZeros) (g := fun l => (padWithZeros l).getD 0) (by
        rintro v (rfl | ⟨i, -, hi⟩)
        · rw [inSpace_pad hm]; rfl
        · obtain ⟨v', -, rfl⟩ := Option.map_eq_some_iff.mp hi
          rw [inSpace_pad hm]; rfl)
    refine ⟨_, by rw [VtkWriter.writeCellDSVector, if_pos hname, hv, Option.map_some], ?_, ?_⟩
    · rw [List.length_map, List.length_range, hmesh, hcd, k5]
    · intro i hi
      simp only [hmesh, hcd, List.getD, List.getElem?_map, List.getElem?_range hi, Option.map_some, Option.getD_some]
      cases mvs (codim, i) <;> simp [inSpace_pad hm]

/-! ### C82: histories -/

/-- After every sequence of calls, some of which may have thrown: the file passes the checks made before it is written; the grid
is that of the constructor; in each of the three groups of data the names are pairwise different and contain no spaces; and
data that has been written is still there, in its place. -/
theorem C82_histories (T : Topo) (geo : Ent → Option (Geo K w)) (codim order : ℕ) (W : VtkWriter K)
    (hW : VtkWriter.make T geo codim order = some W) (calls : List (VtkCall K)) :
    (W.after calls).validates = true ∧
    (W.after calls).points = W.points ∧ (W.after calls).cells = W.cells ∧ (W.after calls).types = W.types ∧
    ((W.after calls).pointData.map fun d => d.1).Nodup ∧ ((W.after calls).cellData.map fun d => d.1).Nodup ∧
    ((W.after calls).fieldData.map fun d => d.1).Nodup ∧
    (∀ d ∈ (W.after calls).pointData, ' ' ∉ d.1.toList) ∧ (∀ d ∈ (W.after calls).cellData, ' ' ∉ d.1.toList) ∧
    (∀ d ∈ (W.after calls).fieldData, ' ' ∉ d.1.toList) ∧
    ∀ before rest, calls = before ++ rest → (W.after before).pointData <+: (W.after calls).pointData ∧
      (W.after before).cellData <+: (W.after calls).cellData ∧ (W.after before).fieldData <+: (W.after calls).fieldData := by
  have hg := after_sameGrid W calls
  have hgood := (GoodWriter.make hW).after calls
  refine ⟨hgood.validates, hg.points, hg.cells, hg.types, hgood.pointNames.1, hgood.cellNames.1, hgood.fieldNames.1, ?_, ?_, ?_,
    ?_⟩
  · intro d hd
    exact hgood.pointNames.2 _ (List.mem_map.2 ⟨d, hd, rfl⟩)
  · intro d hd
    exact hgood.cellNames.2 _ (List.mem_map.2 ⟨d, hd, rfl⟩)
  · intro d hd
    exact hgood.fieldNames.2 _ (List.mem_map.2 ⟨d, hd, rfl⟩)
  · rintro before rest rfl
    have : W.after (before ++ rest) = (W.after before).after rest := by
      unfold VtkWriter.after
      rw [List.foldl_append]
    rw [this]
    exact after_prefix _ _

/-- A name which is already in use, or which contains a space, is rejected. -/
theorem C82_names (W : VtkWriter K) (name : String) (ty : VtkScalar) :
    (name ∈ W.pointData.map (fun d => d.1) ∨ ' ' ∈ name.toList → (∀ mf, W.writePointScalar name ty mf = none) ∧
      (∀ mf, W.writePointVector name ty mf = none) ∧ (∀ mds u, W.writePointDSScalar name ty mds u = none) ∧
      ∀ mds u, W.writePointDSVector name ty mds u = none) ∧
    (name ∈ W.cellData.map (fun d => d.1) ∨ ' ' ∈ name.toList → (∀ mf, W.writeCellScalar name ty mf = none) ∧
      (∀ mf, W.writeCellVector name ty mf = none) ∧ (∀ mds u, W.writeCellDSScalar name ty mds u = none) ∧
      ∀ mds u, W.writeCellDSVector name ty mds u = none) ∧
    (name ∈ W.fieldData.map (fun d => d.1) ∨ ' ' ∈ name.toList → ∀ data, W.writeGlobal name ty data = none) := by
  have hno : ∀ names : List String, name ∈ names ∨ ' ' ∈ name.toList → ¬ checkName names name = true := by
    intro names h
    rw [checkName_iff]
    tauto
  refine ⟨fun h => ?_, fun h => ?_, fun h data => ?_⟩
  · have := hno _ h
    refine ⟨fun _ => if_neg this, fun _ => if_neg this, fun _ _ => ?_, fun _ _ => ?_⟩
    · rw [VtkWriter.writePointDSScalar, if_neg this, ite_self]
    · rw [VtkWriter.writePointDSVector, if_neg this, ite_self]
  · have := hno _ h
    exact ⟨fun _ => if_neg this, fun _ => if_neg this, fun _ _ => if_neg this, fun _ _ => if_neg this⟩
  · exact if_neg (hno _ h)

/-! ### Examples: a triangle and a quadrilateral in the plane -/

/-- Positions of the nodes of `sampleTopo`. -/
def vtkDemoPos (v : ℕ) : Vec ℚ 2 := ([![0, 0], ![2, 0], ![0, 1], ![3, 2], ![1, 3]] : List (Vec ℚ 2)).getD v 0

/-- Positions of the points of the entities. -/
def vtkDemoMap (e : Ent) (x : List ℚ) : Vec ℚ 2 := ((straightGeo sampleTopo vtkDemoPos e).bind fun g => g.global x).getD 0

/-- C79 applies to orders one to ten, for cells and for edges. -/
example (codim order : ℕ) (hc : codim < 2) (ho : 1 ≤ order ∧ order ≤ 10) :=
  C79_grid_partial sampleTopo sampleTopo_WF (straightGeo sampleTopo vtkDemoPos) vtkDemoMap
    (straight_fits sampleTopo sampleTopo_WF vtkDemoPos) (by omega) codim order hc ho

/-- Order three: 5 nodes, 2 points inside of each edge, 1 point in the triangle and 4 in the quadrilateral. -/
example : ((VtkWriter.make sampleTopo (straightGeo sampleTopo vtkDemoPos) 0 3).map fun W => (W.points.length, W.cells)) =
    some (22, [[0, 1, 2, 5, 6, 7, 8, 9, 10, 17], [2, 1, 3, 4, 8, 7, 11, 12, 13, 14, 16, 15, 18, 19, 20, 21]]) := by
  have h3 : (auxNodesTria 3 : Option (List (List ℚ))) = some [[1 / 3, 1 / 3]] := by
    unfold auxNodesTria
    decide +kernel
  simp only [VtkWriter.make, auxNodes, h3]
  decide +kernel

/-- Triangles of order seven are wrong. -/
example : ∃ W, VtkWriter.make sampleTopo (straightGeo sampleTopo vtkDemoPos) 0 7 = some W ∧
    (W.cells.getD 0 []).map (fun k => W.points.getD k none) ≠
      (vtkNodes .tria 7).map fun x => some (inSpace (vtkDemoMap (0, 0) x)) := by
  obtain ⟨W, h1, -, -, h2⟩ := C79_triangle_order7 sampleTopo sampleTopo_WF (straightGeo sampleTopo vtkDemoPos) vtkDemoMap
    (straight_fits sampleTopo sampleTopo_WF vtkDemoPos) (by omega) 7 (by omega) 0 rfl (by
      intro x y hx hy h
      match x, hx, y, hy with
      | [x0, x1], _, [y0, y1], _ =>
        have e : ∀ a b : ℚ, vtkDemoMap (0, 0) [a, b] = (1 - a - b) • ![0, 0] + a • ![2, 0] + b • ![0, 1] := fun _ _ => rfl
        rw [e, e] at h
        have h0 := congrFun h 0
        have h1 := congrFun h 1
        simp at h0 h1
        rw [h0, h1])
  exact ⟨W, h1, h2⟩

/-- The cells share edge 1; node 5 of the triangle and node 5 of the quadrilateral are the same point. -/
example (W : VtkWriter ℚ) (hW : VtkWriter.make sampleTopo (straightGeo sampleTopo vtkDemoPos) 0 3 = some W) :
    ∃ p, (W.cells.getD 0 [])[5]? = some p ∧ (W.cells.getD 1 [])[5]? = some p :=
  C79_shared sampleTopo sampleTopo_WF _ vtkDemoMap (straight_fits sampleTopo sampleTopo_WF vtkDemoPos) (by omega) 3 (by omega)
    W hW 0 1 .tria .quad rfl rfl 1 0 (by decide) (by decide) rfl (1 / 3) 5 5 (by decide +kernel) (by decide +kernel)

/-- C80 for the first coordinate and for the position. -/
example : ∃ W, VtkWriter.make sampleTopo (straightGeo sampleTopo vtkDemoPos) 0 4 = some W ∧ ∃ d d',
    (W.writePointScalar "x" .double fun e pts => some (pts.map fun x => vtkDemoMap e x 0)) =
      some { W with pointData := W.pointData ++ [("x", .scalar .double d)] } ∧
    (W.writePointVector "xy" .double fun e pts => some (pts.map fun x => List.ofFn (vtkDemoMap e x))) =
      some { W with pointData := W.pointData ++ [("xy", .vector .double d')] } ∧
    (W.cells.getD 1 []).map (fun k => d.getD k none) = (vtkNodes .quad 4).map fun x => some (vtkDemoMap (0, 1) x 0) := by
  have hfit := straight_fits sampleTopo sampleTopo_WF vtkDemoPos
  have hs : sampleTopo.SingleValued vtkDemoMap := hfit.sides
  have he : sampleTopo.MatchesEnds vtkDemoMap := hfit.ends
  obtain ⟨W, h1, X, h2, -, h3⟩ := C80_pointData sampleTopo sampleTopo_WF _ vtkDemoMap hfit (by omega) 0 4 (by omega) (by omega)
  have hp : W.pointData = [] := by
    obtain ⟨-, -, -, -, -, -, -, -, k, -⟩ := make_sizes h1
    exact k
  obtain ⟨d, hd, -, -, hd'⟩ := (h3 [] "x" (by change "x" ∉ W.pointData.map _; simp [hp]) (by decide) .double).1
    (fun e pts => some (pts.map fun x => vtkDemoMap e x 0)) (fun e x => vtkDemoMap e x 0) (fun _ _ _ _ _ => rfl)
    (SingleValued.comp hs fun v => v 0) (MatchesEnds.comp he fun v => v 0)
  obtain ⟨d', hv, -⟩ := (h3 [] "xy" (by change "xy" ∉ W.pointData.map _; simp [hp]) (by decide) .double).2 2 (by omega)
    (fun e pts => some (pts.map fun x => List.ofFn (vtkDemoMap e x))) vtkDemoMap (fun _ _ _ _ _ => rfl) hs he
  refine ⟨W, h1, d, d', hd, hv, ?_⟩
  rw [hd' 1 (by decide) .quad rfl, h2 .quad (by decide) (by intro h; cases h)]

/-- C80 for data sets, a value at node 1 only; C81 for data sets. -/
example : ∃ W, VtkWriter.make sampleTopo (straightGeo sampleTopo vtkDemoPos) 0 1 = some W ∧ ∃ d d',
    (W.writePointDSScalar "v" .double (fun e => if e = (2, 1) then some 7 else none) 0) =
      some { W with pointData := [("v", .scalar .double d)] } ∧ d = [some 0, some 7, some 0, some 0, some 0] ∧
    (W.writeCellDSScalar "v" .double (fun e => if e = (0, 1) then some 7 else none) 3) =
      some { W with cellData := [("v", .scalar .double d')] } ∧ d' = [some 3, some 7] := by
  refine ⟨_, rfl, _, _, rfl, ?_, rfl, ?_⟩ <;> decide +kernel

/-- C81: the value for the quadrilateral is not that in its centroid. -/
example : ∃ W, VtkWriter.make sampleTopo (straightGeo sampleTopo vtkDemoPos) 0 1 = some W ∧ ∃ d,
    (W.writeCellScalar "x" .double fun e pts => some (pts.map fun x => vtkDemoMap e x 0)) =
      some { W with cellData := [("x", .scalar .double d)] } ∧
    d.getD 0 none = some (vtkDemoMap (0, 0) [1 / 3, 1 / 3] 0) ∧ d.getD 1 none ≠ some (vtkDemoMap (0, 1) [1 / 2, 1 / 2] 0) := by
  obtain ⟨W, h1, -⟩ := C79_grid_partial sampleTopo sampleTopo_WF (straightGeo sampleTopo vtkDemoPos) vtkDemoMap
    (straight_fits sampleTopo sampleTopo_WF vtkDemoPos) (by omega) 0 1 (by omega) (by omega)
  have hp : W.cellData = [] := by
    obtain ⟨-, -, -, -, -, -, -, -, -, k⟩ := make_sizes h1
    exact k
  obtain ⟨d, hd, -, hd'⟩ := (C81_cellData_partial sampleTopo sampleTopo_WF _ 0 1 W h1 [] "x"
    (by change "x" ∉ W.cellData.map _; simp [hp]) (by decide) .double).1
    (fun e pts => some (pts.map fun x => vtkDemoMap e x 0)) (fun e x => vtkDemoMap e x 0) (fun _ _ _ _ _ => rfl)
  obtain ⟨d2, hd2, -, hd3⟩ := C81_quad sampleTopo sampleTopo_WF _ 1 W h1 "x" (by decide) .double
    (fun e pts => some (pts.map fun x => vtkDemoMap e x 0)) (fun e x => vtkDemoMap e x 0) (fun _ _ _ _ _ => rfl) 1 rfl
    (by decide +kernel)
  have hsame : d = d2 := by
    have := hd.symm.trans hd2
    simp only [Option.some.injEq, VtkWriter.mk.injEq] at this
    simpa [VtkWriter.after, hp] using this
  refine ⟨W, h1, d2, hd2, ?_, hd3⟩
  rw [← hsame]
  exact hd' 0 (by decide) .tria rfl (by decide)

/-- C82: three calls, the second of which fails. -/
example : ∃ W : VtkWriter ℚ, VtkWriter.make sampleTopo (straightGeo sampleTopo vtkDemoPos) 0 1 = some W ∧
    let W' := W.after [.global "time" .double [1], .global "time" .double [2], .cellDSScalar "m" .int (fun _ => none) 4]
    W'.fieldData = [("time", .double, [1])] ∧ W'.cellData.map (fun d => d.1) = ["m"] := by
  refine ⟨_, rfl, ?_, ?_⟩ <;> decide +kernel

end Verif
