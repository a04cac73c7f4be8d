import Verif.Lemmas.MeshChecks4

/-!
# The result of `isWatertightMesh`
-/

namespace Verif
namespace MC

theorem foldlM_append {α β : Type} (F : List β → α → Option (List β)) (f : α → List β) (l : List α)
    (h : ∀ r, ∀ x ∈ l, F r x = some (r ++ f x)) (r : List β) : l.foldlM F r = some (r ++ l.flatMap f) := by
  induction l generalizing r with
  | nil => simp
  | cons a l ih =>
    rw [List.foldlM_cons, h r a (by simp)]
    simp only [Option.bind_eq_bind, Option.bind_some]
    rw [ih fun r x hx => h r x (by simp [hx])]
    simp

section
variable {w : ℕ} {chk : Bool} {hist : List (FactoryCall (Geo ℝ w))} {M : Mesh (Geo ℝ w)}

theorem integration_some (g : Geo ℝ w) (hk : g.kind = .segment) (x : ℝ) (hx : Geo.inUnit [x]) :
    ∃ t, 0 ≤ t ∧ g.integrationElement [x] = some t := by
  cases g <;> simp [Geo.kind] at hk
  · exact ⟨_, Real.sqrt_nonneg _, rfl⟩
  · exact ⟨_, Real.sqrt_nonneg _, if_pos hx⟩

theorem step_point (v : ℕ) (y : Vec ℝ w) (hv : M.points[v]? = some (.point y)) (ret : List (RefEl × ℕ)) :
    M.watertightStep 0 ret (.pt v) = some ret := by
  have h6 : (Geo.point y : Geo ℝ w).global [] = some y := rfl
  have h7 : (Geo.point y : Geo ℝ w).integrationElement [] = some 1 := rfl
  simp [Mesh.watertightStep, Mesh.geometry, hv, EntPtr.refEl, refNodeCoords, h6, h7, Mesh.subEntities, RefEl.numNodes,
    List.range_succ, Geo.dot]

open Classical in
theorem step_edge (h : M.FromFactory geoBuild chk hist) (hw : WellTyped hist) (e : ℕ) (he : e < M.topo.numEdges)
    (q : EntPtr) (hq : M.entityByIndex 1 e = some q) (ret : List (RefEl × ℕ)) : M.watertightStep 1 ret q =
      some (ret ++ ((List.range 2).filter fun j => M.WrongEnd e j).map fun _ => (.segment, e)) := by
  obtain ⟨p, hp, a1, a2, a3, a4, a5, a6, a7, a8⟩ := edge_geo h hw e he
  rw [hq] at a1
  cases a1
  obtain ⟨y0, hy0⟩ := point_some h hw _ a4
  obtain ⟨y1, hy1⟩ := point_some h hw _ a5
  have u0 : Geo.inUnit [(0 : ℝ)] := (inUnit_one _).2 (by norm_num)
  have u1 : Geo.inUnit [(1 : ℝ)] := (inUnit_one _).2 (by norm_num)
  obtain ⟨t0, -, ht0⟩ := integration_some M.segments[p].geo a7 0 u0
  obtain ⟨t1, -, ht1⟩ := integration_some M.segments[p].geo a7 1 u1
  obtain ⟨x0, hx0⟩ := Geo.global_some M.segments[p].geo [0] (by rw [a7]; simp [RefEl.Contains])
  obtain ⟨x1, hx1⟩ := Geo.global_some M.segments[p].geo [1] (by rw [a7]; simp [RefEl.Contains])
  have g0 : ∀ y : Vec ℝ w, (Geo.point y : Geo ℝ w).global [] = some y := fun _ => rfl
  have w0 : M.WrongEnd e 0 ↔ Geo.dot (x0 - y0) (x0 - y0) > 1 / 10 ^ 8 * t0 := by
    have hd : ∑ i, (x0 i - y0 i) ^ 2 = Geo.dot (x0 - y0) (x0 - y0) :=
      Finset.sum_congr rfl fun i _ => by rw [sq]; rfl
    unfold Mesh.WrongEnd
    rw [a6, a3]
    simp only [Nat.cast_zero, if_true, nodePos_of hy0]
    constructor
    · rintro ⟨g, x, y, t, k0, k1, k2, k3, k4⟩
      cases k0
      rw [hx0] at k1; cases k1; cases k2
      rw [ht0] at k3; cases k3
      rw [← hd]; exact k4
    · intro k
      exact ⟨_, x0, y0, t0, rfl, hx0, rfl, ht0, by rw [hd]; exact k⟩
  have w1 : M.WrongEnd e 1 ↔ Geo.dot (x1 - y1) (x1 - y1) > 1 / 10 ^ 8 * t0 := by
    have hd : ∑ i, (x1 i - y1 i) ^ 2 = Geo.dot (x1 - y1) (x1 - y1) :=
      Finset.sum_congr rfl fun i _ => by rw [sq]; rfl
    unfold Mesh.WrongEnd
    rw [a6, a3]
    simp only [Nat.cast_one, one_ne_zero, if_false, nodePos_of hy1]
    constructor
    · rintro ⟨g, x, y, t, k0, k1, k2, k3, k4⟩
      cases k0
      rw [hx1] at k1; cases k1; cases k2
      rw [ht0] at k3; cases k3
      rw [← hd]; exact k4
    · intro k
      exact ⟨_, x1, y1, t0, rfl, hx1, rfl, ht0, by rw [hd]; exact k⟩
  have hidx : M.index (.seg p) = some e := by simp [Mesh.index, hp, a2]
  have hgeo : M.geometry (.seg p) = some M.segments[p].geo := by simp [Mesh.geometry, hp]
  unfold Mesh.watertightStep
  rw [hgeo]
  simp only [Option.bind_some, EntPtr.refEl, refNodeCoords, List.mapM_cons, List.mapM_nil, hx0, hx1, ht0, ht1,
    Option.bind_eq_bind, Option.pure_def, sub_seg p hp, RefEl.numNodes, List.getElem?_cons_zero]
  have hr2 : List.range 2 = [0, 1] := rfl
  rw [hr2]
  simp only [List.foldlM_cons, List.foldlM_nil, List.getElem?_cons_zero, List.getElem?_cons_succ, Option.bind_some,
    Option.bind_eq_bind, Option.pure_def, Mesh.geometry, hy0, hy1, g0, hidx, Option.map_some, List.filter_cons,
    List.filter_nil, decide_eq_true_eq, ← w0, ← w1]
  by_cases c0 : M.WrongEnd e 0 <;> by_cases c1 : M.WrongEnd e 1 <;> simp [c0, c1]

open Classical in
/-- The list of edges with end points which are not at the nodes, in the order of the indices. -/
theorem watertight (h : M.FromFactory geoBuild chk hist) (hw : WellTyped hist) (b : Bool) :
    M.isWatertightMesh b = some ((List.range M.topo.numEdges).flatMap fun e =>
      ((List.range 2).filter fun j => M.WrongEnd e j).map fun _ => (.segment, e)) := by
  obtain ⟨es1, a1, a2, a3⟩ := entities_of h 1 (by omega)
  obtain ⟨es2, b1, b2, b3⟩ := entities_of h 2 (by omega)
  have hl1 : es1.length = M.topo.numEdges := by simpa [Mesh.numEntities, Mesh.topo] using a2.symm
  unfold Mesh.isWatertightMesh
  simp only [List.foldlM_cons, List.foldlM_nil, Option.bind_eq_bind, b1, a1, Option.bind_some]
  rw [foldlM_append _ (fun _ => []) es2]
  · simp only [Option.bind_some, List.nil_append]
    rw [foldlM_append _ (fun q => (M.index q).elim [] fun e =>
      ((List.range 2).filter fun j => M.WrongEnd e j).map fun _ => (.segment, e)) es1]
    · simp only [Option.bind_some, Option.pure_def, List.nil_append, Option.some.injEq]
      have e1 : (es2.flatMap fun _ => ([] : List (RefEl × ℕ))) = [] := by simp
      rw [e1, List.nil_append]
      have e2 : es1.map M.index = (List.range M.topo.numEdges).map some := by
        refine List.ext_getElem (by simp [hl1]) fun j hj hj' => ?_
        simp only [List.getElem_map, List.getElem_range]
        exact (a3 j (by simpa using hj)).2.2.2
      have e3 := congrArg (fun l => l.flatMap fun o : Option ℕ => o.elim [] fun e =>
        ((List.range 2).filter fun j => M.WrongEnd e j).map fun _ => (RefEl.segment, e)) e2
      simpa only [List.flatMap_map, Option.elim_some] using e3
    · intro r q hq
      obtain ⟨i, hi, rfl⟩ := List.getElem_of_mem hq
      obtain ⟨c1, c2, c3, c4⟩ := a3 i hi
      rw [c4]
      exact step_edge h hw i (by omega) _ c1 r
  · intro r q hq
    obtain ⟨i, hi, rfl⟩ := List.getElem_of_mem hq
    obtain ⟨c1, c2, c3, c4⟩ := b3 i hi
    cases hes : es2[i] with
    | pt v =>
      rw [hes] at c2
      obtain ⟨y, hy⟩ := point_some h hw v c2
      rw [List.append_nil]
      exact step_point v y hy r
    | _ => rw [hes] at c3; simp [Mesh.codim] at c3

/-- Edges with corners at the nodes are not reported. -/
theorem not_wrong (h : M.FromFactory geoBuild chk hist) (hw : WellTyped hist) (e : ℕ) (he : e < M.topo.numEdges)
    (hc : ∃ g, M.edgeGeo e = some g ∧ g.HasCorners [M.nodePos (M.topo.edge e).1, M.nodePos (M.topo.edge e).2])
    (j : ℕ) (hj : j < 2) : ¬ M.WrongEnd e j := by
  rintro ⟨g, x, y, t, k1, k2, k3, k4, k5⟩
  obtain ⟨g', c1, c2⟩ := hc
  rw [k1] at c1
  cases c1
  obtain ⟨p, hp, a1, a2, a3, a4, a5, a6, a7, a8⟩ := edge_geo h hw e he
  rw [k1] at a6
  cases a6
  have ht : 0 ≤ t := by
    obtain ⟨t', b1, b2⟩ := integration_some _ a7 0 ((inUnit_one _).2 (by norm_num))
    rw [b2] at k4; cases k4; exact b1
  unfold Geo.HasCorners at c2
  rw [a7] at c2
  simp only [refNodeCoords, List.map_cons, List.map_nil, List.cons.injEq, and_true] at c2
  have hxy : x = y := by
    interval_cases j
    · simp only [Nat.cast_zero, if_true] at k2 k3
      rw [c2.1, k3] at k2
      exact (Option.some.inj k2).symm
    · simp only [Nat.cast_one, one_ne_zero, if_false] at k2 k3
      rw [c2.2, k3] at k2
      exact (Option.some.inj k2).symm
  subst hxy
  simp only [sub_self, ne_eq, OfNat.ofNat_ne_zero, not_false_eq_true, zero_pow, Finset.sum_const_zero] at k5
  have : 0 ≤ 1 / 10 ^ 8 * t := by positivity
  linarith

end
end MC
end Verif
