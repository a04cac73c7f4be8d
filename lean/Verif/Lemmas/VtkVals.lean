import Verif.Lemmas.VtkHist
import Verif.Lemmas.VtkShare

/-!
# Cell data, number of points, order above six
-/

namespace Verif
open Geo

variable {K : Type} [Field K] {V P : Type} {w : ℕ}

omit [Field K] in
theorem fill_entries {cd n : ℕ} {step : List (Option P) → Ent → Option (List (Option P))} {v : ℕ → P}
    (h : ∀ d, ∀ i < n, step d (cd, i) = setEntry d i (some (v i))) :
    ((List.range n).map fun i => ((cd, i) : Ent)).foldlM step (List.replicate n none) =
      some ((List.range n).map fun i => some (v i)) := by
  have key : ∀ k ≤ n, ((List.range k).map fun i => ((cd, i) : Ent)).foldlM step (List.replicate n none) =
      some (((List.range k).map v).map some ++ List.replicate (n - k) none) := by
    intro k
    induction k with
    | zero => intro _; simp
    | succ k ih =>
      intro hk
      rw [List.range_succ, List.map_append, List.foldlM_append, ih (by omega)]
      simp only [Option.bind_eq_bind, Option.bind_some, List.foldlM_cons, List.foldlM_nil, List.map_cons, List.map_nil]
      rw [h _ k (by omega)]
      have := setEntry_next ((List.range k).map v) (n - (k + 1)) (v k)
      rw [show n - (k + 1) + 1 = n - k by omega, List.length_map, List.length_range] at this
      rw [this]
      simp
  rw [key n le_rfl]
  simp

theorem dataSetValues_eq {W : VtkWriter K} {cd : ℕ} {mds : Ent → Option V} {u : V} {conv : V → Option P} {g : V → P}
    (hconv : ∀ v, (v = u ∨ ∃ i < W.mesh.num cd, mds (cd, i) = some v) → conv v = some (g v)) :
    W.dataSetValues cd mds u conv = some ((List.range (W.mesh.num cd)).map fun i => some (g ((mds (cd, i)).getD u))) := by
  unfold VtkWriter.dataSetValues
  rw [hconv u (.inl rfl), Option.bind_some]
  refine fill_entries fun d i hi => ?_
  cases hm : mds (cd, i) with
  | none => rfl
  | some v =>
    simp only [Option.getD_some]
    rw [hconv v (.inr ⟨i, hi, hm⟩), Option.bind_some]

variable [LinearOrder K] [IsStrictOrderedRing K]

theorem barycenter_values : (VtkWriter.barycenter .segment : List K) = [1 / 2] ∧
    (VtkWriter.barycenter .tria : List K) = [1 / 3, 1 / 3] ∧ (VtkWriter.barycenter .quad : List K) = [1 / 4, 1 / 4] := by
  refine ⟨?_, ?_, ?_⟩ <;>
    simp [VtkWriter.barycenter, VtkWriter.meanCoords, refNodeCoords, RefEl.dimension, List.range_succ]

theorem cellValues_eq {T : Topo} (hT : T.WF) {W : VtkWriter K} (hm : W.mesh = T) (hc : W.codim < 2) {mf : MeshFn K V}
    {conv : V → Option P} {g : Ent → List K → P}
    (hF : T.EvaluatesAll (fun e pts => (mf e pts).bind fun vals => vals.mapM conv) g) :
    W.cellValues mf conv = some ((List.range (T.num W.codim)).map fun i =>
      some (g (W.codim, i) (VtkWriter.barycenter ((T.refEl (W.codim, i)).getD .point)))) := by
  unfold VtkWriter.cellValues
  rw [hm]
  refine fill_entries fun d i hi => ?_
  obtain ⟨r, hr, hne⟩ := refEl_low hT (by omega) hi
  obtain ⟨b1, b2, b3⟩ := barycenter_values (K := K)
  have hin : r.Contains (VtkWriter.barycenter r : List K) := by
    cases r
    · exact absurd rfl hne
    · rw [b1]; norm_num [RefEl.Contains]
    · rw [b2]; norm_num [RefEl.Contains]
    · rw [b3]; norm_num [RefEl.Contains]
  have := hF (W.codim, i) r hr [VtkWriter.barycenter r] (by simpa using hin)
  rw [hr, Option.bind_some, Option.getD_some]
  simp only [List.map_cons, List.map_nil] at this
  obtain ⟨vals, h1, h2⟩ := Option.bind_eq_some_iff.mp this
  rw [h1, Option.bind_some]
  match vals, h2 with
  | [], h2 => simp at h2
  | [v], h2 =>
    simp only [List.mapM_cons, List.mapM_nil] at h2
    obtain ⟨p, h3, h4⟩ := Option.bind_eq_some_iff.mp h2
    simp at h4
    rw [List.getElem?_cons_zero, Option.bind_some, h3, Option.bind_some, h4]
  | v :: v' :: l, h2 =>
    have := (mapM_get _ _ _ h2).1
    simp at this

theorem countP_sum (l : List ℕ) (g : ℕ → Option RefEl) (a b : ℕ) (h : ∀ c ∈ l, g c = some .tria ∨ g c = some .quad) (n : ℕ)
    (ha : a = numInner .tria n) (hb : b = numInner .quad n) :
    a * (l.countP fun c => decide (g c = some .tria)) + b * (l.countP fun c => decide (g c = some .quad)) =
      (l.map fun c => match g c with | some r => numInner r n | none => 0).sum := by
  induction l with
  | nil => simp
  | cons c l ih =>
    have ih' := ih fun c hc => h c (by simp [hc])
    rw [List.map_cons, List.sum_cons, ← ih', List.countP_cons, List.countP_cons]
    rcases h c (by simp) with h1 | h1
    · simp only [h1, ha, hb]
      simp
      ring
    · simp only [h1, ha, hb]
      simp
      ring

theorem vtkAll_count {T : Topo} (hT : T.WF) {n : ℕ} (hn : 1 ≤ n) {aux : RefEl → List (List K)} (ha : AuxOk n aux) {codim : ℕ}
    (f : Ent → List K → V) : (vtkAll T aux f codim).length = vtkCount T codim n := by
  unfold vtkAll vtkCount
  rw [List.length_append, List.length_append, List.length_map, List.length_range, vtkBlocks_length_edges hT ha _ le_rfl]
  split_ifs with h
  · rw [vtkBlocks_length_cells hT ha _ le_rfl, countP_sum _ _ _ _ (fun c hc => refEl_cell_or hT (List.mem_range.1 hc)) n]
    · rfl
    · have := numAux_tria n hn
      change _ = (n - 1) * (n - 2) / 2
      omega
    · rfl
  · rfl

/-- For orders above six the computed nodes are not those of a Lagrange triangle. -/
theorem auxNodesTria_wrong {n : ℕ} (h7 : 7 ≤ n) {l : List (List K)} (hl : auxNodesTria n = some l) :
    l[3 * n - 9]? = some [((n : K) - 6) / (n * ((n : K) - 3)) + 2 / n, ((n : K) - 6) / (n * ((n : K) - 3)) + 2 / n] := by
  obtain ⟨inner, h1, h2, -⟩ := auxNodesTria_ok (K := K) (n - 3) (by omega)
  have h3 := auxNodesTria_step (by omega) inner h1 h2
  rw [hl] at h3
  cases h3
  have hn0 : (n : K) ≠ 0 := by exact_mod_cast (by omega : n ≠ 0)
  have hc : ((n - 3 : ℕ) : K) = (n : K) - 3 := by rw [Nat.cast_sub (by omega)]; norm_num
  have hn3 : (n : K) - 3 ≠ 0 := by
    rw [← hc]
    exact_mod_cast (by omega : n - 3 ≠ 0)
  have hhead : inner[0]? = some [1 / ((n : K) - 3), 1 / ((n : K) - 3)] := by
    rcases Nat.lt_or_ge n 8 with h | h
    · obtain rfl : n = 7 := by omega
      rw [show 7 - 3 = 4 from rfl, auxNodesTria_four] at h1
      cases h1
      norm_num
    · obtain ⟨inner2, k1, k2, -⟩ := auxNodesTria_ok (K := K) (n - 3 - 3) (by omega)
      have k3 := auxNodesTria_step (by omega) inner2 k1 k2
      rw [h1] at k3
      cases k3
      simp [triaAux, hc]
  unfold triaAux
  rw [List.getElem?_append_right (by simp [mids_length]; omega), List.getElem?_map]
  simp only [List.length_append, List.length_map, List.length_cons, List.length_nil, mids_length]
  rw [show 3 * n - 9 - (0 + 1 + 1 + 1 + (n - 3 - 1) + (n - 3 - 1) + (n - 3 - 1)) = 0 by omega, hhead]
  simp only [Option.map_some, List.getD_cons_zero, List.getD_cons_succ]
  congr 3
  all_goals field_simp

theorem vtkTria_head (n : ℕ) : (vtkTria n)[0]? = some [0, 0] := by
  match n with
  | 0 => rfl
  | 1 => rfl
  | 2 => rfl
  | n + 3 => simp [vtkTria]

theorem vtkTria_next (n k : ℕ) : (vtkTria (n + 3))[3 * (n + 3) + k]? = ((vtkTria n)[k]?).map fun p => p.map fun i => i + 1 := by
  rw [vtkTria, List.getElem?_append_right (by simp [mids_length]; omega), List.getElem?_map]
  simp only [List.length_append, List.length_map, List.length_cons, List.length_nil, mids_length]
  rw [show 3 * (n + 3) + k - (0 + 1 + 1 + 1 + (n + 3 - 1) + (n + 3 - 1) + (n + 3 - 1)) = k by omega]

theorem vtkTria_right {n : ℕ} (h7 : 7 ≤ n) : (vtkTria n)[3 * n + (3 * n - 9)]? = some [2, 2] := by
  obtain ⟨m, rfl⟩ : ∃ m, n = m + 3 + 3 := ⟨n - 6, by omega⟩
  rw [vtkTria_next, show 3 * (m + 3 + 3) - 9 = 3 * (m + 3) + 0 by omega, vtkTria_next, vtkTria_head]
  rfl

theorem gridNodes_wrong {T : Topo} {n : ℕ} (h7 : 7 ≤ n) {W : VtkWriter K} (hW : VtkBuilt T 0 n W) :
    (gridNodes W.aux n .tria)[3 * n + (3 * n - 9)]? =
      some [((n : K) - 6) / (n * ((n : K) - 3)) + 2 / n, ((n : K) - 6) / (n * ((n : K) - 3)) + 2 / n] := by
  rw [← auxNodesTria_wrong h7 hW.tria]
  unfold gridNodes
  simp only []
  have hl : ((RefEl.tria.corners : List (List K)) ++ ((List.range RefEl.tria.numNodes).flatMap fun j => (mids n).map fun i : ℕ =>
      sidePoint .tria j (if (sideInv .tria).getD j false then 1 - (i : K) / n else (i : K) / n))).length = 3 * n := by
    simp [RefEl.corners, RefEl.numNodes, List.length_flatMap, mids_length]
    omega
  rw [List.getElem?_append_right (by rw [hl]; omega), hl, Nat.add_sub_cancel_left]

end Verif
