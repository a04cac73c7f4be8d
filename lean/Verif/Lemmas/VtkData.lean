import Verif.Lemmas.VtkWriter

/-!
# Data attached to the grid of `VtkWriter`
-/

namespace Verif
open Geo

variable {K : Type} [Field K] [LinearOrder K] [IsStrictOrderedRing K] {V P : Type}

omit [IsStrictOrderedRing K] in
theorem evaluates_conv {T : Topo} {mf : MeshFn K V} {f : Ent → List K → V} (hmf : T.EvaluatesAll mf f)
    {conv : V → Option P} {g : Ent → List K → P}
    (hconv : ∀ e r, T.refEl e = some r → ∀ x, r.Contains x → conv (f e x) = some (g e x)) :
    T.EvaluatesAll (fun e pts => (mf e pts).bind fun vals => vals.mapM conv) g := by
  intro e r hr pts hpts
  beta_reduce
  rw [hmf e r hr pts hpts, Option.bind_some, List.mapM_map]
  exact mapM_pure _ _ _ fun x hx => hconv e r hr x (hpts x hx)

/-- The loop over the auxiliary points when data is written. -/
theorem pointValues_loop {T : Topo} (hT : T.WF) {cd n : ℕ} (hn : 1 ≤ n) {W : VtkWriter K} (hW : VtkBuilt T cd n W)
    {mf : MeshFn K V} {conv : V → Option P} {g : Ent → List K → P}
    (hF : T.EvaluatesAll (fun e pts => (mf e pts).bind fun vals => vals.mapM conv) g) {k : ℕ} (hk : k ≤ 1) (hck : cd ≤ k)
    (done : List P) (hdone : done.length = vtkStart T W.aux g (k, 0)) (m : ℕ)
    (hm : (vtkBlocks T W.aux g k (T.num k)).length ≤ m) :
    (T.entities k).foldlM (fun pts e =>
      (T.refEl e).bind fun r =>
      if n = 1 ∨ n = 2 ∧ r = .tria then some pts else
      (mf e (W.aux r)).bind fun vals => (vals.mapM conv).bind fun vals =>
      ((W.offset k)[e.2]?).bind fun start => vtkAssign pts start vals) (done.map some ++ List.replicate m none) =
    some ((done ++ vtkBlocks T W.aux g k (T.num k)).map some ++
      List.replicate (m - (vtkBlocks T W.aux g k (T.num k)).length) none) := by
  have ha := hW.ok
  have mono : ∀ i, (vtkBlocks T W.aux g k i).length ≤ (vtkBlocks T W.aux g k (i + 1)).length := by
    intro i
    rw [vtkBlocks_succ, List.length_append]
    omega
  have hst : ∀ i, vtkStart T W.aux g (k, i) = (done ++ vtkBlocks T W.aux g k i).length := by
    intro i
    rw [List.length_append, hdone]
    unfold vtkStart
    interval_cases k
    · simp [vtkBlocks]
    · simp [vtkBlocks]
  have key : ∀ i ≤ T.num k, (vtkBlocks T W.aux g k i).length ≤ m →
      ((List.range i).map fun i => ((k, i) : Ent)).foldlM (fun pts e =>
        (T.refEl e).bind fun r =>
        if n = 1 ∨ n = 2 ∧ r = .tria then some pts else
        (mf e (W.aux r)).bind fun vals => (vals.mapM conv).bind fun vals =>
        ((W.offset k)[e.2]?).bind fun start => vtkAssign pts start vals) (done.map some ++ List.replicate m none) =
      some ((done ++ vtkBlocks T W.aux g k i).map some ++
        List.replicate (m - (vtkBlocks T W.aux g k i).length) none) := by
    intro i
    induction i with
    | zero => intro _ _; simp [vtkBlocks]
    | succ i ih =>
      intro hi hlen
      rw [List.range_succ, List.map_append, List.foldlM_append, ih (by omega) ((mono i).trans hlen)]
      simp only [Option.bind_eq_bind, Option.bind_some, List.foldlM_cons, List.foldlM_nil, List.map_cons, List.map_nil]
      obtain ⟨r, hr, hne⟩ := refEl_low hT hk (show i < T.num k by omega)
      have hbl := vtkBlock_length (f := g) hT ha hk (show i < T.num k by omega) hr
      rw [hr, Option.bind_some]
      by_cases hskip : n = 1 ∨ n = 2 ∧ r = .tria
      · rw [if_pos hskip]
        have hz : numAuxNodes r n = 0 := by
          rcases hskip with rfl | ⟨rfl, rfl⟩
          · cases r
            · exact absurd rfl hne
            · rfl
            · rfl
            · rfl
          · rfl
        have hnil : vtkBlock T W.aux g (k, i) = [] := List.length_eq_zero_iff.1 (hbl.trans hz)
        rw [vtkBlocks_succ, hnil, List.append_nil]
        rfl
      · rw [if_neg hskip]
        have hpos : 0 < numAuxNodes r n := by
          push Not at hskip
          cases r
          · exact absurd rfl hne
          · simp only [numAuxNodes]; omega
          · have h3 : n ≠ 2 := fun h => hskip.2 h rfl
            have ht := numAux_tria n (by omega)
            have : 2 * 1 ≤ (n - 1) * (n - 2) := Nat.mul_le_mul (by omega) (by omega)
            omega
          · simp only [numAuxNodes]
            have : 1 * 1 ≤ (n - 1) * (n - 1) := Nat.mul_le_mul (by omega) (by omega)
            omega
        have hev := hF (k, i) r hr (W.aux r) (ha.mem r hne)
        have hb : (W.aux r).map (g (k, i)) = vtkBlock T W.aux g (k, i) := by
          unfold vtkBlock
          rw [hr]
        rw [hb] at hev
        replace hev : (mf (k, i) (W.aux r)).bind (List.mapM conv) = some (vtkBlock T W.aux g (k, i)) := hev
        have hoff := ((hW.off.indep g) k hk).2 hck i (by omega) r hr hpos
        have hlen' : (vtkBlocks T W.aux g k i).length + (vtkBlock T W.aux g (k, i)).length ≤ m := by
          rw [vtkBlocks_succ, List.length_append] at hlen
          exact hlen
        have hass := vtkAssign_next (done ++ vtkBlocks T W.aux g k i) (vtkBlock T W.aux g (k, i))
          (m - (vtkBlocks T W.aux g k (i + 1)).length)
        have e1 : (vtkBlock T W.aux g (k, i)).length + (m - (vtkBlocks T W.aux g k (i + 1)).length) =
            m - (vtkBlocks T W.aux g k i).length := by
          rw [vtkBlocks_succ, List.length_append]
          omega
        rw [e1] at hass
        rw [← Option.bind_assoc, hev, Option.bind_some, hoff, Option.bind_some, hst i, hass]
        rw [vtkBlocks_succ, ← List.append_assoc]
        rfl
  exact key _ le_rfl hm

theorem pointValues_eq {T : Topo} (hT : T.WF) {cd n : ℕ} (hcd : cd < 2) (hn : 1 ≤ n) {W : VtkWriter K}
    (hW : VtkBuilt T cd n W) {mf : MeshFn K V} {conv : V → Option P} {g : Ent → List K → P}
    (hF : T.EvaluatesAll (fun e pts => (mf e pts).bind fun vals => vals.mapM conv) g) :
    W.pointValues mf conv = some ((vtkAll T W.aux g cd).map some) := by
  unfold VtkWriter.pointValues
  have hlen : W.points.length = T.numNodes + ((vtkBlocks T W.aux g 1 T.numEdges).length +
      (if cd = 0 then vtkBlocks T W.aux g 0 T.numCells else []).length) := by
    rw [hW.pointsLen, vtkAll_length_indep g]
    unfold vtkAll
    simp only [List.length_append, List.length_map, List.length_range]
    omega
  rw [hW.mesh, hW.codim, hW.order, hlen, vtkMainPoints_eq hF, Option.bind_some]
  have l1 := pointValues_loop hT hn hW hF le_rfl (by omega) ((List.range T.numNodes).map fun v => g (2, v) [])
    (by simp [vtkStart, vtkBlocks]) ((vtkBlocks T W.aux g 1 T.numEdges).length +
      (if cd = 0 then vtkBlocks T W.aux g 0 T.numCells else []).length) (Nat.le_add_right _ _)
  interval_cases cd
  · have hcod : vtkCodims 0 = [1, 0] := rfl
    rw [hcod, List.foldlM_cons, l1, Option.bind_eq_bind, Option.bind_some, List.foldlM_cons, if_pos rfl,
      show T.num 1 = T.numEdges from rfl, Nat.add_sub_cancel_left]
    have l0 := pointValues_loop hT hn hW hF (Nat.zero_le 1) (Nat.zero_le 0)
      (((List.range T.numNodes).map fun v => g (2, v) []) ++ vtkBlocks T W.aux g 1 T.numEdges)
      (by simp [vtkStart, vtkBlocks]) (vtkBlocks T W.aux g 0 T.numCells).length le_rfl
    rw [l0, Option.bind_eq_bind, Option.bind_some, show T.num 0 = T.numCells from rfl, Nat.sub_self, List.replicate_zero,
      List.append_nil]
    rfl
  · have hcod : vtkCodims 1 = [1] := rfl
    rw [hcod, List.foldlM_cons, l1, Option.bind_eq_bind, Option.bind_some, List.foldlM_nil]
    have : T.num 1 = T.numEdges := rfl
    simp only [vtkAll, one_ne_zero, if_false, List.length_nil, List.append_nil, this, Nat.add_zero, Nat.sub_self,
      List.replicate_zero]
    rfl

end Verif
