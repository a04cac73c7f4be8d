import Verif.Lemmas.IpdgFlow2
import Verif.Lemmas.DpgAssemble

/-!
# Lemmas: the matrix of the offset function
-/

namespace Verif.Ipdg
open Verif Geo Dpg Finset

variable {m : MeshObj} {geo : Ent → Option (Geo ℝ 2)} {pos : ℕ → Vec ℝ 2} {boundary : AllDS Bool}

/-- The sides of a cell on the boundary. -/
def bdSides (m : MeshObj) (boundary : AllDS Bool) (c : ℕ) : List (Fin 3) := [0, 1, 2].filter fun k => flagOf m boundary 1 (sideOf m.topo c k)

/-- The corners of a cell on the boundary. -/
def bdCorners (m : MeshObj) (boundary : AllDS Bool) (c : ℕ) : List (Fin 3) := [0, 1, 2].filter fun k => flagOf m boundary 2 (corner m.topo c k)

/-- The entries of the element matrix. -/
noncomputable def jumpEntry (m : MeshObj) (pos : ℕ → Vec ℝ 2) (boundary : AllDS Bool) (c i j : ℕ) : ℝ :=
  (((bdSides m boundary c)[i]?).bind fun edge => ((bdCorners m boundary c)[j]?).map fun node =>
    dot (outward (tri m.topo pos c) edge)
      ((area2 (tri m.topo pos c))⁻¹ • (tri m.topo pos c (node + 2) - tri m.topo pos c (node + 1)))).getD 0

theorem normalJumpMatrix_eq (hM : TriaMesh m.topo geo pos)
    (hbd : ∀ e < m.topo.numEdges, (boundary.read ⟨m.id, (1, e)⟩).isSome)
    (hbn : ∀ v < m.topo.numNodes, (boundary.read ⟨m.id, (2, v)⟩).isSome) {c : ℕ} (hc : c < m.topo.numCells) :
    normalJumpMatrix m geo boundary (0, c) = some ⟨max 1 (bdSides m boundary c).length, max 1 (bdCorners m boundary c).length,
      jumpEntry m pos boundary c⟩ := by
  have h1 : ∀ k, boundary.read ⟨m.id, (1, sideOf m.topo c k)⟩ = some (flagOf m boundary 1 (sideOf m.topo c k)) := fun k => by
    obtain ⟨b, hb⟩ := Option.isSome_iff_exists.1 (hbd _ (hM.side_lt hc k))
    unfold flagOf
    rw [hb]
    cases b <;> simp
  have h2 : ∀ k, boundary.read ⟨m.id, (2, corner m.topo c k)⟩ = some (flagOf m boundary 2 (corner m.topo c k)) := fun k => by
    obtain ⟨b, hb⟩ := Option.isSome_iff_exists.1 (hbn _ (hM.corner_lt hc k))
    unfold flagOf
    rw [hb]
    cases b <;> simp
  have hn := normals_eq (tri m.topo pos c) (hM.regular c hc)
  have hb := basis_eq (tri m.topo pos c) (hM.regular c hc)
  have s2 : m.topo.subEntities (0, c) 2 = some [(2, corner m.topo c 0), (2, corner m.topo c 1), (2, corner m.topo c 2)] := by
    simp [Topo.subEntities, corner_eq (hM.tria c hc)]
  have s1 : m.topo.subEntities (0, c) 1 = some [(1, sideOf m.topo c 0), (1, sideOf m.topo c 1), (1, sideOf m.topo c 2)] := by
    simp [Topo.subEntities, sideOf_eq (hM.edges_len hc)]
  have f1 : (![flagOf m boundary 1 (sideOf m.topo c 0), flagOf m boundary 1 (sideOf m.topo c 1), flagOf m boundary 1 (sideOf m.topo c 2)] : Fin 3 → Bool) =
      fun k => flagOf m boundary 1 (sideOf m.topo c k) := by funext k; fin_cases k <;> rfl
  have f2 : (![flagOf m boundary 2 (corner m.topo c 0), flagOf m boundary 2 (corner m.topo c 1), flagOf m boundary 2 (corner m.topo c 2)] : Fin 3 → Bool) =
      fun k => flagOf m boundary 2 (corner m.topo c k) := by funext k; fin_cases k <;> rfl
  unfold normalJumpMatrix
  rw [hM.cell c hc, Option.bind_some]
  change (computeOutwardNormals (.triaO1 (tri m.topo pos c 0) (tri m.topo pos c 1) (tri m.topo pos c 2))).bind _ = _
  rw [hn, Option.bind_some]
  change (basisFunct (.triaO1 (tri m.topo pos c 0) (tri m.topo pos c 1) (tri m.topo pos c 2))).bind _ = _
  rw [hb, Option.bind_some, s2, Option.bind_some, s1, Option.bind_some]
  simp only [List.getElem?_cons_zero, List.getElem?_cons_succ, Option.bind_some, h1, h2, f1, f2, outward_normalAt]
  rfl

theorem foldlM_congr_on {α β : Type} (f g : β → α → Option β) (l : List α) (h : ∀ b, ∀ a ∈ l, f b a = g b a) (b : β) :
    l.foldlM f b = l.foldlM g b := by
  induction l generalizing b with
  | nil => rfl
  | cons a l ih =>
    rw [List.foldlM_cons, List.foldlM_cons, h b a (by simp)]
    congr 1
    funext b'
    exact ih (fun b a ha => h b a (by simp [ha])) b'

theorem list_sum_get {α : Type} (F : α → ℝ) (G : ℕ → ℝ) (l : List α) (h : ∀ i (hi : i < l.length), G i = F l[i]) :
    ∑ i ∈ range l.length, G i = (l.map F).sum := by
  rw [Finset.sum_range, ← List.sum_ofFn]
  congr 1
  apply List.ext_getElem
  · simp
  · intro i h1 h2
    simp only [List.getElem_ofFn, List.getElem_map]
    exact h i (by simpa using h1)

theorem filter3_sum (p : Fin 3 → Bool) (F : Fin 3 → ℝ) : ((([0, 1, 2] : List (Fin 3)).filter p).map F).sum = ∑ k, if p k then F k else 0 := by
  rw [Fin.sum_univ_three]
  cases h0 : p 0 <;> cases h1 : p 1 <;> cases h2 : p 2 <;> simp [h0, h1, h2] <;> ring

/-- The potential with given values at the nodes on the boundary, in the order of the dof handler. -/
noncomputable def bdPotential (m : MeshObj) (boundary : AllDS Bool) (x : List ℝ) (v : ℕ) : ℝ :=
  if flagOf m boundary 2 v then x.getD (bdRank (flagOf m boundary 2) v) 0 else 0

/-- The part of the form from one cell. -/
theorem cell_form (c : ℕ) (ν μ : List ℝ) (l1 l2 : List ℝ)
    (e1 : l1 = (bdSides m boundary c).map fun k => ν.getD (bdRank (flagOf m boundary 1) (sideOf m.topo c k)) 0)
    (e2 : l2 = (bdCorners m boundary c).map fun k => μ.getD (bdRank (flagOf m boundary 2) (corner m.topo c k)) 0) :
    (⟨(bdSides m boundary c).length, (bdCorners m boundary c).length, jumpEntry m pos boundary c⟩ : Dense ℝ).form l1 l2 =
    ∑ k, if flagOf m boundary 1 (sideOf m.topo c k) then ν.getD (bdRank (flagOf m boundary 1) (sideOf m.topo c k)) 0 *
      dot (velocity m.topo pos (bdPotential m boundary μ) c) (outward (tri m.topo pos c) k) else 0 := by
  set p := tri m.topo pos c with hp
  have inner : ∀ k : Fin 3, ∑ n, (if flagOf m boundary 2 (corner m.topo c n) then
      dot (outward p k) ((area2 p)⁻¹ • (p (n + 2) - p (n + 1))) * μ.getD (bdRank (flagOf m boundary 2) (corner m.topo c n)) 0 else 0) =
      dot (velocity m.topo pos (bdPotential m boundary μ) c) (outward p k) := by
    intro k
    unfold velocity
    rw [← hp, ← basis_curl p, dot2, Fin.sum_univ_three]
    simp only [dot2, bdPotential, Pi.add_apply, Pi.smul_apply, smul_eq_mul]
    split_ifs <;> ring
  unfold Dense.form
  dsimp only
  rw [list_sum_get (fun k => ν.getD (bdRank (flagOf m boundary 1) (sideOf m.topo c k)) 0 *
      dot (velocity m.topo pos (bdPotential m boundary μ) c) (outward p k))]
  · exact filter3_sum _ _
  · intro i hi
    rw [← inner, ← filter3_sum (fun n => flagOf m boundary 2 (corner m.topo c n))]
    rw [← Finset.mul_sum]
    congr 1
    · rw [e1, List.getD_eq_getElem _ _ (by simpa using hi), List.getElem_map]
    · refine list_sum_get (l := bdCorners m boundary c) (F := fun n => dot (outward p (bdSides m boundary c)[i]) ((area2 p)⁻¹ • (p (n + 2) - p (n + 1))) *
        μ.getD (bdRank (flagOf m boundary 2) (corner m.topo c n)) 0) _ fun j hj => ?_
      rw [e2, List.getD_eq_getElem _ _ (by simpa using hj), List.getElem_map]
      congr 1
      unfold jumpEntry
      rw [List.getElem?_eq_getElem hi, List.getElem?_eq_getElem hj, Option.bind_some, Option.map_some, Option.getD_some]

section
variable (hM : TriaMesh m.topo geo pos)
    (hbd : ∀ e < m.topo.numEdges, (boundary.read ⟨m.id, (1, e)⟩).isSome)
    (hbn : ∀ v < m.topo.numNodes, (boundary.read ⟨m.id, (2, v)⟩).isSome)
include hM hbd hbn

/-- The assembled part of the matrix. -/
theorem jump_form {nd ed : DofHandler}
    (n1 : nd.numDofs = bdRank (flagOf m boundary 2) m.topo.numNodes)
    (n2 : ∀ c < m.topo.numCells, nd.globalDofIndices (0, c) =
      some (((m.topo.cell c).nodes.filter (flagOf m boundary 2)).map (bdRank (flagOf m boundary 2))))
    (d1 : ed.numDofs = bdRank (flagOf m boundary 1) m.topo.numEdges)
    (d2 : ∀ c < m.topo.numCells, ed.globalDofIndices (0, c) =
      some (((m.topo.cell c).edges.filter (flagOf m boundary 1)).map (bdRank (flagOf m boundary 1))))
    (fits : nd.numDofs + 1 < 2 ^ 31 ∧ ed.numDofs + 1 < 2 ^ 31) :
    ∃ A D, assembleMatrixLocally (m.topo.entities 0) nd.toMap ed.toMap
        ⟨fun _ => true, fun e => (normalJumpMatrix m geo boundary e).getD ⟨0, 0, fun _ _ => 0⟩⟩
        (Coo.mk' (ed.numDofs + 1) (nd.numDofs + 1)) = some A ∧ A.makeDense = some D ∧ D.rows = ed.numDofs + 1 ∧ D.cols = nd.numDofs + 1 ∧
      (∀ ν μ : List ℝ, D.form ν μ = ∑ e ∈ range m.topo.numEdges, if flagOf m boundary 1 e then
        ν.getD (bdRank (flagOf m boundary 1) e) 0 * outflow m.topo pos (bdPotential m boundary μ) e else 0) ∧
      (∀ e ∈ m.topo.entities 0, (normalJumpMatrix m geo boundary e).isSome ∧ (nd.globalDofIndices e).isSome ∧ (ed.globalDofIndices e).isSome) := by
  have hcell : ∀ e ∈ m.topo.entities 0, ∃ c < m.topo.numCells, e = (0, c) := by
    intro e he
    obtain ⟨i, hi, rfl⟩ := List.mem_map.1 he
    exact ⟨i, List.mem_range.1 hi, rfl⟩
  let nd' : DofHandler := { nd with numDofs := nd.numDofs + 1 }
  let ed' : DofHandler := { ed with numDofs := ed.numDofs + 1 }
  have alln : ∀ c < m.topo.numCells, nd'.all (0, c) = (bdCorners m boundary c).map fun k => bdRank (flagOf m boundary 2) (corner m.topo c k) := by
    intro c hc
    have : nd'.all (0, c) = (nd.globalDofIndices (0, c)).getD [] := rfl
    rw [this, n2 c hc, Option.getD_some, corner_eq (hM.tria c hc)]
    have hl : [corner m.topo c 0, corner m.topo c 1, corner m.topo c 2] = ([0, 1, 2] : List (Fin 3)).map (corner m.topo c) := rfl
    rw [hl, List.filter_map, List.map_map]
    rfl
  have alle : ∀ c < m.topo.numCells, ed'.all (0, c) = (bdSides m boundary c).map fun k => bdRank (flagOf m boundary 1) (sideOf m.topo c k) := by
    intro c hc
    have : ed'.all (0, c) = (ed.globalDofIndices (0, c)).getD [] := rfl
    rw [this, d2 c hc, Option.getD_some, sideOf_eq (hM.edges_len hc)]
    have hl : [sideOf m.topo c 0, sideOf m.topo c 1, sideOf m.topo c 2] = ([0, 1, 2] : List (Fin 3)).map (sideOf m.topo c) := rfl
    rw [hl, List.filter_map, List.map_map]
    rfl
  have okn : DofsOk m.topo nd' := by
    refine ⟨fun e he => ?_, fun e he d hd => ?_, fits.1⟩
    · obtain ⟨c, hc, rfl⟩ := hcell e he
      change nd.globalDofIndices (0, c) = some ((nd.globalDofIndices (0, c)).getD [])
      rw [n2 c hc]; rfl
    · obtain ⟨c, hc, rfl⟩ := hcell e he
      rw [alln c hc] at hd
      obtain ⟨k, hk, rfl⟩ := List.mem_map.1 hd
      have := bdRank_lt (flagOf m boundary 2) (hM.corner_lt hc k) (List.mem_filter.1 hk).2
      change _ < nd.numDofs + 1
      omega
  have oke : DofsOk m.topo ed' := by
    refine ⟨fun e he => ?_, fun e he d hd => ?_, fits.2⟩
    · obtain ⟨c, hc, rfl⟩ := hcell e he
      change ed.globalDofIndices (0, c) = some ((ed.globalDofIndices (0, c)).getD [])
      rw [d2 c hc]; rfl
    · obtain ⟨c, hc, rfl⟩ := hcell e he
      rw [alle c hc] at hd
      obtain ⟨k, hk, rfl⟩ := List.mem_map.1 hd
      have := bdRank_lt (flagOf m boundary 1) (hM.side_lt hc k) (List.mem_filter.1 hk).2
      change _ < ed.numDofs + 1
      omega
  let M : Ent → Dense ℝ := fun e => ⟨(bdSides m boundary e.2).length, (bdCorners m boundary e.2).length, jumpEntry m pos boundary e.2⟩
  obtain ⟨A, D, a1, a2, a3, a4, a5⟩ := assembleMat_form m.topo nd' ed' okn oke ⟨fun _ => true, fun e => some (M e)⟩ M (by
    intro e he _
    obtain ⟨c, hc, rfl⟩ := hcell e he
    refine ⟨rfl, ?_, ?_⟩
    · rw [alle c hc, List.length_map]
    · rw [alln c hc, List.length_map])
  refine ⟨A, D, ?_, a2, a3, a4, fun ν μ => ?_, fun e he => ?_⟩
  · rw [← a1, assembleMat, if_pos]
    · unfold assembleMatrixLocallyNew assembleMatrixLocally
      refine foldlM_congr_on _ _ _ ?_ _
      intro A' e he
      obtain ⟨c, hc, rfl⟩ := hcell e he
      have hN := normalJumpMatrix_eq hM hbd hbn hc
      have t1 : ed'.toMap.dofs (0, c) = ed.toMap.dofs (0, c) := rfl
      have t2 : nd'.toMap.dofs (0, c) = nd.toMap.dofs (0, c) := rfl
      have l1 : (ed.toMap.dofs (0, c)).length = (bdSides m boundary c).length := by
        have := alle c hc
        change (ed'.all (0, c)).length = _
        rw [this, List.length_map]
      have l2 : (nd.toMap.dofs (0, c)).length = (bdCorners m boundary c).length := by
        have := alln c hc
        change (nd'.all (0, c)).length = _
        rw [this, List.length_map]
      unfold assembleMatrixStep
      simp only [if_true, hN, Option.getD_some, t1, t2, M]
      rw [if_pos ⟨by rw [l1]; exact le_max_right _ _, by rw [l2]; exact le_max_right _ _⟩, if_pos ⟨l1.le, l2.le⟩]
      rfl
    · rw [List.all_eq_true]
      intro e he
      simp [okn.answers e he, oke.answers e he]
  · rw [a5, List.filter_true, Topo.entities, List.map_map]
    have hsum : ∀ F : ℕ → ℝ, ((List.range (m.topo.num 0)).map F).sum = ∑ c ∈ range m.topo.numCells, F c := by
      intro F
      rw [Finset.sum_range, ← List.sum_ofFn]
      congr 1
      apply List.ext_getElem
      · simp [Topo.num]
      · intro i h1 h2
        simp
    rw [hsum, Finset.sum_congr rfl (g := fun c => ∑ k, if flagOf m boundary 1 (sideOf m.topo c k) then
      ν.getD (bdRank (flagOf m boundary 1) (sideOf m.topo c k)) 0 *
      dot (velocity m.topo pos (bdPotential m boundary μ) c) (outward (tri m.topo pos c) k) else 0)]
    · rw [sum_sides hM fun c k => if flagOf m boundary 1 (sideOf m.topo c k) then
        ν.getD (bdRank (flagOf m boundary 1) (sideOf m.topo c k)) 0 *
        dot (velocity m.topo pos (bdPotential m boundary μ) c) (outward (tri m.topo pos c) k) else 0]
      refine Finset.sum_congr rfl fun e _ => ?_
      have hs : ∀ s ∈ sidesAt m.topo e, sideOf m.topo s.1 s.2 = e := fun s hs => (mem_sidesAt.1 (show (s.1, s.2) ∈ _ from hs)).2
      rw [Finset.sum_congr rfl fun s h => by rw [hs s h]]
      by_cases hf : flagOf m boundary 1 e = true
      · simp only [hf, if_true]
        rw [← Finset.mul_sum]
        rfl
      · simp only [hf]
        simp
    · intro c hc
      have hc := Finset.mem_range.1 hc
      refine cell_form c ν μ _ _ ?_ ?_
      · unfold localPart
        rw [alle c hc, List.map_map]
        rfl
      · unfold localPart
        rw [alln c hc, List.map_map]
        rfl
  · obtain ⟨c, hc, rfl⟩ := hcell e he
    rw [normalJumpMatrix_eq hM hbd hbn hc, n2 c hc, d2 c hc]
    simp

end

end Verif.Ipdg
