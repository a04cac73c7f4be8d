import Verif.Lemmas.IpdgFlow3

/-!
# Lemmas: the linear system for the offset function
-/

namespace Verif.Ipdg
open Verif Geo Dpg Finset

/-! ## Linear solver -/

theorem solveDense_some {D : Dense ℝ} {b : List ℝ} (hsq : D.rows = D.cols) (hb : b.length = D.rows)
    (hinj : ∀ x : List ℝ, x.length = D.rows → (∀ i < D.rows, ∑ j ∈ range D.cols, D.entry i j * x.getD j 0 = 0) →
      ∀ j < D.rows, x.getD j 0 = 0) :
    ∃ x, solveDense D b = some x ∧ x.length = D.rows ∧ ∀ i < D.rows, ∑ j ∈ range D.cols, D.entry i j * x.getD j 0 = b.getD i 0 := by
  let M : Matrix (Fin D.rows) (Fin D.rows) ℝ := fun i j => D.entry i j
  have hrow : ∀ (v : Fin D.rows → ℝ) (i : Fin D.rows), ∑ j ∈ range D.cols, D.entry i j * (List.ofFn v).getD j 0 = (M.mulVec v) i := by
    intro v i
    rw [← hsq, Finset.sum_range, Matrix.mulVec, dotProduct]
    exact Finset.sum_congr rfl fun j _ => by simp [M]
  have hdet : M.det ≠ 0 := by
    intro h0
    obtain ⟨v, hv, h1⟩ := Matrix.exists_mulVec_eq_zero_iff.2 h0
    apply hv
    funext j
    have := hinj (List.ofFn v) (by simp) (fun i hi => by rw [hrow v ⟨i, hi⟩, h1]; rfl) j j.2
    simpa using this
  refine ⟨List.ofFn (M⁻¹.mulVec fun i => b.getD i 0), ?_, by simp, fun i hi => ?_⟩
  · have hl : Fisher.luSolve M (fun i => b.getD i 0) = some (M⁻¹.mulVec fun i => b.getD i 0) := if_neg hdet
    rw [solveDense, if_pos ⟨hsq, hb⟩]
    change (Fisher.luSolve M fun i => b.getD i 0).map List.ofFn = _
    rw [hl]
    rfl
  · rw [hrow _ ⟨i, hi⟩, Matrix.mulVec_mulVec, Matrix.mul_nonsing_inv _ (isUnit_iff_ne_zero.2 hdet), Matrix.one_mulVec]

theorem solveDense_none {D : Dense ℝ} {b : List ℝ} (h : D.rows = D.cols → ∃ x : List ℝ, (∃ j < D.rows, x.getD j 0 ≠ 0) ∧
    ∀ i < D.rows, ∑ j ∈ range D.cols, D.entry i j * x.getD j 0 = 0) : solveDense D b = none := by
  unfold solveDense
  split
  · rename_i hc
    obtain ⟨x, ⟨j, hj, hx⟩, h0⟩ := h hc.1
    let M : Matrix (Fin D.rows) (Fin D.rows) ℝ := fun i j => D.entry i j
    have : M.det = 0 := by
      rw [← Matrix.exists_mulVec_eq_zero_iff]
      refine ⟨fun j => x.getD j 0, fun hz => hx (congrFun hz ⟨j, hj⟩), ?_⟩
      funext i
      rw [Matrix.mulVec, dotProduct]
      have := h0 i i.2
      rw [← hc.1, Finset.sum_range] at this
      exact this
    have hl : Fisher.luSolve M (fun i => b.getD i 0) = none := if_pos this
    change (Fisher.luSolve M fun i => b.getD i 0).map List.ofFn = _
    rw [hl]
    rfl
  · rfl

/-! ## The matrix -/

theorem fold_add (r c : ℕ → ℕ) (n : ℕ) (J : Coo ℝ) (h : ∀ i < n, r i < J.rows ∧ c i < J.cols) (h1 : J.rows < 2 ^ 32) (h2 : J.cols < 2 ^ 32) :
    (List.range n).foldl (fun J i => J.addToEntry (r i) (c i) 1) J =
      ⟨J.rows, J.cols, J.triplets ++ (List.range n).map fun i => ⟨r i, c i, 1⟩⟩ := by
  induction n with
  | zero => simp
  | succ n ih =>
    rw [List.range_succ, List.foldl_append, ih fun i hi => h i (by omega)]
    obtain ⟨a, b⟩ := h n (by omega)
    have w1 : Coo.wrap32 (r n + 1) = r n + 1 := Nat.mod_eq_of_lt (by omega)
    have w2 : Coo.wrap32 (c n + 1) = c n + 1 := Nat.mod_eq_of_lt (by omega)
    simp only [List.foldl_cons, List.foldl_nil, Coo.addToEntry, w1, w2, List.map_append, List.map_cons, List.map_nil, List.append_assoc]
    rw [if_neg (by omega), if_neg (by omega)]

theorem ent_col (n R i j : ℕ) : ent ((List.range n).map fun k => (⟨R, k, 1⟩ : Triplet ℝ)) i j = if i = R ∧ j < n then 1 else 0 := by
  induction n with
  | zero => simp
  | succ n ih =>
    rw [List.range_succ, List.map_append, ent_append, ih]
    simp only [List.map_cons, List.map_nil, ent_cons, ent_nil, add_zero]
    by_cases h1 : i = R
    · rcases lt_trichotomy j n with h | h | h
      · rw [if_pos ⟨h1, h⟩, if_neg (by omega), if_pos ⟨h1, by omega⟩, add_zero]
      · rw [if_neg (by omega), if_pos ⟨h1, h⟩, if_pos ⟨h1, by omega⟩, zero_add]
      · rw [if_neg (by omega), if_neg (by omega), if_neg (by omega), add_zero]
    · simp [h1]

theorem ent_row (n C i j : ℕ) : ent ((List.range n).map fun k => (⟨k, C, 1⟩ : Triplet ℝ)) i j = if i < n ∧ j = C then 1 else 0 := by
  induction n with
  | zero => simp
  | succ n ih =>
    rw [List.range_succ, List.map_append, ent_append, ih]
    simp only [List.map_cons, List.map_nil, ent_cons, ent_nil, add_zero]
    by_cases h1 : j = C
    · rcases lt_trichotomy i n with h | h | h
      · rw [if_pos ⟨h, h1⟩, if_neg (by omega), if_pos ⟨by omega, h1⟩, add_zero]
      · rw [if_neg (by omega), if_pos ⟨h, h1⟩, if_pos ⟨by omega, h1⟩, zero_add]
      · rw [if_neg (by omega), if_neg (by omega), if_neg (by omega), add_zero]
    · simp [h1]

theorem form_row {D : Dense ℝ} {r : ℕ} (hr : r < D.rows) (μ : List ℝ) :
    D.form (unitList D.rows r) μ = ∑ c ∈ range D.cols, D.entry r c * μ.getD c 0 := by
  unfold Dense.form
  rw [Finset.sum_eq_single_of_mem r (Finset.mem_range.2 hr)]
  · exact Finset.sum_congr rfl fun c _ => by rw [unitList_getD hr, if_pos rfl, one_mul]
  · intro i hi hne
    exact Finset.sum_eq_zero fun c _ => by rw [unitList_getD (Finset.mem_range.1 hi), if_neg hne, zero_mul]

variable {m : MeshObj} {geo : Ent → Option (Geo ℝ 2)} {pos : ℕ → Vec ℝ 2} {boundary : AllDS Bool}

section
variable (hM : TriaMesh m.topo geo pos)
    (hbd : ∀ e < m.topo.numEdges, (boundary.read ⟨m.id, (1, e)⟩).isSome)
    (hbn : ∀ v < m.topo.numNodes, (boundary.read ⟨m.id, (2, v)⟩).isSome)
include hM hbd hbn

/-- The rows of the matrix. -/
theorem jump_rows {nd ed : DofHandler}
    (n1 : nd.numDofs = bdRank (flagOf m boundary 2) m.topo.numNodes)
    (n2 : ∀ c < m.topo.numCells, nd.globalDofIndices (0, c) =
      some (((m.topo.cell c).nodes.filter (flagOf m boundary 2)).map (bdRank (flagOf m boundary 2))))
    (d1 : ed.numDofs = bdRank (flagOf m boundary 1) m.topo.numEdges)
    (d2 : ∀ c < m.topo.numCells, ed.globalDofIndices (0, c) =
      some (((m.topo.cell c).edges.filter (flagOf m boundary 1)).map (bdRank (flagOf m boundary 1))))
    (fits : nd.numDofs + 1 < 2 ^ 31 ∧ ed.numDofs + 1 < 2 ^ 31) :
    ∃ J D, normalJumpSystem m geo boundary nd ed = some J ∧ J.makeSparse = some D ∧ D.rows = ed.numDofs + 1 ∧ D.cols = nd.numDofs + 1 ∧
      (∀ (x : List ℝ) (e : ℕ), e < m.topo.numEdges → flagOf m boundary 1 e = true →
        ∑ j ∈ range D.cols, D.entry (bdRank (flagOf m boundary 1) e) j * x.getD j 0 =
          outflow m.topo pos (bdPotential m boundary x) e + x.getD nd.numDofs 0) ∧
      ∀ x : List ℝ, ∑ j ∈ range D.cols, D.entry ed.numDofs j * x.getD j 0 = ∑ i ∈ range nd.numDofs, x.getD i 0 := by
  obtain ⟨A, D, a1, a2, a3, a4, a5, a6⟩ := jump_form hM hbd hbn n1 n2 d1 d2 fits
  have hA := makeDense_some A D a2
  have hin := inRange_of_makeDense A D a2
  have r1 : A.rows = ed.numDofs + 1 := by rw [← a3, hA]
  have r2 : A.cols = nd.numDofs + 1 := by rw [← a4, hA]
  set N := nd.numDofs
  set E := ed.numDofs
  let J : Coo ℝ := ⟨A.rows, A.cols, (A.triplets ++ (List.range N).map fun i => ⟨E, i, 1⟩) ++ (List.range E).map fun i => ⟨i, N, 1⟩⟩
  have hJ : normalJumpSystem m geo boundary nd ed = some J := by
    unfold normalJumpSystem
    rw [if_pos, a1, Option.map_some]
    · simp only
      rw [fold_add (fun _ => E) (fun i => i) N A (fun i hi => ⟨by omega, by omega⟩) (by omega) (by omega)]
      rw [fold_add (fun i => i) (fun _ => N) E _ (fun i hi => ⟨by simp only; omega, by simp only; omega⟩) (by simp only; omega) (by simp only; omega)]
    · rw [List.all_eq_true]
      intro e he
      obtain ⟨b1, b2, b3⟩ := a6 e he
      simp [b1, b2, b3]
  have hinJ : InRange J := by
    intro t ht
    simp only [J, List.mem_append, List.mem_map, List.mem_range] at ht
    rcases ht with (ht | ⟨i, hi, rfl⟩) | ⟨i, hi, rfl⟩
    · exact hin t ht
    · exact ⟨by simp only [J]; omega, by simp only [J]; omega⟩
    · exact ⟨by simp only [J]; omega, by simp only [J]; omega⟩
  have hent : ∀ i j, ent J.triplets i j = D.entry i j + (if i = E ∧ j < N then 1 else 0) + if i < E ∧ j = N then 1 else 0 := by
    intro i j
    simp only [J, ent_append, ent_col, ent_row]
    rw [hA]
  refine ⟨J, ⟨J.rows, J.cols, ent J.triplets⟩, hJ, ?_, r1, r2, fun x e he hf => ?_, fun x => ?_⟩
  · unfold Coo.makeSparse
    rw [if_pos ⟨by simp only [J]; omega, by simp only [J]; omega⟩]
    exact makeDense_eq J hinJ
  · have hlt := bdRank_lt (flagOf m boundary 1) he hf
    rw [← d1] at hlt
    have hform := form_row (D := D) (r := bdRank (flagOf m boundary 1) e) (by omega) x
    rw [a5, Finset.sum_eq_single_of_mem e (Finset.mem_range.2 he), if_pos hf, unitList_getD (by omega), if_pos rfl, one_mul] at hform
    · rw [hform]
      change ∑ j ∈ range A.cols, ent J.triplets _ j * _ = _
      simp only [hent]
      rw [a4, r2, Finset.sum_range_succ, Finset.sum_range_succ]
      rw [if_neg (by omega), if_pos ⟨hlt, rfl⟩]
      rw [Finset.sum_congr rfl (g := fun j => D.entry (bdRank (flagOf m boundary 1) e) j * x.getD j 0) fun j hj => by
        have := Finset.mem_range.1 hj
        rw [if_neg (by omega), if_neg (by omega), add_zero, add_zero]]
      ring
    · intro e' he' hne
      by_cases hf' : flagOf m boundary 1 e' = true
      · rw [if_pos hf', unitList_getD, if_neg, zero_mul]
        · exact fun h0 => hne (bdRank_inj _ hf' hf h0)
        · have := bdRank_lt (flagOf m boundary 1) (Finset.mem_range.1 he') hf'
          omega
      · rw [if_neg hf']
  · have hform := form_row (D := D) (r := E) (by omega) x
    rw [a5, Finset.sum_eq_zero] at hform
    · change ∑ j ∈ range A.cols, ent J.triplets _ j * _ = _
      simp only [hent]
      rw [a4] at hform
      rw [r2, Finset.sum_range_succ]
      rw [Finset.sum_range_succ] at hform
      rw [Finset.sum_congr rfl (g := fun j => D.entry E j * x.getD j 0 + x.getD j 0) fun j hj => by
        have := Finset.mem_range.1 hj
        rw [if_pos ⟨trivial, this⟩, if_neg (by omega)]
        ring]
      rw [Finset.sum_add_distrib, if_neg (by omega), if_neg (by omega)]
      linarith
    · intro e' he'
      by_cases hf' : flagOf m boundary 1 e' = true
      · have := bdRank_lt (flagOf m boundary 1) (Finset.mem_range.1 he') hf'
        rw [if_pos hf', unitList_getD (by omega), if_neg (by omega), zero_mul]
      · rw [if_neg hf']

omit hbn in
/-- The right-hand side. -/
theorem flow_rhs (hfl : ∀ e < m.topo.numEdges, flagOf m boundary 1 e = true ↔ m.topo.OnBoundary e) {ed : DofHandler}
    (d1 : ed.numDofs = bdRank (flagOf m boundary 1) m.topo.numEdges)
    (d3 : ∀ e < m.topo.numEdges, flagOf m boundary 1 e = true → ed.globalDofIndices (1, e) = some [bdRank (flagOf m boundary 1) e])
    (g : ℕ → Vec ℝ 2) :
    ∃ r, normalFlowRhs m geo boundary ed g = some r ∧ r.length = ed.numDofs + 1 ∧ r.getD ed.numDofs 0 = 0 ∧
      ∀ e < m.topo.numEdges, flagOf m boundary 1 e = true → r.getD (bdRank (flagOf m boundary 1) e) 0 = outflowData m.topo pos g e := by
  set fl := flagOf m boundary 1 with hfldef
  let Inv : List ℝ → (ℕ → Fin 3 → Prop) → Prop := fun r S => r.length = ed.numDofs + 1 ∧ r.getD ed.numDofs 0 = 0 ∧
    ∀ c < m.topo.numCells, ∀ k, S c k → fl (sideOf m.topo c k) = true →
      r.getD (bdRank fl (sideOf m.topo c k)) 0 = dot (g (sideOf m.topo c k)) (outward (tri m.topo pos c) k)
  have hstep : ∀ r S c k, c < m.topo.numCells → Inv r S → ∃ r', normalFlowEdge m boundary ed g r (normalAt (tri m.topo pos c) k)
      (1, sideOf m.topo c k) = some r' ∧ Inv r' fun c' k' => S c' k' ∨ (c' = c ∧ k' = k) := by
    rintro r S c k hc ⟨i1, i2, i3⟩
    have he := hM.side_lt hc k
    have hread : boundary.read ⟨m.id, (1, sideOf m.topo c k)⟩ = some (fl (sideOf m.topo c k)) := by
      obtain ⟨b, hb⟩ := Option.isSome_iff_exists.1 (hbd _ he)
      rw [hfldef, flagOf, hb]
      cases b <;> simp
    unfold normalFlowEdge
    rw [hread, Option.bind_some]
    by_cases hf : fl (sideOf m.topo c k) = true
    · have hlt := bdRank_lt fl he hf
      rw [← d1] at hlt
      rw [if_pos hf, d3 _ he hf, Option.bind_some]
      simp only [List.getElem?_cons_zero, Option.bind_some]
      rw [if_pos (by omega)]
      refine ⟨_, rfl, by simp [i1], ?_, ?_⟩
      · rw [List.getD_eq_getElem?_getD, List.getElem?_set_ne (by omega), ← List.getD_eq_getElem?_getD, i2]
      · intro c' hc' k' hS hf'
        by_cases hsame : sideOf m.topo c' k' = sideOf m.topo c k
        · have hb := (hfl _ he).1 hf
          obtain ⟨s, hs⟩ := Finset.card_eq_one.1 ((onBoundary_iff hM _).1 hb)
          have q1 : (c, k) ∈ sidesAt m.topo (sideOf m.topo c k) := mem_sidesAt.2 ⟨hc, rfl⟩
          have q2 : (c', k') ∈ sidesAt m.topo (sideOf m.topo c k) := mem_sidesAt.2 ⟨hc', hsame⟩
          rw [hs, Finset.mem_singleton] at q1 q2
          have := q2.trans q1.symm
          rw [Prod.mk.injEq] at this
          obtain ⟨rfl, rfl⟩ := this
          rw [List.getD_eq_getElem?_getD, List.getElem?_set_self (by omega), Option.getD_some, outward_normalAt, dot_comm2]
        · have hne : bdRank fl (sideOf m.topo c k) ≠ bdRank fl (sideOf m.topo c' k') := fun h0 => hsame (bdRank_inj fl hf hf' h0).symm
          rw [List.getD_eq_getElem?_getD, List.getElem?_set_ne hne, ← List.getD_eq_getElem?_getD]
          refine i3 c' hc' k' (hS.resolve_right ?_) hf'
          rintro ⟨rfl, rfl⟩
          exact hsame rfl
    · rw [if_neg hf]
      refine ⟨r, rfl, i1, i2, fun c' hc' k' hS hf' => i3 c' hc' k' (hS.resolve_right ?_) hf'⟩
      rintro ⟨rfl, rfl⟩
      exact hf hf'
  let body : List ℝ → Ent → Option (List ℝ) := fun rhs cell =>
    (geo cell).bind fun g' =>
    (computeOutwardNormals g').bind fun normals =>
    (m.topo.subEntities cell 1).bind fun edges =>
    (edges[0]?).bind fun e0 => (edges[1]?).bind fun e1 => (edges[2]?).bind fun e2 =>
    (normalFlowEdge m boundary ed g rhs (normals 0) e0).bind fun rhs =>
    (normalFlowEdge m boundary ed g rhs (normals 1) e1).bind fun rhs =>
    normalFlowEdge m boundary ed g rhs (normals 2) e2
  have hcell : ∀ r c, c < m.topo.numCells → Inv r (fun c' _ => c' < c) → ∃ r', body r (0, c) = some r' ∧ Inv r' fun c' _ => c' < c + 1 := by
    intro r c hc hr
    obtain ⟨ra, a1, a2⟩ := hstep r _ c 0 hc hr
    obtain ⟨rb, b1, b2⟩ := hstep ra _ c 1 hc a2
    obtain ⟨rc, c1, c2⟩ := hstep rb _ c 2 hc b2
    refine ⟨rc, ?_, c2.1, c2.2.1, fun c' hc' k hlt hf => c2.2.2 c' hc' k ?_ hf⟩
    · have s1 : m.topo.subEntities (0, c) 1 = some [(1, sideOf m.topo c 0), (1, sideOf m.topo c 1), (1, sideOf m.topo c 2)] := by
        simp [Topo.subEntities, sideOf_eq (hM.edges_len hc)]
      simp only [body]
      rw [hM.cell c hc, Option.bind_some]
      change (computeOutwardNormals (.triaO1 (tri m.topo pos c 0) (tri m.topo pos c 1) (tri m.topo pos c 2))).bind _ = _
      rw [normals_eq (tri m.topo pos c) (hM.regular c hc), Option.bind_some, s1, Option.bind_some]
      simp only [List.getElem?_cons_zero, List.getElem?_cons_succ, Option.bind_some, a1, b1, c1]
    · have : c' < c ∨ c' = c := by omega
      rcases this with h | rfl
      · exact Or.inl (Or.inl (Or.inl h))
      · fin_cases k
        · exact Or.inl (Or.inl (Or.inr ⟨rfl, rfl⟩))
        · exact Or.inl (Or.inr ⟨rfl, rfl⟩)
        · exact Or.inr ⟨rfl, rfl⟩
  have hfold : ∀ n ≤ m.topo.numCells, ∃ r, ((List.range n).map fun i => ((0, i) : Ent)).foldlM body (List.replicate (ed.numDofs + 1) 0) = some r ∧
      Inv r fun c' _ => c' < n := by
    intro n
    induction n with
    | zero =>
      intro _
      refine ⟨_, rfl, by simp, by simp, fun _ _ _ h => absurd h (by omega)⟩
    | succ n ih =>
      intro hn
      obtain ⟨r, h1, h2⟩ := ih (by omega)
      obtain ⟨r', h3, h4⟩ := hcell r n (by omega) h2
      refine ⟨r', ?_, h4⟩
      rw [List.range_succ, List.map_append, List.foldlM_append, h1]
      simp only [List.map_cons, List.map_nil, List.foldlM_cons, List.foldlM_nil, Option.bind_eq_bind, Option.bind_some, h3, Option.pure_def]
  obtain ⟨r, h1, h2, h3, h4⟩ := hfold _ le_rfl
  refine ⟨r, h1, h2, h3, fun e he hf => ?_⟩
  obtain ⟨s, hs⟩ := Finset.card_eq_one.1 ((onBoundary_iff hM _).1 ((hfl e he).1 hf))
  obtain ⟨q1, q2⟩ := mem_sidesAt.1 (show (s.1, s.2) ∈ sidesAt m.topo e by rw [hs]; simp)
  unfold outflowData
  rw [hs, Finset.sum_singleton]
  have := h4 s.1 q1 s.2 q1 (by rw [q2]; exact hf)
  rw [q2] at this
  exact this

end

end Verif.Ipdg
