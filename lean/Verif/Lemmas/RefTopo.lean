import Verif.Lemmas.RefNumber

/-! The topology of the refined mesh. -/

namespace Verif

theorem sidesOf_eq (nodes : List ℕ) :
    sidesOf nodes = (List.range nodes.length).map fun j => s((side nodes j).1, (side nodes j).2) := by
  unfold sidesOf side
  apply List.ext_getElem
  · simp
  · intro i h1 h2
    have hi : i < nodes.length := by simpa using h2
    have hm : (i + 1) % nodes.length < nodes.length := Nat.mod_lt _ (by omega)
    simp only [List.getElem_zipWith, List.getElem_map, List.getElem_range, List.getElem_rotate,
      List.getD_eq_getElem _ _ hi, List.getD_eq_getElem _ _ hm]

/-- Sides of all cells. -/
def Topo.sidesS (T : Topo) : List (Sym2 ℕ) := (List.range T.numCells).flatMap fun c => sidesOf (T.cell c).nodes

theorem cell_count (T : Topo) (hT : T.WF) (e : ℕ) (he : e < T.numEdges) (c : ℕ) (hc : c < T.numCells) :
    (T.cell c).edges.count e = (sidesOf (T.cell c).nodes).count s((T.edge e).1, (T.edge e).2) := by
  have hl := hT.cell_edges_len c hc
  rw [sidesOf_eq, ← hl]
  have hed : (T.cell c).edges = (List.range (T.cell c).edges.length).map (fun i => (T.cell c).edges.getD i 0) := by
    apply List.ext_getElem (by simp)
    intro i h1 h2
    simp [h1]
  conv_lhs => rw [hed]
  unfold List.count
  rw [List.countP_map, List.countP_map]
  apply List.countP_congr
  intro j hj
  have hj' : j < (T.cell c).edges.length := by simpa using hj
  have hs := hT.cell_side c hc j (by omega)
  rw [samePair_iff] at hs
  simp only [Function.comp, beq_iff_eq]
  rw [← hs]
  constructor
  · intro h; rw [h]
  · intro h
    exact hT.edge_inj _ (hT.cell_edges c hc _ (getD_mem _ _ hj')) e he ((samePair_iff _ _).2 h)

theorem incidence_sides (T : Topo) (hT : T.WF) (e : ℕ) (he : e < T.numEdges) :
    T.incidence e = T.sidesS.count s((T.edge e).1, (T.edge e).2) := by
  unfold Topo.incidence Topo.sidesS
  rw [List.count_flatMap]
  congr 1
  apply List.map_congr_left
  intro c hc
  exact cell_count T hT e he c (by simpa using hc)

/-- `T'` is the mesh described by the plan. -/
structure IsRef (T : Topo) (P : Plan) (T' : Topo) : Prop where
  wf : T'.WF
  numNodes : T'.numNodes = P.numFine T
  numCells : T'.numCells = (P.fineCells T).length
  numEdges : T'.numEdges = (P.fineEdges T).length
  cell : ∀ (k : ℕ) (Q : List FNode), (P.fineCells T)[k]? = some Q → (T'.cell k).nodes = Q.map (P.num T)
  edge : ∀ (k : ℕ) (x : FNode × FNode), (P.fineEdges T)[k]? = some x → T'.edge k = (P.num T x.1, P.num T x.2)

section
variable {T : Topo} {P : Plan}

theorem subPairs_length (e : ℕ) : (P.subPairs T e).length = P.ew e := by
  unfold Plan.subPairs Plan.ew; split <;> rfl

theorem intPairs_length (c : ℕ) : (P.intPairs T c).length = P.iw c := by
  simp [Plan.intPairs, Plan.iw]

theorem fineEdges_length : (P.fineEdges T).length = off P.ew T.numEdges + off P.iw T.numCells := by
  unfold Plan.fineEdges
  rw [List.length_append, flatMap_length, flatMap_length]
  congr 1
  · exact off_congr (fun e _ => subPairs_length e)
  · exact off_congr (fun e _ => intPairs_length e)

theorem fineCells_length : (P.fineCells T).length = off P.pw T.numCells := by
  unfold Plan.fineCells
  rw [flatMap_length]
  exact off_congr (fun c _ => by simp [Plan.pw])

theorem fineEdges_sub (e : ℕ) (he : e < T.numEdges) (j : ℕ) (hj : j < P.ew e) :
    (P.fineEdges T)[off P.ew e + j]? = (P.subPairs T e)[j]? := by
  unfold Plan.fineEdges
  rw [List.getElem?_append_left, flatMap_get _ P.ew _ (fun e _ => (subPairs_length e).symm) e he j hj]
  rw [flatMap_length, off_congr (w' := P.ew) (fun e _ => subPairs_length e)]
  exact off_lt _ he hj

theorem fineEdges_int (c : ℕ) (hc : c < T.numCells) (j : ℕ) (hj : j < P.iw c) :
    (P.fineEdges T)[off P.ew T.numEdges + (off P.iw c + j)]? = (P.intPairs T c)[j]? := by
  unfold Plan.fineEdges
  have hl : ((List.range T.numEdges).flatMap (P.subPairs T)).length = off P.ew T.numEdges := by
    rw [flatMap_length, off_congr (w' := P.ew) (fun e _ => subPairs_length e)]
  rw [List.getElem?_append_right (by rw [hl]; omega), hl, Nat.add_sub_cancel_left,
    flatMap_get _ P.iw _ (fun e _ => (intPairs_length e).symm) c hc j hj]

theorem fineCells_get (c : ℕ) (hc : c < T.numCells) (i : ℕ) (hi : i < (P.polys c).length) :
    (P.fineCells T)[off P.pw c + i]? = some (((P.polys c)[i]).map (locF T c)) := by
  unfold Plan.fineCells
  rw [flatMap_get _ P.pw _ (fun c _ => by simp [Plan.pw]) c hc i hi]
  simp [hi]

variable {T' : Topo} (hT : T.Conforming) (hP : P.Ok T) (hR : IsRef T P T')
include hT hP

theorem fineEdges_valid (x : FNode × FNode) (hx : x ∈ P.fineEdges T) :
    P.ValidNode T x.1 ∧ P.ValidNode T x.2 ∧ x.1 ≠ x.2 := by
  unfold Plan.fineEdges at hx
  rw [List.mem_append, List.mem_flatMap, List.mem_flatMap] at hx
  rcases hx with ⟨e, he, hx⟩ | ⟨c, hc, hx⟩
  · have he' : e < T.numEdges := by simpa using he
    obtain ⟨l1, l2⟩ := hT.wf.edge_lt e he'
    unfold Plan.subPairs at hx
    cases hs : P.sp e with
    | false =>
      simp [hs] at hx
      subst hx
      refine ⟨l1, l2, ?_⟩
      simpa using hT.wf.edge_ne e he'
    | true =>
      simp [hs] at hx
      rcases hx with rfl | rfl
      · exact ⟨l1, ⟨he', hs⟩, by simp⟩
      · exact ⟨⟨he', hs⟩, l2, by simp⟩
  · have hc' : c < T.numCells := by simpa using hc
    unfold Plan.intPairs at hx
    rw [List.mem_map] at hx
    obtain ⟨y, hy, rfl⟩ := hx
    obtain ⟨a1, a2, a3⟩ := int_legal hT hP c hc' y hy
    exact ⟨locF_valid hT c hc' _ a1, locF_valid hT c hc' _ a2, a3⟩

theorem fineCells_mem (Q : List FNode) (hQ : Q ∈ P.fineCells T) :
    ∃ c < T.numCells, ∃ i, ∃ hi : i < (P.polys c).length, Q = ((P.polys c)[i]).map (locF T c) := by
  unfold Plan.fineCells at hQ
  rw [List.mem_flatMap] at hQ
  obtain ⟨c, hc, hQ⟩ := hQ
  obtain ⟨R, hR, rfl⟩ := List.mem_map.1 hQ
  obtain ⟨i, hi, rfl⟩ := List.getElem_of_mem hR
  exact ⟨c, by simpa using hc, i, hi, rfl⟩

theorem fineCells_valid (Q : List FNode) (hQ : Q ∈ P.fineCells T) :
    (Q.length = 3 ∨ Q.length = 4) ∧ Q.Nodup ∧ ∀ x ∈ Q, P.ValidNode T x := by
  obtain ⟨c, hc, i, hi, rfl⟩ := fineCells_mem hT hP Q hQ
  have hm : (P.polys c)[i] ∈ P.polys c := List.getElem_mem _
  obtain ⟨h1, h2, h3⟩ := (hP c hc).polysOk _ hm
  refine ⟨by simpa using h1, poly_nodup hT hP c hc _ hm, ?_⟩
  intro x hx
  obtain ⟨y, hy, rfl⟩ := List.mem_map.1 hx
  exact locF_valid hT c hc y (h3 y hy)

/-- Every side of a fine cell is registered. -/
theorem sides_registered (Q : List FNode) (hQ : Q ∈ P.fineCells T) (z : Sym2 FNode) (hz : z ∈ sidesOf Q) :
    z ∈ toS (P.fineEdges T) := by
  have h1 : z ∈ (P.fineCells T).flatMap sidesOf := List.mem_flatMap.2 ⟨Q, hQ, hz⟩
  rw [(fine_sides hT hP).mem_iff] at h1
  have h : toS (P.fineEdges T) = (List.range T.numEdges).flatMap (fun e => toS (P.subPairs T e)) ++
      (List.range T.numCells).flatMap (fun c => toS (P.intPairs T c)) := by
    simp [toS, Plan.fineEdges, List.map_flatMap]
  rw [h, List.mem_append]
  rw [List.mem_append, List.mem_append, or_self] at h1
  rcases h1 with h1 | h1
  · left
    rw [List.mem_flatMap] at h1 ⊢
    obtain ⟨e, he, h1⟩ := h1
    rw [List.mem_flatMap] at he
    obtain ⟨c, hc, he⟩ := he
    exact ⟨e, by simpa using hT.wf.cell_edges c (by simpa using hc) e he, h1⟩
  · exact Or.inr h1

/-- Ends of sides of fine cells are nodes of the mesh. -/
theorem mem_toS_valid (z : Sym2 FNode) (hz : z ∈ toS (P.fineEdges T)) :
    ∃ a b, z = s(a, b) ∧ P.ValidNode T a ∧ P.ValidNode T b := by
  unfold toS at hz
  obtain ⟨x, hx, rfl⟩ := List.mem_map.1 hz
  obtain ⟨h1, h2, _⟩ := fineEdges_valid hT hP x hx
  exact ⟨_, _, rfl, h1, h2⟩

theorem num_sym_inj (z w : Sym2 FNode) (hz : z ∈ toS (P.fineEdges T)) (hw : w ∈ toS (P.fineEdges T))
    (h : Sym2.map (P.num T) z = Sym2.map (P.num T) w) : z = w := by
  obtain ⟨a, b, rfl, ha, hb⟩ := mem_toS_valid hT hP z hz
  obtain ⟨c, d, rfl, hc, hd⟩ := mem_toS_valid hT hP w hw
  rw [Sym2.map_mk, Sym2.map_mk, Sym2.eq_iff] at h
  rw [Sym2.eq_iff]
  rcases h with ⟨h1, h2⟩ | ⟨h1, h2⟩
  · exact Or.inl ⟨num_inj _ _ ha hc h1, num_inj _ _ hb hd h2⟩
  · exact Or.inr ⟨num_inj _ _ ha hd h1, num_inj _ _ hb hc h2⟩

include hR

theorem fine_sidesS : T'.sidesS = ((P.fineCells T).flatMap sidesOf).map (Sym2.map (P.num T)) := by
  unfold Topo.sidesS
  rw [hR.numCells, List.map_flatMap]
  have : (fun Q => (sidesOf Q).map (Sym2.map (P.num T))) = fun Q => sidesOf (Q.map (P.num T)) := by
    funext Q; rw [sidesOf_map]
  rw [this]
  have h2 : (P.fineCells T).flatMap (fun Q => sidesOf (Q.map (P.num T))) =
      ((P.fineCells T).map (fun Q => Q.map (P.num T))).flatMap sidesOf := by rw [List.flatMap_map]
  have h3 : (List.range (P.fineCells T).length).flatMap (fun c => sidesOf (T'.cell c).nodes) =
      ((List.range (P.fineCells T).length).map (fun c => (T'.cell c).nodes)).flatMap sidesOf := by
    rw [List.flatMap_map]
  rw [h2, h3]
  congr 1
  apply List.ext_getElem (by simp)
  intro k h4 h5
  simp only [List.getElem_map, List.getElem_range]
  exact hR.cell k _ (List.getElem?_eq_getElem _)

/-- Number of cells at a fine edge. -/
theorem fine_incidence (k : ℕ) (x : FNode × FNode) (hx : (P.fineEdges T)[k]? = some x) :
    T'.incidence k = ((P.fineCells T).flatMap sidesOf).count s(x.1, x.2) := by
  have hk : k < T'.numEdges := by
    rw [hR.numEdges]
    exact (List.getElem?_eq_some_iff.1 hx).1
  rw [incidence_sides T' hR.wf k hk, hR.edge k x hx, fine_sidesS hT hP hR]
  rw [show s((P.num T x.1, P.num T x.2).1, (P.num T x.1, P.num T x.2).2) = Sym2.map (P.num T) s(x.1, x.2) from rfl]
  apply count_map_on
  intro y hy h
  rw [List.mem_flatMap] at hy
  obtain ⟨Q, hQ, hy⟩ := hy
  exact num_sym_inj hT hP y _ (sides_registered hT hP Q hQ y hy)
    (by unfold toS; exact List.mem_map.2 ⟨x, List.mem_of_getElem? hx, rfl⟩) h

theorem incidence_sub (e : ℕ) (he : e < T.numEdges) (j : ℕ) (hj : j < P.ew e) :
    T'.incidence (off P.ew e + j) = T.incidence e := by
  have hj' : j < (P.subPairs T e).length := by rw [subPairs_length]; exact hj
  have hx := fineEdges_sub (T := T) e he j hj
  rw [List.getElem?_eq_getElem hj'] at hx
  have hmem : s(((P.subPairs T e)[j]).1, ((P.subPairs T e)[j]).2) ∈ toS (P.subPairs T e) :=
    List.mem_map.2 ⟨_, List.getElem_mem hj', rfl⟩
  rw [fine_incidence hT hP hR _ _ hx, (fine_sides hT hP).count_eq, List.count_append, List.count_append]
  have hz : ((List.range T.numCells).flatMap (fun c => toS (P.intPairs T c))).count
      s(((P.subPairs T e)[j]).1, ((P.subPairs T e)[j]).2) = 0 := by
    apply List.count_eq_zero_of_not_mem
    intro h
    rw [List.mem_flatMap] at h
    obtain ⟨c, hc, h⟩ := h
    exact subs_ints_disjoint hT hP e c he (by simpa using hc) hmem h
  rw [hz, count_flatMap_one _ _ _ e]
  · rw [List.count_flatMap]; rfl
  · exact List.count_eq_one_of_mem (subs_nodup hT e he) hmem
  · intro f hf hne hin
    rw [List.mem_flatMap] at hf
    obtain ⟨c, hc, hf⟩ := hf
    exact subs_disjoint hT e f he (hT.wf.cell_edges c (by simpa using hc) f hf) (Ne.symm hne) hmem hin

theorem incidence_int (c : ℕ) (hc : c < T.numCells) (j : ℕ) (hj : j < P.iw c) :
    T'.incidence (off P.ew T.numEdges + (off P.iw c + j)) = 2 := by
  have hj' : j < (P.intPairs T c).length := by rw [intPairs_length]; exact hj
  have hx := fineEdges_int (T := T) c hc j hj
  rw [List.getElem?_eq_getElem hj'] at hx
  have hmem : s(((P.intPairs T c)[j]).1, ((P.intPairs T c)[j]).2) ∈ toS (P.intPairs T c) :=
    List.mem_map.2 ⟨_, List.getElem_mem hj', rfl⟩
  rw [fine_incidence hT hP hR _ _ hx, (fine_sides hT hP).count_eq, List.count_append, List.count_append]
  have hz : (((List.range T.numCells).flatMap fun c => (T.cell c).edges).flatMap
      (fun e => toS (P.subPairs T e))).count s(((P.intPairs T c)[j]).1, ((P.intPairs T c)[j]).2) = 0 := by
    apply List.count_eq_zero_of_not_mem
    intro h
    rw [List.mem_flatMap] at h
    obtain ⟨e, he, h⟩ := h
    rw [List.mem_flatMap] at he
    obtain ⟨d, hd, he⟩ := he
    exact subs_ints_disjoint hT hP e c (hT.wf.cell_edges d (by simpa using hd) e he) hc h hmem
  have hi : ((List.range T.numCells).flatMap (fun c => toS (P.intPairs T c))).count
      s(((P.intPairs T c)[j]).1, ((P.intPairs T c)[j]).2) = 1 := by
    rw [count_flatMap_one _ _ _ c]
    · exact List.count_eq_one_of_mem List.nodup_range (by simpa using hc)
    · exact List.count_eq_one_of_mem (ints_nodup hT hP c hc) hmem
    · intro d hd hne hin
      exact ints_disjoint hT hP c d hc (by simpa using hd) (Ne.symm hne) hmem hin
  rw [hz, hi]

/-- The refined mesh is conforming. -/
theorem fine_conforming : T'.Conforming := by
  have hnum : ∀ Q ∈ P.fineCells T, ∀ x ∈ Q, P.ValidNode T x := fun Q hQ => (fineCells_valid hT hP Q hQ).2.2
  have hcell : ∀ k < T'.numCells, ∃ c < T.numCells, ∃ i, ∃ hi : i < (P.polys c).length,
      k = off P.pw c + i ∧ (T'.cell k).nodes = (((P.polys c)[i]).map (locF T c)).map (P.num T) ∧
      ((P.polys c)[i]).map (locF T c) ∈ P.fineCells T := by
    intro k hk
    rw [hR.numCells, fineCells_length] at hk
    obtain ⟨c, hc, i, hi, rfl⟩ := off_split P.pw hk
    have hg := fineCells_get (T := T) c hc i hi
    exact ⟨c, hc, i, hi, rfl, hR.cell _ _ hg, List.mem_of_getElem? hg⟩
  have hedge : ∀ k < T'.numCells, ∀ z ∈ sidesOf (T'.cell k).nodes, ∃ e ∈ (T'.cell k).edges,
      z = s((T'.edge e).1, (T'.edge e).2) := by
    intro k hk z hz
    rw [sidesOf_eq, List.mem_map] at hz
    obtain ⟨j, hj, rfl⟩ := hz
    have hj' : j < (T'.cell k).nodes.length := by simpa using hj
    have hl := hR.wf.cell_edges_len k hk
    refine ⟨(T'.cell k).edges.getD j 0, getD_mem _ _ (by omega), ?_⟩
    exact ((samePair_iff _ _).1 (hR.wf.cell_side k hk j hj')).symm
  refine ⟨hR.wf, ?_, ?_, ?_⟩
  · intro k hk
    obtain ⟨c, hc, i, hi, rfl, hn, hm⟩ := hcell k hk
    rw [hn, List.nodup_map_iff_inj_on (fineCells_valid hT hP _ hm).2.1]
    intro x hx y hy h
    exact num_inj x y (hnum _ hm x hx) (hnum _ hm y hy) h
  · intro k hk l hl hkl a b hab ha hb ha' hb'
    obtain ⟨c, hc, i, hi, rfl, hn, hm⟩ := hcell k hk
    obtain ⟨d, hd, j, hj, rfl, hn', hm'⟩ := hcell l hl
    have hne : (c, i) ≠ (d, j) := by
      intro h
      cases h
      exact hkl rfl
    have hkk := hk
    have hll := hl
    rw [hn, List.mem_map] at ha hb
    rw [hn', List.mem_map] at ha' hb'
    obtain ⟨A, hA, rfl⟩ := ha
    obtain ⟨B, hB, rfl⟩ := hb
    obtain ⟨A', hA', hAA⟩ := ha'
    obtain ⟨B', hB', hBB⟩ := hb'
    have e1 := num_inj _ _ (hnum _ hm' A' hA') (hnum _ hm A hA) hAA
    have e2 := num_inj _ _ (hnum _ hm' B' hB') (hnum _ hm B hB) hBB
    subst e1 e2
    have hABne : A' ≠ B' := fun h => hab (by rw [h])
    obtain ⟨s1, s2, s3⟩ := fine_share hT hP c d hc hd i j hi hj hne A' B' hABne hA hB hA' hB'
    have s1' : s(P.num T A', P.num T B') ∈ sidesOf (T'.cell (off P.pw c + i)).nodes := by
      rw [hn, sidesOf_map]; exact List.mem_map.2 ⟨_, s1, rfl⟩
    have s2' : s(P.num T A', P.num T B') ∈ sidesOf (T'.cell (off P.pw d + j)).nodes := by
      rw [hn', sidesOf_map]; exact List.mem_map.2 ⟨_, s2, rfl⟩
    obtain ⟨e, he, hee⟩ := hedge _ hkk _ s1'
    obtain ⟨f, hf, hff⟩ := hedge _ hll _ s2'
    have hef : e = f := hR.wf.edge_inj e (hR.wf.cell_edges _ hkk e he) f (hR.wf.cell_edges _ hll f hf)
      ((samePair_iff _ _).2 (hee.symm.trans hff))
    subst hef
    refine ⟨⟨e, he, hf, (samePair_iff _ _).2 hee.symm⟩, ?_⟩
    intro w hw hw'
    rw [hn, List.mem_map] at hw
    rw [hn', List.mem_map] at hw'
    obtain ⟨W, hW, rfl⟩ := hw
    obtain ⟨W', hW', hWW⟩ := hw'
    have e3 := num_inj _ _ (hnum _ hm' W' hW') (hnum _ hm W hW) hWW
    subst e3
    rcases s3 W' hW hW' with h | h
    · exact Or.inl (by rw [h])
    · exact Or.inr (by rw [h])
  · intro k hk
    rw [hR.numEdges, fineEdges_length] at hk
    by_cases h : k < off P.ew T.numEdges
    · obtain ⟨e, he, j, hj, rfl⟩ := off_split P.ew h
      rw [incidence_sub hT hP hR e he j hj]
      exact hT.two e he
    · obtain ⟨c, hc, j, hj, hk'⟩ := off_split P.iw (n := T.numCells) (k := k - off P.ew T.numEdges) (by omega)
      have : k = off P.ew T.numEdges + (off P.iw c + j) := by omega
      rw [this, incidence_int hT hP hR c hc j hj]

/-- Change of the numbers of entities. -/
theorem fine_euler : T'.numNodes + T'.numCells + T.numEdges = T'.numEdges + T.numNodes + T.numCells := by
  rw [hR.numNodes, hR.numCells, hR.numEdges, fineEdges_length, fineCells_length]
  have h1 : off P.ew T.numEdges = off P.mw T.numEdges + T.numEdges := by
    have : off P.ew T.numEdges = off (fun e => P.mw e + 1) T.numEdges :=
      off_congr (fun e _ => by unfold Plan.ew Plan.mw; cases P.sp e <;> rfl)
    rw [this, off_add, off_const, Nat.mul_one]
  have h2 : off P.pw T.numCells + off P.cw T.numCells = T.numCells + off P.iw T.numCells := by
    rw [← off_add]
    have : off (fun i => P.pw i + P.cw i) T.numCells = off (fun c => 1 + P.iw c) T.numCells :=
      off_congr (fun c hc => (hP c hc).eulerOk)
    rw [this, off_add, off_const, Nat.mul_one]
  unfold Plan.numFine
  omega

end
end Verif
