import Verif.Lemmas.RefExec

/-! The three loops of `PerformRefinement`. -/

namespace Verif
variable {G : Type}

section
variable (T : Topo) (P : Plan) (A : Pats) (Γ : GPlan G)

/-- Stored information on the copy of a node. -/
def outP (v : ℕ) : PointCI := { pat := .copy, child := some v }
/-- Stored information on the children of an edge. -/
def outE (e : ℕ) : EdgeCI :=
  { pat := P.epat e
    childEdges := (List.range (P.ew e)).map (off P.ew e + ·)
    childPoints := (List.range (P.mw e)).map (T.numNodes + off P.mw e + ·) }
/-- Stored information on the children of a cell. -/
def outC (c : ℕ) : CellCI :=
  { pat := A.pat c
    anchor := A.anc c
    childCells := (List.range (P.pw c)).map (off P.pw c + ·)
    childEdges := (List.range (P.iw c)).map (off P.ew T.numEdges + off P.iw c + ·)
    childPoints := (List.range (P.cw c)).map (T.numNodes + off P.mw T.numEdges + off P.cw c + ·) }

def subIns (e : ℕ) : List (EdgeIn G) :=
  List.zipWith (fun x g => ⟨P.num T x.1, P.num T x.2, some g⟩) (P.subPairs T e) (Γ.eg e)
def intIns (c : ℕ) : List (EdgeIn G) :=
  List.zipWith (fun x g => ⟨P.num T x.1, P.num T x.2, some g⟩) (P.intPairs T c) (Γ.ce c)
def cellIns (c : ℕ) : List (CellIn G) :=
  List.zipWith (fun Q g => ⟨(Q.map (locF T c)).map (P.num T), some g⟩) (P.polys c) (Γ.cg c)

/-- State of the factory in the loop over the nodes. -/
def st2 (i : ℕ) : Factory G := { nodes := (List.range i).flatMap fun v => (Γ.pg v).map some }
/-- State of the factory in the loop over the edges. -/
def st1 (i : ℕ) : Factory G :=
  { nodes := (st2 Γ T.numNodes).nodes ++ (List.range i).flatMap fun e => (Γ.em e).map some
    edges := (List.range i).flatMap (subIns T P Γ) }
/-- State of the factory in the loop over the cells. -/
def st0 (i : ℕ) : Factory G :=
  { nodes := (st1 T P Γ T.numEdges).nodes ++ (List.range i).flatMap fun c => (Γ.cm c).map some
    edges := (st1 T P Γ T.numEdges).edges ++ (List.range i).flatMap (intIns T P Γ)
    elements := (List.range i).flatMap (cellIns T P Γ) }

end

variable {cops : ChildOps G} {M : Mesh G} {P : Plan} {A : Pats} {Γ : GPlan G}
  (hR : Ready cops M P A) (hΓ : GeoFor cops M P A Γ)
include hR hΓ

theorem st2_len (i : ℕ) (hi : i ≤ M.topo.numNodes) : (st2 Γ i).nodes.length = i := by
  unfold st2
  rw [flatMap_length]
  have : off (fun v => ((Γ.pg v).map some).length) i = off (fun _ => 1) i :=
    off_congr (fun v hv => by
      obtain ⟨g, _, _, h, _⟩ := hΓ.point v (by omega)
      simpa using h)
  rw [this, off_const, Nat.mul_one]

theorem st1_len (i : ℕ) (hi : i ≤ M.topo.numEdges) :
    (st1 M.topo P Γ i).nodes.length = M.topo.numNodes + off P.mw i := by
  unfold st1
  rw [List.length_append, st2_len hR hΓ _ (Nat.le_refl _), flatMap_length]
  congr 1
  exact off_congr (fun e he => by
    obtain ⟨g, _, _, _, _, h, _⟩ := hΓ.edge e (by omega)
    simpa using h)

theorem subIns_len (e : ℕ) (he : e < M.topo.numEdges) : (subIns M.topo P Γ e).length = P.ew e := by
  obtain ⟨g, _, _, _, h, _⟩ := hΓ.edge e he
  simp [subIns, subPairs_length, h]

theorem intIns_len (c : ℕ) (hc : c < M.topo.numCells) : (intIns M.topo P Γ c).length = P.iw c := by
  obtain ⟨g, _, _, _, _, _, _, _, _, _, h, _⟩ := hΓ.cell c hc
  simp [intIns, intPairs_length, h]

theorem cg_len (c : ℕ) (hc : c < M.topo.numCells) : (Γ.cg c).length = P.pw c := by
  obtain ⟨g, _, _, _, _, _, _, _, _, h, _⟩ := hΓ.cell c hc
  have := congrArg List.length h
  simpa [Plan.pw] using this

theorem cellIns_len (c : ℕ) (hc : c < M.topo.numCells) : (cellIns M.topo P Γ c).length = P.pw c := by
  have := cg_len hR hΓ c hc
  simp [cellIns, this, Plan.pw]

theorem st1_edges_len (i : ℕ) (hi : i ≤ M.topo.numEdges) : (st1 M.topo P Γ i).edges.length = off P.ew i := by
  unfold st1
  rw [flatMap_length]
  exact off_congr (fun e he => subIns_len hR hΓ e (by omega))

theorem st0_len (i : ℕ) (hi : i ≤ M.topo.numCells) :
    (st0 M.topo P Γ i).nodes.length = M.topo.numNodes + off P.mw M.topo.numEdges + off P.cw i := by
  unfold st0
  rw [List.length_append, st1_len hR hΓ _ (Nat.le_refl _), flatMap_length]
  congr 1
  exact off_congr (fun c hc => by
    obtain ⟨g, _, _, _, _, _, _, _, _, _, _, _, h, _⟩ := hΓ.cell c (by omega)
    simpa using h)

theorem st0_edges_len (i : ℕ) (hi : i ≤ M.topo.numCells) :
    (st0 M.topo P Γ i).edges.length = off P.ew M.topo.numEdges + off P.iw i := by
  unfold st0
  rw [List.length_append, st1_edges_len hR hΓ _ (Nat.le_refl _), flatMap_length]
  congr 1
  exact off_congr (fun c hc => intIns_len hR hΓ c (by omega))

theorem st0_elems_len (i : ℕ) (hi : i ≤ M.topo.numCells) :
    (st0 M.topo P Γ i).elements.length = off P.pw i := by
  unfold st0
  rw [flatMap_length]
  exact off_congr (fun c hc => cellIns_len hR hΓ c (by omega))

/-! ### Nodes -/

theorem refinePoint_step (v : ℕ) (hv : v < M.topo.numNodes) :
    refinePoint cops M (st2 Γ v) ({ pat := .copy }, v) = some (st2 Γ (v + 1), outP v) := by
  obtain ⟨g, h1, h2, h3, _⟩ := hΓ.point v hv
  have hl := st2_len hR hΓ v (by omega)
  match hp : Γ.pg v, h3 with
  | [k], _ =>
    rw [hp] at h2
    unfold refinePoint
    rw [if_neg (by simp)]
    simp only [h1, Option.bind_some, show Pattern.make .point .copy none = some ⟨.point, none, .copy, false⟩ from rfl, h2]
    have e1 : (st2 Γ v).addPoint k = (st2 Γ (v + 1), v) := by
      unfold Factory.addPoint
      simp only [List.length_append, hl, List.length_singleton, Nat.add_sub_cancel]
      congr 1
      simp only [st2, flatMap_range_succ, hp, List.map_cons, List.map_nil]
    rw [e1]
    rfl

theorem loop_points (L : List PointCI) (hL : L = List.replicate M.topo.numNodes { pat := .copy }) :
    mapAcc (refinePoint cops M) {} L.zipIdx =
      some (st2 Γ M.topo.numNodes, (List.range M.topo.numNodes).map outP) := by
  have h := mapAcc_run (refinePoint cops M) L.zipIdx (st2 Γ) outP ?_
  · have hl : L.zipIdx.length = M.topo.numNodes := by rw [hL]; simp
    rw [hl] at h
    exact h
  · intro i x hx
    rw [List.getElem?_zipIdx] at hx
    obtain ⟨y, hy, rfl⟩ := Option.map_eq_some_iff.1 hx
    rw [hL, List.getElem?_replicate] at hy
    split at hy
    · cases hy
      rw [Nat.zero_add]
      exact refinePoint_step hR hΓ i ‹_›
    · cases hy

/-! ### Edges -/

theorem refineEdge_step (e : ℕ) (he : e < M.topo.numEdges) :
    refineEdge cops M ((List.range M.topo.numNodes).map outP) (st1 M.topo P Γ e) ({ pat := P.epat e }, e) =
      some (st1 M.topo P Γ (e + 1), outE M.topo P e) := by
  obtain ⟨g, h1, h2, h3, h4, h5, _⟩ := hΓ.edge e he
  have hl := st1_len hR hΓ e (by omega)
  have hel := st1_edges_len hR hΓ e (by omega)
  obtain ⟨l1, l2⟩ := hR.valid.wf.edge_lt e he
  have p1 : ((List.range M.topo.numNodes).map outP)[(M.topo.edge e).1]? = some (outP (M.topo.edge e).1) := by
    simp [l1]
  have p2 : ((List.range M.topo.numNodes).map outP)[(M.topo.edge e).2]? = some (outP (M.topo.edge e).2) := by
    simp [l2]
  unfold refineEdge
  simp only [p1, p2, Option.bind_some, outP, h1]
  cases hs : P.sp e with
  | false =>
    have ew1 : P.ew e = 1 := by simp [Plan.ew, hs]
    have mw0 : P.mw e = 0 := by simp [Plan.mw, hs]
    have ep : P.epat e = .copy := by simp [Plan.epat, hs]
    rw [ep] at h2 h3
    rw [ew1] at h4
    rw [mw0] at h5
    match hg : Γ.eg e, h4 with
    | [k], _ =>
      rw [hg] at h2
      simp only [ep, show Pattern.make .segment .copy none = some ⟨.segment, none, .copy, false⟩ from rfl,
        Option.bind_some, h2]
      have hem : Γ.em e = [] := List.length_eq_zero_iff.1 h5
      have e1 : (st1 M.topo P Γ e).addEntity .segment [(M.topo.edge e).1, (M.topo.edge e).2] (some k) =
          some (st1 M.topo P Γ (e + 1), off P.ew e) := by
        unfold Factory.addEntity
        rw [if_neg (by decide), if_pos (by simp [hl]; omega)]
        simp only [List.length_append, hel, List.length_singleton, Nat.add_sub_cancel]
        congr 2
        simp only [st1, flatMap_range_succ, hem, List.map_nil, List.append_nil]
        congr 2
        simp [subIns, Plan.subPairs, hs, hg, Plan.num]
      rw [e1]
      simp [outE, ew1, mw0, ep]
  | true =>
    have ew1 : P.ew e = 2 := by simp [Plan.ew, hs]
    have mw0 : P.mw e = 1 := by simp [Plan.mw, hs]
    have ep : P.epat e = .split := by simp [Plan.epat, hs]
    rw [ep] at h2 h3
    rw [ew1] at h4
    rw [mw0] at h5
    match hg : Γ.eg e, h4 with
    | [k0, k1], _ =>
      match hm : Γ.em e, h5 with
      | [k], _ =>
        rw [hg] at h2
        rw [hm] at h3
        simp only [ep, show Pattern.make .segment .split none = some ⟨.segment, none, .split, false⟩ from rfl,
          Option.bind_some, h2, h3]
        have e0 : (st1 M.topo P Γ e).addPoint k =
            ({ st1 M.topo P Γ e with nodes := (st1 M.topo P Γ (e + 1)).nodes }, M.topo.numNodes + off P.mw e) := by
          unfold Factory.addPoint
          simp only [List.length_append, hl, List.length_singleton, Nat.add_sub_cancel]
          congr 2
          simp only [st1, flatMap_range_succ, hm, List.map_cons, List.map_nil, List.append_assoc]
        rw [e0]
        have hl' := st1_len hR hΓ (e + 1) (by omega)
        rw [off_succ, mw0] at hl'
        simp only
        have e1 : ({ st1 M.topo P Γ e with nodes := (st1 M.topo P Γ (e + 1)).nodes } : Factory G).addEntity .segment
            [(M.topo.edge e).1, M.topo.numNodes + off P.mw e] (some k0) =
            some ({ st1 M.topo P Γ e with
              nodes := (st1 M.topo P Γ (e + 1)).nodes
              edges := (st1 M.topo P Γ e).edges ++ [⟨(M.topo.edge e).1, M.topo.numNodes + off P.mw e, some k0⟩] },
              off P.ew e) := by
          unfold Factory.addEntity
          rw [if_neg (by decide), if_pos (by simp [hl']; omega)]
          simp only [List.length_append, hel, List.length_singleton, Nat.add_sub_cancel]
        rw [e1]
        simp only [Option.bind_some]
        have e2 : ({ st1 M.topo P Γ e with
              nodes := (st1 M.topo P Γ (e + 1)).nodes
              edges := (st1 M.topo P Γ e).edges ++ [⟨(M.topo.edge e).1, M.topo.numNodes + off P.mw e, some k0⟩] } :
                Factory G).addEntity .segment
            [M.topo.numNodes + off P.mw e, (M.topo.edge e).2] (some k1) =
            some (st1 M.topo P Γ (e + 1), off P.ew e + 1) := by
          unfold Factory.addEntity
          rw [if_neg (by decide), if_pos (by simp [hl']; omega)]
          simp only [List.length_append, hel, List.length_singleton, Nat.add_sub_cancel]
          congr 2
          simp only [st1, flatMap_range_succ, List.append_assoc]
          congr 2
          simp [subIns, Plan.subPairs, hs, hg, Plan.num]
        rw [e2]
        simp [outE, ew1, mw0, ep, List.range_succ]

theorem st1_zero : st1 M.topo P Γ 0 = st2 Γ M.topo.numNodes := by
  simp [st1, st2]

theorem loop_edges (L : List EdgeCI) (hL : L = (List.range M.topo.numEdges).map fun e => { pat := P.epat e }) :
    mapAcc (refineEdge cops M ((List.range M.topo.numNodes).map outP)) (st2 Γ M.topo.numNodes) L.zipIdx =
      some (st1 M.topo P Γ M.topo.numEdges, (List.range M.topo.numEdges).map (outE M.topo P)) := by
  have h := mapAcc_run (refineEdge cops M ((List.range M.topo.numNodes).map outP)) L.zipIdx (st1 M.topo P Γ)
    (outE M.topo P) ?_
  · have hl : L.zipIdx.length = M.topo.numEdges := by rw [hL]; simp
    rw [hl, st1_zero hR hΓ] at h
    exact h
  · intro i x hx
    rw [List.getElem?_zipIdx] at hx
    obtain ⟨y, hy, rfl⟩ := Option.map_eq_some_iff.1 hx
    rw [hL, List.getElem?_map] at hy
    obtain ⟨z, hz, rfl⟩ := Option.map_eq_some_iff.1 hy
    obtain ⟨hi, rfl⟩ := List.getElem?_eq_some_iff.1 hz
    rw [Nat.zero_add, List.getElem_range]
    exact refineEdge_step hR hΓ i (by simpa using hi)

/-! ### Cells -/

theorem vertexChildren_eq (c : ℕ) (hc : c < M.topo.numCells) :
    vertexChildren ((List.range M.topo.numNodes).map outP) (M.topo.cell c).nodes = some (M.topo.cell c).nodes := by
  unfold vertexChildren
  rw [mapM_pure _ id]
  · simp
  · intro v hv
    have := hR.valid.wf.cell_nodes c hc v hv
    simp [this, outP]

/-- Midpoints of the sides. -/
def midsOf (T : Topo) (P : Plan) (c : ℕ) : List (Option ℕ) :=
  (T.cell c).edges.map fun e => if P.sp e then some (T.numNodes + off P.mw e) else none

theorem midpointChildren_eq (c : ℕ) (hc : c < M.topo.numCells) :
    midpointChildren ((List.range M.topo.numEdges).map (outE M.topo P)) (M.topo.cell c).edges =
      some (midsOf M.topo P c) := by
  unfold midpointChildren midsOf
  apply mapM_pure
  intro e he
  have := hR.valid.wf.cell_edges c hc e he
  have h1 : ((List.range M.topo.numEdges).map (outE M.topo P))[e]? = some (outE M.topo P e) := by simp [this]
  simp only [h1, Option.bind_some]
  cases hs : P.sp e with
  | false => simp [outE, Plan.mw, hs]
  | true => simp [outE, Plan.mw, Plan.epat, hs]

theorem resolve_eq (c : ℕ) (hc : c < M.topo.numCells) (ctr : Option ℕ)
    (hctr : P.ctr c = true → ctr = some (M.topo.numNodes + off P.mw M.topo.numEdges + off P.cw c)) (x : LNode)
    (hx : x ∈ legal (M.topo.cell c).nodes.length ((M.topo.cell c).edges.map P.sp) (P.ctr c)) :
    resolve (M.topo.cell c).nodes (midsOf M.topo P c) ctr x = some (P.num M.topo (locF M.topo c x)) := by
  cases x with
  | v i =>
    have hi := mem_legal_v.1 hx
    simp only [resolve, locF, Plan.num]
    rw [List.getElem?_eq_getElem hi, List.getD_eq_getElem _ _ hi]
  | m i =>
    obtain ⟨hi, hf⟩ := mem_legal_m.1 hx
    have hel := hR.valid.wf.cell_edges_len c hc
    have hi' : i < (M.topo.cell c).edges.length := by omega
    rw [List.getD_eq_getElem _ _ (by simpa using hi'), List.getElem_map] at hf
    simp only [resolve, locF, Plan.num, midsOf, List.getElem?_map, List.getElem?_eq_getElem hi', Option.map_some,
      List.getD_eq_getElem _ _ hi', hf, if_true]
    rfl
  | ctr =>
    have := mem_legal_ctr.1 hx
    simp only [resolve, locF, Plan.num]
    exact hctr this

theorem addCenter_eq (c : ℕ) (hc : c < M.topo.numCells) (g : G) (p : Pattern) (hp : cops.child g p 2 = some (Γ.cm c))
    (hpc : hasCenter p.ref p.pat = P.ctr c) :
    addCenter cops g p (st0 M.topo P Γ c) = some ({ st0 M.topo P Γ c with nodes := (st0 M.topo P Γ (c + 1)).nodes },
      if P.ctr c then some (M.topo.numNodes + off P.mw M.topo.numEdges + off P.cw c) else none) := by
  have hl := st0_len hR hΓ c (by omega)
  obtain ⟨_, _, _, _, _, _, _, _, _, _, _, _, h5, _⟩ := hΓ.cell c hc
  unfold addCenter
  rw [hpc]
  cases hs : P.ctr c with
  | false =>
    have cw0 : P.cw c = 0 := by simp [Plan.cw, hs]
    rw [cw0] at h5
    have hcm : Γ.cm c = [] := List.length_eq_zero_iff.1 h5
    simp only [Bool.false_eq_true, if_false]
    congr 2
    simp only [st0, flatMap_range_succ, hcm, List.map_nil, List.append_nil]
  | true =>
    have cw0 : P.cw c = 1 := by simp [Plan.cw, hs]
    rw [cw0] at h5
    match hm : Γ.cm c, h5 with
    | [k], _ =>
      rw [hm] at hp
      simp only [if_true, hp, Option.bind_some, Factory.addPoint, List.length_append, hl, List.length_singleton,
        Nat.add_sub_cancel]
      congr 3
      simp only [st0, flatMap_range_succ, hm, List.map_cons, List.map_nil, List.append_assoc]

theorem refineCell_step (c : ℕ) (hc : c < M.topo.numCells) :
    refineCell cops M ((List.range M.topo.numNodes).map outP) ((List.range M.topo.numEdges).map (outE M.topo P))
      (st0 M.topo P Γ c) ({ pat := A.pat c, anchor := A.anc c }, c) =
      some (st0 M.topo P Γ (c + 1), outC M.topo P A c) := by
  obtain ⟨ref, p, hr, hcr, hnn, hm, hp, hch, hctr, hloc⟩ := hR.cell c hc
  obtain ⟨g, ref', p', b1, b2, b3, b4, b5, b6, b7, b8, _, b9, _⟩ := hΓ.cell c hc
  rw [hcr] at b2
  cases b2
  rw [hm] at b3
  cases b3
  obtain ⟨_, _, _, n0, n1⟩ := lat_ok hr hm hp hch
  have hpc : hasCenter p.ref p.pat = P.ctr c := by rw [make_eq hm, hctr]
  have hvc := vertexChildren_eq hR hΓ c hc
  have hmc := midpointChildren_eq hR hΓ c hc
  have hac := addCenter_eq hR hΓ c hc g p b6 hpc
  have hnum : ∀ x ∈ legal (M.topo.cell c).nodes.length ((M.topo.cell c).edges.map P.sp) (P.ctr c),
      P.num M.topo (locF M.topo c x) < (st0 M.topo P Γ (c + 1)).nodes.length := by
    intro x hx
    rw [st0_len hR hΓ (c + 1) (by omega)]
    cases x with
    | v i =>
      have hi := mem_legal_v.1 hx
      have := hR.valid.wf.cell_nodes c hc _ (getD_mem _ _ hi)
      simp only [locF, Plan.num]
      omega
    | m i =>
      obtain ⟨hi, hf⟩ := mem_legal_m.1 hx
      have hel := hR.valid.wf.cell_edges_len c hc
      have hi' : i < (M.topo.cell c).edges.length := by omega
      rw [List.getD_eq_getElem _ _ (by simpa using hi'), List.getElem_map] at hf
      have h1 := hR.valid.wf.cell_edges c hc _ (List.getElem_mem hi')
      have h2 := off_lt P.mw h1 (j := 0) (by simp [Plan.mw, hf])
      simp only [locF, Plan.num, List.getD_eq_getElem _ _ hi']
      omega
    | ctr =>
      have hcc := mem_legal_ctr.1 hx
      have := off_lt P.cw (show c < c + 1 by omega) (j := 0) (by simp [Plan.cw, hcc])
      simp only [locF, Plan.num]
      omega
  have hres := resolve_eq hR hΓ c hc
    (if P.ctr c then some (M.topo.numNodes + off P.mw M.topo.numEdges + off P.cw c) else none)
    (by intro h; simp [h])
  have hcn : ((P.polys c).mapM fun (nodes : List LNode) => nodes.mapM (resolve (M.topo.cell c).nodes
      (midsOf M.topo P c)
      (if P.ctr c then some (M.topo.numNodes + off P.mw M.topo.numEdges + off P.cw c) else none))) =
      some ((P.polys c).map fun Q => (Q.map (locF M.topo c)).map (P.num M.topo)) := by
    apply mapM_pure
    intro Q hQ
    rw [List.map_map]
    apply mapM_pure
    intro x hx
    exact hres x ((hloc.polysOk Q hQ).2.2 x hx)
  have hen : ((P.ints c).mapM fun (e : LNode × LNode) =>
      (resolve (M.topo.cell c).nodes (midsOf M.topo P c)
        (if P.ctr c then some (M.topo.numNodes + off P.mw M.topo.numEdges + off P.cw c) else none) e.1).bind fun a =>
      (resolve (M.topo.cell c).nodes (midsOf M.topo P c)
        (if P.ctr c then some (M.topo.numNodes + off P.mw M.topo.numEdges + off P.cw c) else none) e.2).bind fun b =>
      some (a, b)) =
      some ((P.intPairs M.topo c).map fun x => (P.num M.topo x.1, P.num M.topo x.2)) := by
    unfold Plan.intPairs
    rw [List.map_map]
    apply mapM_pure
    intro x hx
    obtain ⟨i1, i2, _⟩ := hloc.intsOk x hx
    rw [hres _ i1, hres _ i2]
    rfl
  unfold refineCell
  simp only [hcr, b1, hm, hvc, hmc, hch, hac, hcn, hen, b5, b4, Option.bind_some]
  rw [if_pos (by rw [n1]; simp [Plan.intPairs])]
  rw [addChildEdge_run]
  rotate_left
  · simp only [List.length_map, intPairs_length]; exact b8
  · intro x hx
    obtain ⟨y, hy, rfl⟩ := List.mem_map.1 hx
    unfold Plan.intPairs at hy
    obtain ⟨z, hz, rfl⟩ := List.mem_map.1 hy
    obtain ⟨i1, i2, _⟩ := hloc.intsOk z hz
    exact ⟨hnum _ i1, hnum _ i2⟩
  simp only [Option.bind_some]
  rw [if_pos (by rw [n0]; simp)]
  rw [addChildCell_run]
  rotate_left
  · simp only [List.length_map]; exact cg_len hR hΓ c hc
  · intro Q hQ
    obtain ⟨R, hR', rfl⟩ := List.mem_map.1 hQ
    simpa using (hloc.polysOk R hR').1
  · intro Q hQ v hv
    obtain ⟨R, hR', rfl⟩ := List.mem_map.1 hQ
    obtain ⟨y, hy, rfl⟩ := List.mem_map.1 hv
    obtain ⟨z, hz, rfl⟩ := List.mem_map.1 hy
    exact hnum z ((hloc.polysOk R hR').2.2 z hz)
  simp only [Option.bind_some]
  have q1 := st0_edges_len hR hΓ c (by omega)
  have q2 := st0_elems_len hR hΓ c (by omega)
  have r1 : (st0 M.topo P Γ c).edges ++ List.zipWith (fun x g => (⟨x.1, x.2, some g⟩ : EdgeIn G))
      ((P.intPairs M.topo c).map fun x => (P.num M.topo x.1, P.num M.topo x.2)) (Γ.ce c) =
      (st0 M.topo P Γ (c + 1)).edges := by
    simp only [st0, flatMap_range_succ, List.append_assoc, intIns, List.zipWith_map_left]
  have r2 : (st0 M.topo P Γ c).elements ++ List.zipWith (fun x g => (⟨x, some g⟩ : CellIn G))
      ((P.polys c).map fun Q => (Q.map (locF M.topo c)).map (P.num M.topo)) (Γ.cg c) =
      (st0 M.topo P Γ (c + 1)).elements := by
    simp only [st0, flatMap_range_succ, cellIns, List.zipWith_map_left]
  rw [r1, r2, q1, q2]
  congr 2
  simp only [outC, List.nil_append, List.length_map, intPairs_length]
  congr 1
  unfold Plan.cw
  cases P.ctr c <;> simp

theorem st0_zero : st0 M.topo P Γ 0 = st1 M.topo P Γ M.topo.numEdges := by
  simp [st0, st1]

theorem loop_cells (L : List CellCI)
    (hL : L = (List.range M.topo.numCells).map fun c => { pat := A.pat c, anchor := A.anc c }) :
    mapAcc (refineCell cops M ((List.range M.topo.numNodes).map outP)
      ((List.range M.topo.numEdges).map (outE M.topo P))) (st1 M.topo P Γ M.topo.numEdges) L.zipIdx =
      some (st0 M.topo P Γ M.topo.numCells, (List.range M.topo.numCells).map (outC M.topo P A)) := by
  have h := mapAcc_run (refineCell cops M ((List.range M.topo.numNodes).map outP)
      ((List.range M.topo.numEdges).map (outE M.topo P))) L.zipIdx (st0 M.topo P Γ) (outC M.topo P A) ?_
  · have hl : L.zipIdx.length = M.topo.numCells := by rw [hL]; simp
    rw [hl, st0_zero hR hΓ] at h
    exact h
  · intro i x hx
    rw [List.getElem?_zipIdx] at hx
    obtain ⟨y, hy, rfl⟩ := Option.map_eq_some_iff.1 hx
    rw [hL, List.getElem?_map] at hy
    obtain ⟨z, hz, rfl⟩ := Option.map_eq_some_iff.1 hy
    obtain ⟨hi, rfl⟩ := List.getElem?_eq_some_iff.1 hz
    rw [Nat.zero_add, List.getElem_range]
    exact refineCell_step hR hΓ i (by simpa using hi)

end Verif
