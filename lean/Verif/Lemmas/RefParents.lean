import Verif.Lemmas.RefBuild

/-! Parent information, refinement edges and relative geometries created by `PerformRefinement`. -/

namespace Verif
variable {G : Type}

theorem zipIdx_range {β : Type} (out : ℕ → β) (n : ℕ) :
    ((List.range n).map out).zipIdx = (List.range n).map fun i => (out i, i) := by
  apply List.ext_getElem (by simp)
  intro i h1 h2
  simp

/-- Information stored for child `j` of an entity. -/
def pinfo (par : Ent) (j : ℕ) : ParentInfo := { parent := some par, childNumber := some j }

theorem childWrites_range (par : Ent) (w b : ℕ) :
    childWrites par ((List.range w).map (b + ·)) = (List.range w).map fun j => (b + j, pinfo par j) := by
  unfold childWrites
  rw [zipIdx_range, List.map_map]
  rfl

theorem writeParents_aux (n : ℕ) (ws : List (ℕ × ParentInfo)) :
    ∀ k, ws.map (·.1) = List.range k → k ≤ n →
      writeParents (List.replicate n {}) ws = some (ws.map (·.2) ++ List.replicate (n - k) ({} : ParentInfo)) := by
  induction ws using List.reverseRecOn with
  | nil =>
    intro k h _
    have : k = 0 := by simpa using congrArg List.length h.symm
    subst this
    rfl
  | append_singleton ws a ih =>
    intro k h hk
    have hl := congrArg List.length h
    simp only [List.map_append, List.length_append, List.length_map, List.map_cons, List.map_nil,
      List.length_singleton, List.length_range] at hl
    have hk1 : k = ws.length + 1 := hl.symm
    subst hk1
    rw [List.map_append, List.range_succ] at h
    have h' := List.append_inj h (by simp)
    have ha : a.1 = ws.length := by simpa using h'.2
    have := ih ws.length h'.1 (by omega)
    unfold writeParents at this ⊢
    rw [List.foldlM_append, this]
    simp only [Option.bind_eq_bind, Option.bind_some, List.foldlM_cons, List.foldlM_nil, ha]
    rw [if_pos (by simp; omega)]
    simp only [Option.bind_some, Option.pure_def, Option.some.injEq, List.map_append, List.map_cons, List.map_nil,
      List.append_assoc]
    rw [List.set_append_right _ _ (by simp)]
    have hr : n - ws.length = (n - (ws.length + 1)) + 1 := by omega
    rw [hr]
    simp [List.replicate_succ]

theorem writeParents_range (n : ℕ) (ws : List (ℕ × ParentInfo)) (h : ws.map (·.1) = List.range n) :
    writeParents (List.replicate n {}) ws = some (ws.map (·.2)) := by
  rw [writeParents_aux n ws n h (Nat.le_refl _)]
  simp

section
variable {T : Topo} {P : Plan} {A : Pats}

theorem cellWrites_eq : cellWrites ((List.range T.numCells).map (outC T P A)) =
    (List.range T.numCells).flatMap fun c => (List.range (P.pw c)).map fun j => (off P.pw c + j, pinfo (0, c) j) := by
  unfold cellWrites
  rw [zipIdx_range, List.flatMap_map]
  apply List.flatMap_congr
  intro c _
  exact childWrites_range _ _ _

theorem edgeWrites_eq : edgeWrites ((List.range T.numEdges).map (outE T P)) ((List.range T.numCells).map (outC T P A)) =
    ((List.range T.numEdges).flatMap fun e => (List.range (P.ew e)).map fun j => (off P.ew e + j, pinfo (1, e) j)) ++
    (List.range T.numCells).flatMap fun c => (List.range (P.iw c)).map fun j =>
      (off P.ew T.numEdges + off P.iw c + j, pinfo (0, c) j) := by
  unfold edgeWrites
  rw [zipIdx_range, zipIdx_range, List.flatMap_map, List.flatMap_map]
  congr 1
  · apply List.flatMap_congr
    intro c _
    exact childWrites_range _ _ _
  · apply List.flatMap_congr
    intro c _
    exact childWrites_range _ _ _

theorem nodeWrites_eq : nodeWrites ((List.range T.numNodes).map outP) ((List.range T.numEdges).map (outE T P))
      ((List.range T.numCells).map (outC T P A)) =
    ((List.range T.numNodes).flatMap fun v => [(v, pinfo (2, v) 0)]) ++
    ((List.range T.numEdges).flatMap fun e => (List.range (P.mw e)).map fun j =>
      (T.numNodes + off P.mw e + j, pinfo (1, e) j)) ++
    (List.range T.numCells).flatMap fun c => (List.range (P.cw c)).map fun j =>
      (T.numNodes + off P.mw T.numEdges + off P.cw c + j, pinfo (0, c) j) := by
  unfold nodeWrites
  rw [zipIdx_range, zipIdx_range, zipIdx_range, List.flatMap_map, List.flatMap_map, List.flatMap_map]
  congr 1
  · congr 1
    apply List.flatMap_congr
    intro c _
    exact childWrites_range _ _ _
  · apply List.flatMap_congr
    intro c _
    exact childWrites_range _ _ _

/-- Parent information on cells. -/
def par0 (T : Topo) (P : Plan) : List ParentInfo :=
  (List.range T.numCells).flatMap fun c => (List.range (P.pw c)).map fun j => pinfo (0, c) j
/-- Parent information on edges. -/
def par1 (T : Topo) (P : Plan) : List ParentInfo :=
  ((List.range T.numEdges).flatMap fun e => (List.range (P.ew e)).map fun j => pinfo (1, e) j) ++
  (List.range T.numCells).flatMap fun c => (List.range (P.iw c)).map fun j => pinfo (0, c) j
/-- Parent information on nodes. -/
def par2 (T : Topo) (P : Plan) : List ParentInfo :=
  ((List.range T.numNodes).flatMap fun v => [pinfo (2, v) 0]) ++
  ((List.range T.numEdges).flatMap fun e => (List.range (P.mw e)).map fun j => pinfo (1, e) j) ++
  (List.range T.numCells).flatMap fun c => (List.range (P.cw c)).map fun j => pinfo (0, c) j

theorem write_cells : writeParents (List.replicate (off P.pw T.numCells) {})
    (cellWrites ((List.range T.numCells).map (outC T P A))) = some (par0 T P) := by
  rw [writeParents_range]
  · rw [cellWrites_eq, List.map_flatMap]
    simp only [List.map_map, Function.comp_def]
    rfl
  · rw [cellWrites_eq, List.map_flatMap]
    simp only [List.map_map, Function.comp_def]
    have := flatMap_offs P.pw T.numCells 0
    simp only [Nat.zero_add, List.map_id'] at this
    exact this

theorem write_edges : writeParents (List.replicate (off P.ew T.numEdges + off P.iw T.numCells) {})
    (edgeWrites ((List.range T.numEdges).map (outE T P)) ((List.range T.numCells).map (outC T P A))) =
    some (par1 T P) := by
  rw [writeParents_range]
  · rw [edgeWrites_eq, List.map_append, List.map_flatMap, List.map_flatMap]
    simp only [List.map_map, Function.comp_def]
    rfl
  · rw [edgeWrites_eq, List.map_append, List.map_flatMap, List.map_flatMap]
    simp only [List.map_map, Function.comp_def]
    have h1 := flatMap_offs P.ew T.numEdges 0
    have h2 := flatMap_offs P.iw T.numCells (off P.ew T.numEdges)
    simp only [Nat.zero_add, List.map_id'] at h1
    rw [h1, h2, ← List.range_add]

theorem write_nodes : writeParents (List.replicate (P.numFine T) {})
    (nodeWrites ((List.range T.numNodes).map outP) ((List.range T.numEdges).map (outE T P))
      ((List.range T.numCells).map (outC T P A))) = some (par2 T P) := by
  rw [writeParents_range]
  · rw [nodeWrites_eq, List.map_append, List.map_append, List.map_flatMap, List.map_flatMap, List.map_flatMap]
    simp only [List.map_map, Function.comp_def]
    rfl
  · rw [nodeWrites_eq, List.map_append, List.map_append, List.map_flatMap, List.map_flatMap, List.map_flatMap]
    simp only [List.map_map, Function.comp_def, List.map_cons, List.map_nil]
    have h1 := flatMap_offs P.mw T.numEdges T.numNodes
    have h2 := flatMap_offs P.cw T.numCells (T.numNodes + off P.mw T.numEdges)
    rw [h1, h2]
    unfold Plan.numFine
    rw [List.range_add, List.range_add]
    congr 2
    simp

theorem par0_get (c : ℕ) (hc : c < T.numCells) (j : ℕ) (hj : j < P.pw c) :
    (par0 T P)[off P.pw c + j]? = some (pinfo (0, c) j) := by
  unfold par0
  rw [flatMap_get _ P.pw _ (fun _ _ => by simp) c hc j hj]
  simp [hj]

theorem par0_length : (par0 T P).length = off P.pw T.numCells := by
  unfold par0
  rw [flatMap_length]
  exact off_congr (fun _ _ => by simp)

theorem par1_length : (par1 T P).length = off P.ew T.numEdges + off P.iw T.numCells := by
  unfold par1
  rw [List.length_append, flatMap_length, flatMap_length]
  congr 1
  · exact off_congr (fun _ _ => by simp)
  · exact off_congr (fun _ _ => by simp)

theorem par1_sub (e : ℕ) (he : e < T.numEdges) (j : ℕ) (hj : j < P.ew e) :
    (par1 T P)[off P.ew e + j]? = some (pinfo (1, e) j) := by
  unfold par1
  rw [List.getElem?_append_left, flatMap_get _ P.ew _ (fun _ _ => by simp) e he j hj]
  · simp [hj]
  · have hl : ((List.range T.numEdges).flatMap fun e => (List.range (P.ew e)).map fun j => pinfo (1, e) j).length =
        off P.ew T.numEdges := by
      rw [flatMap_length]
      exact off_congr (fun _ _ => by simp)
    rw [hl]
    exact off_lt _ he hj

theorem par1_int (c : ℕ) (hc : c < T.numCells) (j : ℕ) (hj : j < P.iw c) :
    (par1 T P)[off P.ew T.numEdges + off P.iw c + j]? = some (pinfo (0, c) j) := by
  unfold par1
  have hl : ((List.range T.numEdges).flatMap fun e => (List.range (P.ew e)).map fun j => pinfo (1, e) j).length =
      off P.ew T.numEdges := by
    rw [flatMap_length]
    exact off_congr (fun _ _ => by simp)
  rw [List.getElem?_append_right (by rw [hl]; omega), hl, Nat.add_assoc, Nat.add_sub_cancel_left,
    flatMap_get _ P.iw _ (fun _ _ => by simp) c hc j hj]
  simp [hj]

theorem par2_a : ((List.range T.numNodes).flatMap fun v => [pinfo (2, v) 0]).length = T.numNodes := by
  rw [flatMap_length]
  have : off (fun i => [pinfo (2, i) 0].length) T.numNodes = off (fun _ => 1) T.numNodes := rfl
  rw [this, off_const, Nat.mul_one]

theorem par2_b : (((List.range T.numNodes).flatMap fun v => [pinfo (2, v) 0]) ++
  ((List.range T.numEdges).flatMap fun e => (List.range (P.mw e)).map fun j => pinfo (1, e) j)).length =
    T.numNodes + off P.mw T.numEdges := by
  rw [List.length_append, par2_a, flatMap_length]
  congr 1
  exact off_congr (fun _ _ => by simp)

theorem par2_length : (par2 T P).length = P.numFine T := by
  unfold par2
  rw [List.length_append, par2_b, flatMap_length]
  unfold Plan.numFine
  congr 1
  exact off_congr (fun _ _ => by simp)

theorem par2_vert (v : ℕ) (hv : v < T.numNodes) : (par2 T P)[v]? = some (pinfo (2, v) 0) := by
  unfold par2
  rw [List.getElem?_append_left (by rw [par2_b]; omega), List.getElem?_append_left (by rw [par2_a]; exact hv)]
  have := flatMap_get (fun v => [pinfo (2, v) 0]) (fun _ => 1) T.numNodes (fun _ _ => rfl) v hv 0 (by omega)
  rw [off_const, Nat.mul_one, Nat.add_zero] at this
  rw [this]; rfl

theorem par2_mid (e : ℕ) (he : e < T.numEdges) (j : ℕ) (hj : j < P.mw e) :
    (par2 T P)[T.numNodes + off P.mw e + j]? = some (pinfo (1, e) j) := by
  have := off_lt P.mw he hj
  unfold par2
  rw [List.getElem?_append_left (by rw [par2_b]; omega), List.getElem?_append_right (by rw [par2_a]; omega), par2_a,
    Nat.add_assoc, Nat.add_sub_cancel_left, flatMap_get _ P.mw _ (fun _ _ => by simp) e he j hj]
  simp [hj]

theorem par2_ctr (c : ℕ) (hc : c < T.numCells) (j : ℕ) (hj : j < P.cw c) :
    (par2 T P)[T.numNodes + off P.mw T.numEdges + off P.cw c + j]? = some (pinfo (0, c) j) := by
  unfold par2
  rw [List.getElem?_append_right (by rw [par2_b]; omega), par2_b,
    Nat.add_assoc (T.numNodes + _), Nat.add_sub_cancel_left, flatMap_get _ P.cw _ (fun _ _ => by simp) c hc j hj]
  simp [hj]

end

/-! ### Refinement edges -/

theorem longest_fold (cops : ChildOps G) (F : Mesh G) (l : List (ℕ × ℕ)) (n : ℕ)
    (h : ∀ x ∈ l, x.2 < n ∧ ∃ g, F.edgeGeo x.1 = some g) (s : ℚ × ℕ) (hs : s.2 < n) :
    ∃ r : ℚ × ℕ, l.foldlM (fun (s : ℚ × ℕ) x =>
      (F.edgeGeo x.1).bind fun g => if s.1 < cops.len g then some (cops.len g, x.2) else some s) s = some r ∧ r.2 < n := by
  induction l generalizing s with
  | nil => exact ⟨s, rfl, hs⟩
  | cons a l ih =>
    obtain ⟨h1, g, hg⟩ := h a (by simp)
    rw [List.foldlM_cons, hg]
    simp only [Option.bind_eq_bind, Option.bind_some]
    by_cases hlt : s.1 < cops.len g
    · rw [if_pos hlt, Option.bind_some]
      exact ih (fun x hx => h x (by simp [hx])) _ h1
    · rw [if_neg hlt, Option.bind_some]
      exact ih (fun x hx => h x (by simp [hx])) _ hs

theorem longestEdge_ok (cops : ChildOps G) (F : Mesh G) (hF : F.Valid) (hG : F.GeoOk cops) (c : ℕ)
    (hc : c < F.topo.numCells) :
    ∃ a < (F.topo.cell c).nodes.length, longestEdge cops F c = some a := by
  have hl := hF.wf.cell_edges_len c hc
  have hpos : 0 < (F.topo.cell c).nodes.length := by
    rcases hF.wf.cell_len c hc with h | h <;> omega
  obtain ⟨r, h1, h2⟩ := longest_fold cops F (F.topo.cell c).edges.zipIdx (F.topo.cell c).nodes.length
    (by
      intro x hx
      obtain ⟨y, i⟩ := x
      rw [List.mem_zipIdx_iff_getElem?] at hx
      simp only at hx ⊢
      obtain ⟨hi, rfl⟩ := List.getElem?_eq_some_iff.1 hx
      refine ⟨by simpa [hl] using hi, ?_⟩
      obtain ⟨g, hg, _⟩ := hG.edges _ (hF.wf.cell_edges c hc _ (List.getElem_mem hi))
      exact ⟨g, hg⟩) (0, 0) hpos
  refine ⟨r.2, h2, ?_⟩
  unfold longestEdge
  rw [h1]
  rfl

def refRow (pat : RefPat) (a : Option ℕ) (b l : ℕ) : Bool :=
  match Pattern.make .tria pat a with
  | none => true
  | some p =>
    if p.refinesB then
      match cellChildren .tria pat a with
      | none => false
      | some ch => (List.range ch.1.length).all fun k => (childRefEdge pat k (some b) (some l)).any fun r =>
          r.any fun x => decide (x < 3)
    else true

theorem ref_table : ∀ pat ∈ allPats, ∀ a ∈ anchors4, ∀ b ∈ [0, 1, 2], ∀ l ∈ [0, 1, 2], refRow pat a b l = true := by
  decide +kernel

theorem childRefEdge_ok {pat : RefPat} {a : Option ℕ} {p : Pattern} (hm : Pattern.make .tria pat a = some p)
    (hp : p.Refines) {ch : List (List LNode) × List (LNode × LNode)} (hch : cellChildren .tria pat a = some ch)
    (k : ℕ) (hk : k < ch.1.length) (b l : ℕ) (hb : b < 3) (hl : l < 3) :
    ∃ x < 3, childRefEdge pat k (some b) (some l) = some (some x) := by
  have h3 : ∀ x < 3, x ∈ [0, 1, 2] := by decide
  have ht := ref_table pat (mem_allPats pat) a (anchor_mem (Or.inl rfl) hm) b (h3 b hb) l (h3 l hl)
  unfold refRow at ht
  rw [hm] at ht
  simp only [p.refinesB_iff.2 hp, if_true, hch, List.all_eq_true, List.mem_range] at ht
  have := ht k hk
  cases hr : childRefEdge pat k (some b) (some l) with
  | none => rw [hr] at this; cases this
  | some r =>
    cases r with
    | none => rw [hr] at this; cases this
    | some x =>
      rw [hr] at this
      exact ⟨x, by simpa using this, rfl⟩

variable {cops : ChildOps G} {M F : Mesh G} {P : Plan} {A : Pats} {Γ : GPlan G}

theorem cellRef_len {M : Mesh G} (hM : M.Valid) {c : ℕ} (hc : c < M.topo.numCells) {ref : RefEl} (h : M.cellRef c = some ref) :
    (ref = .tria ∨ ref = .quad) ∧ ref.numNodes = (M.topo.cell c).nodes.length := by
  have := hM.ref c hc
  rw [h] at this
  unfold cellRefEl at this
  rcases hM.wf.cell_len c hc with h3 | h4
  · rw [if_pos h3] at this
    cases this
    exact ⟨Or.inl rfl, h3.symm⟩
  · rw [if_neg (by omega), if_pos h4] at this
    cases this
    exact ⟨Or.inr rfl, h4.symm⟩

theorem fineRefEdge_ok (hR : Ready cops M P A) (hF : Refined cops M P Γ F) (re : List (Option ℕ))
    (hre : RefEdgesOk M.topo re) :
    ∃ re', (List.range F.topo.numCells).mapM
      (fineRefEdge cops M F ((List.range M.topo.numCells).map (outC M.topo P A)) re (par0 M.topo P)) = some re' ∧
      RefEdgesOk F.topo re' := by
  have key : ∀ i < F.topo.numCells, ∃ r, fineRefEdge cops M F ((List.range M.topo.numCells).map (outC M.topo P A)) re
      (par0 M.topo P) i = some r ∧ ((F.topo.cell i).nodes.length = 3 → ∃ a < 3, r = some a) := by
    intro i hi
    have hi' := hi
    rw [hF.isRef.numCells, fineCells_length] at hi'
    obtain ⟨c, hc, k, hk, rfl⟩ := off_split P.pw hi'
    have href := hF.valid.ref _ hi
    unfold fineRefEdge
    rw [href]
    obtain ⟨l, hl, hlo⟩ := longestEdge_ok cops F hF.valid hF.geoOk _ hi
    unfold cellRefEl
    by_cases h3 : (F.topo.cell (off P.pw c + k)).nodes.length = 3
    · simp only [h3, if_true, Option.bind_some, par0_get c hc k hk, pinfo]
      rw [h3] at hl
      obtain ⟨ref, p, hr, hcr, hnn, hm, hp, hch, hctr, hloc⟩ := hR.cell c hc
      have hci : ((List.range M.topo.numCells).map (outC M.topo P A))[c]? = some (outC M.topo P A c) := by simp [hc]
      have hcc : (outC M.topo P A c).childCells[k]? = some (off P.pw c + k) := by simp [outC, hk]
      rcases hr with rfl | rfl
      · simp only [hcr, Option.bind_some, if_true, hci, hcc]
        obtain ⟨b, hb, hbr⟩ := hre.2 c hc (by rw [← hnn]; rfl)
        obtain ⟨x, hx, hxx⟩ := childRefEdge_ok hm hp hch k hk b l hb hl
        rw [hbr, hlo]
        exact ⟨some x, hxx, fun _ => ⟨x, hx, rfl⟩⟩
      · simp only [hcr, Option.bind_some, hlo]
        exact ⟨some l, rfl, fun _ => ⟨l, hl, rfl⟩⟩
    · have h4 : (F.topo.cell (off P.pw c + k)).nodes.length = 4 :=
        (hF.valid.wf.cell_len _ hi).resolve_left h3
      refine ⟨none, ?_, fun h => absurd h h3⟩
      rw [if_neg h3, if_pos h4]
      rfl
  obtain ⟨re', hre'⟩ := mapM_isSome (fineRefEdge cops M F ((List.range M.topo.numCells).map (outC M.topo P A)) re
      (par0 M.topo P)) (List.range F.topo.numCells) (fun i hi => by
        obtain ⟨r, hr, _⟩ := key i (by simpa using hi)
        exact ⟨r, hr⟩)
  obtain ⟨hlen, hget⟩ := mapM_get _ _ _ hre'
  refine ⟨re', hre', by simpa using hlen, ?_⟩
  intro c hc h3
  obtain ⟨y, hy, hf⟩ := hget c c (by simp [hc])
  obtain ⟨r, hr, hra⟩ := key c hc
  rw [hf] at hr
  cases hr
  obtain ⟨a, ha, rfl⟩ := hra h3
  exact ⟨a, ha, hy⟩

/-! ### Relative geometries -/

/-- Vertices of child `j` of entity `par`, codimension `codim`, in the reference element of the parent. -/
def relOf (M : Mesh G) (P : Plan) (codim : ℕ) (par : Ent) (j : ℕ) : List (List ℤ) :=
  match par.1, codim with
  | 0, 0 => ((P.polys par.2).getD j []).map (latNode ((M.cellRef par.2).getD .tria))
  | 0, 1 => ([((P.ints par.2).getD j (.ctr, .ctr)).1, ((P.ints par.2).getD j (.ctr, .ctr)).2]).map
      (latNode ((M.cellRef par.2).getD .tria))
  | 0, _ => [latNode ((M.cellRef par.2).getD .tria) .ctr]
  | 1, 1 => if P.sp par.2 then (if j = 0 then [[0], [3]] else [[3], [6]]) else [[0], [6]]
  | 1, _ => [[3]]
  | _, _ => [[]]

/-- Complete information stored for child `j` of an entity. -/
def finfo (M : Mesh G) (P : Plan) (codim : ℕ) (par : Ent) (j : ℕ) : ParentInfo :=
  { pinfo par j with rel := some (relOf M P codim par j) }

section
variable (hR : Ready cops M P A) (hF : Refined cops M P Γ F)
include hR hF

theorem relGeo_cell (c : ℕ) (hc : c < M.topo.numCells) (k : ℕ) (hk : k < P.pw c) :
    relGeo M F ((List.range M.topo.numEdges).map (outE M.topo P)) ((List.range M.topo.numCells).map (outC M.topo P A))
      0 (off P.pw c + k) (pinfo (0, c) k) = some (finfo M P 0 (0, c) k) := by
  obtain ⟨ref, p, hr, hcr, hnn, hm, hp, hch, hctr, hloc⟩ := hR.cell c hc
  obtain ⟨l0, l1, l2, _⟩ := lat_ok hr hm hp hch
  have hci : ((List.range M.topo.numCells).map (outC M.topo P A))[c]? = some (outC M.topo P A c) := by simp [hc]
  have hcc : (outC M.topo P A c).childCells[k]? = some (off P.pw c + k) := by simp [outC, hk]
  have hk' : k < (P.polys c).length := hk
  have hm' : Pattern.make ref (outC M.topo P A c).pat (outC M.topo P A c).anchor = some p := hm
  have hi : off P.pw c + k < F.topo.numCells := by
    rw [hF.isRef.numCells, fineCells_length]; exact off_lt _ hc hk
  have href := hF.valid.ref _ hi
  rw [hF.isRef.cell _ _ (fineCells_get c hc k hk')] at href
  unfold relGeo
  simp only [pinfo, Option.bind_some]
  rw [if_neg (by simp)]
  simp only [hcr, hci, Option.bind_some, hm', l0, List.getElem?_map, List.getElem?_eq_getElem hk', Option.map_some, hcc,
    List.length_map]
  rw [if_pos]
  · simp [finfo, relOf, pinfo, hcr, hk']
  · refine ⟨trivial, ?_⟩
    rw [href]
    unfold cellRefEl
    rcases (hloc.polysOk _ (List.getElem_mem hk')).1 with hq | hq
    · left; simp [hq]
    · right; simp [hq]

theorem relGeo_int (c : ℕ) (hc : c < M.topo.numCells) (k : ℕ) (hk : k < P.iw c) :
    relGeo M F ((List.range M.topo.numEdges).map (outE M.topo P)) ((List.range M.topo.numCells).map (outC M.topo P A))
      1 (off P.ew M.topo.numEdges + off P.iw c + k) (pinfo (0, c) k) = some (finfo M P 1 (0, c) k) := by
  obtain ⟨ref, p, hr, hcr, hnn, hm, hp, hch, hctr, hloc⟩ := hR.cell c hc
  obtain ⟨l0, l1, l2, _⟩ := lat_ok hr hm hp hch
  have hci : ((List.range M.topo.numCells).map (outC M.topo P A))[c]? = some (outC M.topo P A c) := by simp [hc]
  have hcc : (outC M.topo P A c).childEdges[k]? = some (off P.ew M.topo.numEdges + off P.iw c + k) := by simp [outC, hk]
  have hk' : k < (P.ints c).length := hk
  have hm' : Pattern.make ref (outC M.topo P A c).pat (outC M.topo P A c).anchor = some p := hm
  unfold relGeo
  simp only [pinfo, Option.bind_some]
  rw [if_neg (by simp)]
  simp only [hcr, hci, Option.bind_some, hm', l1, List.getElem?_map, List.getElem?_eq_getElem hk', Option.map_some, hcc]
  rw [if_pos ⟨trivial, rfl⟩]
  simp [finfo, relOf, pinfo, hcr, hk']

theorem relGeo_ctr (c : ℕ) (hc : c < M.topo.numCells) (k : ℕ) (hk : k < P.cw c) :
    relGeo M F ((List.range M.topo.numEdges).map (outE M.topo P)) ((List.range M.topo.numCells).map (outC M.topo P A))
      2 (M.topo.numNodes + off P.mw M.topo.numEdges + off P.cw c + k) (pinfo (0, c) k) = some (finfo M P 2 (0, c) k) := by
  obtain ⟨ref, p, hr, hcr, hnn, hm, hp, hch, hctr, hloc⟩ := hR.cell c hc
  obtain ⟨l0, l1, l2, _⟩ := lat_ok hr hm hp hch
  have hci : ((List.range M.topo.numCells).map (outC M.topo P A))[c]? = some (outC M.topo P A c) := by simp [hc]
  have hcc : (outC M.topo P A c).childPoints[k]? =
      some (M.topo.numNodes + off P.mw M.topo.numEdges + off P.cw c + k) := by simp [outC, hk]
  have hm' : Pattern.make ref (outC M.topo P A c).pat (outC M.topo P A c).anchor = some p := hm
  have hs : P.ctr c = true := by
    by_contra hn
    rw [Bool.not_eq_true] at hn
    simp [Plan.cw, hn] at hk
  have hk0 : k = 0 := by simp [Plan.cw, hs] at hk; exact hk
  subst hk0
  rw [← hctr, hs, if_pos rfl] at l2
  unfold relGeo
  simp only [pinfo, Option.bind_some]
  rw [if_neg (by simp)]
  simp only [hcr, hci, Option.bind_some, hm', l2, List.getElem?_cons_zero, hcc]
  rw [if_pos ⟨trivial, rfl⟩]
  simp [finfo, relOf, pinfo, hcr]

omit hR hF in
theorem relGeo_sub (e : ℕ) (he : e < M.topo.numEdges) (k : ℕ) (hk : k < P.ew e) (cci : List CellCI) :
    relGeo M F ((List.range M.topo.numEdges).map (outE M.topo P)) cci
      1 (off P.ew e + k) (pinfo (1, e) k) = some (finfo M P 1 (1, e) k) := by
  have hci : ((List.range M.topo.numEdges).map (outE M.topo P))[e]? = some (outE M.topo P e) := by simp [he]
  have hcc : (outE M.topo P e).childEdges[k]? = some (off P.ew e + k) := by simp [outE, hk]
  unfold relGeo
  simp only [pinfo, Option.bind_some]
  rw [if_neg (by simp)]
  simp only [hci, Option.bind_some, Nat.sub_self]
  cases hs : P.sp e with
  | false =>
    have ep : (outE M.topo P e).pat = .copy := by simp [outE, Plan.epat, hs]
    have hk0 : k = 0 := by simp [Plan.ew, hs] at hk; exact hk
    subst hk0
    rw [ep, show Pattern.make .segment .copy none = some ⟨.segment, none, .copy, false⟩ from rfl, Option.bind_some,
      show Pattern.childPolygons ⟨.segment, none, .copy, false⟩ 0 = some [[[0], [6]]] from rfl, Option.bind_some]
    simp only [List.getElem?_cons_zero, Option.bind_some, hcc]
    rw [if_pos ⟨trivial, rfl⟩]
    simp [finfo, relOf, pinfo, hs]
  | true =>
    have ep : (outE M.topo P e).pat = .split := by simp [outE, Plan.epat, hs]
    have hk0 : k = 0 ∨ k = 1 := by simp [Plan.ew, hs] at hk; omega
    rw [ep, show Pattern.make .segment .split none = some ⟨.segment, none, .split, false⟩ from rfl, Option.bind_some,
      show Pattern.childPolygons ⟨.segment, none, .split, false⟩ 0 = some [[[0], [3]], [[3], [6]]] from rfl,
      Option.bind_some]
    rcases hk0 with rfl | rfl
    · simp only [List.getElem?_cons_zero, Option.bind_some, hcc]
      rw [if_pos ⟨trivial, rfl⟩]
      simp [finfo, relOf, pinfo, hs]
    · simp only [List.getElem?_cons_zero, List.getElem?_cons_succ, Option.bind_some, hcc]
      rw [if_pos ⟨trivial, rfl⟩]
      simp [finfo, relOf, pinfo, hs]

omit hR hF in
theorem relGeo_mid (e : ℕ) (he : e < M.topo.numEdges) (k : ℕ) (hk : k < P.mw e) (cci : List CellCI) :
    relGeo M F ((List.range M.topo.numEdges).map (outE M.topo P)) cci
      2 (M.topo.numNodes + off P.mw e + k) (pinfo (1, e) k) = some (finfo M P 2 (1, e) k) := by
  have hci : ((List.range M.topo.numEdges).map (outE M.topo P))[e]? = some (outE M.topo P e) := by simp [he]
  have hcc : (outE M.topo P e).childPoints[k]? = some (M.topo.numNodes + off P.mw e + k) := by simp [outE, hk]
  have hs : P.sp e = true := by
    by_contra hn
    rw [Bool.not_eq_true] at hn
    simp [Plan.mw, hn] at hk
  have hk0 : k = 0 := by simp [Plan.mw, hs] at hk; exact hk
  subst hk0
  have ep : (outE M.topo P e).pat = .split := by simp [outE, Plan.epat, hs]
  unfold relGeo
  simp only [pinfo, Option.bind_some]
  rw [if_neg (by simp)]
  simp only [hci, Option.bind_some]
  rw [ep, show Pattern.make .segment .split none = some ⟨.segment, none, .split, false⟩ from rfl, Option.bind_some,
      show Pattern.childPolygons ⟨.segment, none, .split, false⟩ (2 - 1) = some [[[3]]] from rfl,
      Option.bind_some]
  simp only [List.getElem?_cons_zero, Option.bind_some, hcc]
  rw [if_pos ⟨trivial, rfl⟩]
  rfl

omit hR hF in
theorem relGeo_vert (v i : ℕ) (eci : List EdgeCI) (cci : List CellCI) :
    relGeo M F eci cci 2 i (pinfo (2, v) 0) = some (finfo M P 2 (2, v) 0) := by
  unfold relGeo
  simp only [pinfo, Option.bind_some]
  rw [if_neg (by simp)]
  rfl

end

/-- A loop which fills an array. -/
theorem mapM_zipIdx {β : Type} (f : ParentInfo × ℕ → Option β) (l : List ParentInfo)
    (h : ∀ i x, l[i]? = some x → ∃ y, f (x, i) = some y) :
    ∃ r, l.zipIdx.mapM f = some r ∧ r.length = l.length ∧ ∀ i x, l[i]? = some x → ∀ y, f (x, i) = some y → r[i]? = some y := by
  obtain ⟨r, hr⟩ := mapM_isSome f l.zipIdx (fun x hx => by
    obtain ⟨y, i⟩ := x
    rw [List.mem_zipIdx_iff_getElem?] at hx
    exact h i y hx)
  obtain ⟨h1, h2⟩ := mapM_get _ _ _ hr
  refine ⟨r, hr, by simpa using h1, ?_⟩
  intro i x hx y hy
  obtain ⟨z, hz, hf⟩ := h2 i (x, i) (by rw [List.getElem?_zipIdx, hx]; simp)
  rw [hf] at hy
  cases hy
  exact hz

end Verif
