import Verif.Spec.Relative
import Verif.Lemmas.TransferHier
import Mathlib.Tactic.IntervalCases

/-! Relative geometries of neighbouring entities fit together. -/

namespace Verif
variable {K : Type} [Field K] [LinearOrder K] [IsStrictOrderedRing K] {G : Type}

open Geo
set_option linter.unusedSectionVars false

/-- Evaluation of a relative geometry. -/
def relEval (par : Ent) (poly : List (List ℤ)) (x : List K) : Option (Ent × List K) :=
  (Geo.relative (2 - par.1) poly).bind fun r => (r.global x).map fun v => (par, List.ofFn v)

/-- What is stored on the finer level. -/
def parentAt (N : Level G) (e : Ent) : Option ParentInfo :=
  match e.1 with
  | 0 => N.parents0[e.2]?
  | 1 => N.parents1[e.2]?
  | 2 => N.parents2[e.2]?
  | _ => none

/-- One step of the transfer, using what is stored on the finer level. -/
def stepIn (N : Level G) (e : Ent) (x : List K) : Option (Ent × List K) :=
  (parentAt N e).bind fun info => info.parent.bind fun par => info.rel.bind fun poly => relEval par poly x

theorem parentInfo_eq {H : Hierarchy G} {level : ℕ} {N : Level G} (hN : H.levels.reverse[level + 1]? = some N)
    (e : Ent) : H.parentInfo (level + 1) e = parentAt N e := by
  unfold Hierarchy.parentInfo
  rw [if_pos (by omega), hN]
  rfl

theorem transferStep_eq {H : Hierarchy G} {level : ℕ} {N : Level G}
    (hN : H.levels.reverse[level + 1]? = some N)
    (e : Ent) (x : List K) : transferStep H (level + 1) e x = stepIn N e x := by
  unfold transferStep stepIn Hierarchy.geometryInParent Hierarchy.parentEntity relEval
  rw [parentInfo_eq hN]
  rcases parentAt N e with _ | info
  · rfl
  rcases hp : info.parent with _ | par
  · simp [hp]
  rcases hr : info.rel with _ | poly
  · simp [hp, hr]
  simp only [Option.bind_some, hp, hr]
  rcases Geo.relative (K := K) (2 - par.1) poly with _ | g
  · rfl
  simp only [Option.map_some, Option.bind_some]
  rcases g.global x with _ | v <;> rfl

theorem stepIn_of {N : Level G} {e : Ent} {x : List K} {info : ParentInfo} {par : Ent} {poly : List (List ℤ)}
    (h : parentAt N e = some info) (hp : info.parent = some par) (hr : info.rel = some poly) :
    stepIn N e x = relEval par poly x := by
  unfold stepIn
  rw [h]
  simp only [Option.bind_some, hp, hr]

/-- Points of a straight line. -/
def comb (t : K) (p q : List K) : List K := List.zipWith (fun p q => (1 - t) * p + t * q) p q

theorem sidePoint_comb (r : RefEl) (i : ℕ) (t : K) : sidePoint r i t = comb t ((r.corners : List (List K)).getD i [])
    ((r.corners : List (List K)).getD ((i + 1) % r.numNodes) []) := rfl

theorem comb_swap (t : K) (a b c d : K) : comb (1 - t) [a, b] [c, d] = comb t [c, d] [a, b] := by
  simp [comb]
  constructor <;> ring

theorem onSide_affine (T : Topo) {r : RefEl} (hr : r = .tria ∨ r = .quad) (c j : ℕ) (hj : j < r.numNodes) (t s1 s2 : K) :
    comb t (T.onSide r c j s1) (T.onSide r c j s2) = T.onSide r c j ((1 - t) * s1 + t * s2) := by
  unfold Topo.onSide
  have key : ∀ a b, comb t (sidePoint r j a) (sidePoint r j b) = sidePoint r j ((1 - t) * a + t * b) := by
    intro a b
    rcases hr with rfl | rfl
    · have : j < 3 := hj
      interval_cases j <;> simp [comb, sidePoint, RefEl.corners, RefEl.numNodes] <;> ring_nf <;> simp
    · have : j < 4 := hj
      interval_cases j <;> simp [comb, sidePoint, RefEl.corners, RefEl.numNodes] <;> ring_nf <;> simp
  split
  · exact key _ _
  · rw [key]
    congr 1
    ring


/-- Position on a reference element of a node given by lattice coordinates. -/
def latPos (r : RefEl) (a : LNode) : List K := latRef (latNode r a)

/-- Position of a node on an edge. -/
def Topo.posOn (T : Topo) (E : ℕ) (x : FNode) : K :=
  if x = .vert (T.edge E).1 then 0 else if x = .mid E then 1 / 2 else 1

theorem posOn_unit (T : Topo) (E : ℕ) (x : FNode) : 0 ≤ (T.posOn E x : K) ∧ (T.posOn E x : K) ≤ 1 := by
  unfold Topo.posOn
  split
  · simp
  · split
    · constructor <;> norm_num
    · simp

theorem latPos_two {r : RefEl} (hr : r = .tria ∨ r = .quad) {a : LNode} {fl : List Bool} {ct : Bool}
    (ha : a ∈ legal r.numNodes fl ct) : ∃ x y : ℤ, latNode r a = [x, y] := by
  cases a with
  | v i =>
    have hi := mem_legal_v.1 ha
    rcases hr with rfl | rfl
    · have : i < 3 := hi
      interval_cases i <;> exact ⟨_, _, rfl⟩
    · have : i < 4 := hi
      interval_cases i <;> exact ⟨_, _, rfl⟩
  | m i =>
    have hi := (mem_legal_m.1 ha).1
    rcases hr with rfl | rfl
    · have : i < 3 := hi
      interval_cases i <;> exact ⟨_, _, rfl⟩
    · have : i < 4 := hi
      interval_cases i <;> exact ⟨_, _, rfl⟩
  | ctr =>
    rcases hr with rfl | rfl <;> exact ⟨_, _, rfl⟩

theorem latPos_corner {r : RefEl} (hr : r = .tria ∨ r = .quad) {i : ℕ} (hi : i < r.numNodes) :
    (latPos r (.v i) : List K) = (r.corners : List (List K)).getD i [] := by
  rcases hr with rfl | rfl
  · have : i < 3 := hi
    interval_cases i <;> simp [latPos, latNode, refCorner, latRef, RefEl.corners]
  · have : i < 4 := hi
    interval_cases i <;> simp [latPos, latNode, refCorner, latRef, RefEl.corners]

theorem latPos_mid {r : RefEl} (hr : r = .tria ∨ r = .quad) {i : ℕ} (hi : i < r.numNodes) :
    (latPos r (.m i) : List K) = sidePoint r i (1 / 2) := by
  rcases hr with rfl | rfl
  · have : i < 3 := hi
    interval_cases i <;>
      simp [latPos, latNode, refSideMid, refCorner, latRef, RefEl.corners, sidePoint, RefEl.numNodes] <;> norm_num
  · have : i < 4 := hi
    interval_cases i <;>
      simp [latPos, latNode, refSideMid, refCorner, latRef, RefEl.corners, sidePoint, RefEl.numNodes] <;> norm_num

theorem sidePoint_zero {r : RefEl} (hr : r = .tria ∨ r = .quad) {i : ℕ} (hi : i < r.numNodes) :
    (sidePoint r i 0 : List K) = (r.corners : List (List K)).getD i [] := by
  rcases hr with rfl | rfl
  · have : i < 3 := hi
    interval_cases i <;> simp [RefEl.corners, sidePoint, RefEl.numNodes]
  · have : i < 4 := hi
    interval_cases i <;> simp [RefEl.corners, sidePoint, RefEl.numNodes]

theorem sidePoint_one {r : RefEl} (hr : r = .tria ∨ r = .quad) {i : ℕ} (hi : i < r.numNodes) :
    (sidePoint r i 1 : List K) = (r.corners : List (List K)).getD ((i + 1) % r.numNodes) [] := by
  rcases hr with rfl | rfl
  · have : i < 3 := hi
    interval_cases i <;> simp [RefEl.corners, sidePoint, RefEl.numNodes]
  · have : i < 4 := hi
    interval_cases i <;> simp [RefEl.corners, sidePoint, RefEl.numNodes]

/-- The nodes on a side of a cell, in the coordinates of the cell and of the edge. -/
theorem latPos_side {T : Topo} (hT : T.WF) {r : RefEl} (hr : r = .tria ∨ r = .quad) {c : ℕ} (hc : c < T.numCells)
    (hn : r.numNodes = (T.cell c).nodes.length) {j : ℕ} (hj : j < r.numNodes) {a : LNode} (ha : a ∈ Verif.onSide r.numNodes j) :
    (latPos r a : List K) = T.onSide r c j (T.posOn ((T.cell c).edges.getD j 0) (locF T c a)) := by
  have hj' : j < (T.cell c).nodes.length := by omega
  have hside := hT.cell_side c hc j hj'
  have hori := hT.cell_ori c hc j hj'
  have he : (T.cell c).edges.getD j 0 < T.numEdges :=
    hT.cell_edges c hc _ (getD_mem _ _ (by rw [hT.cell_edges_len c hc]; exact hj'))
  have hne := hT.edge_ne _ he
  have hsd : side (T.cell c).nodes j = ((T.cell c).nodes.getD j 0, (T.cell c).nodes.getD ((j + 1) % (T.cell c).nodes.length) 0) := rfl
  rw [hsd] at hside hori
  have hmod : (j + 1) % r.numNodes < r.numNodes := Nat.mod_lt _ (by omega)
  have hm : locF T c (.m j) = .mid ((T.cell c).edges.getD j 0) := rfl
  have hw : (T.cell c).nodes.getD j 0 ≠ (T.cell c).nodes.getD ((j + 1) % (T.cell c).nodes.length) 0 := by
    rcases hside with h | h
    · rw [h] at hne; exact hne
    · rw [h] at hne; exact hne.symm
  generalize (T.cell c).edges.getD j 0 = E at *
  have h12 : (1 : K) - 1 / 2 = 1 / 2 := by norm_num
  have hmid : (T.posOn E (.mid E) : K) = 1 / 2 := by simp [Topo.posOn]
  have hv1 : (T.posOn E (.vert (T.edge E).1) : K) = 0 := by simp [Topo.posOn]
  have hv2 : (T.posOn E (.vert (T.edge E).2) : K) = 1 := by simp [Topo.posOn, hne.symm]
  unfold Topo.onSide
  simp only [Verif.onSide, List.mem_cons, List.not_mem_nil, or_false] at ha
  by_cases ho : (T.cell c).ori.getD j false = true
  · have h1 := hori.1 ho
    rw [if_pos ho]
    rw [h1] at hv1 hv2
    rcases ha with rfl | rfl | rfl
    · rw [latPos_corner hr hj, show locF T c (.v j) = .vert ((T.cell c).nodes.getD j 0) from rfl, hv1, sidePoint_zero hr hj]
    · rw [latPos_mid hr hj, hm, hmid]
    · rw [latPos_corner hr hmod, show locF T c (.v ((j + 1) % r.numNodes)) =
        .vert ((T.cell c).nodes.getD ((j + 1) % (T.cell c).nodes.length) 0) by rw [hn]; rfl, hv2, sidePoint_one hr hj]
  · have h1 : T.edge E = ((T.cell c).nodes.getD ((j + 1) % (T.cell c).nodes.length) 0, (T.cell c).nodes.getD j 0) := by
      rcases hside with h | h
      · exact absurd (hori.2 h) ho
      · exact h
    rw [if_neg ho]
    rw [h1] at hv1 hv2
    rcases ha with rfl | rfl | rfl
    · rw [latPos_corner hr hj, show locF T c (.v j) = .vert ((T.cell c).nodes.getD j 0) from rfl, hv2, sub_self, sidePoint_zero hr hj]
    · rw [latPos_mid hr hj, hm, hmid, h12]
    · rw [latPos_corner hr hmod, show locF T c (.v ((j + 1) % r.numNodes)) =
        .vert ((T.cell c).nodes.getD ((j + 1) % (T.cell c).nodes.length) 0) by rw [hn]; rfl, hv1, sub_zero, sidePoint_one hr hj]


/-! ### Evaluation of the relative geometries -/

theorem relEval_seg {r : RefEl} (c : ℕ) {x0 y0 x1 y1 : ℤ} (t : K) :
    relEval (0, c) [[x0, y0], [x1, y1]] [t] = some ((0, c), comb t (latRef [x0, y0]) (latRef [x1, y1])) := by
  obtain ⟨g, h1, _, h2⟩ := rel_seg (K := K) x0 y0 x1 y1
  obtain ⟨v, h3, h4⟩ := h2 t
  unfold relEval
  simp only [Nat.sub_zero, h1, Option.bind_some, h3, Option.map_some, h4]
  congr 2
  simp [comb, latRef]
  constructor <;> ring

theorem relEval_point (c : ℕ) {x0 y0 : ℤ} : relEval (0, c) [[x0, y0]] ([] : List K) = some ((0, c), latRef [x0, y0]) := by
  obtain ⟨g, h1, _, v, h3, h4⟩ := rel_point (K := K) x0 y0
  unfold relEval
  simp only [Nat.sub_zero, h1, Option.bind_some, h3, Option.map_some, h4]
  simp [latRef]

/-- Child cells: the sides are straight. -/
theorem relEval_side (c : ℕ) {r : RefEl} (hr : r = .tria ∨ r = .quad) {pts : List (List ℤ)} (hl : pts.length = r.numNodes)
    (h2 : ∀ q ∈ pts, ∃ x y, q = [x, y]) (m : ℕ) (hm : m < r.numNodes) (t : K) :
    relEval (0, c) pts (sidePoint r m t) = some ((0, c), comb t (latRef (pts.getD m []))
      (latRef (pts.getD ((m + 1) % r.numNodes) []))) := by
  rcases hr with rfl | rfl
  · match pts, hl with
    | [p, q, s], _ =>
      obtain ⟨x0, y0, rfl⟩ := h2 p (by simp)
      obtain ⟨x1, y1, rfl⟩ := h2 q (by simp)
      obtain ⟨x2, y2, rfl⟩ := h2 s (by simp)
      obtain ⟨g, h1, _, h2⟩ := rel_tria (K := K) x0 y0 x1 y1 x2 y2
      have hm : m < 3 := hm
      have key : ∃ a b : K, sidePoint .tria m t = [a, b] := by
        interval_cases m <;> simp [sidePoint, RefEl.corners, RefEl.numNodes]
      obtain ⟨a, b, hab⟩ := key
      obtain ⟨v, h3, h4⟩ := h2 a b
      rw [hab]
      unfold relEval
      simp only [Nat.sub_zero, h1, Option.bind_some, h3, Option.map_some, h4]
      congr 2
      interval_cases m <;> simp [sidePoint, RefEl.corners, RefEl.numNodes] at hab <;> obtain ⟨rfl, rfl⟩ := hab <;>
        simp [comb, latRef, RefEl.numNodes] <;> constructor <;> ring
  · match pts, hl with
    | [p, q, s, u], _ =>
      obtain ⟨x0, y0, rfl⟩ := h2 p (by simp)
      obtain ⟨x1, y1, rfl⟩ := h2 q (by simp)
      obtain ⟨x2, y2, rfl⟩ := h2 s (by simp)
      obtain ⟨x3, y3, rfl⟩ := h2 u (by simp)
      obtain ⟨g, h1, _, h2⟩ := rel_quad (K := K) x0 y0 x1 y1 x2 y2 x3 y3
      have hm : m < 4 := hm
      have key : ∃ a b : K, sidePoint .quad m t = [a, b] := by
        interval_cases m <;> simp [sidePoint, RefEl.corners, RefEl.numNodes]
      obtain ⟨a, b, hab⟩ := key
      obtain ⟨v, h3, h4⟩ := h2 a b
      rw [hab]
      unfold relEval
      simp only [Nat.sub_zero, h1, Option.bind_some, h3, Option.map_some, h4]
      congr 2
      interval_cases m <;> simp [sidePoint, RefEl.corners, RefEl.numNodes] at hab <;> obtain ⟨rfl, rfl⟩ := hab <;>
        simp [comb, latRef, RefEl.numNodes] <;> constructor <;> ring

theorem relEval_cell (c : ℕ) {pts : List (List ℤ)} (hl : pts.length = 3 ∨ pts.length = 4)
    (h2 : ∀ q ∈ pts, ∃ x y, q = [x, y]) (x : List K) (hx : x.length = 2) :
    ∃ y, relEval (0, c) pts x = some ((0, c), y) ∧ y.length = 2 := by
  match x, hx with
  | [a, b], _ =>
    rcases hl with hl | hl
    · match pts, hl with
      | [p, q, s], _ =>
        obtain ⟨x0, y0, rfl⟩ := h2 p (by simp)
        obtain ⟨x1, y1, rfl⟩ := h2 q (by simp)
        obtain ⟨x2, y2, rfl⟩ := h2 s (by simp)
        obtain ⟨g, h1, _, h2⟩ := rel_tria (K := K) x0 y0 x1 y1 x2 y2
        obtain ⟨v, h3, h4⟩ := h2 a b
        unfold relEval
        simp only [Nat.sub_zero, h1, Option.bind_some, h3, Option.map_some, h4]
        exact ⟨_, rfl, rfl⟩
    · match pts, hl with
      | [p, q, s, u], _ =>
        obtain ⟨x0, y0, rfl⟩ := h2 p (by simp)
        obtain ⟨x1, y1, rfl⟩ := h2 q (by simp)
        obtain ⟨x2, y2, rfl⟩ := h2 s (by simp)
        obtain ⟨x3, y3, rfl⟩ := h2 u (by simp)
        obtain ⟨g, h1, _, h2⟩ := rel_quad (K := K) x0 y0 x1 y1 x2 y2 x3 y3
        obtain ⟨v, h3, h4⟩ := h2 a b
        unfold relEval
        simp only [Nat.sub_zero, h1, Option.bind_some, h3, Option.map_some, h4]
        exact ⟨_, rfl, rfl⟩

/-! ### One refinement -/

section
variable {cops : ChildOps G} {L L' N : Level G} {P : Plan} {A : Pats} {Γ : GPlan G} (hs : Step cops L L' N P A Γ)
include hs

/-- What is known about a cell which is refined. -/
theorem Step.cellOk {c : ℕ} (hc : c < L.mesh.topo.numCells) :
    ∃ r, (r = .tria ∨ r = .quad) ∧ L.mesh.cellRef c = some r ∧ r.numNodes = (L.mesh.topo.cell c).nodes.length ∧
      L.mesh.topo.refEl (0, c) = some r ∧
      LocalC r.numNodes ((L.mesh.topo.cell c).edges.map P.sp) (P.polys c) (P.ints c) (P.ctr c) := by
  obtain ⟨r, p, h1, h2, h3, _, _, _, _, h4⟩ := hs.ready.cell c hc
  refine ⟨r, h1, h2, h3, ?_, by rw [h3]; exact h4⟩
  have hlt : c < L.mesh.topo.num 0 := hc
  unfold Topo.refEl
  rw [if_pos hlt]
  rcases h1 with rfl | rfl
  · simp [← h3, RefEl.numNodes]
  · simp [← h3, RefEl.numNodes]

/-- The nodes of the finer mesh. -/
theorem Step.node_same {c : ℕ} (hc : c < L.mesh.topo.numCells) {r : RefEl} (hr : r = .tria ∨ r = .quad)
    (hcr : L.mesh.cellRef c = some r) (hn : r.numNodes = (L.mesh.topo.cell c).nodes.length) {a : LNode}
    (ha : a ∈ legal r.numNodes ((L.mesh.topo.cell c).edges.map P.sp) (P.ctr c)) :
    ∃ e x, stepIn N (2, P.num L.mesh.topo (locF L.mesh.topo c a)) ([] : List K) = some (e, x) ∧
      L.mesh.topo.SamePoint r c (latPos r a) e x := by
  have hwf := hs.ready.valid.wf
  have hval := locF_valid (P := P) hs.ready.conf c hc a (by unfold Leg; rw [← hn]; exact ha)
  cases a with
  | v i =>
    have hi := mem_legal_v.1 ha
    refine ⟨(2, (L.mesh.topo.cell c).nodes.getD i 0), [], ?_, Or.inr (Or.inr ⟨i, hi, rfl, rfl, latPos_corner hr hi⟩)⟩
    exact (stepIn_of (N := N) (e := (2, (L.mesh.topo.cell c).nodes.getD i 0)) (hs.par2v _ hval) rfl rfl).trans rfl
  | m i =>
    have hi := (mem_legal_m.1 ha).1
    refine ⟨(1, (L.mesh.topo.cell c).edges.getD i 0), [1 / 2], ?_,
      Or.inr (Or.inl ⟨i, hi, 1 / 2, by norm_num, by norm_num, rfl, rfl, ?_⟩)⟩
    · have h0 := hs.par2m _ hval.1 0 (by unfold Plan.mw; rw [hval.2]; decide)
      refine (stepIn_of (N := N) (e := (2, L.mesh.topo.numNodes + off P.mw ((L.mesh.topo.cell c).edges.getD i 0))) h0 rfl
        rfl).trans ?_
      have : (1 / 6 : K) * ((3 : ℤ) : K) = 1 / 2 := by norm_num
      simp only [relEval, relOf, Geo.relative, Geo.global]
      simp [ofEntries, latRef]
      norm_num
    · have hmid : (L.mesh.topo.posOn ((L.mesh.topo.cell c).edges.getD i 0)
          (locF L.mesh.topo c (.m i)) : K) = 1 / 2 := by simp [Topo.posOn, locF]
      rw [latPos_side hwf hr hc hn hi (m_on_side _ _), hmid]
  | ctr =>
    obtain ⟨x, y, hxy⟩ := latPos_two hr ha
    refine ⟨(0, c), latPos r .ctr, ?_, Or.inl ⟨rfl, rfl, by simp [latPos, hxy, latRef]⟩⟩
    have h0 := hs.par2c c hc 0 (by simp [Plan.cw, hval.2])
    refine (stepIn_of (N := N) (e := (2, L.mesh.topo.numNodes + off P.mw L.mesh.topo.numEdges + off P.cw c)) h0 rfl
      rfl).trans ?_
    simp only [relOf, hcr, Option.getD_some, hxy, latPos]
    exact relEval_point c

/-- Pieces of edges. -/
theorem Step.sub_step {E : ℕ} (hE : E < L.mesh.topo.numEdges) {q : ℕ} {x : FNode × FNode}
    (hq : (P.subPairs L.mesh.topo E)[q]? = some x) (t : K) :
    stepIn N (1, off P.ew E + q) [t] = some ((1, E),
      [(1 - t) * L.mesh.topo.posOn E x.1 + t * L.mesh.topo.posOn E x.2]) := by
  have hlt : q < P.ew E := by
    rw [← subPairs_length (T := L.mesh.topo)]
    exact (List.getElem?_eq_some_iff.1 hq).1
  have hne := hs.ready.valid.wf.edge_ne E hE
  refine (stepIn_of (N := N) (e := (1, off P.ew E + q)) (hs.par1s E hE q hlt) rfl rfl).trans ?_
  unfold Plan.subPairs at hq
  unfold Plan.ew at hlt
  cases hsp : P.sp E with
  | false =>
    simp only [hsp, Bool.false_eq_true, if_false] at hq hlt
    have h0 : q = 0 := by omega
    subst h0
    cases hq
    simp only [relEval, relOf, hsp, Bool.false_eq_true, if_false, Geo.relative, Geo.global]
    simp [ofEntries, latRef, Topo.posOn, hne.symm]
  | true =>
    simp only [hsp, if_true] at hq hlt
    have h0 : q = 0 ∨ q = 1 := by omega
    rcases h0 with rfl | rfl
    · cases hq
      simp only [relEval, relOf, hsp, if_true, Geo.relative, Geo.global]
      simp [ofEntries, latRef, Topo.posOn]
      norm_num
    · cases hq
      simp only [relEval, relOf, hsp, if_true, Geo.relative, Geo.global]
      simp [ofEntries, latRef, Topo.posOn, hne.symm]
      ring

/-- Interior edges. -/
theorem Step.int_step {c : ℕ} (hc : c < L.mesh.topo.numCells) {r : RefEl} (hr : r = .tria ∨ r = .quad)
    (hcr : L.mesh.cellRef c = some r)
    (hloc : LocalC r.numNodes ((L.mesh.topo.cell c).edges.map P.sp) (P.polys c) (P.ints c) (P.ctr c))
    {q : ℕ} {y : LNode × LNode} (hq : (P.ints c)[q]? = some y) (t : K) :
    stepIn N (1, off P.ew L.mesh.topo.numEdges + off P.iw c + q) [t] =
      some ((0, c), comb t (latPos r y.1) (latPos r y.2)) := by
  have hlt : q < P.iw c := (List.getElem?_eq_some_iff.1 hq).1
  refine (stepIn_of (N := N) (e := (1, off P.ew L.mesh.topo.numEdges + off P.iw c + q)) (hs.par1i c hc q hlt) rfl
    rfl).trans ?_
  obtain ⟨l1, l2, _⟩ := hloc.intsOk y (List.mem_of_getElem? hq)
  obtain ⟨x0, y0, e0⟩ := latPos_two hr l1
  obtain ⟨x1, y1, e1⟩ := latPos_two hr l2
  have hq' : (P.ints c).getD q (.ctr, .ctr) = y := by rw [List.getD_eq_getElem?_getD, hq]; rfl
  simp only [relOf, hcr, Option.getD_some, hq', List.map_cons, List.map_nil, latPos, e0, e1]
  exact relEval_seg (r := r) c t

/-- Child cells. -/
theorem Step.child_step {c : ℕ} (hc : c < L.mesh.topo.numCells) {r : RefEl} (hcr : L.mesh.cellRef c = some r)
    {k : ℕ} {Q : List LNode} (hk : (P.polys c)[k]? = some Q) (x : List K) :
    stepIn N (0, off P.pw c + k) x = relEval (0, c) (Q.map (latNode r)) x := by
  have hlt : k < P.pw c := (List.getElem?_eq_some_iff.1 hk).1
  refine (stepIn_of (N := N) (e := (0, off P.pw c + k)) (hs.par0 c hc k hlt) rfl rfl).trans ?_
  have hq' : (P.polys c).getD k [] = Q := by rw [List.getD_eq_getElem?_getD, hk]; rfl
  simp only [relOf, hcr, Option.getD_some, hq']

/-- The sides of the children are pieces of sides or interior edges. -/
theorem side_cases {n : ℕ} {fl : List Bool} {polys : List (List LNode)} {ints : List (LNode × LNode)}
    (h : SidesOk n fl polys ints) {Q : List LNode} (hQ : Q ∈ polys) {z : Sym2 LNode} (hz : z ∈ sidesOf Q) :
    (∃ j < n, z ∈ subs n fl j) ∨ z ∈ intsS ints := by
  have h1 : z ∈ polys.flatMap sidesOf := List.mem_flatMap.2 ⟨Q, hQ, hz⟩
  have h2 := h z (List.mem_append_left _ h1)
  have h3 := List.count_pos_iff.2 h1
  rw [h2, List.count_pos_iff, List.mem_append, List.mem_append] at h3
  rcases h3 with h3 | h3 | h3
  · obtain ⟨j, hj, hz⟩ := List.mem_flatMap.1 h3
    exact Or.inl ⟨j, by simpa using hj, hz⟩
  · exact Or.inr h3
  · exact Or.inr h3

/-- A side of a child cell and the corresponding edge. -/
theorem Step.side_same {c : ℕ} (hc : c < L.mesh.topo.numCells) {r : RefEl} (hr : r = .tria ∨ r = .quad)
    (hcr : L.mesh.cellRef c = some r) (hn : r.numNodes = (L.mesh.topo.cell c).nodes.length)
    (hloc : LocalC r.numNodes ((L.mesh.topo.cell c).edges.map P.sp) (P.polys c) (P.ints c) (P.ctr c))
    {k : ℕ} {Q : List LNode} (hk : (P.polys c)[k]? = some Q) {rf : RefEl} (hrf : rf = .tria ∨ rf = .quad)
    (hl : rf.numNodes = Q.length) {m : ℕ} (hm : m < rf.numNodes) {t : K} (ht0 : 0 ≤ t) (ht1 : t ≤ 1) :
    ∃ y e x, stepIn N (0, off P.pw c + k) (N.mesh.topo.onSide rf (off P.pw c + k) m t) = some ((0, c), y) ∧
      stepIn N (1, (N.mesh.topo.cell (off P.pw c + k)).edges.getD m 0) [t] = some (e, x) ∧
      L.mesh.topo.SamePoint r c y e x := by
  have hT := hs.ready.conf
  have hP := hs.ready.ok
  have hR := hs.refined.isRef
  have hkl : k < (P.polys c).length := (List.getElem?_eq_some_iff.1 hk).1
  have hkQ : (P.polys c)[k] = Q := (List.getElem?_eq_some_iff.1 hk).2
  have hQ : Q ∈ P.polys c := List.mem_of_getElem? hk
  obtain ⟨_, _, hleg⟩ := hloc.polysOk Q hQ
  have hnodes := hR.cell _ _ (fineCells_get c hc k hkl)
  rw [hkQ, List.map_map] at hnodes
  have hif : off P.pw c + k < N.mesh.topo.numCells := by
    rw [hR.numCells, fineCells_length]
    exact off_lt _ hc hkl
  set i := off P.pw c + k with hi
  have hmQ : m < Q.length := by omega
  have hm1 : (m + 1) % Q.length < Q.length := Nat.mod_lt _ (by omega)
  have hml : m < (N.mesh.topo.cell i).nodes.length := by rw [hnodes]; simpa using hmQ
  obtain ⟨a, ha⟩ : ∃ a, Q[m]? = some a := ⟨_, List.getElem?_eq_getElem hmQ⟩
  obtain ⟨b, hb⟩ : ∃ b, Q[(m + 1) % Q.length]? = some b := ⟨_, List.getElem?_eq_getElem hm1⟩
  have hla := hleg a (List.mem_of_getElem? ha)
  have hlb := hleg b (List.mem_of_getElem? hb)
  have hsd : side (N.mesh.topo.cell i).nodes m = (P.num L.mesh.topo (locF L.mesh.topo c a), P.num L.mesh.topo (locF L.mesh.topo c b)) := by
    unfold side
    rw [hnodes]
    simp only [List.length_map, List.getD_eq_getElem?_getD, List.getElem?_map, ha, hb, Option.map_some, Option.getD_some,
      Function.comp_apply]
  have hside := hR.wf.cell_side i hif m hml
  have hori := hR.wf.cell_ori i hif m hml
  rw [hsd] at hside hori
  have he : (N.mesh.topo.cell i).edges.getD m 0 < N.mesh.topo.numEdges :=
    hR.wf.cell_edges i hif _ (getD_mem _ _ (by rw [hR.wf.cell_edges_len i hif]; exact hml))
  set e' := (N.mesh.topo.cell i).edges.getD m 0 with he'
  obtain ⟨xa, ya, ea⟩ := latPos_two hr hla
  obtain ⟨xb, yb, eb⟩ := latPos_two hr hlb
  -- direction of the edge
  obtain ⟨a1, b1, hed, hla1, hlb1, hab, hy⟩ : ∃ a1 b1,
      N.mesh.topo.edge e' = (P.num L.mesh.topo (locF L.mesh.topo c a1), P.num L.mesh.topo (locF L.mesh.topo c b1)) ∧
      a1 ∈ legal r.numNodes ((L.mesh.topo.cell c).edges.map P.sp) (P.ctr c) ∧
      b1 ∈ legal r.numNodes ((L.mesh.topo.cell c).edges.map P.sp) (P.ctr c) ∧ s(a, b) = s(a1, b1) ∧
      stepIn N (0, i) (N.mesh.topo.onSide rf i m t) = some ((0, c), comb t (latPos r a1) (latPos r b1)) := by
    have hst : ∀ u : K, stepIn N (0, i) (sidePoint rf m u) = some ((0, c), comb u (latPos r a) (latPos r b)) := by
      intro u
      rw [hi, hs.child_step hc hcr hk, relEval_side c hrf (by simp [hl]) _ m hm u, hl]
      · simp only [List.getD_eq_getElem?_getD, List.getElem?_map, ha, hb, Option.map_some, Option.getD_some]
        rfl
      · intro q hq
        obtain ⟨z, hz, rfl⟩ := List.mem_map.1 hq
        exact latPos_two hr (hleg z hz)
    unfold Topo.onSide
    by_cases ho : (N.mesh.topo.cell i).ori.getD m false = true
    · refine ⟨a, b, hori.1 ho, hla, hlb, rfl, ?_⟩
      rw [if_pos ho, hst]
    · refine ⟨b, a, ?_, hlb, hla, Sym2.eq_swap, ?_⟩
      · rcases hside with h | h
        · exact absurd (hori.2 h) ho
        · exact h
      · rw [if_neg ho, hst]
        simp only [latPos, ea, eb, latRef, List.map_cons, List.map_nil]
        rw [comb_swap]
  have hva := locF_valid (P := P) hT c hc a1 (by unfold Leg; rw [← hn]; exact hla1)
  have hvb := locF_valid (P := P) hT c hc b1 (by unfold Leg; rw [← hn]; exact hlb1)
  -- identification of the edge
  have hfind : ∀ k0 (x : FNode × FNode), (P.fineEdges L.mesh.topo)[k0]? = some x →
      s(x.1, x.2) = s(locF L.mesh.topo c a1, locF L.mesh.topo c b1) →
      k0 = e' ∧ x = (locF L.mesh.topo c a1, locF L.mesh.topo c b1) := by
    intro k0 x hx hxs
    have h1 := hR.edge k0 x hx
    have hk0 : k0 < N.mesh.topo.numEdges := by
      rw [hR.numEdges]; exact (List.getElem?_eq_some_iff.1 hx).1
    have h2 : k0 = e' := by
      refine hR.wf.edge_inj k0 hk0 e' he ?_
      rw [samePair_iff, h1, hed]
      simp only
      have := congrArg (Sym2.map (P.num L.mesh.topo)) hxs
      simpa using this
    refine ⟨h2, ?_⟩
    obtain ⟨v1, v2, _⟩ := fineEdges_valid hT hP x (List.mem_of_getElem? hx)
    rw [h2, hed] at h1
    obtain ⟨h3, h4⟩ := Prod.ext_iff.1 h1
    exact Prod.ext (num_inj _ _ v1 hva h3.symm) (num_inj _ _ v2 hvb h4.symm)
  have hzs : s(a, b) ∈ sidesOf Q := by
    unfold sidesOf
    rw [List.mem_iff_getElem?]
    refine ⟨m, ?_⟩
    rw [List.getElem?_zipWith, ha, List.getElem?_rotate hmQ, hb]
  refine ⟨comb t (latPos r a1) (latPos r b1), ?_⟩
  rcases side_cases hs hloc.sidesOk hQ hzs with ⟨j, hj, hz⟩ | hz
  · -- piece of a side
    have hj' : j < (L.mesh.topo.cell c).nodes.length := by omega
    have hE : (L.mesh.topo.cell c).edges.getD j 0 < L.mesh.topo.numEdges :=
      hT.wf.cell_edges c hc _ (getD_mem _ _ (by rw [hT.wf.cell_edges_len c hc]; exact hj'))
    have hmem : s(locF L.mesh.topo c a1, locF L.mesh.topo c b1) ∈ toS (P.subPairs L.mesh.topo ((L.mesh.topo.cell c).edges.getD j 0)) := by
      rw [← (subs_loc hT c hc j hj').mem_iff, List.mem_map]
      refine ⟨s(a, b), by rw [← hn]; exact hz, ?_⟩
      rw [hab]; rfl
    obtain ⟨x, hx, hxs⟩ := List.mem_map.1 hmem
    obtain ⟨q, hq⟩ := List.mem_iff_getElem?.1 hx
    have hlt : q < P.ew ((L.mesh.topo.cell c).edges.getD j 0) := by
      rw [← subPairs_length (T := L.mesh.topo)]
      exact (List.getElem?_eq_some_iff.1 hq).1
    obtain ⟨h1, h2⟩ := hfind _ x ((fineEdges_sub _ hE q hlt).trans hq) hxs
    have hon : a1 ∈ Verif.onSide r.numNodes j ∧ b1 ∈ Verif.onSide r.numNodes j := by
      rw [hab] at hz
      unfold subs at hz
      split at hz
      · simp only [List.mem_cons, List.not_mem_nil, or_false, Sym2.eq_iff] at hz
        rcases hz with (⟨rfl, rfl⟩ | ⟨rfl, rfl⟩) | ⟨rfl, rfl⟩ | ⟨rfl, rfl⟩ <;> simp [Verif.onSide]
      · simp only [List.mem_cons, List.not_mem_nil, or_false, Sym2.eq_iff] at hz
        rcases hz with ⟨rfl, rfl⟩ | ⟨rfl, rfl⟩ <;> simp [Verif.onSide]
    have hst := hs.sub_step hE hq t
    rw [h1] at hst
    refine ⟨_, _, hy, hst, Or.inr (Or.inl ⟨j, hj, _, ?_, ?_, rfl, rfl, ?_⟩)⟩
    · obtain ⟨p1, _⟩ := posOn_unit (K := K) L.mesh.topo ((L.mesh.topo.cell c).edges.getD j 0) x.1
      obtain ⟨p2, _⟩ := posOn_unit (K := K) L.mesh.topo ((L.mesh.topo.cell c).edges.getD j 0) x.2
      exact add_nonneg (mul_nonneg (by linarith) p1) (mul_nonneg ht0 p2)
    · obtain ⟨_, p1⟩ := posOn_unit (K := K) L.mesh.topo ((L.mesh.topo.cell c).edges.getD j 0) x.1
      obtain ⟨_, p2⟩ := posOn_unit (K := K) L.mesh.topo ((L.mesh.topo.cell c).edges.getD j 0) x.2
      nlinarith [mul_nonneg (sub_nonneg.2 ht1) (sub_nonneg.2 p1), mul_nonneg ht0 (sub_nonneg.2 p2)]
    · rw [latPos_side hT.wf hr hc hn hj hon.1, latPos_side hT.wf hr hc hn hj hon.2, onSide_affine _ hr _ _ hj, h2]
  · -- interior edge
    obtain ⟨y, hyi, hys⟩ := List.mem_map.1 hz
    obtain ⟨q, hq⟩ := List.mem_iff_getElem?.1 hyi
    have hlt : q < P.iw c := (List.getElem?_eq_some_iff.1 hq).1
    have hx : (P.fineEdges L.mesh.topo)[off P.ew L.mesh.topo.numEdges + off P.iw c + q]? =
        some (locF L.mesh.topo c y.1, locF L.mesh.topo c y.2) := by
      rw [Nat.add_assoc, fineEdges_int c hc q hlt]
      unfold Plan.intPairs
      rw [List.getElem?_map, hq]
      rfl
    obtain ⟨h1, h2⟩ := hfind _ _ hx (by
      have := congrArg (Sym2.map (locF L.mesh.topo c)) (hys.trans hab)
      simpa using this)
    obtain ⟨l1, l2, _⟩ := hloc.intsOk y hyi
    have h3 : y.1 = a1 := locF_inj hT c hc _ _ (by unfold Leg; rw [← hn]; exact l1) (by unfold Leg; rw [← hn]; exact hla1) (Prod.ext_iff.1 h2).1
    have h4 : y.2 = b1 := locF_inj hT c hc _ _ (by unfold Leg; rw [← hn]; exact l2) (by unfold Leg; rw [← hn]; exact hlb1) (Prod.ext_iff.1 h2).2
    have hst := hs.int_step hc hr hcr hloc hq t
    rw [h1, h3, h4] at hst
    refine ⟨_, _, hy, hst, Or.inl ⟨rfl, rfl, ?_⟩⟩
    · obtain ⟨_, _, e1⟩ := latPos_two hr hla1
      obtain ⟨_, _, e2⟩ := latPos_two hr hlb1
      simp [latPos, e1, e2, latRef, comb]

/-- One step of the transfer takes the same point to the same point. -/
theorem Step.samePoint {i : ℕ} {rf : RefEl} (hi : N.mesh.topo.refEl (0, i) = some rf) :
    ∃ c r, L.mesh.topo.refEl (0, c) = some r ∧ (∃ k, i = off P.pw c + k ∧ c < L.mesh.topo.numCells ∧ k < P.pw c) ∧
      ∀ (y : List K) e x, N.mesh.topo.SamePoint rf i y e x →
        ∃ y' e' x', stepIn N (0, i) y = some ((0, c), y') ∧ stepIn N e x = some (e', x') ∧
          L.mesh.topo.SamePoint r c y' e' x' := by
  have hR := hs.refined.isRef
  obtain ⟨hif, hrf, hnf⟩ : i < N.mesh.topo.numCells ∧ (rf = .tria ∨ rf = .quad) ∧
      rf.numNodes = (N.mesh.topo.cell i).nodes.length := by
    unfold Topo.refEl at hi
    split at hi
    · next h0 =>
      refine ⟨h0, ?_⟩
      simp only [show ((0 : ℕ) = 2) = False by simp, show ((0 : ℕ) = 1) = False by simp, if_false] at hi
      split at hi
      · next h => cases hi; exact ⟨Or.inl rfl, h.symm⟩
      · split at hi
        · next h => cases hi; exact ⟨Or.inr rfl, h.symm⟩
        · cases hi
    · cases hi
  have hif' := hif
  rw [hR.numCells, fineCells_length] at hif'
  obtain ⟨c, hc, k, hk, rfl⟩ := off_split P.pw hif'
  obtain ⟨r, hr, hcr, hn, href, hloc⟩ := hs.cellOk hc
  have hkQ : (P.polys c)[k]? = some (P.polys c)[k] := List.getElem?_eq_getElem hk
  set Q := (P.polys c)[k] with hQ
  have hnodes := hR.cell _ _ (fineCells_get c hc k hk)
  rw [← hQ, List.map_map] at hnodes
  have hl : rf.numNodes = Q.length := by rw [hnf, hnodes]; simp
  obtain ⟨hQl, _, hleg⟩ := hloc.polysOk Q (List.getElem_mem _)
  have h2 : ∀ q ∈ Q.map (latNode r), ∃ x y : ℤ, q = [x, y] := by
    intro q hq
    obtain ⟨z, hz, rfl⟩ := List.mem_map.1 hq
    exact latPos_two hr (hleg z hz)
  refine ⟨c, r, href, ⟨k, rfl, hc, hk⟩, ?_⟩
  rintro y e x (⟨rfl, rfl, hy⟩ | ⟨j, hj, t, ht0, ht1, rfl, rfl, rfl⟩ | ⟨j, hj, rfl, rfl, rfl⟩)
  · obtain ⟨y', h3, h4⟩ := relEval_cell c (by simpa using hQl) h2 x hy
    rw [hs.child_step hc hcr hkQ, h3]
    exact ⟨y', _, _, rfl, rfl, Or.inl ⟨rfl, rfl, h4⟩⟩
  · exact hs.side_same hc hr hcr hn hloc hkQ hrf hl hj ht0 ht1
  · have hjQ : j < Q.length := by omega
    obtain ⟨a, ha⟩ : ∃ a, Q[j]? = some a := ⟨_, List.getElem?_eq_getElem hjQ⟩
    obtain ⟨e, x, h3, h4⟩ := hs.node_same (K := K) hc hr hcr hn (hleg a (List.mem_of_getElem? ha))
    have hnum : (N.mesh.topo.cell (off P.pw c + k)).nodes.getD j 0 = P.num L.mesh.topo (locF L.mesh.topo c a) := by
      rw [hnodes]
      simp only [List.getD_eq_getElem?_getD, List.getElem?_map, ha, Option.map_some, Option.getD_some,
        Function.comp_apply]
    refine ⟨_, e, x, ?_, by rw [hnum]; exact h3, h4⟩
    rw [hs.child_step hc hcr hkQ, ← sidePoint_zero hrf hj, relEval_side c hrf (by simp [hl]) h2 j hj 0]
    simp only [List.getD_eq_getElem?_getD, List.getElem?_map, ha, Option.map_some, Option.getD_some]
    have hj1 : (j + 1) % rf.numNodes < Q.length := by rw [← hl]; exact Nat.mod_lt _ (by omega)
    rw [List.getElem?_eq_getElem hj1]
    obtain ⟨x0, y0, e0⟩ := latPos_two hr (hleg a (List.mem_of_getElem? ha))
    obtain ⟨x1, y1, e1⟩ := latPos_two hr (hleg _ (List.getElem_mem hj1))
    simp only [Option.map_some, Option.getD_some, latPos, e0, e1]
    simp [comb, latRef]

end

end Verif
