import Verif.Lemmas.Marking
import Verif.Lemmas.OptList

/-! Complete tables of the decisions of `RefineMarked`, and the initial state of the loop. -/

namespace Verif
variable {G : Type}

/-- Boolean version of `Pattern.SplitsSide`. -/
def Pattern.splitsSideB (p : Pattern) (k : ℕ) : Bool :=
  match p.childPolygons 0 with
  | none => false
  | some polys => polys.any fun poly => decide (refSideMid p.ref k ∈ poly)

theorem Pattern.splitsSideB_iff (p : Pattern) (k : ℕ) : p.splitsSideB k = true ↔ p.SplitsSide k := by
  unfold Pattern.splitsSideB Pattern.SplitsSide
  cases h : p.childPolygons 0 with
  | none => simp
  | some polys => simp

/-- Boolean version of `Pattern.Refines`. -/
def Pattern.refinesB (p : Pattern) : Bool :=
  (decide (patternTable p.ref p.pat = some false) ||
    (decide (patternTable p.ref p.pat = some true) && p.anchorSet)) && decide (p.pat ≠ .nil)

theorem Pattern.refinesB_iff (p : Pattern) : p.refinesB = true ↔ p.Refines := by
  unfold Pattern.refinesB Pattern.Refines Pattern.Admissible
  simp

/-- The pattern object exists, refines the cell and splits the sides given by the flags. -/
def patOk (ref : RefEl) (pat : RefPat) (anchor : Option ℕ) (fl : List Bool) : Bool :=
  match Pattern.make ref pat anchor with
  | none => false
  | some p => p.refinesB && (List.range ref.numNodes).all fun k => p.splitsSideB k == fl.getD k false

theorem patOk_spec {ref : RefEl} {pat : RefPat} {anchor : Option ℕ} {fl : List Bool}
    (h : patOk ref pat anchor fl = true) :
    ∃ p, Pattern.make ref pat anchor = some p ∧ p.Refines ∧
      ∀ k < ref.numNodes, (p.SplitsSide k ↔ fl.getD k false = true) := by
  unfold patOk at h
  cases hm : Pattern.make ref pat anchor with
  | none => rw [hm] at h; simp at h
  | some p =>
    rw [hm] at h
    simp only [Bool.and_eq_true, List.all_eq_true, List.mem_range, beq_iff_eq] at h
    refine ⟨p, rfl, p.refinesB_iff.1 h.1, fun k hk => ?_⟩
    rw [← p.splitsSideB_iff, h.2 k hk]

def bools : List Bool := [false, true]
def anchors4 : List (Option ℕ) := [none, some 0, some 1, some 2, some 3]

theorem mem_bools (b : Bool) : b ∈ bools := by cases b <;> decide
theorem mem_anchors4 (o : Option ℕ) (h : ∀ a, o = some a → a < 4) : o ∈ anchors4 := by
  cases o with
  | none => decide
  | some a =>
    have := h a rfl
    have : a = 0 ∨ a = 1 ∨ a = 2 ∨ a = 3 := by omega
    rcases this with rfl | rfl | rfl | rfl <;> decide

def triaOk (x : Bool) (y : Bool) (z : Bool) (a : ℕ) : Bool :=
  let fl := [x, y, z]
  let r := triaDecide (fl.getD a false) (fl.getD ((a + 1) % 3) false) (fl.getD ((a + 2) % 3) false)
  r.2 || patOk .tria r.1 (some a) fl

def quadOk (x y z w : Bool) (old : Option ℕ) : Bool :=
  match quadDecide [x, y, z, w] old with
  | none => false
  | some r => patOk .quad r.1 r.2 [x, y, z, w]

theorem tria_table : ∀ x ∈ bools, ∀ y ∈ bools, ∀ z ∈ bools, ∀ a ∈ [0, 1, 2], triaOk x y z a = true := by
  decide +kernel

theorem quad_table : ∀ x ∈ bools, ∀ y ∈ bools, ∀ z ∈ bools, ∀ w ∈ bools, ∀ o ∈ anchors4,
    quadOk x y z w o = true := by
  decide +kernel

/-- The cells chosen by the patterns do not depend on the anchor left over from an earlier pass. -/
theorem quad_children_table : ∀ x ∈ bools, ∀ y ∈ bools, ∀ z ∈ bools, ∀ w ∈ bools, ∀ o ∈ anchors4,
    (match quadDecide [x, y, z, w] o, quadDecide [x, y, z, w] none with
    | some r, some q => decide (r.1 = q.1) && decide (cellChildren .quad r.1 r.2 = cellChildren .quad q.1 q.2)
    | _, _ => false) = true := by
  decide +kernel

variable {M : Mesh G} {re : List (Option ℕ)}

theorem decided_pattern (hM : M.Valid) {E : List RefPat} {cp : List (RefPat × Option ℕ)} {c : ℕ}
    (hc : c < M.topo.numCells) (h : Decided M re E cp c) :
    ∃ ref pat anchor p, M.cellRef c = some ref ∧ ref.numNodes = (M.topo.cell c).edges.length ∧
      cp[c]? = some (pat, anchor) ∧ Pattern.make ref pat anchor = some p ∧ p.Refines ∧
      ∀ k < (M.topo.cell c).edges.length,
        (p.SplitsSide k ↔ SplitIn E ((M.topo.cell c).edges.getD k 0)) := by
  have hel := hM.wf.cell_edges_len c hc
  have hr := hM.ref c hc
  obtain ⟨fl, q1, q2, ⟨h3, a, ha, hra, hd, hcp⟩ | ⟨h4, old, ho, r, hr1, hcp⟩⟩ := h
  · rw [hel, h3] at q1
    match fl, q1 with
    | [x, y, z], _ =>
      have ht := tria_table x (mem_bools x) y (mem_bools y) z (mem_bools z) a
        (by have : a = 0 ∨ a = 1 ∨ a = 2 := by omega
            rcases this with rfl | rfl | rfl <;> decide)
      unfold triaOk at ht
      simp only [hd, Bool.false_or] at ht
      obtain ⟨p, hp1, hp2, hp3⟩ := patOk_spec ht
      refine ⟨.tria, _, some a, p, by rw [hr]; simp [cellRefEl, h3], by rw [hel, h3]; rfl, hcp, hp1, hp2, ?_⟩
      intro k hk
      rw [hel, h3] at hk
      rw [hp3 k hk, q2 k hk]
  · rw [hel, h4] at q1
    match fl, q1 with
    | [x, y, z, w], _ =>
      have ht := quad_table x (mem_bools x) y (mem_bools y) z (mem_bools z) w (mem_bools w) old
        (mem_anchors4 old ho)
      unfold quadOk at ht
      rw [hr1] at ht
      obtain ⟨p, hp1, hp2, hp3⟩ := patOk_spec ht
      refine ⟨.quad, r.1, r.2, p, by rw [hr]; simp [cellRefEl, h4], by rw [hel, h4]; rfl, hcp, hp1, hp2, ?_⟩
      intro k hk
      rw [hel, h4] at hk
      rw [hp3 k hk, q2 k hk]

theorem decided_children (hM : M.Valid) {E E' : List RefPat} {cp cp' : List (RefPat × Option ℕ)} {c : ℕ}
    (hE : ∀ e, SplitIn E e ↔ SplitIn E' e)
    (hc : c < M.topo.numCells) (h : Decided M re E cp c) (h' : Decided M re E' cp' c) :
    ∃ ref pat a pat' a', M.cellRef c = some ref ∧ cp[c]? = some (pat, a) ∧ cp'[c]? = some (pat', a') ∧
      pat = pat' ∧ cellChildren ref pat a = cellChildren ref pat' a' := by
  have hel := hM.wf.cell_edges_len c hc
  have hr := hM.ref c hc
  obtain ⟨fl, q1, q2, h⟩ := h
  obtain ⟨fl', q1', q2', h'⟩ := h'
  have hfl : fl = fl' := by
    apply List.ext_getElem (by rw [q1, q1'])
    intro j h1 h2
    have := (q2 j h1).trans ((hE _).trans (q2' j h2).symm)
    rw [List.getD_eq_getElem _ _ h1, List.getD_eq_getElem _ _ h2] at this
    exact Bool.eq_iff_iff.2 this
  subst hfl
  rcases h with ⟨h3, a, ha, hra, hd, hcp⟩ | ⟨h4, old, ho, r, hr1, hcp⟩
  · rcases h' with ⟨_, b, hb, hrb, hd', hcp'⟩ | ⟨h4, _⟩
    · rw [hra] at hrb
      cases hrb
      exact ⟨.tria, _, _, _, _, by rw [hr]; simp [cellRefEl, h3], hcp, hcp', rfl, rfl⟩
    · omega
  · rcases h' with ⟨h3, _⟩ | ⟨_, old', ho', r', hr1', hcp'⟩
    · omega
    · rw [hel, h4] at q1
      match fl, q1 with
      | [x, y, z, w], _ =>
        have t1 := quad_children_table x (mem_bools x) y (mem_bools y) z (mem_bools z) w (mem_bools w) old
          (mem_anchors4 old ho)
        have t2 := quad_children_table x (mem_bools x) y (mem_bools y) z (mem_bools z) w (mem_bools w) old'
          (mem_anchors4 old' ho')
        rw [hr1] at t1
        rw [hr1'] at t2
        cases hq : quadDecide [x, y, z, w] none with
        | none => rw [hq] at t1; simp at t1
        | some q =>
          rw [hq] at t1 t2
          simp only [Bool.and_eq_true, decide_eq_true_eq] at t1 t2
          exact ⟨.quad, r.1, r.2, r'.1, r'.2, by rw [hr]; simp [cellRefEl, h4], hcp, hcp',
            t1.1.trans t2.1.symm, t1.2.trans t2.2.symm⟩

theorem markInit_spec (L : Level G) (hL : L.Fresh) :
    ∃ s, markInit L = some s ∧ MarkOk L.mesh s ∧
      ∀ e, SplitIn s.edgePat e ↔ L.marked[e]? = some true := by
  have hm : ((List.range L.mesh.topo.numEdges).mapM fun e =>
      (L.marked[e]?).map fun b => if b then RefPat.split else RefPat.copy) =
      some (L.marked.map fun b => if b then RefPat.split else RefPat.copy) := by
    apply mapM_range_get _ _ _ (by simp [hL.marked])
    intro i _
    rw [List.getElem?_map]
  refine ⟨⟨L.marked.map fun b => if b then RefPat.split else RefPat.copy,
    L.cellCI.map fun ci => (ci.pat, ci.anchor), true⟩, ?_, ?_, ?_⟩
  · unfold markInit
    rw [if_pos ⟨by rw [hL.points]; simp, by rw [hL.edges]; simp, by rw [hL.cells]; simp⟩,
      if_pos (by rw [hL.edges]; simp ), hm]
    rfl
  · refine ⟨by simp [hL.marked], by simp [hL.cells], ?_, ?_⟩
    · intro p hp
      simp only [List.mem_map] at hp
      obtain ⟨b, _, rfl⟩ := hp
      cases b <;> simp
    · intro c hc _ p hp a ha
      simp only [hL.cells, List.map_replicate] at hp
      rw [List.getElem?_replicate] at hp
      simp [hc] at hp
      subst hp
      cases ha
  · intro e
    simp only [SplitIn, List.getElem?_map]
    cases h : L.marked[e]? with
    | none => simp
    | some b => cases b <;> simp

end Verif
