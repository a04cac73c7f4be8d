import Verif.Spec.Refinement
import Verif.Props.RefPattern
import Mathlib.Data.List.GetD
import Mathlib.Algebra.Order.Group.Nat

/-! The marking loop of `RefineMarked`. -/

namespace Verif
variable {G : Type}

/-- Edge `e` is flagged as split. -/
def SplitIn (E : List RefPat) (e : ℕ) : Prop := E[e]? = some .split

theorem splitFlags_spec (E : List RefPat) (edges : List ℕ) (h : ∀ e ∈ edges, e < E.length) :
    ∃ fl, splitFlags E edges = some fl ∧ fl.length = edges.length ∧
      ∀ j < edges.length, (fl.getD j false = true ↔ SplitIn E (edges.getD j 0)) := by
  induction edges with
  | nil => exact ⟨[], rfl, rfl, by simp⟩
  | cons a l ih =>
    obtain ⟨fl, h1, h2, h3⟩ := ih (fun e he => h e (by simp [he]))
    have ha := h a (by simp)
    refine ⟨decide (E[a] = .split) :: fl, ?_, by simp [h2], ?_⟩
    · unfold splitFlags at h1 ⊢
      rw [List.mapM_cons, List.getElem?_eq_getElem ha, h1]; rfl
    · intro j hj
      cases j with
      | zero => simp [SplitIn, ha]
      | succ j =>
        have := h3 j (by simpa using hj)
        simpa using this

/-- Number of edges flagged as split. -/
def numSplit (E : List RefPat) : ℕ := E.countP fun p => decide (p = .split)

theorem numSplit_set (E : List RefPat) (e : ℕ) (he : e < E.length) (hs : ¬ SplitIn E e) :
    numSplit (E.set e .split) = numSplit E + 1 := by
  induction E generalizing e with
  | nil => simp at he
  | cons a l ih =>
    cases e with
    | zero =>
      have : a ≠ .split := by simpa [SplitIn] using hs
      simp [numSplit, this]
    | succ e =>
      have := ih e (by simpa using he) (by simpa [SplitIn] using hs)
      simp only [numSplit] at this
      simp only [numSplit, List.set_cons_succ, List.countP_cons, this]
      omega

theorem splitIn_set (E : List RefPat) (e f : ℕ) (he : e < E.length) :
    SplitIn (E.set e .split) f ↔ (f = e ∨ SplitIn E f) := by
  unfold SplitIn
  rw [List.getElem?_set]
  by_cases h : e = f
  · subst h; simp [he]
  · rw [if_neg h]
    constructor
    · exact fun h' => Or.inr h'
    · rintro (h' | h')
      · exact absurd h'.symm h
      · exact h'

/-- The pattern of cell `c` has been chosen according to the flags of its edges. -/
def Decided (M : Mesh G) (re : List (Option ℕ)) (E : List RefPat) (cp : List (RefPat × Option ℕ)) (c : ℕ) :
    Prop :=
  ∃ fl : List Bool, fl.length = (M.topo.cell c).edges.length ∧
    (∀ j < fl.length, (fl.getD j false = true ↔ SplitIn E ((M.topo.cell c).edges.getD j 0))) ∧
    (((M.topo.cell c).nodes.length = 3 ∧ ∃ a < 3, re[c]? = some (some a) ∧
      (triaDecide (fl.getD a false) (fl.getD ((a + 1) % 3) false) (fl.getD ((a + 2) % 3) false)).2 = false ∧
      cp[c]? = some ((triaDecide (fl.getD a false) (fl.getD ((a + 1) % 3) false)
        (fl.getD ((a + 2) % 3) false)).1, some a)) ∨
     ((M.topo.cell c).nodes.length = 4 ∧ ∃ old : Option ℕ, (∀ a, old = some a → a < 4) ∧
      ∃ r, quadDecide fl old = some r ∧ cp[c]? = some r))

/-- Invariant of the marking loop. -/
structure MarkOk (M : Mesh G) (s : MarkState) : Prop where
  len1 : s.edgePat.length = M.topo.numEdges
  len0 : s.cellPat.length = M.topo.numCells
  pats : ∀ p ∈ s.edgePat, p = .split ∨ p = .copy
  anchors : ∀ c < M.topo.numCells, (M.topo.cell c).nodes.length = 4 →
    ∀ p, s.cellPat[c]? = some p → ∀ a, p.2 = some a → a < 4

theorem triaDecide_snd (s0 s1 s2 : Bool) :
    (triaDecide s0 s1 s2).2 = true ↔ s0 = false ∧ (s1 = true ∨ s2 = true) := by
  cases s0 <;> cases s1 <;> cases s2 <;> decide

theorem quadDecide_total (s : List Bool) (h : s.length = 4) (old : Option ℕ) (ho : ∀ a, old = some a → a < 4) :
    ∃ r, quadDecide s old = some r ∧ ∀ a, r.2 = some a → a < 4 := by
  match s, h with
  | [a, b, c, d], _ =>
    cases a <;> cases b <;> cases c <;> cases d <;>
      first
      | exact ⟨_, rfl, ho⟩
      | exact ⟨_, rfl, fun a h => by cases h; decide⟩

variable {M : Mesh G} (hM : M.Valid) {re : List (Option ℕ)} (hre : RefEdgesOk M.topo re)
include hM hre

theorem visitCell_spec (s : MarkState) (hs : MarkOk M s) (c : ℕ) (hc : c < M.topo.numCells) :
    ∃ s', visitCell M re s c = some s' ∧ MarkOk M s' ∧
      (∀ e, SplitIn s.edgePat e → SplitIn s'.edgePat e) ∧
      (∀ S : ℕ → Prop, (∀ e, SplitIn s.edgePat e → S e) → MarkClosed M.topo re S →
        ∀ e, SplitIn s'.edgePat e → S e) ∧
      (∀ d, d ≠ c → s'.cellPat[d]? = s.cellPat[d]?) ∧
      ((s'.complete = s.complete ∧ s'.edgePat = s.edgePat ∧ Decided M re s.edgePat s'.cellPat c) ∨
       (s'.complete = false ∧ numSplit s'.edgePat = numSplit s.edgePat + 1)) := by
  have hT := hM.wf
  have hel := hT.cell_edges_len c hc
  have hol := hT.cell_edges c hc
  obtain ⟨fl, f1, f2, f3⟩ := splitFlags_spec s.edgePat (M.topo.cell c).edges
    (fun e he => by rw [hs.len1]; exact hol e he)
  have hcp : c < s.cellPat.length := by rw [hs.len0]; exact hc
  have hr := hM.ref c hc
  rcases hT.cell_len c hc with h3 | h4
  · obtain ⟨a, ha, hrea⟩ := hre.2 c hc h3
    have href : M.cellRef c = some .tria := by rw [hr]; simp [cellRefEl, h3]
    have hlen : fl.length = 3 := by rw [f2, hel, h3]
    have heval : visitCell M re s c = some
        { edgePat := if (triaDecide (fl.getD a false) (fl.getD ((a + 1) % 3) false)
            (fl.getD ((a + 2) % 3) false)).2 then s.edgePat.set ((M.topo.cell c).edges.getD a 0) .split
            else s.edgePat
          cellPat := s.cellPat.set c ((triaDecide (fl.getD a false) (fl.getD ((a + 1) % 3) false)
            (fl.getD ((a + 2) % 3) false)).1, some a)
          complete := s.complete && !(triaDecide (fl.getD a false) (fl.getD ((a + 1) % 3) false)
            (fl.getD ((a + 2) % 3) false)).2 } := by
      unfold visitCell
      rw [f1, List.getElem?_eq_getElem hcp, href, hrea]
      simp [ha]
    have hae : a < (M.topo.cell c).edges.length := by rw [hel, h3]; exact ha
    have hea : (M.topo.cell c).edges.getD a 0 ∈ (M.topo.cell c).edges := by
      rw [List.getD_eq_getElem _ _ hae]; exact List.getElem_mem _
    have helt : (M.topo.cell c).edges.getD a 0 < s.edgePat.length := by rw [hs.len1]; exact hol _ hea
    cases hd : (triaDecide (fl.getD a false) (fl.getD ((a + 1) % 3) false) (fl.getD ((a + 2) % 3) false)).2 with
    | false =>
      rw [hd] at heval
      refine ⟨_, heval, ?_, ?_, ?_, ?_, Or.inl ⟨by simp, by simp, ?_⟩⟩
      · refine ⟨by simpa using hs.len1, by simpa using hs.len0, by simpa using hs.pats, ?_⟩
        intro d hd' h4 p hp
        by_cases hdc : d = c
        · subst hdc; omega
        · simp only [] at hp
          rw [List.getElem?_set_ne (by omega)] at hp
          exact hs.anchors d hd' h4 p hp
      · intro e he; simpa using he
      · intro S h1 _ e he; exact h1 e (by simpa using he)
      · intro d hdc; simp only []; rw [List.getElem?_set_ne (by omega)]
      · refine ⟨fl, f2, fun j hj => f3 j (by rw [← f2]; exact hj), Or.inl ⟨h3, a, ha, hrea, hd, ?_⟩⟩
        simp [hcp]
    | true =>
      rw [hd] at heval
      obtain ⟨h0, h12⟩ := (triaDecide_snd _ _ _).1 hd
      have hns : ¬ SplitIn s.edgePat ((M.topo.cell c).edges.getD a 0) := by
        rw [← f3 a hae, h0]; decide
      refine ⟨_, heval, ?_, ?_, ?_, ?_, Or.inr ⟨by simp, ?_⟩⟩
      · refine ⟨by simpa using hs.len1, by simpa using hs.len0, ?_, ?_⟩
        · intro p hp
          simp only [if_true] at hp
          rcases List.mem_or_eq_of_mem_set hp with h | h
          · exact hs.pats p h
          · exact Or.inl h
        · intro d hd' h4 p hp
          by_cases hdc : d = c
          · subst hdc; omega
          · simp only [] at hp
            rw [List.getElem?_set_ne (by omega)] at hp
            exact hs.anchors d hd' h4 p hp
      · intro e he
        simp only [if_true]
        exact (splitIn_set _ _ _ helt).2 (Or.inr he)
      · intro S h1 h2 e he
        simp only [if_true] at he
        rcases (splitIn_set _ _ _ helt).1 he with rfl | he
        · apply h2 c hc h3 a hrea
          rcases h12 with h | h
          · have hl : (a + 1) % 3 < (M.topo.cell c).edges.length := by
              rw [hel, h3]; exact Nat.mod_lt _ (by omega)
            refine ⟨(M.topo.cell c).edges.getD ((a + 1) % 3) 0, ?_, h1 _ ((f3 _ hl).1 h)⟩
            rw [List.getD_eq_getElem _ _ hl]; exact List.getElem_mem _
          · have hl : (a + 2) % 3 < (M.topo.cell c).edges.length := by
              rw [hel, h3]; exact Nat.mod_lt _ (by omega)
            refine ⟨(M.topo.cell c).edges.getD ((a + 2) % 3) 0, ?_, h1 _ ((f3 _ hl).1 h)⟩
            rw [List.getD_eq_getElem _ _ hl]; exact List.getElem_mem _
        · exact h1 e he
      · intro d hdc; simp only []; rw [List.getElem?_set_ne (by omega)]
      · simp only [if_true]
        exact numSplit_set _ _ helt hns
  · have href : M.cellRef c = some .quad := by rw [hr]; simp [cellRefEl, h4]
    have hlen : fl.length = 4 := by rw [f2, hel, h4]
    have hold := hs.anchors c hc h4 s.cellPat[c] (by simp [hcp])
    obtain ⟨r, hr1, hr2⟩ := quadDecide_total fl hlen s.cellPat[c].2 hold
    have heval : visitCell M re s c = some { s with cellPat := s.cellPat.set c r } := by
      unfold visitCell
      rw [f1, List.getElem?_eq_getElem hcp, href]
      simp [hr1]
    refine ⟨_, heval, ?_, fun e he => he, fun S h1 _ e he => h1 e he, ?_, Or.inl ⟨rfl, rfl, ?_⟩⟩
    · refine ⟨hs.len1, by simpa using hs.len0, hs.pats, ?_⟩
      intro d hd' h4 p hp
      by_cases hdc : d = c
      · subst hdc
        simp [hcp] at hp
        subst hp
        exact hr2
      · simp only [] at hp
        rw [List.getElem?_set_ne (by omega)] at hp
        exact hs.anchors d hd' h4 p hp
    · intro d hdc; simp only []; rw [List.getElem?_set_ne (by omega)]
    · exact ⟨fl, f2, fun j hj => f3 j (by rw [← f2]; exact hj), Or.inr ⟨h4, _, hold, r, hr1, by simp [hcp]⟩⟩

theorem foldCells_spec (order : List ℕ) (ho : ∀ c ∈ order, c < M.topo.numCells) (s : MarkState)
    (hs : MarkOk M s) :
    ∃ s', order.foldlM (visitCell M re) s = some s' ∧ MarkOk M s' ∧
      (∀ e, SplitIn s.edgePat e → SplitIn s'.edgePat e) ∧
      (∀ S : ℕ → Prop, (∀ e, SplitIn s.edgePat e → S e) → MarkClosed M.topo re S →
        ∀ e, SplitIn s'.edgePat e → S e) ∧
      (∀ d, d ∉ order → s'.cellPat[d]? = s.cellPat[d]?) ∧
      numSplit s.edgePat ≤ numSplit s'.edgePat ∧
      (s'.complete = true → s.complete = true ∧ s'.edgePat = s.edgePat ∧
        ∀ c ∈ order, Decided M re s.edgePat s'.cellPat c) ∧
      (s'.complete = false → s.complete = true → numSplit s.edgePat < numSplit s'.edgePat) := by
  induction order generalizing s with
  | nil =>
    exact ⟨s, rfl, hs, fun _ h => h, fun _ h _ => h, fun _ _ => rfl, Nat.le_refl _,
      fun h => ⟨h, rfl, by simp⟩, fun h h' => by rw [h] at h'; cases h'⟩
  | cons c l ih =>
    obtain ⟨s1, e1, ok1, m1, l1, o1, r1⟩ := visitCell_spec hM hre s hs c (ho c (by simp))
    obtain ⟨s2, e2, ok2, m2, l2, o2, n2, c2, i2⟩ := ih (fun d hd => ho d (by simp [hd])) s1 ok1
    have hle : numSplit s.edgePat ≤ numSplit s1.edgePat := by
      rcases r1 with ⟨_, h, _⟩ | ⟨_, h⟩
      · rw [h]
      · omega
    refine ⟨s2, ?_, ok2, fun e h => m2 e (m1 e h), ?_, ?_, Nat.le_trans hle n2, ?_, ?_⟩
    · rw [List.foldlM_cons, e1]; exact e2
    · intro S h1 h2
      exact l2 S (l1 S h1 h2) h2
    · intro d hd
      rw [o2 d (fun h => hd (by simp [h])), o1 d (fun h => hd (by simp [h]))]
    · intro hc2
      obtain ⟨a, b, d⟩ := c2 hc2
      rcases r1 with ⟨r, r', r''⟩ | ⟨r, _⟩
      · refine ⟨by rw [← r, a], by rw [b, r'], ?_⟩
        intro x hx
        by_cases hxl : x ∈ l
        · rw [← r']; exact d x hxl
        · have hxc : x = c := by
            rcases List.mem_cons.1 hx with h | h
            · exact h
            · exact absurd h hxl
          subst hxc
          obtain ⟨fl, q1, q2, q3⟩ := r''
          refine ⟨fl, q1, q2, ?_⟩
          rw [o2 x hxl]; exact q3
      · rw [r] at a; cases a
    · intro hf ht
      rcases r1 with ⟨r, r', r''⟩ | ⟨r, r'⟩
      · rw [← r'] 
        exact i2 hf (by rw [r, ht])
      · omega

omit hM hre in
theorem numSplit_le (E : List RefPat) : numSplit E ≤ E.length := List.countP_le_length

theorem markLoop_spec (order : List ℕ) (ho : ∀ c ∈ order, c < M.topo.numCells) (fuel : ℕ) (s : MarkState)
    (hs : MarkOk M s) (hf : M.topo.numEdges + 1 ≤ fuel + numSplit s.edgePat) :
    ∃ s', markLoop M re order fuel s = some s' ∧ MarkOk M s' ∧
      (∀ e, SplitIn s.edgePat e → SplitIn s'.edgePat e) ∧
      (∀ S : ℕ → Prop, (∀ e, SplitIn s.edgePat e → S e) → MarkClosed M.topo re S →
        ∀ e, SplitIn s'.edgePat e → S e) ∧
      (∀ c ∈ order, Decided M re s'.edgePat s'.cellPat c) := by
  induction fuel generalizing s with
  | zero =>
    have := numSplit_le s.edgePat
    rw [hs.len1] at this
    omega
  | succ fuel ih =>
    have hs0 : MarkOk M { s with complete := true } := ⟨hs.len1, hs.len0, hs.pats, hs.anchors⟩
    obtain ⟨s1, e1, ok1, m1, l1, o1, n1, c1, i1⟩ := foldCells_spec hM hre order ho _ hs0
    have hu : markLoop M re order (fuel + 1) s =
        if s1.complete then some s1 else markLoop M re order fuel s1 := by
      show (markPass M re order s).bind _ = _
      rw [show markPass M re order s = some s1 from e1]
      rfl
    rw [hu]
    cases hc : s1.complete with
    | true =>
      obtain ⟨_, b, d⟩ := c1 hc
      refine ⟨s1, by simp, ok1, m1, l1, ?_⟩
      intro c hcc
      rw [b]; exact d c hcc
    | false =>
      have := i1 hc rfl
      obtain ⟨s2, e2, ok2, m2, l2, d2⟩ := ih s1 ok1 (by simp only [] at this; omega)
      exact ⟨s2, by simpa using e2, ok2, fun e h => m2 e (m1 e h), fun S h1 h2 => l2 S (l1 S h1 h2) h2, d2⟩

omit hre in
theorem decided_closed (E : List RefPat) (cp : List (RefPat × Option ℕ))
    (h : ∀ c < M.topo.numCells, Decided M re E cp c) : MarkClosed M.topo re (SplitIn E) := by
  intro c hc h3 a ha hex
  have hel := hM.wf.cell_edges_len c hc
  obtain ⟨fl, q1, q2, ⟨_, b, hb, hrb, hd, _⟩ | ⟨h4, _⟩⟩ := h c hc
  · rw [ha] at hrb
    cases hrb
    by_contra hns
    have hlen : fl.length = 3 := by rw [q1, hel, h3]
    have h0 : fl.getD a false = false := by
      by_contra hh
      exact hns ((q2 a (by omega)).1 (by simpa using hh))
    obtain ⟨e, he, hse⟩ := hex
    obtain ⟨j, hj, rfl⟩ := List.getElem_of_mem he
    have hj3 : j < fl.length := by rw [q1]; exact hj
    have hfj : fl.getD j false = true := (q2 j hj3).2 (by rw [List.getD_eq_getElem _ _ hj]; exact hse)
    have hja : j ≠ a := by rintro rfl; rw [h0] at hfj; cases hfj
    have : j = (a + 1) % 3 ∨ j = (a + 2) % 3 := by omega
    have ht := (triaDecide_snd (fl.getD a false) (fl.getD ((a + 1) % 3) false) (fl.getD ((a + 2) % 3) false)).2
      ⟨h0, this.elim (fun h => Or.inl (h ▸ hfj)) (fun h => Or.inr (h ▸ hfj))⟩
    rw [hd] at ht
    cases ht
  · omega

end Verif
