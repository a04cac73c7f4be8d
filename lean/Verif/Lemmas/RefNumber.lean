import Verif.Lemmas.RefShare
import Verif.Lemmas.OptList
import Mathlib.Algebra.BigOperators.Group.List.Basic
import Mathlib.Algebra.Order.BigOperators.Group.List

/-! Numbering by offsets. -/

namespace Verif

/-- Sum of the first `n` values. -/
def off (w : ℕ → ℕ) (n : ℕ) : ℕ := ((List.range n).map w).sum

@[simp] theorem off_zero (w : ℕ → ℕ) : off w 0 = 0 := rfl
theorem off_succ (w : ℕ → ℕ) (n : ℕ) : off w (n + 1) = off w n + w n := by
  simp [off, List.range_succ]

theorem off_le (w : ℕ → ℕ) {m n : ℕ} (h : m ≤ n) : off w m ≤ off w n := by
  induction n with
  | zero => have : m = 0 := by omega
            subst this; exact Nat.le_refl _
  | succ n ih =>
    by_cases hm : m = n + 1
    · subst hm; exact Nat.le_refl _
    · rw [off_succ]
      have := ih (by omega)
      omega

theorem off_lt (w : ℕ → ℕ) {i n j : ℕ} (hi : i < n) (hj : j < w i) : off w i + j < off w n := by
  have := off_le w (show i + 1 ≤ n from hi)
  rw [off_succ] at this
  omega

theorem off_inj (w : ℕ → ℕ) {i i' j j' : ℕ} (hj : j < w i) (hj' : j' < w i')
    (h : off w i + j = off w i' + j') : i = i' ∧ j = j' := by
  have h1 : ∀ {a b x y}, x < w a → y < w b → off w a + x = off w b + y → ¬ a < b := by
    intro a b x y hx _ h hab
    have := off_lt w hab hx
    omega
  have h2 := h1 hj hj' h
  have h3 := h1 hj' hj h.symm
  have : i = i' := by omega
  subst this
  exact ⟨rfl, by omega⟩

theorem off_split (w : ℕ → ℕ) {n k : ℕ} (h : k < off w n) : ∃ i < n, ∃ j < w i, k = off w i + j := by
  induction n with
  | zero => simp at h
  | succ n ih =>
    by_cases hk : k < off w n
    · obtain ⟨i, hi, j, hj, rfl⟩ := ih hk
      exact ⟨i, by omega, j, hj, rfl⟩
    · rw [off_succ] at h
      exact ⟨n, by omega, k - off w n, by omega, by omega⟩

theorem off_add (w w' : ℕ → ℕ) (n : ℕ) : off (fun i => w i + w' i) n = off w n + off w' n := by
  induction n with
  | zero => rfl
  | succ n ih => rw [off_succ, off_succ, off_succ, ih]; omega

theorem off_const (k n : ℕ) : off (fun _ => k) n = n * k := by
  induction n with
  | zero => simp
  | succ n ih => rw [off_succ, ih, Nat.succ_mul]

theorem off_congr {w w' : ℕ → ℕ} {n : ℕ} (h : ∀ i < n, w i = w' i) : off w n = off w' n := by
  induction n with
  | zero => rfl
  | succ n ih => rw [off_succ, off_succ, ih (fun i hi => h i (by omega)), h n (by omega)]

theorem flatMap_length {β : Type} (f : ℕ → List β) (n : ℕ) :
    ((List.range n).flatMap f).length = off (fun i => (f i).length) n := by
  simp [off, List.length_flatMap]

theorem flatMap_range_succ {β : Type} (f : ℕ → List β) (n : ℕ) :
    (List.range (n + 1)).flatMap f = (List.range n).flatMap f ++ f n := by
  simp [List.range_succ, List.flatMap_append]

theorem flatMap_get {β : Type} (f : ℕ → List β) (w : ℕ → ℕ) (n : ℕ) (hw : ∀ i < n, w i = (f i).length)
    (i : ℕ) (hi : i < n) (j : ℕ) (hj : j < w i) :
    ((List.range n).flatMap f)[off w i + j]? = (f i)[j]? := by
  induction n with
  | zero => omega
  | succ n ih =>
    have hlen : ((List.range n).flatMap f).length = off w n := by
      rw [flatMap_length]; exact (off_congr (fun i hi => hw i (by omega))).symm
    rw [flatMap_range_succ]
    by_cases hin : i < n
    · rw [List.getElem?_append_left (by rw [hlen]; exact off_lt w hin hj)]
      exact ih (fun i hi => hw i (by omega)) hin
    · have : i = n := by omega
      subst this
      rw [List.getElem?_append_right (by rw [hlen]; omega), hlen]
      congr 1
      omega

theorem flatMap_offs (w : ℕ → ℕ) (n b : ℕ) :
    (List.range n).flatMap (fun i => (List.range (w i)).map (fun j => b + off w i + j)) =
      (List.range (off w n)).map (b + ·) := by
  induction n with
  | zero => rfl
  | succ n ih =>
    rw [flatMap_range_succ, ih, off_succ, List.range_add, List.map_append, List.map_map]
    congr 1
    apply List.map_congr_left
    intro j _
    simp only [Function.comp]
    omega

theorem count_map_on {α β : Type} [BEq α] [LawfulBEq α] [BEq β] [LawfulBEq β] (f : α → β) (l : List α) (z : α)
    (h : ∀ x ∈ l, f x = f z → x = z) : (l.map f).count (f z) = l.count z := by
  induction l with
  | nil => rfl
  | cons a l ih =>
    rw [List.map_cons, List.count_cons, List.count_cons, ih (fun x hx => h x (by simp [hx]))]
    congr 1
    by_cases ha : a = z
    · subst ha; simp
    · have : ¬ f a = f z := fun h' => ha (h a (by simp) h')
      simp [ha, this]

theorem count_flatMap_one {α β : Type} [BEq α] [LawfulBEq α] [BEq β] [LawfulBEq β] (f : α → List β) (L : List α)
    (z : β) (e : α) (h1 : (f e).count z = 1) (h2 : ∀ x ∈ L, x ≠ e → z ∉ f x) :
    (L.flatMap f).count z = L.count e := by
  induction L with
  | nil => rfl
  | cons a L ih =>
    rw [List.flatMap_cons, List.count_append, List.count_cons, ih (fun x hx => h2 x (by simp [hx]))]
    by_cases ha : a = e
    · subst ha; simp [h1, Nat.add_comm]
    · rw [List.count_eq_zero_of_not_mem (h2 a (by simp) ha)]
      simp [ha]

/-! ### Nodes -/

/-- Number of midpoints created on edge `e`. -/
def Plan.mw (P : Plan) (e : ℕ) : ℕ := (P.sp e).toNat
/-- Number of interior nodes created in cell `c`. -/
def Plan.cw (P : Plan) (c : ℕ) : ℕ := (P.ctr c).toNat
/-- Number of children of edge `e`. -/
def Plan.ew (P : Plan) (e : ℕ) : ℕ := if P.sp e then 2 else 1
/-- Number of interior edges of cell `c`. -/
def Plan.iw (P : Plan) (c : ℕ) : ℕ := (P.ints c).length
/-- Number of children of cell `c`. -/
def Plan.pw (P : Plan) (c : ℕ) : ℕ := (P.polys c).length

/-- Number of nodes of the refined mesh. -/
def Plan.numFine (P : Plan) (T : Topo) : ℕ := T.numNodes + off P.mw T.numEdges + off P.cw T.numCells

/-- Index of a node of the refined mesh. -/
def Plan.num (P : Plan) (T : Topo) : FNode → ℕ
  | .vert v => v
  | .mid e => T.numNodes + off P.mw e
  | .ctr c => T.numNodes + off P.mw T.numEdges + off P.cw c

theorem num_lt {P : Plan} {T : Topo} (x : FNode) (h : P.ValidNode T x) : P.num T x < P.numFine T := by
  cases x with
  | vert v => have : v < T.numNodes := h
              simp only [Plan.num, Plan.numFine]; omega
  | mid e =>
    have h1 := off_lt P.mw h.1 (j := 0) (by simp [Plan.mw, h.2])
    simp only [Plan.num, Plan.numFine]; omega
  | ctr c =>
    have h1 := off_lt P.cw h.1 (j := 0) (by simp [Plan.cw, h.2])
    simp only [Plan.num, Plan.numFine]; omega

theorem num_inj {P : Plan} {T : Topo} (x y : FNode) (hx : P.ValidNode T x) (hy : P.ValidNode T y)
    (h : P.num T x = P.num T y) : x = y := by
  cases x with
  | vert v =>
    have hv : v < T.numNodes := hx
    cases y with
    | vert w => simp only [Plan.num] at h; rw [h]
    | mid e => simp only [Plan.num] at h; omega
    | ctr c => simp only [Plan.num] at h; omega
  | mid e =>
    have h1 := off_lt P.mw hx.1 (j := 0) (by simp [Plan.mw, hx.2])
    cases y with
    | vert w => have hv : w < T.numNodes := hy
                simp only [Plan.num] at h; omega
    | mid f =>
      simp only [Plan.num] at h
      have := off_inj P.mw (i := e) (i' := f) (j := 0) (j' := 0) (by simp [Plan.mw, hx.2])
        (by simp [Plan.mw, hy.2]) (by omega)
      rw [this.1]
    | ctr c => simp only [Plan.num] at h; omega
  | ctr c =>
    cases y with
    | vert w => have hv : w < T.numNodes := hy
                simp only [Plan.num] at h; omega
    | mid f =>
      have h1 := off_lt P.mw hy.1 (j := 0) (by simp [Plan.mw, hy.2])
      simp only [Plan.num] at h; omega
    | ctr d =>
      simp only [Plan.num] at h
      have := off_inj P.cw (i := c) (i' := d) (j := 0) (j' := 0) (by simp [Plan.cw, hx.2])
        (by simp [Plan.cw, hy.2]) (by omega)
      rw [this.1]

theorem num_surj {P : Plan} {T : Topo} (k : ℕ) (h : k < P.numFine T) : ∃ x, P.ValidNode T x ∧ P.num T x = k := by
  unfold Plan.numFine at h
  by_cases h1 : k < T.numNodes
  · exact ⟨.vert k, h1, rfl⟩
  by_cases h2 : k < T.numNodes + off P.mw T.numEdges
  · obtain ⟨e, he, j, hj, hk⟩ := off_split P.mw (n := T.numEdges) (k := k - T.numNodes) (by omega)
    have hs : P.sp e = true := by
      by_contra hn
      rw [Bool.not_eq_true] at hn
      simp [Plan.mw, hn] at hj
    have hj0 : j = 0 := by simp [Plan.mw, hs] at hj; exact hj
    exact ⟨.mid e, ⟨he, hs⟩, by simp only [Plan.num]; omega⟩
  · obtain ⟨c, hc, j, hj, hk⟩ := off_split P.cw (n := T.numCells)
      (k := k - T.numNodes - off P.mw T.numEdges) (by omega)
    have hs : P.ctr c = true := by
      by_contra hn
      rw [Bool.not_eq_true] at hn
      simp [Plan.cw, hn] at hj
    have hj0 : j = 0 := by simp [Plan.cw, hs] at hj; exact hj
    exact ⟨.ctr c, ⟨hc, hs⟩, by simp only [Plan.num]; omega⟩

end Verif
