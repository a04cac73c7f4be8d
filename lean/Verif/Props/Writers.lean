import Verif.Spec.Writers
import Mathlib.Data.List.Basic
import Mathlib.Tactic.Ring
import Mathlib.Tactic.FieldSimp
import Mathlib.Tactic.LinearCombination
import Mathlib.Tactic.NormNum

/-!
# C101: `writeMatlab`; C102: `writeMatplotlib`
-/

namespace Verif
open Writers

namespace Writers
variable {K : Type}

/-- Rows of a matrix of which the first `k` have been assigned. -/
def partRows (n k : ℕ) (f : ℕ → List (ℕ ⊕ K)) (z : List (ℕ ⊕ K)) : List (List (ℕ ⊕ K)) := (List.range n).map fun i => if i < k then f i else z

theorem partRows_zero (n : ℕ) (f : ℕ → List (ℕ ⊕ K)) (z : List (ℕ ⊕ K)) : partRows n 0 f z = List.replicate n z := by
  unfold partRows
  simp

theorem partRows_full (n : ℕ) (f : ℕ → List (ℕ ⊕ K)) (z : List (ℕ ⊕ K)) : partRows n n f z = (List.range n).map f := by
  unfold partRows
  apply List.map_congr_left
  intro i hi
  rw [if_pos (List.mem_range.mp hi)]

theorem partRows_set {n k : ℕ} (hk : k < n) (f : ℕ → List (ℕ ⊕ K)) (z : List (ℕ ⊕ K)) :
    (partRows n k f z).set k (f k) = partRows n (k + 1) f z := by
  unfold partRows
  apply List.ext_getElem
  · simp
  · intro i h1 h2
    simp only [List.getElem_set, List.getElem_map, List.getElem_range]
    by_cases h : k = i
    · subst h; simp
    · rw [if_neg h]
      by_cases h' : i < k
      · rw [if_pos h', if_pos (by omega)]
      · rw [if_neg h', if_neg (by omega)]

/-- Assignment to row `k + 1` of a matrix of which the first `k` rows have been assigned. -/
theorem exec_row {σ : MState K} {v : MVar} {n k w : ℕ} (hk : k < n) {f : ℕ → List (ℕ ⊕ K)} (hw : ∀ i, (f i).length = w) {z : List (ℕ ⊕ K)} (hz : z.length = w)
    (h : σ v = partRows n k f z) : exec σ (.row v (k + 1) (f k)) = some (Function.update σ v (partRows n (k + 1) f z)) := by
  have hl : (σ v).length = n := by rw [h]; simp [partRows]
  unfold exec
  simp only
  rw [if_pos]
  · rw [if_pos (by omega), h, Nat.add_sub_cancel, partRows_set hk]
  · refine ⟨by omega, by omega, ?_⟩
    rw [h]
    intro r hr
    unfold partRows at hr
    rw [List.mem_map] at hr
    obtain ⟨i, -, rfl⟩ := hr
    rw [hw]
    split_ifs
    · exact hw i
    · exact hz

theorem exec_new {σ : MState K} {v : MVar} {vals : List (ℕ ⊕ K)} {t : ℕ} (ht : (σ v).length = t) (hr : ∀ r ∈ σ v, r.length = vals.length) :
    exec σ (.row v (t + 1) vals) = some (Function.update σ v (σ v ++ [vals])) := by
  unfold exec
  simp only
  rw [if_pos ⟨by omega, by omega, hr⟩, if_neg (by omega)]

/-- The loop over the nodes. -/
theorem run_nodes (n : ℕ) (pos : ℕ → K × K) (σ : MState K) (hx : σ .x = List.replicate n [.inl 0]) (hy : σ .y = List.replicate n [.inl 0]) (k : ℕ) (hk : k ≤ n) :
    ∃ σ', ((List.range k).flatMap fun v => [MStmt.row .x (v + 1) [.inr (pos v).1], .row .y (v + 1) [.inr (pos v).2]]).foldlM exec σ = some σ' ∧
      σ' .x = partRows n k (fun v => [.inr (pos v).1]) [.inl 0] ∧ σ' .y = partRows n k (fun v => [.inr (pos v).2]) [.inl 0] ∧
      ∀ v, v ≠ .x → v ≠ .y → σ' v = σ v := by
  induction k with
  | zero => exact ⟨σ, rfl, by rw [partRows_zero, hx], by rw [partRows_zero, hy], fun _ _ _ => rfl⟩
  | succ k ih =>
    obtain ⟨σ', h1, h2, h3, h4⟩ := ih (by omega)
    rw [List.range_succ, List.flatMap_append, List.foldlM_append, h1]
    have e1 := exec_row (σ := σ') (v := .x) (n := n) (k := k) (w := 1) (by omega) (f := fun v => [.inr (pos v).1]) (fun _ => rfl) (z := [.inl 0]) rfl h2
    refine ⟨Function.update (Function.update σ' .x (partRows n (k + 1) (fun v => [.inr (pos v).1]) [.inl 0])) .y (partRows n (k + 1) (fun v => [.inr (pos v).2]) [.inl 0]), ?_, ?_, ?_, ?_⟩
    · have e2 := exec_row (σ := Function.update σ' .x (partRows n (k + 1) (fun v => [.inr (pos v).1]) [.inl 0])) (v := .y) (n := n) (k := k) (w := 1) (by omega)
        (f := fun v => [.inr (pos v).2]) (fun _ => rfl) (z := [.inl 0]) rfl (by rw [Function.update_of_ne (by decide), h3])
      simp only [List.flatMap_cons, List.flatMap_nil, List.append_nil, List.foldlM_cons, List.foldlM_nil]
      simp only [bind, Option.bind, pure]
      rw [e1]
      simp only
      rw [e2]
    · rw [Function.update_of_ne (by decide), Function.update_self]
    · rw [Function.update_self]
    · intro v hv hv'
      rw [Function.update_of_ne hv', Function.update_of_ne hv, h4 v hv hv']

/-- The loop over the edges. -/
theorem run_edges (n : ℕ) (E : ℕ → ℕ × ℕ) (σ : MState K) (hx : σ .eds = List.replicate n [.inl 0, .inl 0]) (k : ℕ) (hk : k ≤ n) :
    ∃ σ', ((List.range k).map fun e => MStmt.row .eds (e + 1) [.inl ((E e).1 + 1), .inl ((E e).2 + 1)]).foldlM exec σ = some σ' ∧
      σ' .eds = partRows n k (fun e => [.inl ((E e).1 + 1), .inl ((E e).2 + 1)]) [.inl 0, .inl 0] ∧ ∀ v, v ≠ .eds → σ' v = σ v := by
  induction k with
  | zero => exact ⟨σ, rfl, by rw [partRows_zero, hx], fun _ _ => rfl⟩
  | succ k ih =>
    obtain ⟨σ', h1, h2, h4⟩ := ih (by omega)
    rw [List.range_succ, List.map_append, List.foldlM_append, h1]
    have e1 := exec_row (σ := σ') (v := .eds) (n := n) (k := k) (w := 2) (by omega) (f := fun e => [.inl ((E e).1 + 1), .inl ((E e).2 + 1)]) (fun _ => rfl)
      (z := [.inl 0, .inl 0]) rfl h2
    refine ⟨_, ?_, Function.update_self .eds (partRows n (k + 1) (fun e => [.inl ((E e).1 + 1), .inl ((E e).2 + 1)]) [.inl 0, .inl 0]) σ', ?_⟩
    · simp only [List.map_cons, List.map_nil, List.foldlM_cons, List.foldlM_nil]
      simp only [bind, Option.bind, pure]
      rw [e1]
    · intro v hv
      rw [Function.update_of_ne hv, h4 v hv]

/-- The row of a cell. -/
def cellRow (T : Topo) (c : ℕ) : List (ℕ ⊕ K) := (T.cell c).nodes.map (fun v => .inl (v + 1)) ++ [.inl c]

/-- The cells with `m` corners among the first `k`. -/
def cellsWith (T : Topo) (m k : ℕ) : List ℕ := (List.range k).filter fun c => (T.cell c).nodes.length = m

theorem cellsWith_succ (T : Topo) (m k : ℕ) : cellsWith T m (k + 1) = cellsWith T m k ++ if (T.cell k).nodes.length = m then [k] else [] := by
  unfold cellsWith
  rw [List.range_succ, List.filter_append]
  congr 1
  by_cases h : (T.cell k).nodes.length = m <;> simp [h]

theorem length_cellRow {T : Topo} {m k : ℕ} : ∀ r ∈ (cellsWith T m k).map (cellRow (K := K) T), r.length = m + 1 := by
  intro r hr
  rw [List.mem_map] at hr
  obtain ⟨c, hc, rfl⟩ := hr
  unfold cellsWith at hc
  have := (List.mem_filter.mp hc).2
  simp only [decide_eq_true_eq] at this
  simp [cellRow, this]

/-- The loop over the cells. -/
theorem run_cells (T : Topo) (σ : MState K) (k : ℕ) (hT : ∀ c < k, (T.cell c).nodes.length = 3 ∨ (T.cell c).nodes.length = 4) :
    ∃ p, (List.range k).foldlM (matlabCell T) ([MStmt.empty .tri, .empty .quad], 0, 0) = some (p, (cellsWith T 3 k).length, (cellsWith T 4 k).length) ∧
      ∃ σ', p.foldlM exec σ = some σ' ∧ σ' .tri = (cellsWith T 3 k).map (cellRow T) ∧ σ' .quad = (cellsWith T 4 k).map (cellRow T) ∧
        ∀ v, v ≠ .tri → v ≠ .quad → σ' v = σ v := by
  induction k with
  | zero =>
    refine ⟨_, rfl, Function.update (Function.update σ .tri []) .quad [], rfl, ?_, ?_, ?_⟩
    · rw [Function.update_of_ne (by decide), Function.update_self]; rfl
    · rw [Function.update_self]; rfl
    · intro v hv hv'
      rw [Function.update_of_ne hv', Function.update_of_ne hv]
  | succ k ih =>
    obtain ⟨p, h1, σ', h2, h3, h4, h5⟩ := ih fun c hc => hT c (by omega)
    rw [List.range_succ, List.foldlM_append, h1, cellsWith_succ, cellsWith_succ]
    rcases hT k (by omega) with hl | hl
    · rw [if_pos hl, if_neg (by omega)]
      obtain ⟨a, b, c, habc⟩ := List.length_eq_three.mp hl
      refine ⟨p ++ [.row .tri ((cellsWith T 3 k).length + 1) (cellRow T k)], ?_, Function.update σ' .tri (σ' .tri ++ [cellRow T k]), ?_, ?_, ?_, ?_⟩
      · simp only [List.foldlM_cons, List.foldlM_nil, bind, Option.bind, matlabCell, habc, pure, cellRow, List.map_cons, List.map_nil, List.length_append,
          List.length_singleton, List.append_nil, List.cons_append, List.nil_append]
      · rw [List.foldlM_append, h2]
        have := exec_new (σ := σ') (v := .tri) (vals := cellRow T k) (t := (cellsWith T 3 k).length) (by rw [h3, List.length_map])
          (by rw [h3]; intro r hr; rw [length_cellRow r hr]; simp [cellRow, hl])
        simp only [List.foldlM_cons, List.foldlM_nil, bind, Option.bind, this, pure]
      · rw [Function.update_self, h3, List.map_append]; rfl
      · rw [Function.update_of_ne (by decide), h4, List.append_nil]
      · intro v hv hv'
        rw [Function.update_of_ne hv, h5 v hv hv']
    · rw [if_neg (by omega), if_pos hl]
      obtain ⟨a, b, c, d, habc⟩ : ∃ a b c d, (T.cell k).nodes = [a, b, c, d] := by
        match h : (T.cell k).nodes, hl with
        | [a, b, c, d], _ => exact ⟨a, b, c, d, rfl⟩
      refine ⟨p ++ [.row .quad ((cellsWith T 4 k).length + 1) (cellRow T k)], ?_, Function.update σ' .quad (σ' .quad ++ [cellRow T k]), ?_, ?_, ?_, ?_⟩
      · simp only [List.foldlM_cons, List.foldlM_nil, bind, Option.bind, matlabCell, habc, pure, cellRow, List.map_cons, List.map_nil, List.length_append,
          List.length_singleton, List.append_nil, List.cons_append, List.nil_append]
      · rw [List.foldlM_append, h2]
        have := exec_new (σ := σ') (v := .quad) (vals := cellRow T k) (t := (cellsWith T 4 k).length) (by rw [h4, List.length_map])
          (by rw [h4]; intro r hr; rw [length_cellRow r hr]; simp [cellRow, hl])
        simp only [List.foldlM_cons, List.foldlM_nil, bind, Option.bind, this, pure]
      · rw [Function.update_of_ne (by decide), h3, List.append_nil]
      · rw [Function.update_self, h4, List.map_append]; rfl
      · intro v hv hv'
        rw [Function.update_of_ne hv', h5 v hv hv']

end Writers

variable {K : Type}

/-- **C101**: for every mesh, running the file in Matlab gives the coordinates of the nodes in `x` and `y`, the end points of the edges (numbered from 1) in `EDS`, and one
row for each triangle in `TRI` and each quadrilateral in `QUAD`, in the order of their indices: the corners (numbered from 1), then the index of the cell. -/
theorem C101_matlab (T : Topo) (hT : T.WF) (pos : ℕ → K × K) :
    ∃ p σ, matlabBody T pos = some p ∧ runMatlab p = some σ ∧
      σ .x = (List.range T.numNodes).map (fun v => [.inr (pos v).1]) ∧
      σ .y = (List.range T.numNodes).map (fun v => [.inr (pos v).2]) ∧
      σ .eds = (List.range T.numEdges).map (fun e => [.inl ((T.edge e).1 + 1), .inl ((T.edge e).2 + 1)]) ∧
      σ .tri = ((List.range T.numCells).filter fun c => (T.cell c).nodes.length = 3).map
        (fun c => (T.cell c).nodes.map (fun v => .inl (v + 1)) ++ [.inl c]) ∧
      σ .quad = ((List.range T.numCells).filter fun c => (T.cell c).nodes.length = 4).map
        (fun c => (T.cell c).nodes.map (fun v => .inl (v + 1)) ++ [.inl c]) := by
  let σ₀ : MState K := Function.update (Function.update (fun _ => []) .x (List.replicate T.numNodes [.inl 0])) .y (List.replicate T.numNodes [.inl 0])
  obtain ⟨σ₁, a1, a2, a3, a4⟩ := run_nodes T.numNodes pos σ₀ rfl rfl T.numNodes le_rfl
  let σ₂ : MState K := Function.update σ₁ .eds (List.replicate T.numEdges [.inl 0, .inl 0])
  obtain ⟨σ₃, b1, b2, b3⟩ := run_edges T.numEdges T.edge σ₂ rfl T.numEdges le_rfl
  obtain ⟨p, c1, σ₄, c2, c3, c4, c5⟩ := run_cells T σ₃ T.numCells hT.cell_len
  refine ⟨_, σ₄, by unfold matlabBody; rw [c1]; rfl, ?_, ?_, ?_, ?_, c3, c4⟩
  · unfold runMatlab matlabNodes matlabEdges
    rw [List.foldlM_append, List.foldlM_append, List.foldlM_append]
    have h0 : List.foldlM exec (fun _ => []) [MStmt.zeros .x T.numNodes 1, .zeros .y T.numNodes 1] = some σ₀ := rfl
    rw [h0]
    change ((List.foldlM exec σ₀ _).bind fun s => _).bind (fun s => _) = _
    rw [a1]
    change (List.foldlM exec σ₂ _).bind _ = _
    rw [b1]
    exact c2
  · rw [c5 _ (by decide) (by decide), b3 _ (by decide)]
    change σ₁ .x = _
    rw [a2, partRows_full]
  · rw [c5 _ (by decide) (by decide), b3 _ (by decide)]
    change σ₁ .y = _
    rw [a3, partRows_full]
  · rw [c5 _ (by decide) (by decide), b2, partRows_full]

/-- **C101**, the names: a name which ends in `.m` is used for the file; the function gets the name without `.m`.  Other names of two or more characters get the
suffix — provided that the last character is not `m` and the last but one is not a dot. -/
theorem C101_name_partial (s : List Char) (a b : Char) :
    matlabName (s ++ ['.', 'm']) = some (s ++ ['.', 'm'], s) ∧
      (a ≠ '.' → b ≠ 'm' → matlabName (s ++ [a, b]) = some (s ++ [a, b] ++ ['.', 'm'], s ++ [a, b])) := by
  constructor
  · simp [matlabName]
  · intro ha hb
    simp [matlabName, ha, hb]

/-- The documented suffix is missing exactly in the remaining cases: the name does not end in `.m`, but its last character is `m` or the last but one is a dot.  Then the
function is named after the name without its last two characters.  Names of one character are not handled (undefined behaviour). -/
theorem C101_fails_name (s : List Char) (a b : Char) (h : a = '.' ∨ b = 'm') :
    matlabName (s ++ [a, b]) = some (s ++ [a, b], s) ∧ matlabName [a] = none := by
  constructor
  · rcases h with rfl | rfl <;> simp [matlabName]
  · simp [matlabName]

/-- `mesh` gets a suffix; `team` and `a.c` do not, and the function in the file `team` is called `te`. -/
example : matlabName "mesh".toList = some ("mesh.m".toList, "mesh".toList) ∧ matlabName "mesh.m".toList = some ("mesh.m".toList, "mesh".toList) ∧
    matlabName "team".toList = some ("team".toList, "te".toList) ∧ matlabName "a.c".toList = some ("a.c".toList, "a".toList) := by
  decide

/-- A square with a triangle on its right side. -/
def Writers.exTopo : Topo where
  numNodes := 5
  numEdges := 6
  numCells := 2
  edge i := [(0, 1), (1, 2), (2, 3), (3, 0), (1, 4), (4, 2)].getD i (0, 0)
  cell i := [⟨[0, 1, 2, 3], [0, 1, 2, 3], [true, true, true, true]⟩, ⟨[1, 4, 2], [4, 5, 1], [true, true, false]⟩].getD i ⟨[], [], []⟩

theorem Writers.exTopo_wf : Writers.exTopo.WF := by
  constructor <;> decide

/-- The file for a square and a triangle. -/
example : Writers.exTopo.WF ∧ ∃ p σ, matlabBody exTopo (fun v => (v, v)) = some p ∧ runMatlab p = some σ ∧
    σ .tri = [[.inl 2, .inl 5, .inl 3, .inl 1]] ∧ σ .quad = [[.inl 1, .inl 2, .inl 3, .inl 4, .inl 0]] := by
  obtain ⟨p, σ, h1, h2, -, -, -, h3, h4⟩ := C101_matlab exTopo exTopo_wf (fun v => ((v : ℕ), v))
  exact ⟨exTopo_wf, p, σ, h1, h2, h3, h4⟩

/-! ## `writeMatplotlib` -/

namespace Writers

theorem mapM_some_map {α β : Type} (f : α → Option β) (g : α → β) (l : List α) (h : ∀ x ∈ l, f x = some (g x)) : l.mapM f = some (l.map g) := by
  induction l with
  | nil => rfl
  | cons a l ih =>
    rw [List.mapM_cons, h a (List.mem_cons_self ..), ih fun x hx => h x (List.mem_cons_of_mem _ hx)]
    rfl

theorem readNats_map (es : List ℕ) : readNats (K := K) (es.map .nat ++ [.blank]) = some es := by
  induction es with
  | nil => rfl
  | cons a l ih => simp only [List.map_cons, List.cons_append, readNats, ih, Option.map_some]

theorem read_cells (T : Topo) (k : ℕ) (hT : ∀ c < k, (T.cell c).nodes.length = 3 ∨ (T.cell c).nodes.length = 4)
    (hE : ∀ c < k, (T.cell c).edges.length = (T.cell c).nodes.length) :
    ((List.range k).map fun c => [CsvField.nat 0, .nat c] ++ (T.cell c).edges.map .nat ++ [.blank]).foldlM readLine (⟨[], [], [], []⟩ : Plot K) =
      some ⟨[], [], (cellsWith T 3 k).map fun c => (c, (T.cell c).edges), (cellsWith T 4 k).map fun c => (c, (T.cell c).edges)⟩ := by
  induction k with
  | zero => rfl
  | succ k ih =>
    rw [List.range_succ, List.map_append, List.foldlM_append, ih (fun c hc => hT c (by omega)) (fun c hc => hE c (by omega)), cellsWith_succ, cellsWith_succ]
    have e := hE k (by omega)
    simp only [List.map_cons, List.map_nil, List.foldlM_cons, List.foldlM_nil, bind, Option.bind, pure, List.cons_append, List.nil_append, readLine, readNats_map]
    rcases hT k (by omega) with hl | hl
    · simp [hl, e]
    · simp [hl, e]

theorem read_edges (T : Topo) (s : Plot K) (hs : s.segments = []) (k : ℕ) :
    ((List.range k).map fun e => [CsvField.nat 1, .nat e, .nat (T.edge e).1, .nat (T.edge e).2, .blank]).foldlM readLine s =
      some { s with segments := (List.range k).map fun e => (e, T.edge e) } := by
  induction k with
  | zero => cases s; simp only at hs; subst hs; rfl
  | succ k ih =>
    rw [List.range_succ, List.map_append, List.foldlM_append, ih]
    simp [readLine, readNats]

theorem read_nodes (pos : ℕ → K × K) (s : Plot K) (hs : s.vertices = []) (k : ℕ) :
    ((List.range k).map fun v => [CsvField.nat 2, .nat v, .coord (pos v).1, .coord (pos v).2]).foldlM readLine s =
      some { s with vertices := (List.range k).map fun v => (v, pos v) } := by
  induction k with
  | zero => cases s; simp only at hs; subst hs; rfl
  | succ k ih =>
    rw [List.range_succ, List.map_append, List.foldlM_append, ih]
    simp [readLine]

theorem find_range {α : Type} (f : ℕ → α) {n v : ℕ} (h : v < n) :
    ((((List.range n).map fun i => (i, f i)).find? fun a => a.1 = v).map (·.2)) = some (f v) := by
  have : (((List.range n).map fun i => (i, f i)).find? fun a => a.1 = v) = some (v, f v) := by
    rw [List.find?_map]
    have : (List.range n).find? ((fun a : ℕ × α => decide (a.1 = v)) ∘ fun i => (i, f i)) = some v := by
      rw [List.find?_range_eq_some]
      refine ⟨by simp, List.mem_range.mpr h, ?_⟩
      intro j hj
      simp only [Function.comp, Bool.not_eq_eq_eq_not, Bool.not_true, decide_eq_false_iff_not]
      omega
    rw [this]
    rfl
  rw [this]
  rfl

end Writers

/-- The contents of the file for a mesh, as `plot_mesh.py` sees them. -/
def Writers.plotOf (T : Topo) (pos : ℕ → K × K) : Plot K where
  vertices := (List.range T.numNodes).map fun v => (v, pos v)
  segments := (List.range T.numEdges).map fun e => (e, T.edge e)
  triangles := ((List.range T.numCells).filter fun c => (T.cell c).nodes.length = 3).map fun c => (c, (T.cell c).edges)
  quads := ((List.range T.numCells).filter fun c => (T.cell c).nodes.length = 4).map fun c => (c, (T.cell c).edges)

/-- **C102**: for every mesh, `plot_mesh.py` reads from the file all nodes with their positions, all edges with their end points, and all triangles and quadrilaterals
with their edges. -/
theorem C102_matplotlib (T : Topo) (hT : T.WF) (pos : ℕ → K × K) :
    ∃ ls, matplotlibLines T pos = some ls ∧ readPlot ls = some (plotOf T pos) := by
  have h := mapM_some_map (fun c => if (T.cell c).nodes.length = 3 ∨ (T.cell c).nodes.length = 4 then
      some ([CsvField.nat (K := K) 0, .nat c] ++ (T.cell c).edges.map .nat ++ [.blank]) else none)
    (fun c => [CsvField.nat 0, .nat c] ++ (T.cell c).edges.map .nat ++ [.blank]) (List.range T.numCells)
    (fun c hc => if_pos (hT.cell_len c (List.mem_range.mp hc)))
  refine ⟨_, by unfold matplotlibLines; rw [h]; rfl, ?_⟩
  unfold readPlot
  rw [List.foldlM_append, List.foldlM_append, read_cells T T.numCells hT.cell_len hT.cell_edges_len]
  simp only [bind, Option.bind]
  rw [read_edges T _ rfl]
  simp only
  rw [read_nodes pos _ rfl]
  rfl

/-- **C102**, the numbers of the cells: the mean of the end points of the edges of a cell, where the script puts its number, exists and is the mean of the corners of the
cell. -/
theorem C102_label [Field K] [CharZero K] (T : Topo) (hT : T.WF) (pos : ℕ → K × K) (c : ℕ) (hc : c < T.numCells) :
    ∃ l, (plotOf T pos).cellVertices (T.cell c).edges = some l ∧ mean l = mean ((T.cell c).nodes.map pos) := by
  have hseg : ∀ e < T.numEdges, (plotOf T pos).segment e = some (T.edge e) := fun e he => find_range T.edge he
  have hver : ∀ v < T.numNodes, (plotOf T pos).vertex v = some (pos v) := fun v hv => find_range pos hv
  have step : ∀ (acc : List (K × K)), ∀ e < T.numEdges,
      (((plotOf T pos).segment e).bind fun s => ((plotOf T pos).vertex s.1).bind fun a => ((plotOf T pos).vertex s.2).bind fun b => some (acc ++ [a, b])) =
        some (acc ++ [pos (T.edge e).1, pos (T.edge e).2]) := by
    intro acc e he
    rw [hseg e he, Option.bind_some, hver _ (hT.edge_lt e he).1, Option.bind_some, hver _ (hT.edge_lt e he).2, Option.bind_some]
  have run : ∀ (es : List ℕ), (∀ e ∈ es, e < T.numEdges) → ∀ acc : List (K × K),
      es.foldlM (fun acc e => ((plotOf T pos).segment e).bind fun s => ((plotOf T pos).vertex s.1).bind fun a =>
        ((plotOf T pos).vertex s.2).bind fun b => some (acc ++ [a, b])) acc = some (acc ++ es.flatMap fun e => [pos (T.edge e).1, pos (T.edge e).2]) := by
    intro es
    induction es with
    | nil => intro _ acc; simp
    | cons e es ih =>
      intro hes acc
      rw [List.foldlM_cons, step acc e (hes e (List.mem_cons_self ..))]
      change List.foldlM _ (acc ++ [pos (T.edge e).1, pos (T.edge e).2]) es = _
      rw [ih (fun x hx => hes x (List.mem_cons_of_mem _ hx))]
      simp
  refine ⟨_, by unfold Plot.cellVertices; rw [run _ (hT.cell_edges c hc)], ?_⟩
  have sum : ∀ e v w, SamePair (T.edge e) (v, w) → ((pos (T.edge e).1).1 + (pos (T.edge e).2).1 = (pos v).1 + (pos w).1 ∧
      (pos (T.edge e).1).2 + (pos (T.edge e).2).2 = (pos v).2 + (pos w).2) := by
    intro e v w h
    rcases h with h | h
    · rw [h]; exact ⟨rfl, rfl⟩
    · rw [h]; exact ⟨add_comm _ _, add_comm _ _⟩
  have hs := hT.cell_side c hc
  have hl := hT.cell_edges_len c hc
  have hn := hT.cell_len c hc
  generalize (T.cell c).nodes = ns at hs hl hn ⊢
  generalize (T.cell c).edges = es at hs hl ⊢
  rcases hn with h | h
  · match ns, es, h, hl with
    | [a, b, d], [e, f, g], _, _ =>
      have h0 := sum e a b (by simpa [side] using hs 0 (by simp))
      have h1 := sum f b d (by simpa [side] using hs 1 (by simp))
      have h2 := sum g d a (by simpa [side] using hs 2 (by simp))
      simp only [mean, List.flatMap_cons, List.flatMap_nil, List.append_nil, List.nil_append, List.cons_append, List.map_cons, List.map_nil, List.sum_cons, List.sum_nil,
        List.length_cons, List.length_nil]
      push_cast
      norm_num
      constructor
      · linear_combination (1 / 6) * (h0.1 + h1.1 + h2.1)
      · linear_combination (1 / 6) * (h0.2 + h1.2 + h2.2)
  · match ns, es, h, hl with
    | [a, b, d, x], [e, f, g, y], _, _ =>
      have h0 := sum e a b (by simpa [side] using hs 0 (by simp))
      have h1 := sum f b d (by simpa [side] using hs 1 (by simp))
      have h2 := sum g d x (by simpa [side] using hs 2 (by simp))
      have h3 := sum y x a (by simpa [side] using hs 3 (by simp))
      simp only [mean, List.flatMap_cons, List.flatMap_nil, List.append_nil, List.nil_append, List.cons_append, List.map_cons, List.map_nil, List.sum_cons, List.sum_nil,
        List.length_cons, List.length_nil]
      push_cast
      norm_num
      constructor
      · linear_combination (1 / 8) * (h0.1 + h1.1 + h2.1 + h3.1)
      · linear_combination (1 / 8) * (h0.2 + h1.2 + h2.2 + h3.2)

/-- The script reads the file for a square and a triangle; the number of the triangle with corners 1, 4, 2 is put at their mean. -/
example : exTopo.WF ∧ (plotOf exTopo (fun v => ((v : ℚ), 0))).quads = [(0, [0, 1, 2, 3])] ∧ (plotOf exTopo (fun v => ((v : ℚ), 0))).triangles = [(1, [4, 5, 1])] ∧
    ∃ l, (plotOf exTopo (fun v => ((v : ℚ), 0))).cellVertices [4, 5, 1] = some l ∧ mean l = (7 / 3, 0) := by
  refine ⟨exTopo_wf, rfl, rfl, ?_⟩
  obtain ⟨l, h1, h2⟩ := C102_label exTopo exTopo_wf (fun v => ((v : ℚ), 0)) 1 (by decide)
  refine ⟨l, h1, h2.trans ?_⟩
  norm_num [mean, exTopo]

/-- **C102**, the name: names of four or more characters get the suffix `.csv` unless they have it. -/
theorem C102_name_partial (name : List Char) (h : 4 ≤ name.length) :
    ((∃ s, name = s ++ ".csv".toList) → matplotlibName name = some name) ∧
      ((¬ ∃ s, name = s ++ ".csv".toList) → matplotlibName name = some (name ++ ".csv".toList)) := by
  have hn : ¬ name.length < 4 := by omega
  unfold matplotlibName
  rw [if_neg hn]
  constructor
  · rintro ⟨s, rfl⟩
    rw [if_pos]
    have : (s ++ ".csv".toList).length - 4 = s.length := by simp
    rw [this, List.drop_left]
    rfl
  · intro hs
    rw [if_neg]
    · rfl
    · intro hd
      exact hs ⟨name.take (name.length - 4), by rw [← List.take_append_drop (name.length - 4) name]; congr 1; simp [hd]⟩

/-- Shorter names, which need the suffix, raise an exception. -/
theorem C102_fails_name (name : List Char) (h : name.length < 4) : matplotlibName name = none := by
  unfold matplotlibName
  rw [if_pos h]

/-- `mesh` and `mesh.csv` both name the file `mesh.csv`; `abc` raises an exception. -/
example : matplotlibName "mesh".toList = some "mesh.csv".toList ∧ matplotlibName "mesh.csv".toList = some "mesh.csv".toList ∧ matplotlibName "abc".toList = none := by
  decide

end Verif
