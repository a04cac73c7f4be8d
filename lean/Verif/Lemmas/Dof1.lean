import Verif.Model.DofHandler
import Verif.Lemmas.MeshBuild2
import Mathlib.Algebra.BigOperators.Group.List.Basic

/-!
# Blocks of vectors, loops, and the abstract numbering of dofs
-/

namespace Verif

theorem readBlock_iff (arr l : List ℕ) (off n : ℕ) :
    readBlock arr off n = some l ↔
      off + n ≤ arr.length ∧ l.length = n ∧ ∀ i < n, l[i]? = arr[off + i]? := by
  unfold readBlock
  constructor
  · intro h
    split_ifs at h with h1
    cases h
    refine ⟨h1, by simp; omega, ?_⟩
    intro i hi
    simp [hi]
  · rintro ⟨h1, h2, h3⟩
    rw [if_pos h1]
    congr 1
    apply List.ext_getElem?
    intro i
    by_cases hi : i < n
    · rw [h3 i hi]; simp [hi]
    · rw [List.getElem?_eq_none (l := l) (by omega)]
      rw [List.getElem?_eq_none (by simp; omega)]

theorem readBlock_sub (arr l : List ℕ) (off n a b : ℕ) (h : readBlock arr off n = some l) (hab : a + b ≤ n) :
    readBlock arr (off + a) b = some ((l.drop a).take b) := by
  rw [readBlock_iff] at *
  obtain ⟨h1, h2, h3⟩ := h
  refine ⟨by omega, by simp; omega, ?_⟩
  intro i hi
  rw [List.getElem?_take, if_pos hi, List.getElem?_drop, h3 _ (by omega)]
  congr 1
  omega

theorem writeBlock_spec (arr vals : List ℕ) (off : ℕ) (h : off + vals.length ≤ arr.length) :
    ∃ arr', writeBlock arr off vals = some arr' ∧ arr'.length = arr.length ∧
      readBlock arr' off vals.length = some vals ∧
      ∀ off' n', (off' + n' ≤ off ∨ off + vals.length ≤ off') →
        readBlock arr' off' n' = readBlock arr off' n' := by
  unfold writeBlock
  rw [if_pos h]
  have hl : (arr.take off ++ vals ++ arr.drop (off + vals.length)).length = arr.length := by
    simp; omega
  refine ⟨_, rfl, hl, ?_, ?_⟩
  · rw [readBlock_iff]
    refine ⟨by omega, rfl, ?_⟩
    intro i hi
    rw [List.append_assoc, List.getElem?_append_right (by simp; omega)]
    rw [List.getElem?_append_left (by simp; omega)]
    congr 1
    simp; omega
  · intro off' n' hd
    unfold readBlock
    rw [hl]
    split_ifs with h1
    · congr 1
      apply List.ext_getElem?
      intro i
      by_cases hi : i < n'
      · simp only [List.getElem?_take, hi, if_true, List.getElem?_drop]
        rcases hd with hd | hd
        · rw [List.append_assoc, List.getElem?_append_left (by simp; omega)]
          rw [List.getElem?_take, if_pos (by omega)]
        · rw [List.getElem?_append_right (by simp; omega)]
          rw [List.getElem?_drop]
          congr 1
          simp; omega
      · simp only [List.getElem?_take, hi, if_false]
    · rfl

/-- Invariants of `foldlM` loops over `0, …, n-1`. -/
theorem foldlM_range_inv {σ : Type} (f : σ → ℕ → Option σ) (P : ℕ → σ → Prop) (n : ℕ) (s0 : σ)
    (h0 : P 0 s0) (hs : ∀ k s, k < n → P k s → ∃ s', f s k = some s' ∧ P (k + 1) s') :
    ∃ s, (List.range n).foldlM f s0 = some s ∧ P n s := by
  induction n with
  | zero => exact ⟨s0, rfl, h0⟩
  | succ n ih =>
    obtain ⟨s, h1, h2⟩ := ih (fun k s hk => hs k s (by omega))
    obtain ⟨s', h3, h4⟩ := hs n s (by omega) h2
    refine ⟨s', ?_, h4⟩
    rw [List.range_succ, List.foldlM_append, h1]
    simp [h3]

theorem foldl_range_inv {σ : Type} (f : σ → ℕ → σ) (P : ℕ → σ → Prop) (n : ℕ) (s0 : σ)
    (h0 : P 0 s0) (hs : ∀ k s, k < n → P k s → P (k + 1) (f s k)) :
    P n ((List.range n).foldl f s0) := by
  induction n with
  | zero => exact h0
  | succ n ih =>
    rw [List.range_succ, List.foldl_append]
    exact hs n _ (by omega) (ih (fun k s hk => hs k s (by omega)))

/-! ### The abstract numbering -/

/-- Sum of `f 0, …, f (n-1)`. -/
def psum (f : ℕ → ℕ) (n : ℕ) : ℕ := ((List.range n).map f).sum

theorem psum_succ (f : ℕ → ℕ) (n : ℕ) : psum f (n + 1) = psum f n + f n := by
  simp [psum, List.range_succ]

@[simp] theorem psum_zero (f : ℕ → ℕ) : psum f 0 = 0 := rfl

theorem psum_mono (f : ℕ → ℕ) {m n : ℕ} (h : m ≤ n) : psum f m ≤ psum f n := by
  induction n with
  | zero => have : m = 0 := by omega
            subst this; exact Nat.le_refl _
  | succ n ih =>
    rcases Nat.lt_or_ge n m with h1 | h1
    · have : m = n + 1 := by omega
      subst this; exact Nat.le_refl _
    · rw [psum_succ]; have := ih h1; omega

namespace Num
variable (T : Topo) (cnt : Ent → ℕ)

def base : ℕ → ℕ
  | 0 => psum (fun v => cnt (2, v)) T.numNodes + psum (fun v => cnt (1, v)) T.numEdges
  | 1 => psum (fun v => cnt (2, v)) T.numNodes
  | _ => 0

def total : ℕ := base T cnt 0 + psum (fun v => cnt (0, v)) T.numCells

/-- First dof of an entity. -/
def start (e : Ent) : ℕ := base T cnt e.1 + psum (fun v => cnt (e.1, v)) e.2

def intr (e : Ent) : List ℕ := List.range' (start T cnt e) (cnt e)

@[simp] theorem intr_length (e : Ent) : (intr T cnt e).length = cnt e := by simp [intr]

def edgePart (chk : Bool) (p : ℕ × Bool) : List ℕ :=
  if !chk || p.2 then intr T cnt (1, p.1) else (intr T cnt (1, p.1)).reverse

def glob (chk : Bool) : Ent → List ℕ
  | (0, c) => (T.cell c).nodes.flatMap (fun v => intr T cnt (2, v)) ++
      ((T.cell c).edges.zip (T.cell c).ori).flatMap (edgePart T cnt chk) ++ intr T cnt (0, c)
  | (1, e) => intr T cnt (2, (T.edge e).1) ++ intr T cnt (2, (T.edge e).2) ++ intr T cnt (1, e)
  | (k, v) => intr T cnt (k, v)

def entsOf (k n : ℕ) : List Ent := (List.range n).flatMap fun i => List.replicate (cnt (k, i)) (k, i)

theorem entsOf_succ (k n : ℕ) : entsOf cnt k (n + 1) = entsOf cnt k n ++ List.replicate (cnt (k, n)) (k, n) := by
  simp [entsOf, List.range_succ, List.flatMap_append]

def ents : List Ent := entsOf cnt 2 T.numNodes ++ entsOf cnt 1 T.numEdges ++ entsOf cnt 0 T.numCells

/-- What a correct dof handler answers. -/
structure Is (chk : Bool) (h : DofHandler) : Prop where
  numDofs : h.numDofs = total T cnt
  numLocal : ∀ e, T.refEl e ≠ none → h.numLocalDofs e = some (glob T cnt chk e).length
  numInterior : ∀ e, T.refEl e ≠ none → h.numInteriorDofs e = some (cnt e)
  global : ∀ e, T.refEl e ≠ none → h.globalDofIndices e = some (glob T cnt chk e)
  interior : ∀ e, T.refEl e ≠ none → h.interiorGlobalDofIndices e = some (intr T cnt e)
  entity : ∀ d, h.entity d = (ents T cnt)[d]?

end Num

end Verif
