import Verif.Spec.MeshFunction
import Verif.Lemmas.OptList
import Mathlib.Tactic.Ring
import Mathlib.Tactic.Linarith
import Mathlib.Data.List.Basic

/-!
# Lemmas on mesh functions
-/

namespace Verif
variable {R : Type}

/-- `mapM` over a range when every entry succeeds. -/
theorem mapM_range_some {V : Type} (n : ℕ) (f : ℕ → Option V) (P : ℕ → V → Prop)
    (h : ∀ i < n, ∃ v, f i = some v ∧ P i v) :
    ∃ l, (List.range n).mapM f = some l ∧ l.length = n ∧ ∀ i < n, ∃ v, l[i]? = some v ∧ P i v := by
  induction n with
  | zero => exact ⟨[], rfl, rfl, by omega⟩
  | succ n ih =>
    obtain ⟨l, h1, h2, h3⟩ := ih fun i hi => h i (by omega)
    obtain ⟨v, hv, hp⟩ := h n (by omega)
    refine ⟨l ++ [v], ?_, by simp [h2], ?_⟩
    · rw [List.range_succ, List.mapM_append, h1]
      simp [hv]
    · intro i hi
      by_cases hn : i < n
      · obtain ⟨w, hw, hpw⟩ := h3 i hn
        exact ⟨w, by rw [List.getElem?_append_left (by omega)]; exact hw, hpw⟩
      · have : i = n := by omega
        subst this
        exact ⟨v, by rw [List.getElem?_append_right (by omega)]; simp [h2], hp⟩

theorem EigenVal.offset_lt {r c i j : ℕ} (b : Bool) (hi : i < r) (hj : j < c) :
    EigenVal.offset r c b i j < r * c := by
  unfold EigenVal.offset
  cases b
  · have : j * r + r ≤ c * r := by
      calc j * r + r = (j + 1) * r := by ring
        _ ≤ c * r := Nat.mul_le_mul_right r hj
    simp only [Bool.false_eq_true, if_false]
    rw [Nat.mul_comm r c]; omega
  · have : i * c + c ≤ r * c := by
      calc i * c + c = (i + 1) * c := by ring
        _ ≤ r * c := Nat.mul_le_mul_right c hi
    simp only [if_true]
    omega

theorem EigenVal.build_spec {r c : ℕ} (b : Bool) (f : ℕ → ℕ → Option R) (A : Matrix (Fin r) (Fin c) R)
    (h : ∀ (i : Fin r) (j : Fin c), f i.val j.val = some (A i j)) :
    ∃ m, EigenVal.build r c b f = some m ∧ m.Is A := by
  have key : ∀ k < r * c, ∃ v, (if b = true then f (k / c) (k % c) else f (k % r) (k / r)) = some v ∧
      (∀ (i : Fin r) (j : Fin c), EigenVal.offset r c b i.val j.val = k → v = A i j) := by
    intro k hk
    have hr : 0 < r := Nat.pos_of_mul_pos_right (Nat.lt_of_le_of_lt (Nat.zero_le _) hk)
    have hc : 0 < c := Nat.pos_of_mul_pos_left (Nat.lt_of_le_of_lt (Nat.zero_le _) hk)
    cases b
    · have h1 : k % r < r := Nat.mod_lt _ hr
      have h2 : k / r < c := by rw [Nat.div_lt_iff_lt_mul hr, Nat.mul_comm]; exact hk
      refine ⟨A ⟨k % r, h1⟩ ⟨k / r, h2⟩, by simpa using h ⟨k % r, h1⟩ ⟨k / r, h2⟩, ?_⟩
      intro i j hij
      unfold EigenVal.offset at hij
      simp only [Bool.false_eq_true, if_false] at hij
      congr 1
      · apply Fin.ext
        change k % r = i.val
        rw [← hij, Nat.mul_comm, Nat.mul_add_mod]
        exact Nat.mod_eq_of_lt i.isLt
      · apply Fin.ext
        change k / r = j.val
        rw [← hij, Nat.mul_comm, Nat.mul_add_div hr, Nat.div_eq_of_lt i.isLt, Nat.add_zero]
    · have h1 : k % c < c := Nat.mod_lt _ hc
      have h2 : k / c < r := by rw [Nat.div_lt_iff_lt_mul hc]; exact hk
      refine ⟨A ⟨k / c, h2⟩ ⟨k % c, h1⟩, by simpa using h ⟨k / c, h2⟩ ⟨k % c, h1⟩, ?_⟩
      intro i j hij
      unfold EigenVal.offset at hij
      simp only [if_true] at hij
      congr 1
      · apply Fin.ext
        change k / c = i.val
        rw [← hij, Nat.mul_comm, Nat.mul_add_div hc, Nat.div_eq_of_lt j.isLt, Nat.add_zero]
      · apply Fin.ext
        change k % c = j.val
        rw [← hij, Nat.mul_comm, Nat.mul_add_mod]
        exact Nat.mod_eq_of_lt j.isLt
  obtain ⟨l, h1, h2, h3⟩ := mapM_range_some (r * c) _ _ key
  refine ⟨⟨r, c, b, l⟩, by rw [EigenVal.build, h1]; rfl, rfl, rfl, h2, ?_⟩
  intro i j
  unfold EigenVal.coeff
  rw [if_pos ⟨i.isLt, j.isLt⟩]
  obtain ⟨v, hv, hp⟩ := h3 _ (EigenVal.offset_lt b i.isLt j.isLt)
  change l[EigenVal.offset r c b i.val j.val]? = _
  rw [hv, hp i j rfl]

theorem EigenVal.split_flatten (r c : ℕ) (b : Bool) (L : List (List R)) (h : ∀ l ∈ L, l.length = r * c) :
    EigenVal.split r c b L.length L.flatten = L.map fun l => ⟨r, c, b, l⟩ := by
  induction L with
  | nil => rfl
  | cons l L ih =>
    have hl := h l (by simp)
    rw [List.length_cons, EigenVal.split, List.flatten_cons, List.map_cons]
    rw [List.take_left' hl, List.drop_left' hl, ih fun l hl => h l (by simp [hl])]

theorem zipWith_flatten (f : R → R → R) (n : ℕ) : ∀ (L L' : List (List R)), L.length = L'.length →
    (∀ l ∈ L, l.length = n) → (∀ l ∈ L', l.length = n) →
    List.zipWith f L.flatten L'.flatten = (List.zipWith (List.zipWith f) L L').flatten
  | [], [], _, _, _ => rfl
  | l :: L, l' :: L', hl, h, h' => by
    rw [List.flatten_cons, List.flatten_cons, List.zipWith_cons_cons, List.flatten_cons,
      List.zipWith_append (by rw [h l (by simp), h' l' (by simp)]),
      zipWith_flatten f n L L' (by simpa using hl) (fun l hl => h l (by simp [hl])) (fun l hl => h' l (by simp [hl]))]
  | [], _ :: _, hl, _, _ => by simp at hl
  | _ :: _, [], hl, _, _ => by simp at hl

theorem flatten_length (n : ℕ) : ∀ (L : List (List R)), (∀ l ∈ L, l.length = n) → L.flatten.length = L.length * n
  | [], _ => by simp
  | l :: L, h => by
    rw [List.flatten_cons, List.length_append, h l (by simp), flatten_length n L fun l hl => h l (by simp [hl]),
      List.length_cons]
    ring

theorem mapMemory_some (u : List (EigenVal R)) (h : 0 < u.length) :
    mapMemory u = some (u.map fun m => m.data).flatten := by
  unfold mapMemory
  rw [if_neg (by omega), List.flatMap_def]

/-- Entries of an object after an operation on its memory with another object of the same layout. -/
theorem coeff_zipWith (f : R → R → R) (a b : EigenVal R) (hr : a.rows = b.rows) (hc : a.cols = b.cols)
    (hb : a.rowMajor = b.rowMajor) (i j : ℕ) (x y : R) (hx : a.coeff i j = some x) (hy : b.coeff i j = some y) :
    EigenVal.coeff ⟨a.rows, a.cols, a.rowMajor, List.zipWith f a.data b.data⟩ i j = some (f x y) := by
  unfold EigenVal.coeff at *
  rw [← hr, ← hc, ← hb] at hy
  split at hx
  · rename_i h
    rw [if_pos h] at hy
    rw [if_pos h]
    simp [List.getElem?_zipWith, hx, hy]
  · cases hx

/-- Entries of an object after a map over its memory. -/
theorem coeff_map (f : R → R) (a : EigenVal R) (i j : ℕ) (x : R) (hx : a.coeff i j = some x) :
    EigenVal.coeff ⟨a.rows, a.cols, a.rowMajor, a.data.map f⟩ i j = some (f x) := by
  unfold EigenVal.coeff at *
  split at hx
  · rename_i h
    rw [if_pos h]
    simp [hx]
  · cases hx

theorem mapM_congr_mem {U V : Type} (f g : U → Option V) : ∀ (l : List U), (∀ x ∈ l, f x = g x) → l.mapM f = l.mapM g
  | [], _ => rfl
  | x :: l, h => by
    rw [List.mapM_cons, List.mapM_cons, h x (by simp), mapM_congr_mem f g l fun y hy => h y (by simp [hy])]

/-- `mapM` over the values of a mesh function. -/
theorem mapM_values {n : ℕ} {r c r' c' : ℕ → ℕ} {u : List (EigenVal R)} {A : ∀ i, Matrix (Fin (r i)) (Fin (c i)) R}
    (hu : Values n u A) (f : EigenVal R → Option (EigenVal R)) (B : ∀ i, Matrix (Fin (r' i)) (Fin (c' i)) R)
    (h : ∀ i m, m.Is (A i) → ∃ m', f m = some m' ∧ m'.Is (B i)) : ∃ w, u.mapM f = some w ∧ Values n w B := by
  obtain ⟨w, w1, w2, w3⟩ := mapM_range_some n (fun i => (u[i]?).bind f) (fun i m => m.Is (B i)) (by
    intro i hi
    obtain ⟨m, hm, hA⟩ := hu.2 i hi
    rw [hm]
    exact h i m hA)
  refine ⟨w, ?_, w2, w3⟩
  rw [← w1, ← hu.1]
  clear w1 w2 w3 hu h
  induction u using List.reverseRecOn with
  | nil => rfl
  | append_singleton l a ih =>
    rw [List.mapM_append, List.length_append, List.length_singleton, List.range_succ, List.mapM_append, ih,
      mapM_congr_mem (fun i => ((l ++ [a])[i]?).bind f) (fun i => (l[i]?).bind f) (List.range l.length) fun i hi => by
        rw [List.getElem?_append_left (List.mem_range.1 hi)]]
    simp

theorem flatten_getElem? {V : Type} (k : ℕ) : ∀ (L : List (List V)), (∀ l ∈ L, l.length = k) → ∀ i j, j < k →
    L.flatten[i * k + j]? = (L[i]?).bind fun l => l[j]?
  | [], _, i, j, _ => by simp
  | l :: L, h, 0, j, hj => by
    rw [List.flatten_cons, Nat.zero_mul, Nat.zero_add, List.getElem?_append_left (by rw [h l (by simp)]; exact hj)]
    rfl
  | l :: L, h, i + 1, j, hj => by
    have hl := h l (by simp)
    rw [List.flatten_cons, List.getElem?_append_right (by rw [hl]; nlinarith [Nat.zero_le (i * k)]), hl]
    have : (i + 1) * k + j - k = i * k + j := by
      rw [Nat.add_mul, Nat.one_mul]; omega
    rw [this, flatten_getElem? k L (fun l hl => h l (by simp [hl])) i j hj]
    rfl

theorem sum_of_layout {V S : Type} [AddCommMonoid S] (a b : ℕ) (d : List V) (g : V → S) (F : Fin a → Fin b → V)
    (hd : d.length = a * b) (hF : ∀ (i : Fin a) (j : Fin b), d[j.val + b * i.val]? = some (F i j)) :
    (d.map g).sum = ∑ i, ∑ j, g (F i j) := by
  have : d = List.ofFn fun k : Fin (a * b) => F (finProdFinEquiv.symm k).1 (finProdFinEquiv.symm k).2 := by
    refine List.ext_getElem? fun n => ?_
    by_cases hn : n < a * b
    · have h := hF (finProdFinEquiv.symm ⟨n, hn⟩).1 (finProdFinEquiv.symm ⟨n, hn⟩).2
      have e := congrArg Fin.val (finProdFinEquiv.apply_symm_apply (⟨n, hn⟩ : Fin (a * b)))
      rw [finProdFinEquiv_apply_val] at e
      rw [e] at h
      rw [h]
      simp [hn]
    · rw [List.getElem?_eq_none (by omega), List.getElem?_eq_none (by simp; omega)]
  rw [this, List.map_ofFn, List.sum_ofFn, ← Fintype.sum_prod_type']
  exact Fintype.sum_equiv finProdFinEquiv.symm _ _ fun k => rfl

/-- The squares of the entries in memory add up to the squared norm. -/
theorem EigenVal.Is.sum_sq [CommRing R] {r c : ℕ} {m : EigenVal R} {A : Matrix (Fin r) (Fin c) R} (h : m.Is A) :
    (m.data.map fun x => x * x).sum = ∑ p, ∑ q, A p q ^ 2 := by
  obtain ⟨h1, h2, h3, h4⟩ := h
  have key : ∀ (i : Fin r) (j : Fin c), m.data[EigenVal.offset r c m.rowMajor i j]? = some (A i j) := by
    intro i j
    have := h4 i j
    unfold EigenVal.coeff at this
    rw [h1, h2, if_pos ⟨i.isLt, j.isLt⟩] at this
    exact this
  unfold EigenVal.offset at key
  cases hb : m.rowMajor
  · rw [Finset.sum_comm, sum_of_layout c r m.data (fun x => x * x) (fun q p => A p q) (by rw [h3, Nat.mul_comm])]
    · simp only [pow_two]
    · intro q p
      have := key p q
      simp only [hb] at this
      rw [← this]
      congr 1
      simp
      ring
  · rw [sum_of_layout r c m.data (fun x => x * x) A h3]
    · simp only [pow_two]
    · intro p q
      have := key p q
      simp only [hb] at this
      rw [← this]
      congr 1
      simp
      ring

end Verif
