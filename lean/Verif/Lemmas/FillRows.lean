import Mathlib.Tactic.Ring
import Mathlib.Data.List.Basic
import Verif.Model.Hierarchic

/-!
# Lemmas: results of `fillRows`
-/

namespace Verif
variable {α : Type}

/-- The list or its reversal. -/
def oriented (o : Bool) (l : List α) : List α := if o then l else l.reverse

@[simp] theorem oriented_length (o : Bool) (l : List α) : (oriented o l).length = l.length := by
  cases o <;> simp [oriented]

theorem oriented_map {β : Type} (o : Bool) (f : α → β) (l : List α) :
    oriented o (l.map f) = (oriented o l).map f := by
  cases o <;> simp [oriented]

theorem mem_oriented (o : Bool) (l : List α) (a : α) : a ∈ oriented o l ↔ a ∈ l := by
  cases o <;> simp [oriented]

/-- The assignments `W` fill the rows from `base` on with the entries of `blk`. -/
def Covers (W : List (ℕ × Option α)) (base : ℕ) (blk : List α) : Prop :=
  (∀ w ∈ W, ∃ k a, w = (base + k, some a) ∧ blk[k]? = some a) ∧
  ∀ k < blk.length, ∃ w ∈ W, w.1 = base + k

theorem Covers.append {W W' : List (ℕ × Option α)} {b b' : ℕ} {l l' : List α} (h : Covers W b l)
    (h' : Covers W' b' l') (hb : b' = b + l.length) : Covers (W ++ W') b (l ++ l') := by
  subst hb
  refine ⟨fun w hw => ?_, fun k hk => ?_⟩
  · rcases List.mem_append.mp hw with hw | hw
    · obtain ⟨k, a, rfl, hk⟩ := h.1 w hw
      refine ⟨k, a, rfl, ?_⟩
      have := (List.getElem?_eq_some_iff.mp hk).1
      rw [List.getElem?_append_left this, hk]
    · obtain ⟨k, a, rfl, hk⟩ := h'.1 w hw
      refine ⟨l.length + k, a, by rw [add_assoc], ?_⟩
      rw [List.getElem?_append_right (by omega), Nat.add_sub_cancel_left, hk]
  · rw [List.length_append] at hk
    by_cases hkl : k < l.length
    · obtain ⟨w, hw, e⟩ := h.2 k hkl
      exact ⟨w, List.mem_append_left _ hw, e⟩
    · obtain ⟨w, hw, e⟩ := h'.2 (k - l.length) (by omega)
      exact ⟨w, List.mem_append_right _ hw, by omega⟩

theorem Covers.fill {W : List (ℕ × Option α)} {l : List α} (h : Covers W 0 l) {n : ℕ} (hn : n = l.length) :
    fillRows n W = some l := by
  subst hn
  rw [fillRows, if_pos]
  · have key : ∀ k ∈ List.range l.length,
        ((W.reverse.find? fun w => w.1 == k).bind fun w => w.2) = l[k]? := by
      intro k hk
      have hk := List.mem_range.mp hk
      cases hf : W.reverse.find? (fun w => w.1 == k) with
      | none =>
        obtain ⟨w, hw, e⟩ := h.2 k hk
        have := List.find?_eq_none.mp hf w (by simpa using hw)
        simp only [beq_iff_eq] at this
        omega
      | some w =>
        have hw : w ∈ W := by simpa using List.mem_of_find?_eq_some hf
        have hwk : w.1 = k := by simpa using List.find?_some hf
        obtain ⟨k', a, rfl, ha⟩ := h.1 w hw
        simp only [zero_add] at hwk
        subst hwk
        simp [ha]
    have : ∀ (ks : List ℕ), (∀ k ∈ ks, k < l.length) →
        (∀ k ∈ ks, ((W.reverse.find? fun w => w.1 == k).bind fun w => w.2) = l[k]?) →
        (ks.mapM fun k => (W.reverse.find? fun w => w.1 == k).bind fun w => w.2) =
          ks.mapM fun k => l[k]? := by
      intro ks
      induction ks with
      | nil => intros; rfl
      | cons k ks ih =>
        intro h1 h2
        rw [List.mapM_cons, List.mapM_cons, h2 k (by simp),
          ih (fun k hk => h1 k (by simp [hk])) fun k hk => h2 k (by simp [hk])]
    rw [this _ (fun k hk => List.mem_range.mp hk) key]
    have : ∀ (pre post : List α), l = pre ++ post →
        ((List.range' pre.length post.length).mapM fun k => l[k]?) = some post := by
      intro pre post
      induction post generalizing pre with
      | nil => intro _; rfl
      | cons a post ih =>
        intro e
        rw [List.length_cons, List.range'_succ, List.mapM_cons]
        have h0 : l[pre.length]? = some a := by rw [e]; simp
        have := ih (pre ++ [a]) (by simp [e])
        simp only [List.length_append, List.length_singleton] at this
        rw [h0]
        simp [this]
    have h0 := this [] l rfl
    rw [List.range_eq_range']
    exact h0
  · intro w hw
    obtain ⟨k, a, rfl, hk⟩ := h.1 w hw
    have := (List.getElem?_eq_some_iff.mp hk).1
    simp [this]

/-- A loop over the functions of an edge, which are written in one or the other direction. -/
theorem covers_loop (s n base : ℕ) (f : ℕ → ℕ × Option α) (g : ℕ → α) (o : Bool)
    (hf : ∀ i < n, f (s + i) = (if o then base + i else base + (n - 1 - i), some (g i))) :
    Covers ((List.range' s n).map f) base (oriented o ((List.range n).map g)) := by
  refine ⟨fun w hw => ?_, fun k hk => ?_⟩
  · obtain ⟨i, hi, rfl⟩ := List.mem_map.mp hw
    rw [List.mem_range'] at hi
    obtain ⟨i, hi, rfl⟩ := hi
    rw [one_mul, hf i hi]
    cases o with
    | true => exact ⟨i, g i, rfl, by simp [oriented, hi]⟩
    | false =>
      refine ⟨n - 1 - i, g i, rfl, ?_⟩
      simp only [oriented, Bool.false_eq_true, if_false]
      rw [List.getElem?_reverse (by simp; omega)]
      simp only [List.length_map, List.length_range]
      rw [show n - 1 - (n - 1 - i) = i by omega]
      simp [hi]
  · simp only [oriented_length, List.length_map, List.length_range] at hk
    cases o with
    | true => exact ⟨f (s + k), List.mem_map.mpr ⟨s + k, by simp [List.mem_range'_1, hk], rfl⟩, by rw [hf k hk]; rfl⟩
    | false =>
      refine ⟨f (s + (n - 1 - k)), List.mem_map.mpr ⟨s + (n - 1 - k), by rw [List.mem_range'_1]; omega, rfl⟩, ?_⟩
      rw [hf _ (by omega)]
      simp only [Bool.false_eq_true, if_false]
      omega

theorem covers_range (n base : ℕ) (f : ℕ → ℕ × Option α) (g : ℕ → α) (o : Bool)
    (hf : ∀ i < n, f i = (if o then base + i else base + (n - 1 - i), some (g i))) :
    Covers ((List.range n).map f) base (oriented o ((List.range n).map g)) := by
  rw [List.range_eq_range']
  have := covers_loop 0 n base f g o (by simpa using hf)
  rwa [List.range_eq_range'] at this

theorem covers_counted (base : ℕ) (l : List α) : Covers (HierTria.counted base l) base l := by
  refine ⟨fun w hw => ?_, fun k hk => ?_⟩
  · rw [HierTria.counted, List.mem_mapIdx] at hw
    obtain ⟨k, hk, rfl⟩ := hw
    exact ⟨k, l[k], rfl, by simp [hk]⟩
  · refine ⟨(base + k, some l[k]), ?_, rfl⟩
    rw [HierTria.counted, List.mem_mapIdx]
    exact ⟨k, hk, rfl⟩

theorem covers_cons {W : List (ℕ × Option α)} {b : ℕ} {l : List α} (a : α) (h : Covers W (b + 1) l) :
    Covers ((b, some a) :: W) b (a :: l) := by
  have h0 : Covers [(b, some a)] b [a] := by
    refine ⟨fun w hw => ?_, fun k hk => ?_⟩
    · simp only [List.mem_singleton] at hw
      exact ⟨0, a, by simpa using hw, rfl⟩
    · simp only [List.length_singleton] at hk
      exact ⟨_, List.mem_singleton.mpr rfl, by simp only; omega⟩
  exact h0.append h rfl

theorem covers_nil (b : ℕ) : Covers ([] : List (ℕ × Option α)) b [] :=
  ⟨fun w hw => by simp at hw, fun k hk => by simp at hk⟩

/-- The case that a range is filtered by an upper bound. -/
theorem range'_filter_le (n m : ℕ) (h : m ≤ n) :
    (List.range' 2 (n + 1 - 2)).filter (fun i => decide (i ≤ m)) = List.range' 2 (m + 1 - 2) := by
  have : ∀ k s, (List.range' s k).filter (fun i => decide (i ≤ m)) = List.range' s (min k (m + 1 - s)) := by
    intro k
    induction k with
    | zero => intro s; simp
    | succ k ih =>
      intro s
      rw [List.range'_succ, List.filter_cons, ih]
      by_cases hs : s ≤ m
      · simp only [hs, decide_true, if_true]
        rw [show min (k + 1) (m + 1 - s) = min k (m + 1 - (s + 1)) + 1 by omega, List.range'_succ]
      · simp only [hs, decide_false]
        rw [show min (k + 1) (m + 1 - s) = 0 by omega, show min k (m + 1 - (s + 1)) = 0 by omega]
        rfl
  rw [this]
  congr 1
  omega

end Verif
