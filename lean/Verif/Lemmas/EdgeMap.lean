import Verif.Spec.Mesh
import Mathlib.Data.List.Perm.Basic
import Mathlib.Tactic.Tauto

/-! Lemmas about the edge map (`std::map`). -/

namespace Verif
variable {G : Type}

theorem keyLt_irrefl (k : ℕ × ℕ) : keyLt k k = false := by simp [keyLt]

theorem keyLt_trans {k l n : ℕ × ℕ} (h1 : keyLt k l = true) (h2 : keyLt l n = true) :
    keyLt k n = true := by
  unfold keyLt at *
  split_ifs at * <;> simp_all <;> omega

theorem key_eq_iff (k l : ℕ × ℕ) : (!keyLt k l && !keyLt l k) = true ↔ k = l := by
  constructor
  · intro h
    unfold keyLt at h
    obtain ⟨a, b⟩ := k; obtain ⟨c, d⟩ := l
    simp only at h
    by_cases hac : a = c
    · subst hac; simp at h; simp; omega
    · simp [hac, Ne.symm hac] at h; omega
  · rintro rfl; simp [keyLt_irrefl]

theorem keyLt_ne {k l : ℕ × ℕ} (h : keyLt k l = true) : k ≠ l := by
  rintro rfl; simp [keyLt_irrefl] at h

theorem keyLt_total {k l : ℕ × ℕ} (h : keyLt k l = false) : keyLt l k = true ∨ k = l := by
  by_cases h2 : keyLt l k = true
  · exact Or.inl h2
  · right
    rw [← key_eq_iff]; simp [h]; simpa using h2

theorem samePair_comm {p q : ℕ × ℕ} : SamePair p q ↔ SamePair q p := by
  unfold SamePair
  constructor
  · rintro (h | h)
    · exact Or.inl h.symm
    · right; rw [h]; simp
  · rintro (h | h)
    · exact Or.inl h.symm
    · right; rw [h]; simp

theorem samePair_refl (p : ℕ × ℕ) : SamePair p p := Or.inl rfl

theorem samePair_trans {p q r : ℕ × ℕ} (h1 : SamePair p q) (h2 : SamePair q r) : SamePair p r := by
  unfold SamePair at *
  rcases h1 with rfl | rfl <;> rcases h2 with rfl | rfl <;> simp

theorem edgeKey_eq_iff (a b c d : ℕ) : edgeKey a b = edgeKey c d ↔ SamePair (a, b) (c, d) := by
  unfold edgeKey SamePair
  split_ifs <;> simp [Prod.swap] <;> omega

/-- Keys strictly increasing. -/
def EdgeMap.Sorted (m : EdgeMap G) : Prop := m.Pairwise (fun r s => keyLt r.key s.key = true)

theorem EdgeMap.find_none (m : EdgeMap G) (k : ℕ × ℕ) :
    m.find k = none ↔ ∀ r ∈ m, r.key ≠ k := by
  unfold EdgeMap.find
  rw [List.find?_eq_none]
  constructor
  · intro h r hr he
    exact h r hr ((key_eq_iff _ _).2 he)
  · intro h r hr he
    exact h r hr ((key_eq_iff _ _).1 he)

theorem EdgeMap.find_some (m : EdgeMap G) (k : ℕ × ℕ) (r : EdgeRec G) (h : m.find k = some r) :
    r ∈ m ∧ r.key = k := by
  unfold EdgeMap.find at h
  exact ⟨List.mem_of_find?_eq_some h, (key_eq_iff _ _).1 (List.find?_some (p := fun r : EdgeRec G => !keyLt r.key k && !keyLt k r.key) h)⟩

theorem EdgeMap.insert_true (m : EdgeMap G) (hs : EdgeMap.Sorted m) (r : EdgeRec G)
    (h : ∀ s ∈ m, s.key ≠ r.key) :
    (EdgeMap.insert r m).2 = true ∧ EdgeMap.Sorted (EdgeMap.insert r m).1 ∧
      (EdgeMap.insert r m).1.Perm (r :: m) := by
  induction m with
  | nil => simp [EdgeMap.insert, EdgeMap.Sorted]
  | cons s m ih =>
    have hs' := List.pairwise_cons.1 hs
    have := ih hs'.2 (fun t ht => h t (by simp [ht]))
    unfold EdgeMap.insert
    by_cases h1 : keyLt r.key s.key = true
    · simp only [h1, if_true]
      refine ⟨trivial, ?_, List.Perm.refl _⟩
      unfold EdgeMap.Sorted
      rw [List.pairwise_cons]
      refine ⟨?_, hs⟩
      intro t ht
      rcases List.mem_cons.1 ht with rfl | ht
      · exact h1
      · exact keyLt_trans h1 (hs'.1 t ht)
    · have h1' : keyLt r.key s.key = false := by simpa using h1
      have h2 : keyLt s.key r.key = true := by
        rcases keyLt_total h1' with h2 | h2
        · exact h2
        · exact absurd h2.symm (h s (by simp))
      simp only [h1', h2, Bool.false_eq_true, if_false, if_true]
      refine ⟨this.1, ?_, ?_⟩
      · unfold EdgeMap.Sorted
        rw [List.pairwise_cons]
        refine ⟨?_, this.2.1⟩
        intro t ht
        have := (this.2.2.mem_iff).1 ht
        rcases List.mem_cons.1 this with rfl | ht
        · exact h2
        · exact hs'.1 t ht
      · exact (List.Perm.cons s this.2.2).trans (List.Perm.swap r s m)

theorem EdgeMap.insert_false (m : EdgeMap G) (hs : EdgeMap.Sorted m) (r : EdgeRec G)
    (h : ∃ s ∈ m, s.key = r.key) : (EdgeMap.insert r m).2 = false := by
  induction m with
  | nil => simp at h
  | cons s m ih =>
    have hs' := List.pairwise_cons.1 hs
    unfold EdgeMap.insert
    obtain ⟨t, ht, hk⟩ := h
    rcases List.mem_cons.1 ht with rfl | ht
    · simp [hk, keyLt_irrefl]
    · have h3 := hs'.1 t ht
      rw [hk] at h3
      have h1 : keyLt r.key s.key = false := by
        by_contra hc
        have hc : keyLt r.key s.key = true := by simpa using hc
        have := keyLt_trans hc h3
        simp [keyLt_irrefl] at this
      simp only [h1, h3, Bool.false_eq_true, if_false, if_true]
      exact ih hs'.2 ⟨t, ht, hk⟩

theorem EdgeMap.sorted_unique (m : EdgeMap G) (hs : EdgeMap.Sorted m) (r s : EdgeRec G) (hr : r ∈ m)
    (hs' : s ∈ m) (h : r.key = s.key) : r = s := by
  induction m with
  | nil => simp at hr
  | cons t m ih =>
    have ht := List.pairwise_cons.1 hs
    rcases List.mem_cons.1 hr with rfl | hr
    · rcases List.mem_cons.1 hs' with rfl | hs'
      · rfl
      · exact absurd h (keyLt_ne (ht.1 s hs'))
    · rcases List.mem_cons.1 hs' with rfl | hs'
      · exact absurd h.symm (keyLt_ne (ht.1 r ‹_›))
      · exact ih ht.2 hr hs'

theorem EdgeMap.sorted_unique_pos (m : EdgeMap G) (hs : EdgeMap.Sorted m) (i j : ℕ) (hi : i < m.length)
    (hj : j < m.length) (h : m[i].key = m[j].key) : i = j := by
  have hp := List.pairwise_iff_getElem.1 hs
  rcases Nat.lt_trichotomy i j with hlt | heq | hlt
  · exact absurd h (keyLt_ne (hp i j hi hj hlt))
  · exact heq
  · exact absurd h.symm (keyLt_ne (hp j i hj hi hlt))

theorem EdgeMap.update_eq (m : EdgeMap G) (k : ℕ × ℕ) (f : EdgeRec G → EdgeRec G) :
    m.update k f = m.map (fun r => if r.key = k then f r else r) := by
  unfold EdgeMap.update
  apply List.map_congr_left
  intro r _
  by_cases h : r.key = k
  · rw [if_pos ((key_eq_iff _ _).2 h), if_pos h]
  · rw [if_neg (fun hc => h ((key_eq_iff _ _).1 hc)), if_neg h]

theorem EdgeMap.update_sorted (m : EdgeMap G) (hs : EdgeMap.Sorted m) (k : ℕ × ℕ)
    (f : EdgeRec G → EdgeRec G) (hf : ∀ r, (f r).key = r.key) : EdgeMap.Sorted (m.update k f) := by
  rw [EdgeMap.update_eq]
  unfold EdgeMap.Sorted
  rw [List.pairwise_map]
  refine List.Pairwise.imp ?_ hs
  intro r s h
  have e : ∀ r : EdgeRec G, (if r.key = k then f r else r).key = r.key := by
    intro r; split <;> simp [hf]
  rw [e, e]; exact h

end Verif
