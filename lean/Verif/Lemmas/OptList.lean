import Mathlib.Data.List.GetD
import Mathlib.Data.List.Nodup
import Mathlib.Tactic.Cases
import Mathlib.Data.List.Induction

/-! Monadic maps on lists in the option monad. -/

namespace Verif

theorem mapM_pure {α β : Type} (f : α → Option β) (g : α → β) (l : List α) (h : ∀ x ∈ l, f x = some (g x)) :
    l.mapM f = some (l.map g) := by
  induction l with
  | nil => rfl
  | cons a l ih =>
    rw [List.mapM_cons, h a (by simp), ih (fun x hx => h x (by simp [hx]))]; rfl

theorem mapM_range_get {β : Type} (f : ℕ → Option β) (l : List β) (n : ℕ) (hl : l.length = n)
    (h : ∀ i < n, f i = l[i]?) : (List.range n).mapM f = some l := by
  subst hl
  induction l using List.reverseRecOn with
  | nil => rfl
  | append_singleton l a ih =>
    rw [List.length_append, List.length_singleton, List.range_succ, List.mapM_append]
    rw [ih (fun i hi => by rw [h i (by simp; omega), List.getElem?_append_left hi])]
    rw [List.mapM_cons, h l.length (by simp)]
    simp

theorem mapM_isSome {α β : Type} (f : α → Option β) (l : List α) (h : ∀ x ∈ l, ∃ y, f x = some y) :
    ∃ r, l.mapM f = some r := by
  induction l with
  | nil => exact ⟨[], rfl⟩
  | cons a l ih =>
    obtain ⟨y, hy⟩ := h a (by simp)
    obtain ⟨r, hr⟩ := ih (fun x hx => h x (by simp [hx]))
    exact ⟨y :: r, by rw [List.mapM_cons, hy, hr]; rfl⟩

theorem mapM_get {α β : Type} (f : α → Option β) (l : List α) (r : List β) (h : l.mapM f = some r) :
    r.length = l.length ∧ ∀ (i : ℕ) (x : α), l[i]? = some x → ∃ y, r[i]? = some y ∧ f x = some y := by
  induction l generalizing r with
  | nil =>
    have : r = [] := by simpa using h.symm
    subst this; simp
  | cons a l ih =>
    rw [List.mapM_cons] at h
    cases ha : f a with
    | none => rw [ha] at h; cases h
    | some y =>
      cases hl : l.mapM f with
      | none => rw [ha, hl] at h; cases h
      | some q =>
        rw [ha, hl] at h
        cases h
        obtain ⟨h1, h2⟩ := ih q hl
        refine ⟨by simp [h1], ?_⟩
        intro i x hx
        cases i with
        | zero =>
          simp at hx; subst hx
          exact ⟨y, by simp, ha⟩
        | succ i =>
          obtain ⟨z, hz⟩ := h2 i x (by simpa using hx)
          exact ⟨z, by simpa using hz⟩

end Verif
