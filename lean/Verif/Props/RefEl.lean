import Verif.Model.RefEl
import Mathlib.Tactic.IntervalCases

/-!
# Property C55: reference element tables
-/

namespace Verif
namespace RefEl

/-- The arguments `SubSubEntity2SubEntity` is documented for. -/
def ValidArgs (r : RefEl) (c i rc ri : ℕ) : Prop :=
  ∃ n s m, r.numSubEntities c = some n ∧ i < n ∧ r.subType c i = some s ∧
    s.numSubEntities rc = some m ∧ ri < m

end RefEl
open RefEl

private theorem numSub_bounds (r : RefEl) (c n : ℕ) (h : r.numSubEntities c = some n) :
    c < 3 ∧ n ≤ 4 := by
  unfold numSubEntities at h
  split_ifs at h with h1 h2
  · cases h; omega
  · cases r <;> simp [dimension] at h h1 <;> omega

private def allRef : List RefEl := [.point, .segment, .tria, .quad]

private def checkAll : Bool :=
  allRef.all fun r => (List.range 3).all fun c => (List.range 4).all fun i =>
    (List.range 3).all fun rc => (List.range 4).all fun ri =>
      match r.numSubEntities c, (r.subType c i).bind (fun s => s.numSubEntities rc) with
      | some n, some m =>
        if i < n ∧ ri < m then
          match r.subSubEntity2SubEntity c i rc ri, r.numSubEntities (c + rc) with
          | some k, some n' => decide (k < n')
          | _, _ => false
        else true
      | _, _ => true

private theorem checkAll_true : checkAll = true := by decide +kernel

/-- **C55**: for valid arguments the result is the index of a sub-entity of codimension `c + rc`. -/
theorem C55_subSub_valid (r : RefEl) (c i rc ri : ℕ) (h : ValidArgs r c i rc ri) :
    ∃ k n, r.subSubEntity2SubEntity c i rc ri = some k ∧ r.numSubEntities (c + rc) = some n ∧ k < n := by
  obtain ⟨n, s, m, hn, hi, hs, hm, hri⟩ := h
  have b1 := numSub_bounds r c n hn
  have b2 := numSub_bounds s rc m hm
  have hc := checkAll_true
  simp only [checkAll, List.all_eq_true, List.mem_range] at hc
  have := hc r (by cases r <;> simp [allRef]) c b1.1 i (by omega) rc b2.1 ri (by omega)
  simp only [hn, hs, hm, Option.bind_some, hi, hri, and_self, if_true] at this
  cases hk : r.subSubEntity2SubEntity c i rc ri with
  | none => simp [hk] at this
  | some k =>
    cases hn' : r.numSubEntities (c + rc) with
    | none => simp [hk, hn'] at this
    | some n' => exact ⟨k, n', rfl, rfl, by simpa [hk, hn'] using this⟩

/-- **C55**: invalid arguments are rejected. -/
theorem C55_subSub_rejects (r : RefEl) (c i rc ri k : ℕ)
    (h : r.subSubEntity2SubEntity c i rc ri = some k) : ValidArgs r c i rc ri := by
  unfold subSubEntity2SubEntity at h
  split at h
  · simp at h
  · rename_i n hn
    by_cases h1 : i ≤ n ∧ rc ≤ r.dimension - c
    · rw [if_pos h1] at h
      cases hs : r.subType c i with
      | none => simp [hs] at h
      | some s =>
        cases hm : s.numSubEntities rc with
        | none => simp [hs, hm] at h
        | some m =>
          simp only [hs, hm, Option.bind_some] at h
          by_cases h2 : ri < m
          · refine ⟨n, s, m, hn, ?_, hs, hm, h2⟩
            by_contra hi
            simp [subType, hn, hi] at hs
          · simp [h2] at h
    · simp [h1] at h

/-- Local index of the `k`-th end node of side `j` of a cell. -/
def sideNode (r : RefEl) (j k : ℕ) : Option ℕ := r.subSubEntity2SubEntity 1 j 1 k

/-- **C55**: side `j` of a cell runs from local node `j` to the next local node (cyclically); hence its
end nodes are distinct, consecutive sides share a node, and each node is an end node of exactly two
sides. -/
theorem C55_sides (r : RefEl) (hr : r = .tria ∨ r = .quad) (j : ℕ) (hj : j < r.numNodes) :
    sideNode r j 0 = some j ∧ sideNode r j 1 = some ((j + 1) % r.numNodes) ∧
    sideNode r j 0 ≠ sideNode r j 1 ∧
    sideNode r j 1 = sideNode r ((j + 1) % r.numNodes) 0 := by
  rcases hr with rfl | rfl <;> simp only [numNodes] at hj <;> interval_cases j <;> decide

theorem C55_node_on_two_sides (r : RefEl) (hr : r = .tria ∨ r = .quad) (v : ℕ) (hv : v < r.numNodes) :
    ((List.range r.numNodes).filter
      (fun j => sideNode r j 0 = some v ∨ sideNode r j 1 = some v)).length = 2 := by
  rcases hr with rfl | rfl <;> simp only [numNodes] at hv <;> interval_cases v <;> decide

/-- **C55**: node and side counts agree with `NumNodes`. -/
theorem C55_counts (r : RefEl) : r.numSubEntities r.dimension = some r.numNodes ∧
    (r = .tria ∨ r = .quad → r.numSubEntities 1 = some r.numNodes) := by
  cases r <;> decide

example : ValidArgs .quad 1 3 1 1 := ⟨4, .segment, 2, rfl, by decide, rfl, rfl, by decide⟩
example : RefEl.quad.subSubEntity2SubEntity 1 3 1 1 = some 0 := rfl
example : RefEl.quad.subSubEntity2SubEntity 1 4 1 1 = none := rfl

end Verif
