import Verif.Model.RefUtils
import Verif.Props.Writers
import Mathlib.Data.List.Nodup
import Mathlib.Data.List.GetD

/-!
# C104: the files for a hierarchy of meshes
-/

namespace Verif
open Writers RefUtils

/-- **C104**, names: for every hierarchy two files for each level are written, each under its own name (none is overwritten), with a function named like the file. -/
theorem C104_names (base : List Char) (n : ℕ) :
    (hierarchyNames base n).Nodup ∧ (hierarchyNames base n).length = 2 * n ∧
      ∀ name ∈ hierarchyNames base n, ∃ s, name = s ++ ['.', 'm'] ∧ matlabName name = some (name, s) := by
  have digit : ∀ k, ∃ d l, Nat.toDigits 10 k = l ++ [d] ∧ d.isDigit = true := by
    intro k
    refine ⟨(Nat.toDigits 10 k).getLast Nat.toDigits_ne_nil, (Nat.toDigits 10 k).dropLast, ?_, ?_⟩
    · exact (List.dropLast_append_getLast _).symm
    · exact Nat.isDigit_of_mem_toDigits (by decide) (by decide) (List.getLast_mem _)
  have inj : ∀ i j, Nat.toDigits 10 i = Nat.toDigits 10 j → i = j := by
    intro i j h
    rw [← Nat.ofDigitChars_toDigits (n := i) (by decide : 1 < 10) le_rfl, h, Nat.ofDigitChars_toDigits (by decide) le_rfl]
  have mix : ∀ i j, base ++ ['_', 'L'] ++ Nat.toDigits 10 i ++ ['.', 'm'] ≠ base ++ ['_', 'L'] ++ Nat.toDigits 10 j ++ ['_', 'p', 'i'] ++ ['.', 'm'] := by
    intro i j h
    obtain ⟨d, l, hd, hdig⟩ := digit i
    have h' := List.append_cancel_right h
    rw [hd, ← List.append_assoc] at h'
    have h2 := congrArg List.getLast? h'
    have e : (base ++ ['_', 'L'] ++ Nat.toDigits 10 j ++ ['_', 'p', 'i']) = (base ++ ['_', 'L'] ++ Nat.toDigits 10 j ++ ['_', 'p']) ++ ['i'] := by simp
    rw [e, List.getLast?_concat, List.getLast?_concat] at h2
    rw [Option.some.inj h2] at hdig
    exact absurd hdig (by decide)
  refine ⟨?_, ?_, ?_⟩
  · unfold hierarchyNames
    rw [List.nodup_flatMap]
    constructor
    · intro k _
      simp only [List.nodup_cons, List.mem_singleton, List.not_mem_nil, not_false_eq_true, List.nodup_nil, and_true]
      exact mix k k
    · refine List.Pairwise.imp ?_ (List.nodup_range (n := n))
      intro i j hij
      rw [Function.onFun, List.disjoint_left]
      intro a ha hb
      simp only [List.mem_cons, List.not_mem_nil, or_false] at ha hb
      rcases ha with rfl | rfl <;> rcases hb with h | h
      · exact hij (inj i j (List.append_cancel_left (List.append_cancel_right h)))
      · exact mix i j h
      · exact mix j i h.symm
      · exact hij (inj i j (List.append_cancel_left (List.append_cancel_right (List.append_cancel_right h))))
  · unfold hierarchyNames
    simp [Nat.mul_comm]
  · intro name hname
    unfold hierarchyNames at hname
    rw [List.mem_flatMap] at hname
    obtain ⟨k, -, hk⟩ := hname
    simp only [List.mem_cons, List.not_mem_nil, or_false] at hk
    rcases hk with rfl | rfl
    · exact ⟨_, rfl, (C101_name_partial _ 'a' 'b').1⟩
    · exact ⟨_, rfl, (C101_name_partial _ 'a' 'b').1⟩

/-- **C104**, contents: for all parent information with indices up to `2 ^ 31 - 1` or `idx_nil`, the row of every entity is written under its number (from 1) with `-1` for
`idx_nil` and all other numbers unchanged. -/
theorem C104_rows (info : List (List ℕ)) (h : ∀ row ∈ info, ∀ i ∈ row, i = idxNil ∨ i < 2 ^ 31) :
    parentRows info.length info = some ((List.range info.length).map fun k => (k + 1, (info.getD k []).map fun i => if i = idxNil then -1 else (i : ℤ))) := by
  unfold parentRows
  apply mapM_some_map
  intro k hk
  have hk' := List.mem_range.mp hk
  have hget : info[k]? = some (info.getD k []) := by simp [hk']
  rw [hget, Option.bind_some, mapM_some_map normalizeIdx (fun i => if i = idxNil then -1 else (i : ℤ))]
  · rfl
  · intro i hi
    unfold normalizeIdx
    rw [if_pos]
    have hrow : info.getD k [] ∈ info := by
      rw [List.getD_eq_getElem _ _ hk']
      exact List.getElem_mem hk'
    rcases h _ hrow i hi with h1 | h1
    · exact Or.inl h1
    · exact Or.inr (by omega)

/-- The files for two levels; a row with a cell without parent. -/
example : hierarchyNames "ref".toList 2 = ["ref_L0.m".toList, "ref_L0_pi.m".toList, "ref_L1.m".toList, "ref_L1_pi.m".toList] ∧
    parentRows 2 [[2 ^ 32 - 1, 2 ^ 32 - 1, 1], [0, 3, 2]] = some [(1, [-1, -1, 1]), (2, [0, 3, 2])] := by
  constructor <;> decide +kernel

end Verif
