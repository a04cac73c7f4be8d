import Verif.Model.GmshFile
import Verif.Spec.GmshFile
import Mathlib.Tactic.IntervalCases
import Mathlib.Tactic.NormNum

/-! The conversions of integers agree with the specification. -/

namespace Verif

open Msh

theorem forall₂_map_eq {α β : Type} {r : α → β → Prop} {f : α → β} {l : List α} {m : List β} (h : List.Forall₂ r l m)
    (hf : ∀ a b, r a b → f a = b) : l.map f = m := by
  induction h with
  | nil => rfl
  | cons hab _ ih => rw [List.map_cons, hf _ _ hab, ih]

theorem ofNumber_eq {z : ℤ} {t : GmshType} (h : HasNumber z t) : GmshType.ofNumber z = t := by
  rcases h with h | ⟨n, h, rfl, rfl⟩
  · simp only [List.mem_cons, Prod.mk.injEq, List.not_mem_nil, or_false] at h
    rcases h with ⟨rfl, rfl⟩ | ⟨rfl, rfl⟩ | ⟨rfl, rfl⟩ | ⟨rfl, rfl⟩ | ⟨rfl, rfl⟩ | ⟨rfl, rfl⟩ | ⟨rfl, rfl⟩ | ⟨rfl, rfl⟩ | ⟨rfl, rfl⟩ |
      ⟨rfl, rfl⟩ | ⟨rfl, rfl⟩ | ⟨rfl, rfl⟩ | ⟨rfl, rfl⟩ | ⟨rfl, rfl⟩ | ⟨rfl, rfl⟩ | ⟨rfl, rfl⟩ | ⟨rfl, rfl⟩ <;> rfl
  · simp only [List.mem_cons, List.not_mem_nil, or_false] at h
    rcases h with rfl | rfl | rfl | rfl | rfl | rfl | rfl | rfl | rfl | rfl | rfl | rfl | rfl | rfl | rfl | rfl <;> rfl

theorem toUnsigned_eq {z : ℤ} {n : ℕ} (h : IsUnsigned z n) : toUnsigned z = n := by
  obtain ⟨h1, h2⟩ := h
  unfold Int.ModEq at h2
  unfold toUnsigned
  norm_num at h1 h2
  omega

theorem toUnsigned_nat {z : ℤ} {n : ℕ} (h : z = (n : ℤ)) (hz : z < 2 ^ 31) : toUnsigned z = n := by
  unfold toUnsigned
  norm_num at hz
  omega

theorem toIndex_nat {z : ℤ} {n : ℕ} (h : z = (n : ℤ)) (hz : z < 2 ^ 31) : toIndex z = n := by
  unfold toIndex
  norm_num at hz
  omega

theorem physNames_eq {l : List Msh.PhysName} {names : List (Verif.PhysName Txt)} (h : NamesMatch l names) : physNames l = names := by
  refine forall₂_map_eq h ?_
  rintro p ⟨name, number, dimension⟩ ⟨rfl, h2, h3⟩
  rw [toUnsigned_eq h2, toUnsigned_eq h3]

variable {R P : Type} {pos : Msh.Vec R → P}

theorem toV2_eq {F : MshFile2 R} {file : FileV2 P} (h : Matches2 pos F file) : F.toV2 pos = file := by
  obtain ⟨nodes, elements⟩ := file
  have h1 := h.nodes
  simp only at h1
  unfold MshFile2.toV2
  rw [h1]
  congr 1
  refine forall₂_map_eq h.elements ?_
  rintro e ⟨t, p, ns⟩ ⟨h1, h2, rfl⟩
  rw [ofNumber_eq h1, toUnsigned_eq h2]

theorem entities_eq {l : List (ℤ × List ℤ)} {es : List (ℕ × List ℕ)} (h : EntitiesMatch l es) :
    (l.map fun e => (toIndex e.1, e.2.map toUnsigned)) = es ∧ ∀ e ∈ l, 0 ≤ e.1 := by
  constructor
  · refine forall₂_map_eq h ?_
    rintro a ⟨b1, b2⟩ ⟨h1, h2, h3⟩
    rw [toIndex_nat h1 h2, forall₂_map_eq h3 fun _ _ => toUnsigned_eq]
  · unfold EntitiesMatch at h
    induction h with
    | nil => simp
    | cons hab _ ih =>
      intro e he
      rcases List.mem_cons.mp he with rfl | he
      · rw [hab.1]
        exact Int.natCast_nonneg _
      · exact ih e he

theorem toV4_eq {F : MshFile R} {file : FileV4 P} (h : Matches4 pos F file) : F.toV4 pos = some file := by
  have hent : ∀ d < 3, EntitiesMatch (F.entityList d) (file.entities d) := by
    intro d hd
    unfold MshFile.entityList
    by_cases hp : F.parts.num = 0
    · rw [if_pos hp]
      interval_cases d
      · exact h.points hp
      · exact h.curves hp
      · exact h.surfaces hp
    · rw [if_neg hp]
      interval_cases d
      · exact h.partPoints hp
      · exact h.partCurves hp
      · exact h.partSurfaces hp
  have hall : ((List.range 3).all fun d => (F.entityList d).all fun e => decide (0 ≤ e.1)) = true := by
    simp only [List.all_eq_true, List.mem_range, decide_eq_true_eq]
    intro d hd
    exact (entities_eq (hent d hd)).2
  unfold MshFile.toV4
  rw [if_pos hall]
  obtain ⟨minTag, maxTag, nodeBlocks, blocks, entities⟩ := file
  have h1 := h.minTag
  have h2 := h.maxTag
  have h3 := h.nodes
  simp only at h1 h2 h3
  rw [h1, h2, h3]
  congr 2
  · refine forall₂_map_eq h.blocks ?_
    rintro b ⟨d, e, t, els⟩ ⟨h1, h2, h3, h4, h5, rfl⟩
    rw [toUnsigned_nat h1 h2, toIndex_nat h3 h4, ofNumber_eq h5]
  · funext d
    by_cases hd : d < 3
    · exact (entities_eq (hent d hd)).1
    · have h4 := h.solids d (by omega)
      simp only at h4
      rw [h4, List.map_eq_nil_iff]
      unfold MshFile.entityList
      obtain ⟨k, rfl⟩ : ∃ k, d = k + 3 := ⟨d - 3, by omega⟩
      split_ifs <;> rfl

end Verif
