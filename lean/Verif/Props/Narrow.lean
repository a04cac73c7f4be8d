import Verif.Model.Narrow
import Mathlib.Tactic.NormNum
import Mathlib.Algebra.Order.Ring.Abs
import Mathlib.Tactic.Linarith
import Mathlib.Tactic.Ring

/-!
# C100: `narrow` changes no values
-/

namespace Verif
open Narrow

/-- The values of an integer type. -/
def Narrow.IntType.Has (t : IntType) (z : ℤ) : Prop :=
  if t.signed then -2 ^ (t.bits - 1) ≤ z ∧ z < 2 ^ (t.bits - 1) else 0 ≤ z ∧ z < 2 ^ t.bits

namespace Narrow

theorem pow_split {b : ℕ} (hb : 1 ≤ b) : (2 : ℤ) ^ b = 2 ^ (b - 1) + 2 ^ (b - 1) := by
  obtain ⟨k, rfl⟩ := Nat.exists_eq_add_of_le hb
  rw [Nat.add_sub_cancel_left, Nat.add_comm, pow_succ]
  ring

theorem cast_of_has {t : IntType} (hb : 1 ≤ t.bits) {z : ℤ} (h : t.Has z) : t.cast z = z := by
  unfold IntType.Has at h
  unfold IntType.cast
  have hs := pow_split hb
  by_cases ht : t.signed = true
  · rw [if_pos ht] at h ⊢
    rw [Int.emod_eq_of_lt (by linarith [h.1]) (by linarith [h.2])]
    ring
  · rw [if_neg ht] at h ⊢
    exact Int.emod_eq_of_lt h.1 h.2

theorem has_cast {t : IntType} (hb : 1 ≤ t.bits) (z : ℤ) : t.Has (t.cast z) := by
  unfold IntType.Has IntType.cast
  have hs := pow_split hb
  have hp : (0 : ℤ) < 2 ^ t.bits := by positivity
  by_cases ht : t.signed = true
  · rw [if_pos ht, if_pos ht]
    have h1 := Int.emod_nonneg (z + 2 ^ (t.bits - 1)) hp.ne'
    have h2 := Int.emod_lt_of_pos (z + 2 ^ (t.bits - 1)) hp
    constructor <;> linarith
  · rw [if_neg ht, if_neg ht]
    exact ⟨Int.emod_nonneg _ hp.ne', Int.emod_lt_of_pos _ hp⟩

end Narrow

/-- **C100**: for all integer types, with and without sign and with any number of bits, and every value of the first type, `narrow` returns the same value if
the second type has it, and rejects it otherwise. -/
theorem C100_narrow (FROM TO : IntType) (hF : 1 ≤ FROM.bits) (hT : 1 ≤ TO.bits) (x : ℤ) (hx : FROM.Has x) :
    (TO.Has x → narrow FROM TO x = some x) ∧ (¬ TO.Has x → narrow FROM TO x = none) := by
  constructor
  · intro h
    unfold narrow
    simp only
    rw [cast_of_has hT h, cast_of_has hF hx, if_pos ⟨rfl, Or.inr Iff.rfl⟩]
  · intro h
    unfold narrow
    simp only
    rw [if_neg]
    rintro ⟨h1, h2⟩
    apply h
    have hy := has_cast hT x
    -- it suffices that one of the two casts changes nothing
    have key : FROM.Has (TO.cast x) ∨ TO.Has x := by
      have mono : ∀ a b : ℕ, a ≤ b → (2 : ℤ) ^ a ≤ 2 ^ b := fun a b hab => pow_le_pow_right₀ (by norm_num) hab
      have hsF := pow_split hF
      have hsT := pow_split hT
      have pF : (0 : ℤ) < 2 ^ (FROM.bits - 1) := by positivity
      have pT : (0 : ℤ) < 2 ^ (TO.bits - 1) := by positivity
      generalize TO.cast x = y at *
      unfold IntType.Has at hx hy h ⊢
      rcases le_total FROM.bits TO.bits with hle | hle
      · have m1 := mono _ _ hle
        have m2 := mono _ _ (Nat.sub_le_sub_right hle 1)
        by_cases eq : FROM.bits = TO.bits
        · rw [eq] at hx ⊢
          by_cases f : FROM.signed = true <;> by_cases t : TO.signed = true <;> simp only [f, t, if_true, if_false] at * <;> grind
        · have m3 := mono FROM.bits (TO.bits - 1) (by omega)
          by_cases f : FROM.signed = true <;> by_cases t : TO.signed = true <;> simp only [f, t, if_true, if_false] at * <;> grind
      · have m1 := mono _ _ hle
        have m2 := mono _ _ (Nat.sub_le_sub_right hle 1)
        by_cases eq : FROM.bits = TO.bits
        · rw [eq] at hx ⊢
          by_cases f : FROM.signed = true <;> by_cases t : TO.signed = true <;> simp only [f, t, if_true, if_false] at * <;> grind
        · have m3 := mono TO.bits (FROM.bits - 1) (by omega)
          by_cases f : FROM.signed = true <;> by_cases t : TO.signed = true <;> simp only [f, t, if_true, if_false] at * <;> grind
    rcases key with k | k
    · rw [cast_of_has hF k] at h1
      rw [← h1]
      rw [h1]
      rwa [h1] at hy
    · exact k

/-- Values of `unsigned` and `std::size_t` converted to `int`: 5 is preserved, `2 ^ 31` and `2 ^ 64 - 1` are rejected, as is the conversion of `-1` to `unsigned`. -/
example : (⟨false, 64⟩ : IntType).Has 5 ∧ (⟨true, 32⟩ : IntType).Has 5 ∧ (⟨false, 64⟩ : IntType).Has (2 ^ 64 - 1) ∧
    ¬ (⟨true, 32⟩ : IntType).Has (2 ^ 64 - 1) ∧ (⟨true, 32⟩ : IntType).Has (-1) ∧ ¬ (⟨false, 32⟩ : IntType).Has (-1) ∧
    narrow ⟨false, 64⟩ ⟨true, 32⟩ 5 = some 5 ∧ narrow ⟨false, 64⟩ ⟨true, 32⟩ (2 ^ 31) = none ∧
    narrow ⟨false, 64⟩ ⟨true, 32⟩ (2 ^ 64 - 1) = none ∧ narrow ⟨true, 32⟩ ⟨false, 32⟩ (-1) = none := by
  unfold IntType.Has
  refine ⟨?_, ?_, ?_, ?_, ?_, ?_, ?_, ?_, ?_, ?_⟩ <;> decide +kernel

end Verif
