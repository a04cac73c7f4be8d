import Verif.Spec.VtkFormat
import Mathlib.Tactic.Linarith
import Mathlib.Tactic.Ring
import Mathlib.Tactic.FieldSimp
import Mathlib.Tactic.NormNum
import Mathlib.Tactic.Positivity
import Mathlib.Tactic.LinearCombination
import Mathlib.Data.Nat.Digits.Lemmas

/-!
# Lemmas for VTK files: numbers
-/

namespace Verif

namespace VtkF

open Msh (Txt Vec Parser)

/-- Decimal digits. -/
def Dig (w : Txt) : Prop := ∀ c ∈ w, '0' ≤ c ∧ c ≤ '9'

/-- The value of digits. -/
def val (w : Txt) : ℕ := Nat.ofDigits 10 (w.reverse.map fun c => c.toNat - 48)

theorem digitChar_ok : ∀ d < 10, ('0' ≤ Nat.digitChar d ∧ Nat.digitChar d ≤ '9') ∧ (Nat.digitChar d).toNat - 48 = d := by
  decide

theorem dec_ne (n : ℕ) : dec n ≠ [] := by
  unfold dec
  split_ifs with h
  · simp
  · simpa [Nat.digits_eq_nil_iff_eq_zero] using h

theorem dec_dig (n : ℕ) : Dig (dec n) := by
  unfold dec Dig
  split_ifs with h
  · decide
  · intro c hc
    rw [List.mem_reverse, List.mem_map] at hc
    obtain ⟨d, hd, rfl⟩ := hc
    exact (digitChar_ok d (Nat.digits_lt_base (by norm_num) hd)).1

theorem val_dec (n : ℕ) : val (dec n) = n := by
  unfold dec val
  split_ifs with h
  · rw [h]; rfl
  · rw [List.reverse_reverse, List.map_map]
    have : (Nat.digits 10 n).map ((fun c : Char => c.toNat - 48) ∘ Nat.digitChar) = Nat.digits 10 n := by
      conv_rhs => rw [← List.map_id (Nat.digits 10 n)]
      exact List.map_congr_left fun d hd => (digitChar_ok d (Nat.digits_lt_base (by norm_num) hd)).2
    rw [this, Nat.ofDigits_digits]

theorem decimal_dig {w : Txt} (h0 : w ≠ []) (h : Dig w) : decimal w = some (val w) := if_pos ⟨h0, h⟩

theorem decimal_dec (n : ℕ) : decimal (dec n) = some n := by rw [decimal_dig (dec_ne n) (dec_dig n), val_dec]

theorem space_iff (c : Char) : space c = true ↔ c ∈ [' ', '\t', '\n', '\x0b', '\x0c', '\r'] := by
  simp [space]

/-- The characters of numbers. -/
def NumChar (c : Char) : Prop := ('0' ≤ c ∧ c ≤ '9') ∨ c ∈ ['-', '.', 'e']

theorem numChar_space {c : Char} (h : NumChar c) : space c = false := by
  by_contra hs
  have := (space_iff c).1 (by simpa using hs)
  simp only [List.mem_cons, List.not_mem_nil, or_false] at this
  rcases h with h | h
  · rcases this with rfl | rfl | rfl | rfl | rfl | rfl <;> exact absurd h (by decide)
  · rcases this with rfl | rfl | rfl | rfl | rfl | rfl <;> exact absurd h (by decide)

theorem dig_num {w : Txt} (h : Dig w) : ∀ c ∈ w, NumChar c := fun c hc => Or.inl (h c hc)

theorem name_num {w : Txt} (h0 : w ≠ []) (h : ∀ c ∈ w, NumChar c) : Name w := ⟨h0, fun c hc => numChar_space (h c hc)⟩

theorem name_dec (n : ℕ) : Name (dec n) := name_num (dec_ne n) (dig_num (dec_dig n))

theorem dig_head {w : Txt} (h0 : w ≠ []) (h : Dig w) : ∃ c v, w = c :: v ∧ c ≠ '-' := by
  cases w with
  | nil => exact absurd rfl h0
  | cons c v =>
    refine ⟨c, v, rfl, ?_⟩
    rintro rfl
    exact absurd (h '-' List.mem_cons_self) (by decide)

theorem integer_pos {w : Txt} (h0 : w ≠ []) (h : Dig w) : integer w = some (val w : ℤ) := by
  obtain ⟨c, v, rfl, hc⟩ := dig_head h0 h
  unfold integer
  split
  · rename_i heq
    exact absurd (List.cons.inj heq).1 hc
  · rw [decimal_dig h0 h]; rfl

theorem integer_neg {w : Txt} (h0 : w ≠ []) (h : Dig w) : integer ('-' :: w) = some (-(val w : ℤ)) := by
  simp [integer, decimal_dig h0 h]

theorem integer_int (i : ℤ) : integer (int i) = some i := by
  unfold int
  split_ifs with h
  · rw [integer_neg (dec_ne _) (dec_dig _), val_dec]; congr 1; omega
  · rw [integer_pos (dec_ne _) (dec_dig _), val_dec]; congr 1; omega

theorem name_int (i : ℤ) : Name (int i) := by
  unfold int
  split_ifs with h
  · refine name_num (by simp) fun c hc => ?_
    rcases List.mem_cons.1 hc with rfl | hc
    · exact Or.inr (by simp)
    · exact dig_num (dec_dig _) c hc
  · exact name_dec _

theorem int_natCast (n : ℕ) : int (n : ℤ) = dec n := by
  unfold int
  rw [if_neg (by omega)]
  rfl

/-! ## Floating point numbers -/

/-- The value of the fractional part. -/
theorem fracPart_ok : ∀ r < 1000, fracPart r ≠ [] ∧ Dig (fracPart r) ∧ (fracPart r).length ≤ 3 ∧
    val (fracPart r) * 10 ^ (3 - (fracPart r).length) = r := by
  unfold Dig
  decide +kernel

theorem val_append (u v : Txt) : val (u ++ v) = val u * 10 ^ v.length + val v := by
  unfold val
  rw [List.reverse_append, List.map_append, Nat.ofDigits_append, List.length_map, List.length_reverse]
  ring

theorem takeWhile_append_stop {p : Char → Bool} {u : Txt} {c : Char} {v : Txt} (hu : ∀ x ∈ u, p x = true) (hc : p c = false) :
    (u ++ c :: v).takeWhile p = u ∧ (u ++ c :: v).dropWhile p = c :: v := by
  rw [List.takeWhile_append_of_pos hu, List.dropWhile_append_of_pos hu]
  simp [List.takeWhile_cons, List.dropWhile_cons, hc]

theorem takeWhile_all {p : Char → Bool} {u : Txt} (hu : ∀ x ∈ u, p x = true) :
    u.takeWhile p = u ∧ u.dropWhile p = [] := by
  have h1 := List.takeWhile_append_of_pos (l₂ := []) hu
  have h2 := List.dropWhile_append_of_pos (l₂ := []) hu
  simpa using And.intro h1 h2

theorem dig_not {w : Txt} (h : Dig w) : ∀ c ∈ w, c ≠ 'e' ∧ c ≠ '.' := by
  intro c hc
  constructor <;> rintro rfl <;> exact absurd (h _ hc) (by decide)

theorem mantissa_value (q : ℕ) :
    decimal (dec (q / 1000) ++ fracPart (q % 1000)) =
      some (q / 1000 * 10 ^ (fracPart (q % 1000)).length + val (fracPart (q % 1000))) ∧
    ((q / 1000 * 10 ^ (fracPart (q % 1000)).length + val (fracPart (q % 1000)) : ℕ) : ℚ) / 10 ^ (fracPart (q % 1000)).length
      = (q : ℚ) / 1000 := by
  obtain ⟨h0, h1, h2, h3⟩ := fracPart_ok (q % 1000) (Nat.mod_lt _ (by norm_num))
  refine ⟨?_, ?_⟩
  · rw [decimal_dig (by simp [dec_ne]) (fun c hc => (List.mem_append.1 hc).elim (dec_dig _ c) (h1 c)), val_append, val_dec]
  · have e : (10 : ℚ) ^ (3 - (fracPart (q % 1000)).length) * 10 ^ (fracPart (q % 1000)).length = 1000 := by
      rw [← pow_add, Nat.sub_add_cancel h2]; norm_num
    have hq : (q : ℚ) = 1000 * ((q / 1000 : ℕ) : ℚ) + ((val (fracPart (q % 1000)) : ℕ) : ℚ) * 10 ^ (3 - (fracPart (q % 1000)).length) := by
      have : q = 1000 * (q / 1000) + val (fracPart (q % 1000)) * 10 ^ (3 - (fracPart (q % 1000)).length) := by
        rw [h3]; omega
      conv_lhs => rw [this]
      push_cast
      ring
    rw [div_eq_div_iff (by positivity) (by norm_num), hq]
    push_cast
    linear_combination (-((val (fracPart (q % 1000)) : ℕ) : ℚ)) * e

theorem magnitude_fixed (q : ℕ) : magnitude (dec (q / 1000) ++ '.' :: fracPart (q % 1000)) = some ((q : ℚ) / 1000) := by
  obtain ⟨h0, h1, h2, h3⟩ := fracPart_ok (q % 1000) (Nat.mod_lt _ (by norm_num))
  obtain ⟨m1, m2⟩ := mantissa_value q
  have he : ∀ c ∈ dec (q / 1000) ++ '.' :: fracPart (q % 1000), c ≠ 'e' := by
    intro c hc
    rcases List.mem_append.1 hc with hc | hc
    · exact (dig_not (dec_dig _) c hc).1
    · rcases List.mem_cons.1 hc with rfl | hc
      · decide
      · exact (dig_not h1 c hc).1
  obtain ⟨t1, t2⟩ := takeWhile_all (p := fun c => decide (c ≠ 'e')) fun c hc => decide_eq_true (he c hc)
  obtain ⟨t3, t4⟩ := takeWhile_append_stop (p := fun c => decide (c ≠ '.')) (u := dec (q / 1000)) (c := '.')
    (v := fracPart (q % 1000)) (fun c hc => decide_eq_true (dig_not (dec_dig _) c hc).2) (by decide)
  have hn : 'e' ∉ dec (q / 1000) ++ '.' :: fracPart (q % 1000) := fun h => he 'e' h rfl
  simp only [magnitude, t1, t2, t3, t4, List.drop_succ_cons, List.drop_zero, m1, Option.bind_some, if_neg hn,
    Option.map_some, zpow_zero, mul_one, m2]

theorem integer_expo (e : ℤ) : integer ((expo e).drop 1) = some e := by
  have h0 : ∀ (z : Txt), (z = ['0'] ∨ z = []) → ∀ n, z ++ dec n ≠ [] ∧ Dig (z ++ dec n) ∧ val (z ++ dec n) = n := by
    intro z hz n
    refine ⟨by simp [dec_ne], ?_, ?_⟩
    · intro c hc
      rcases List.mem_append.1 hc with hc | hc
      · rcases hz with rfl | rfl
        · simp only [List.mem_singleton] at hc
          subst hc
          decide
        · simp at hc
      · exact dec_dig _ c hc
    · rw [val_append, val_dec]
      rcases hz with rfl | rfl <;> simp [val]
  have hz : ∀ (P : Prop) [Decidable P], (if P then ['0'] else []) = ['0'] ∨ (if P then ['0'] else [] : Txt) = [] := by
    intro P _
    split_ifs
    · exact Or.inl rfl
    · exact Or.inr rfl
  obtain ⟨a, b, c⟩ := h0 _ (hz (e.natAbs < 10)) e.natAbs
  simp only [expo, List.cons_append, List.drop_succ_cons, List.drop_zero, List.append_assoc]
  split_ifs with h1 h2 h2
  · simp only [if_pos h2] at a b c
    rw [List.cons_append, List.nil_append, integer_neg a b, c]; congr 1; omega
  · simp only [if_neg h2] at a b c
    rw [List.cons_append, List.nil_append, integer_neg a b, c]; congr 1; omega
  · simp only [if_pos h2] at a b c
    rw [List.nil_append, integer_pos a b, c]; congr 1; omega
  · simp only [if_neg h2] at a b c
    rw [List.nil_append, integer_pos a b, c]; congr 1; omega

theorem expo_cons (e : ℤ) : expo e = 'e' :: (expo e).drop 1 := by
  simp [expo]

theorem magnitude_expo (q : ℕ) (e : ℤ) :
    magnitude (dec (q / 1000) ++ '.' :: fracPart (q % 1000) ++ expo e) = some ((q : ℚ) / 1000 * 10 ^ e) := by
  obtain ⟨h0, h1, h2, h3⟩ := fracPart_ok (q % 1000) (Nat.mod_lt _ (by norm_num))
  obtain ⟨m1, m2⟩ := mantissa_value q
  have he : ∀ c ∈ dec (q / 1000) ++ '.' :: fracPart (q % 1000), c ≠ 'e' := by
    intro c hc
    rcases List.mem_append.1 hc with hc | hc
    · exact (dig_not (dec_dig _) c hc).1
    · rcases List.mem_cons.1 hc with rfl | hc
      · decide
      · exact (dig_not h1 c hc).1
  rw [expo_cons]
  obtain ⟨t1, t2⟩ := takeWhile_append_stop (p := fun c => decide (c ≠ 'e')) (c := 'e') (v := (expo e).drop 1)
    (fun c hc => decide_eq_true (he c hc)) (by decide)
  obtain ⟨t3, t4⟩ := takeWhile_append_stop (p := fun c => decide (c ≠ '.')) (u := dec (q / 1000)) (c := '.')
    (v := fracPart (q % 1000)) (fun c hc => decide_eq_true (dig_not (dec_dig _) c hc).2) (by decide)
  have hn : 'e' ∈ dec (q / 1000) ++ '.' :: fracPart (q % 1000) ++ 'e' :: (expo e).drop 1 := by simp
  have hd : List.drop 1 ('e' :: (expo e).drop 1) = (expo e).drop 1 := rfl
  have hd2 : List.drop 1 ('.' :: fracPart (q % 1000)) = fracPart (q % 1000) := rfl
  simp only [magnitude, t1, t2, t3, t4, hd, hd2, m1, Option.bind_some, if_pos hn, integer_expo, Option.map_some, m2]

theorem number_pos {w : Txt} {c : Char} {v : Txt} (h : w = c :: v) (hc : c ≠ '-') : number w = magnitude w := by
  subst h
  unfold number
  split
  · rename_i heq
    exact absurd (List.cons.inj heq).1 hc
  · rfl

theorem dec_cons (n : ℕ) (t : Txt) : ∃ c v, dec n ++ t = c :: v ∧ c ≠ '-' := by
  obtain ⟨c, v, h, hc⟩ := dig_head (dec_ne n) (dec_dig n)
  exact ⟨c, v ++ t, by rw [h]; rfl, hc⟩

/-- The rounded absolute value. -/
def roundAbs (a : ℚ) : ℚ :=
  if a ≠ 0 ∧ (a < 1 / 1000 ∨ 100000 ≤ a) then (thousandths (a / 10 ^ Int.log 10 a) : ℚ) / 1000 * 10 ^ Int.log 10 a
  else (thousandths a : ℚ) / 1000

/-- The value of the text written for a number. -/
def rho (x : ℚ) : ℚ := if x < 0 then -roundAbs |x| else roundAbs |x|

theorem thousandths_near {x : ℚ} (h : 0 ≤ x) : |x - (thousandths x : ℚ) / 1000| ≤ 1 / 2000 := by
  have h0 : 0 ≤ ⌊1000 * x + 1 / 2⌋ := Int.floor_nonneg.2 (by positivity)
  have h1 : ((thousandths x : ℕ) : ℚ) = (⌊1000 * x + 1 / 2⌋ : ℚ) := by
    unfold thousandths
    exact_mod_cast congrArg (Int.cast : ℤ → ℚ) (Int.toNat_of_nonneg h0)
  have h2 := Int.floor_le (1000 * x + 1 / 2)
  have h3 := Int.lt_floor_add_one (1000 * x + 1 / 2)
  rw [h1, abs_le]
  constructor <;> linarith

theorem log_range {a : ℚ} (h : 0 < a) : (10 : ℚ) ^ Int.log 10 a ≤ a ∧ a / 10 ^ Int.log 10 a < 10 := by
  have h1 := Int.zpow_log_le_self (b := 10) (by norm_num) h
  have h2 := Int.lt_zpow_succ_log_self (b := 10) (by norm_num) a
  push_cast at h1 h2
  refine ⟨h1, ?_⟩
  rw [div_lt_iff₀ (zpow_pos (by norm_num) _), ← zpow_one_add₀ (by norm_num), add_comm]
  exact h2

theorem number_real (x : ℚ) : number (real x) = some (rho x) := by
  unfold real rho roundAbs
  simp only [abs_ne_zero]
  by_cases hc : x ≠ 0 ∧ (|x| < 1 / 1000 ∨ 100000 ≤ |x|)
  · simp only [if_pos hc]
    have key : ∀ p : ℕ × ℤ, p = (if 10000 ≤ thousandths (|x| / 10 ^ Int.log 10 |x|) then (1000, Int.log 10 |x| + 1)
        else (thousandths (|x| / 10 ^ Int.log 10 |x|), Int.log 10 |x|)) →
        (p.1 : ℚ) / 1000 * 10 ^ p.2 = (thousandths (|x| / 10 ^ Int.log 10 |x|) : ℚ) / 1000 * 10 ^ Int.log 10 |x| := by
      rintro p rfl
      split_ifs with h
      · have ha : 0 < |x| := abs_pos.2 hc.1
        have h1 := (log_range ha).2
        have h2 : 0 ≤ |x| / 10 ^ Int.log 10 |x| := div_nonneg (abs_nonneg x) (zpow_nonneg (by norm_num) _)
        have h3 : thousandths (|x| / 10 ^ Int.log 10 |x|) = 10000 := by
          refine le_antisymm ?_ h
          have h4 := Int.floor_le (1000 * (|x| / 10 ^ Int.log 10 |x|) + 1 / 2)
          have : (⌊1000 * (|x| / 10 ^ Int.log 10 |x|) + 1 / 2⌋ : ℚ) < 10001 := by linarith
          have : ⌊1000 * (|x| / 10 ^ Int.log 10 |x|) + 1 / 2⌋ < 10001 := by exact_mod_cast this
          unfold thousandths
          omega
        rw [h3]
        dsimp only
        rw [zpow_add_one₀ (by norm_num)]
        push_cast
        ring
      · rfl
    generalize hp : (if 10000 ≤ thousandths (|x| / 10 ^ Int.log 10 |x|) then (1000, Int.log 10 |x| + 1)
        else (thousandths (|x| / 10 ^ Int.log 10 |x|), Int.log 10 |x|) : ℕ × ℤ) = p
    rw [← key p hp.symm]
    have hm := magnitude_expo p.1 p.2
    by_cases hx : x < 0
    · simp only [if_pos hx, List.cons_append, List.nil_append, List.append_assoc] at hm ⊢
      simp only [number, hm, Option.map_some]
    · simp only [if_neg hx, List.nil_append]
      obtain ⟨c, v, h1, h2⟩ := dec_cons (p.1 / 1000) ('.' :: fracPart (p.1 % 1000) ++ expo p.2)
      rw [number_pos (by simpa using h1) h2, ← hm]
  · simp only [if_neg hc]
    have hm := magnitude_fixed (thousandths |x|)
    by_cases hx : x < 0
    · by_cases hq : thousandths |x| = 0
      · have h1 : ¬ (x < 0 ∧ thousandths |x| ≠ 0) := fun h => h.2 hq
        obtain ⟨c, v, h1', h2⟩ := dec_cons (thousandths |x| / 1000) ('.' :: fracPart (thousandths |x| % 1000))
        rw [if_neg h1, List.nil_append, number_pos h1' h2, hm, if_pos hx, hq]
        simp
      · have h1 : x < 0 ∧ thousandths |x| ≠ 0 := ⟨hx, hq⟩
        rw [if_pos h1, if_pos hx]
        simp only [List.cons_append, List.nil_append, number, hm, Option.map_some]
    · have h1 : ¬ (x < 0 ∧ thousandths |x| ≠ 0) := fun h => hx h.1
      obtain ⟨c, v, h1', h2⟩ := dec_cons (thousandths |x| / 1000) ('.' :: fracPart (thousandths |x| % 1000))
      rw [if_neg h1, List.nil_append, number_pos h1' h2, hm, if_neg hx]

theorem rho_near (x : ℚ) : Near x (rho x) := by
  have key : ∀ y : ℚ, |x - (if x < 0 then -y else y)| = |(|x| - y)| := by
    intro y
    split_ifs with h
    · rw [abs_of_neg h, ← abs_neg]; congr 1; ring
    · rw [abs_of_nonneg (not_lt.1 h)]
  unfold Near rho
  rw [key]
  unfold roundAbs
  simp only [abs_ne_zero]
  by_cases h0 : x = 0
  · subst h0
    have ht : thousandths 0 = 0 := by
      unfold thousandths
      norm_num
    simp [ht]
  · by_cases hc : x ≠ 0 ∧ (|x| < 1 / 1000 ∨ 100000 ≤ |x|)
    · have hn : ¬ (1 / 1000 ≤ |x| ∧ |x| < 100000) := by
        rintro ⟨h1, h2⟩
        rcases hc.2 with h | h <;> linarith
      rw [if_pos hc, if_neg hn]
      have ha : 0 < |x| := abs_pos.2 h0
      obtain ⟨l1, l2⟩ := log_range ha
      generalize Int.log 10 |x| = e at l1 l2 ⊢
      have hp : (0 : ℚ) < 10 ^ e := zpow_pos (by norm_num) _
      have hm := thousandths_near (x := |x| / 10 ^ e) (by positivity)
      have e1 : |x| - (thousandths (|x| / 10 ^ e) : ℚ) / 1000 * 10 ^ e =
          (|x| / 10 ^ e - (thousandths (|x| / 10 ^ e) : ℚ) / 1000) * 10 ^ e := by
        rw [sub_mul, div_mul_cancel₀ _ hp.ne']
      rw [e1, abs_mul, abs_of_pos hp]
      calc _ ≤ 1 / 2000 * (10 : ℚ) ^ e := mul_le_mul_of_nonneg_right hm hp.le
        _ ≤ |x| / 2000 := by linarith
    · have hn : 1 / 1000 ≤ |x| ∧ |x| < 100000 := by
        by_contra hh
        apply hc
        refine ⟨h0, ?_⟩
        by_cases h1 : |x| < 1 / 1000
        · exact Or.inl h1
        · right
          by_contra h2
          exact hh ⟨not_lt.1 h1, not_le.1 h2⟩
      rw [if_neg hc, if_pos hn]
      exact thousandths_near (abs_nonneg x)

/-- Multiples of 1/1000 of medium size are written exactly. -/
theorem rho_exact (k : ℤ) (h : |k| < 100000000) : rho ((k : ℚ) / 1000) = (k : ℚ) / 1000 := by
  have ht : thousandths |(k : ℚ) / 1000| = k.natAbs := by
    have e : (1000 : ℚ) * |(k : ℚ) / 1000| + 1 / 2 = ((k.natAbs : ℤ) : ℚ) + 1 / 2 := by
      rw [abs_div, abs_of_pos (by norm_num : (0 : ℚ) < 1000), Int.natCast_natAbs, Int.cast_abs]
      ring
    unfold thousandths
    rw [e, Int.floor_intCast_add]
    norm_num
    rw [Int.abs_eq_natAbs, Int.toNat_natCast]
  have hc : ¬ ((k : ℚ) / 1000 ≠ 0 ∧ (|(k : ℚ) / 1000| < 1 / 1000 ∨ 100000 ≤ |(k : ℚ) / 1000|)) := by
    rintro ⟨h1, h2⟩
    have hk : k ≠ 0 := by rintro rfl; simp at h1
    have h3 : (1 : ℚ) ≤ |(k : ℚ)| := by exact_mod_cast Int.one_le_abs hk
    have h4 : |(k : ℚ)| < 100000000 := by exact_mod_cast h
    rw [abs_div, abs_of_pos (by norm_num : (0 : ℚ) < 1000)] at h2
    rcases h2 with h2 | h2 <;> linarith
  have hr : roundAbs |(k : ℚ) / 1000| = |(k : ℚ)| / 1000 := by
    unfold roundAbs
    simp only [abs_ne_zero]
    rw [if_neg hc, ht]
    congr 1
    rw [← Int.cast_natCast, Int.natCast_natAbs, Int.cast_abs]
  unfold rho
  rw [hr]
  split_ifs with hx
  · rw [abs_of_neg (by linarith)]
    ring
  · rw [abs_of_nonneg (by linarith)]

theorem name_real (x : ℚ) : Name (real x) := by
  have hmid : ∀ q, ∀ c ∈ dec (q / 1000) ++ '.' :: fracPart (q % 1000), NumChar c := by
    intro q c hc
    rcases List.mem_append.1 hc with hc | hc
    · exact dig_num (dec_dig _) c hc
    · rcases List.mem_cons.1 hc with rfl | hc
      · exact Or.inr (by simp)
      · exact dig_num (fracPart_ok (q % 1000) (Nat.mod_lt _ (by norm_num))).2.1 c hc
  have hexp : ∀ e, ∀ c ∈ expo e, NumChar c := by
    intro e c hc
    simp only [expo, List.cons_append, List.mem_cons, List.mem_append] at hc
    rcases hc with rfl | (hc | hc) | hc
    · exact Or.inr (by simp)
    · split_ifs at hc
      · simp only [List.mem_singleton] at hc
        subst hc
        exact Or.inr (by simp)
      · simp at hc
    · split_ifs at hc
      · simp only [List.mem_singleton] at hc
        subst hc
        exact Or.inl (by decide)
      · simp at hc
    · exact dig_num (dec_dig _) c hc
  have hsign : ∀ (P : Prop) [Decidable P], ∀ c ∈ (if P then ['-'] else [] : Txt), NumChar c := by
    intro P _ c hc
    split_ifs at hc
    · simp only [List.mem_singleton] at hc
      subst hc
      exact Or.inr (by simp)
    · simp at hc
  have hall : ∀ (P : Prop) [Decidable P] (q : ℕ) (t : Txt), (∀ c ∈ t, NumChar c) →
      Name ((if P then ['-'] else []) ++ dec (q / 1000) ++ '.' :: fracPart (q % 1000) ++ t) := by
    intro P _ q t ht
    refine name_num (by simp) fun c hc => ?_
    rcases List.mem_append.1 hc with hc | hc
    · rw [List.append_assoc] at hc
      exact (List.mem_append.1 hc).elim (hsign P c) (hmid q c)
    · exact ht c hc
  unfold real
  by_cases hc : x ≠ 0 ∧ (|x| < 1 / 1000 ∨ 100000 ≤ |x|)
  · simp only [if_pos hc]
    exact hall _ _ _ (hexp _)
  · simp only [if_neg hc]
    have := hall (x < 0 ∧ thousandths |x| ≠ 0) (thousandths |x|) [] (by simp)
    rwa [List.append_nil] at this

end VtkF

end Verif
