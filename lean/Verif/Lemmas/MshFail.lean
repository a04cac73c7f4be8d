import Verif.Lemmas.MshBinary
import Verif.Lemmas.MshPost
import Mathlib.Tactic.IntervalCases

/-!
# Lemmas for the parsers of gmsh files: comments in binary files, examples of files
-/

namespace Verif

namespace Msh

/-- The keyword of a standard section is not found where a comment begins. -/
theorem lit_comment {c : Txt} (hc : commentText c) {k : Txt} (hk : k ∈ sectionNames) (x rest : Txt) :
    lit ('$' :: k ++ x) (c ++ rest) = none := by
  obtain ⟨name, nl, body, h1, h2, h3, h4, h5, h6, ht⟩ := hc
  have hs := skip_token ht (c := '$') (v := name ++ nl ++ body ++ "$End".toList ++ name) (by simp) (by decide) rest
  have h7 : strip ('$' :: k) ('$' :: (name ++ nl ++ (body ++ ("$End".toList ++ (name ++ rest))))) = none := by
    cases h : strip ('$' :: k) ('$' :: (name ++ nl ++ (body ++ ("$End".toList ++ (name ++ rest))))) with
    | none => rfl
    | some r =>
      exfalso
      have h8 : (strip k (name ++ nl ++ (body ++ ("$End".toList ++ (name ++ rest))))).isSome = true := by
        simp only [strip, if_true] at h
        rw [h]
        rfl
      exact h4 k hk (strip_isSome_prefix (names_no_nl k hk) h5 h8)
  rw [lit, hs]
  have h9 := strip_none_mono (x := x) h7
  simp only [List.cons_append, List.append_assoc] at h9 ⊢
  rw [h9]
  rfl

/-- The comments of a binary file are never skipped. -/
theorem comments_binary (big : Bool) (s : Txt) : comments (binPrims big).comment s = some ((), s) := by
  have h : ∀ n, commentsN (binPrims big).comment n s = some ((), s) := by
    intro n
    cases n with
    | zero => rfl
    | succ n =>
      have h : (binPrims big).comment s = none := binComment_none s
      simp only [commentsN, h]
  exact h _

theorem entry_comment (big : Bool) {c : Txt} (hc : commentText c) (rest : Txt) : entry (binPrims big) (c ++ rest) = none := by
  have h1 := lit_comment hc (k := "PhysicalNames".toList) (by decide) [] rest
  rw [List.append_nil] at h1
  have h2 : (binPrims big).opening "Entities".toList (c ++ rest) = none :=
    lit_comment hc (k := "Entities".toList) (by decide) ['\n'] rest
  have h3 : optional (binPrims big).comment [] (lit "$PhysicalNames".toList) namesBody (c ++ rest) = some ([], c ++ rest) := by
    unfold optional
    rw [show "$PhysicalNames".toList = '$' :: "PhysicalNames".toList from rfl, h1]
  simp only [entry, bind_apply, comments_binary, Option.bind_some, h3, entities, h2, Option.bind_none]

theorem readGmsh_text {h s : Txt} (hh : headText h) : readGmsh (h ++ s) = (entry textPrims s).map fun r => .text r.1 := by
  rw [readGmsh, header_text h hh]
  rfl

theorem readGmsh_binary {big : Bool} {h s : Txt} (hh : headBinary big h) :
    readGmsh (h ++ s) = (entry (binPrims big) s).map fun r => .binary r.1 := by
  rw [readGmsh, header_binary big h hh]
  cases big
  · rfl
  · have h0 : ¬ ((2 : ℤ) ^ 24 = 1) := by norm_num
    simp only [Option.bind_some, readFileV4, if_true, and_self, Bool.not_true, Bool.false_eq_true, if_false, if_neg h0]

/-! ## Existence of files -/

theorem ex_seq {a b : Rel} (ha : ∃ s, a s) (hb : ∃ s, b s) : ∃ s, (a ⊙ b) s := by
  obtain ⟨u, hu⟩ := ha
  obtain ⟨v, hv⟩ := hb
  exact ⟨u ++ v, u, v, rfl, hu, hv⟩

theorem ex_many {α : Type} {r : α → Rel} {l : List α} (h : ∀ a ∈ l, ∃ s, r a s) : ∃ s, Rel.many r l s := by
  induction l with
  | nil => exact ⟨[], rfl⟩
  | cons a l ih => exact ex_seq (h a List.mem_cons_self) (ih fun b hb => h b (List.mem_cons_of_mem _ hb))

theorem ex_star (c : Rel) : ∃ s, c.star s := ⟨[], [], by simp, rfl⟩

theorem ex_opt {α : Type} {d : α} {r : Rel} : ∃ s, Rel.opt d d r s := ⟨[], Or.inl ⟨rfl, rfl⟩⟩

theorem ex_token (w : Txt) : ∃ s, token w s := ⟨[' '] ++ w, [' '], by simp, by intro c hc; simp at hc; simp [hc], rfl⟩

theorem ex_blank : ∃ s, Blank s := ⟨[], by intro c hc; simp at hc⟩

theorem decimal_digit {n : ℕ} (h : n < 10) : Decimal n [Char.ofNat (48 + n)] := by
  unfold Decimal
  interval_cases n <;> decide

theorem ex_size {n : ℕ} (h : n < 10) : ∃ s, sizeText n s := by
  obtain ⟨s, hs⟩ := ex_token [Char.ofNat (48 + n)]
  exact ⟨s, by omega, _, decimal_digit h, hs⟩

theorem ex_int {n : ℕ} (h : n < 10) : ∃ s, intText n s := by
  obtain ⟨s, hs⟩ := ex_token [Char.ofNat (48 + n)]
  exact ⟨s, by omega, by omega, 1, n, by simp, [], _, Or.inl ⟨rfl, Or.inl rfl⟩, decimal_digit h, hs⟩

theorem ex_real {n : ℕ} (h : n < 10) : ∃ s, realText n s := by
  obtain ⟨s, hs⟩ := ex_token ([] ++ [Char.ofNat (48 + n)] ++ [] ++ [])
  exact ⟨s, 1, n, 0, 0, by simp, [], _, [], [], Or.inl ⟨rfl, Or.inl rfl⟩, decimal_digit h, Or.inl ⟨rfl, rfl⟩,
    Or.inl ⟨rfl, rfl⟩, hs⟩

theorem ex_bytes (big : Bool) {k n : ℕ} (h : n < 256) : ∃ s, bytesOf big (k + 1) n s := by
  have h0 : ∀ k, Nat.ofDigits 256 (List.replicate k 0) = 0 := by
    intro k
    induction k with
    | zero => rfl
    | succ k ih => rw [List.replicate_succ, Nat.ofDigits_cons, ih]
  cases big
  · refine ⟨_, n :: List.replicate k 0, by simp, ?_, ?_, rfl⟩
    · intro x hx
      rcases List.mem_cons.1 hx with rfl | hx
      · exact h
      · rw [List.eq_of_mem_replicate hx]; omega
    · simp only [Bool.false_eq_true, if_false, Nat.ofDigits_cons, h0]
      simp
  · refine ⟨_, List.replicate k 0 ++ [n], by simp, ?_, ?_, rfl⟩
    · intro x hx
      rcases List.mem_append.1 hx with hx | hx
      · rw [List.eq_of_mem_replicate hx]; omega
      · simp at hx; omega
    · simp only [if_true, List.reverse_append, List.reverse_cons, List.reverse_nil, List.nil_append, List.reverse_replicate,
        List.cons_append, Nat.ofDigits_cons, h0]
      simp

theorem ex_binInt (big : Bool) {n : ℕ} (h : n < 10) : ∃ s, (binFmt big).int n s := by
  obtain ⟨s, hs⟩ := ex_bytes big (k := 3) (n := n) (by omega)
  refine ⟨s, by omega, by omega, ?_⟩
  have : ((n : ℤ) % 2 ^ 32).toNat = n := by omega
  rw [this]
  exact hs

end Msh

end Verif
