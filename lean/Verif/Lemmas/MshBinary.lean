import Verif.Lemmas.MshText

/-!
# Lemmas for the parsers of gmsh files: the binary grammar and the header
-/

namespace Verif

namespace Msh

theorem toNat_ofNat_byte {n : ℕ} (h : n < 256) : (Char.ofNat n).toNat = n := by
  have hv : n.isValidChar := Or.inl (by omega)
  simp only [Char.ofNat, dif_pos hv]
  rfl

theorem littleVal_map (b : List ℕ) (hb : ∀ x ∈ b, x < 256) : littleVal (b.map Char.ofNat) = Nat.ofDigits 256 b := by
  induction b with
  | nil => rfl
  | cons x b ih =>
    rw [List.map_cons, littleVal, toNat_ofNat_byte (hb x List.mem_cons_self), ih fun y hy => hb y (List.mem_cons_of_mem _ hy),
      Nat.ofDigits_cons]

theorem word_spec {big : Bool} {k n : ℕ} {s : Txt} (hs : bytesOf big k n s) (rest : Txt) :
    word big k (s ++ rest) = some (n, rest) := by
  obtain ⟨b, hl, hb, rfl, rfl⟩ := hs
  have h1 : (b.map Char.ofNat).length = k := by rw [List.length_map, hl]
  have h2 : bytes k (b.map Char.ofNat ++ rest) = some (b.map Char.ofNat, rest) := by
    simp only [bytes, List.length_append, h1]
    rw [if_pos (by omega), ← h1, List.take_left, List.drop_left]
  simp only [word, bind_apply, h2, Option.bind_some, pure_apply]
  cases big
  · simp only [Bool.false_eq_true, if_false, littleVal_map b hb]
  · simp only [if_true, ← List.map_reverse]
    rw [littleVal_map b.reverse fun x hx => hb x (List.mem_reverse.1 hx)]

theorem toInt32_spec {i : ℤ} (h1 : -2 ^ 31 ≤ i) (h2 : i < 2 ^ 31) : toInt32 (i % 2 ^ 32).toNat = i := by
  rw [toInt32]
  split_ifs with h <;> omega

/-- No comment is ever recognised in a binary file. -/
theorem binComment_none (s : Txt) : binComment s = none := by
  rw [binComment, bind_apply]
  cases h : binStartComment s with
  | none => rfl
  | some x =>
    have hx : x.2 = [] := by
      simp only [binStartComment] at h
      split_ifs at h
      split at h
      · split_ifs at h
        simp only [Option.some.injEq] at h
        rw [← h]
      · simp at h
    simp only [Option.bind_some, bind_apply, untilDollar, hx]
    rfl

theorem strip_none_mono {k x s : Txt} (h : strip k s = none) : strip (k ++ x) s = none := by
  induction k generalizing s with
  | nil => simp [strip] at h
  | cons a k ih =>
    cases s with
    | nil => rfl
    | cons b s =>
      simp only [strip, List.cons_append] at h ⊢
      split_ifs at h ⊢ with hab
      · exact ih h
      · rfl

theorem binOpen_spec {n s : Txt} (hs : ∃ b, Blank b ∧ s = b ++ '$' :: n ++ ['\n']) (rest : Txt) :
    skip (s ++ rest) = '$' :: n ++ ['\n'] ++ rest := by
  obtain ⟨b, hb, rfl⟩ := hs
  rw [List.append_assoc, List.append_assoc, skip_blank_append hb, List.cons_append, skip_word (by decide)]
  simp

theorem soundBinary (big : Bool) : Sound (binPrims big) (binFmt big) noComments (fun _ => True) where
  int := by
    rintro i s ⟨h1, h2, h3⟩ rest -
    refine ⟨?_, trivial⟩
    simp only [binPrims, binInt, bind_apply, word_spec h3 rest, Option.bind_some, pure_apply, toInt32_spec h1 h2]
  size := fun _ _ hs rest _ => ⟨word_spec hs rest, trivial⟩
  real := fun _ _ hs rest _ => ⟨word_spec hs rest, trivial⟩
  zero := by
    intro s hs rest _
    refine ⟨?_, trivial⟩
    simp only [binPrims, qwordLit, bind_apply, word_spec hs rest, Option.bind_some, require, if_true]
  sixteen := by
    intro s hs rest _
    refine ⟨?_, trivial⟩
    simp only [binPrims, qwordLit, bind_apply, word_spec hs rest, Option.bind_some, require, if_true]
  zero_sixteen := by
    intro s hs rest _
    simp only [binPrims, qwordLit, bind_apply, word_spec hs rest, Option.bind_some, require]
    rfl
  opening := by
    intro k s hs rest _
    refine ⟨?_, trivial⟩
    simp only [binPrims, lit, binOpen_spec hs rest, strip_append]
    rfl
  closing := by
    rintro k s rfl rest _
    refine ⟨?_, trivial⟩
    simp only [binPrims, litNoSkip, strip_append]
    rfl
  com := fun _ hs => hs.elim
  com_pos := fun _ hs => hs.elim
  D_blank := fun _ _ => trivial
  com_blank := fun _ _ => binComment_none _
  open_blank := by
    intro k s hs
    simp [binPrims, lit, skip_blank hs, strip]
  com_open := fun _ _ _ _ _ => binComment_none _
  open_open := by
    intro k hk k' hk' hne s hs rest
    have h1 : ∀ k ∈ sectionNames, ∀ k' ∈ sectionNames, k ≠ k' →
      differ ('$' :: k' ++ ['\n']) ('$' :: k ++ ['\n']) = true := by decide
    simp only [binPrims, lit, binOpen_spec hs rest]
    rw [strip_differ (h1 k hk k' hk' hne)]
    rfl
  names_open := by
    intro s hs rest
    simp only [lit, binOpen_spec hs rest]
    rw [strip_differ (by decide)]
    rfl
  com_names := fun _ _ _ => binComment_none _
  names := fun l s hs rest _ => ⟨(names_spec l s hs rest).1, trivial⟩

/-! ## Header -/

theorem version_spec {w s rest : Txt} (hs : token w s) (hw : w ≠ []) (hg : ∀ c ∈ w, isGraph c = true) (hr : Delim rest) :
    version (s ++ rest) = some (w, rest) := by
  obtain ⟨c, v, rfl⟩ := List.exists_cons_of_ne_nil hw
  have hsp : ∀ c, isSpace c = true → isGraph c = false := by
    intro c hc
    have := (isSpace_iff c).1 hc
    simp only [List.mem_cons, List.not_mem_nil, or_false] at this
    rcases this with rfl | rfl | rfl | rfl | rfl | rfl <;> decide
  have hc : isSpace c = false := by
    by_contra h
    have h1 := hsp c (by simpa using h)
    rw [hg c List.mem_cons_self] at h1
    cases h1
  have h1 : rest.takeWhile isGraph = [] ∧ rest.dropWhile isGraph = rest := by
    rcases delim_cases hr with rfl | ⟨d, t, rfl, hd⟩
    · exact ⟨rfl, rfl⟩
    · simp [hsp d hd]
  simp only [version, skip_token hs rfl hc]
  rw [List.takeWhile_append_of_pos hg, List.dropWhile_append_of_pos hg, h1.1, h1.2, List.append_nil]
  rw [if_neg (List.cons_ne_nil c v)]

theorem header_textV {w : Txt} (hw : w ≠ []) (hg : ∀ c ∈ w, isGraph c = true) (s : Txt)
    (hs : ((fun s => s = "$MeshFormat".toList) ⊙ token w ⊙ token ['0'] ⊙ token ['8'] ⊙ token "$EndMeshFormat".toList) s)
    (rest : Txt) : header (s ++ rest) = some ((w, false, 8, 1), rest) := by
  obtain ⟨s1, _, rfl, rfl, s2, _, rfl, h2, s3, _, rfl, h3, s4, s5, rfl, h4, h5⟩ := hs
  simp only [List.append_assoc]
  have e1 : ∀ t, lit "$MeshFormat".toList ("$MeshFormat".toList ++ t) = some ((), t) := by
    intro t
    rw [lit, show skip ("$MeshFormat".toList ++ t) = "$MeshFormat".toList ++ t from skip_word (by decide) _, strip_append]
    rfl
  have e2 := version_spec h2 hw hg (delim_token h3 (s4 ++ (s5 ++ rest)))
  have e3 : lit ['0'] (s3 ++ (s4 ++ (s5 ++ rest))) = some ((), s4 ++ (s5 ++ rest)) := lit_token h3 (by decide) _
  have e4 : textInt (s4 ++ (s5 ++ rest)) = some (8, s5 ++ rest) :=
    (reads_textInt 8 s4 ⟨by decide, by decide, 1, 8, rfl, [], ['8'], Or.inl ⟨rfl, Or.inl rfl⟩,
      ⟨by decide, by decide, by decide⟩, h4⟩ _ (delim_token h5 rest)).1
  have e5 : lit "$EndMeshFormat".toList (s5 ++ rest) = some ((), rest) :=
    lit_token (c := '$') (v := "EndMeshFormat".toList) h5 (by decide) rest
  simp only [header, bind_apply, e1, Option.bind_some, orElse, headerText, e2, e3, e4, pure_apply, e5]

theorem header_text (s : Txt) (hs : headText s) (rest : Txt) :
    header (s ++ rest) = some (("4.1".toList, false, 8, 1), rest) := header_textV (by decide) (by decide) s hs rest

theorem header_binaryV {w : Txt} (hw : w ≠ []) (hg : ∀ c ∈ w, isGraph c = true) (big : Bool) (s : Txt)
    (hs : ((fun s => s = "$MeshFormat".toList) ⊙ token w ⊙ token ['1'] ⊙ token ['8'] ⊙ (fun s => s = ['\n']) ⊙ bytesOf big 4 1 ⊙
      token "$EndMeshFormat".toList) s) (rest : Txt) :
    header (s ++ rest) = some ((w, true, 8, if big then 2 ^ 24 else 1), rest) := by
  obtain ⟨s1, _, rfl, rfl, s2, _, rfl, h2, s3, _, rfl, h3, s4, _, rfl, h4, s5, _, rfl, rfl, s6, s7, rfl, h6, h7⟩ := hs
  simp only [List.append_assoc]
  have e1 : ∀ t, lit "$MeshFormat".toList ("$MeshFormat".toList ++ t) = some ((), t) := by
    intro t
    rw [lit, show skip ("$MeshFormat".toList ++ t) = "$MeshFormat".toList ++ t from skip_word (by decide) _, strip_append]
    rfl
  have e2 := version_spec h2 hw hg (delim_token h3 (s4 ++ (['\n'] ++ (s6 ++ (s7 ++ rest)))))
  have e0 : lit ['0'] (s3 ++ (s4 ++ (['\n'] ++ (s6 ++ (s7 ++ rest))))) = none :=
    lit_differ h3 (by decide) (by decide) _
  have e3 : lit ['1'] (s3 ++ (s4 ++ (['\n'] ++ (s6 ++ (s7 ++ rest))))) = some ((), s4 ++ (['\n'] ++ (s6 ++ (s7 ++ rest)))) :=
    lit_token h3 (by decide) _
  have hd : Delim (['\n'] ++ (s6 ++ (s7 ++ rest))) := by
    intro c hc
    simp at hc
    subst hc
    decide
  have e4 : textInt (s4 ++ (['\n'] ++ (s6 ++ (s7 ++ rest)))) = some (8, ['\n'] ++ (s6 ++ (s7 ++ rest))) :=
    (reads_textInt 8 s4 ⟨by decide, by decide, 1, 8, rfl, [], ['8'], Or.inl ⟨rfl, Or.inl rfl⟩,
      ⟨by decide, by decide, by decide⟩, h4⟩ _ hd).1
  have e7 : lit "$EndMeshFormat".toList (s7 ++ rest) = some ((), rest) :=
    lit_token (c := '$') (v := "EndMeshFormat".toList) h7 (by decide) rest
  have e6 : skipBinInt (['\n'] ++ (s6 ++ (s7 ++ rest))) = some (if big then 2 ^ 24 else 1, s7 ++ rest) := by
    have aux : ∀ (n : ℕ) (b0 : ℕ) (t : Txt), n < 2 ^ 31 → isSpace (Char.ofNat b0) = false →
        s6 = Char.ofNat b0 :: t → bytesOf false 4 n s6 → skipBinInt (['\n'] ++ (s6 ++ (s7 ++ rest))) = some ((n : ℤ), s7 ++ rest) := by
      intro n b0 t hn hb0 hs6 hby
      have hsk : skip (['\n'] ++ (s6 ++ (s7 ++ rest))) = s6 ++ (s7 ++ rest) := by
        rw [skip_blank_append (b := ['\n']) (by intro c hc; simp at hc; simp [hc]), hs6, List.cons_append, skip_word hb0]
      simp only [skipBinInt, hsk, binInt, bind_apply, word_spec hby, Option.bind_some, pure_apply, toInt32, if_pos hn]
    obtain ⟨b, hl, hb, hn, hs⟩ := h6
    match b, hl, hb, hn, hs with
    | [b0, b1, b2, b3], _, hb, hn, hs =>
      have hb0 := hb b0 (by simp)
      have hb1 := hb b1 (by simp)
      have hb2 := hb b2 (by simp)
      have hb3 := hb b3 (by simp)
      cases big
      · simp only [Bool.false_eq_true, if_false, Nat.ofDigits_cons, Nat.ofDigits_nil] at hn
        obtain ⟨rfl, rfl, rfl, rfl⟩ : b0 = 1 ∧ b1 = 0 ∧ b2 = 0 ∧ b3 = 0 := by omega
        exact aux 1 1 _ (by decide) (by decide) hs ⟨[1, 0, 0, 0], rfl, by decide, by decide, hs⟩
      · simp only [if_true, List.reverse_cons, List.reverse_nil, List.nil_append, List.cons_append, Nat.ofDigits_cons,
          Nat.ofDigits_nil] at hn
        obtain ⟨rfl, rfl, rfl, rfl⟩ : b0 = 0 ∧ b1 = 0 ∧ b2 = 0 ∧ b3 = 1 := by omega
        exact aux (2 ^ 24) 0 _ (by decide) (by decide) hs ⟨[0, 0, 0, 1], rfl, by decide, by decide, hs⟩
  simp only [header, bind_apply, e1, Option.bind_some, orElse, headerText, headerBinary, e2, e0, e3, e4, e6, pure_apply, e7,
    Option.bind_none]

theorem header_binary (big : Bool) (s : Txt) (hs : headBinary big s) (rest : Txt) :
    header (s ++ rest) = some (("4.1".toList, true, 8, if big then 2 ^ 24 else 1), rest) :=
  header_binaryV (by decide) (by decide) big s hs rest

end Msh

end Verif
