import Verif.Lemmas.Msh

/-!
# Lemmas for the parsers of gmsh files: the text grammar
-/

namespace Verif

namespace Msh

/-- White space follows, or the end of the input. -/
def Delim (s : Txt) : Prop := ∀ c ∈ s.head?, isSpace c = true

theorem isSpace_iff (c : Char) : isSpace c = true ↔ c ∈ [' ', '\t', '\n', '\x0b', '\x0c', '\r'] := by
  simp [isSpace, or_assoc]

theorem blank_space {b : Txt} (hb : Blank b) : ∀ c ∈ b, isSpace c = true := fun c hc => (isSpace_iff c).2 (hb c hc)

theorem skip_blank_append {b : Txt} (hb : Blank b) (w : Txt) : skip (b ++ w) = skip w := by
  unfold skip
  induction b with
  | nil => rfl
  | cons c b ih =>
    rw [List.cons_append, List.dropWhile_cons, if_pos (blank_space hb c List.mem_cons_self)]
    exact ih fun x hx => hb x (List.mem_cons_of_mem _ hx)

theorem skip_blank {b : Txt} (hb : Blank b) : skip b = [] := by
  have := skip_blank_append hb []
  rwa [List.append_nil] at this

theorem skip_word {c : Char} (hc : isSpace c = false) (w : Txt) : skip (c :: w) = c :: w := by
  rw [skip, List.dropWhile_cons, hc]
  rfl

theorem skip_token {w s : Txt} (hs : token w s) {c : Char} {v : Txt} (hw : w = c :: v) (hc : isSpace c = false) (rest : Txt) :
    skip (s ++ rest) = w ++ rest := by
  obtain ⟨b, -, hb, rfl⟩ := hs
  rw [List.append_assoc, skip_blank_append hb, hw, List.cons_append, skip_word hc]

theorem delim_token {w s : Txt} (hs : token w s) (rest : Txt) : Delim (s ++ rest) := by
  obtain ⟨b, h0, hb, rfl⟩ := hs
  cases b with
  | nil => exact absurd rfl h0
  | cons c b =>
    intro d hd
    simp only [List.cons_append, List.head?_cons, Option.mem_some_iff] at hd
    subst hd
    exact blank_space hb _ List.mem_cons_self

theorem strip_append (k s : Txt) : strip k (k ++ s) = some s := by
  induction k with
  | nil => rfl
  | cons c k ih => simp only [List.cons_append, strip, if_true, ih]

theorem lit_token {c : Char} {v s : Txt} (hs : token (c :: v) s) (hc : isSpace c = false) (rest : Txt) :
    lit (c :: v) (s ++ rest) = some ((), rest) := by
  rw [lit, skip_token hs rfl hc, strip_append]
  rfl

/-- The two words differ at a position. -/
def differ : Txt → Txt → Bool
  | a :: k, b :: l => a != b || differ k l
  | _, _ => false

theorem strip_differ {k l : Txt} (h : differ k l = true) (t : Txt) : strip k (l ++ t) = none := by
  induction k generalizing l with
  | nil => simp [differ] at h
  | cons a k ih =>
    cases l with
    | nil => simp [differ] at h
    | cons b l =>
      simp only [differ, Bool.or_eq_true, bne_iff_ne] at h
      simp only [List.cons_append, strip]
      split_ifs with hab
      · exact ih (h.resolve_left (fun hn => hn hab))
      · rfl

theorem lit_differ {k : Txt} {c : Char} {v s : Txt} (hs : token (c :: v) s) (hc : isSpace c = false)
    (h : differ k (c :: v) = true) (rest : Txt) : lit k (s ++ rest) = none := by
  rw [lit, skip_token hs rfl hc, strip_differ h]
  rfl

/-! ## Numbers -/

theorem digit_iff (c : Char) : c.isDigit = true ↔ '0' ≤ c ∧ c ≤ '9' := by
  simp only [Char.isDigit, Bool.and_eq_true, decide_eq_true_eq, ge_iff_le]
  rfl

theorem fold_ofDigits (d : Txt) :
    d.foldl (fun a c => 10 * a + (c.toNat - 48)) 0 = Nat.ofDigits 10 (d.reverse.map fun c => c.toNat - 48) := by
  induction d using List.reverseRecOn with
  | nil => rfl
  | append_singleton d c ih =>
    rw [List.foldl_append, ih, List.reverse_append]
    simp only [List.foldl_cons, List.foldl_nil, List.reverse_cons, List.reverse_nil, List.nil_append, List.singleton_append,
      List.map_cons, Nat.ofDigits_cons]
    omega

/-- The rest does not begin with a digit. -/
def NoDigit (s : Txt) : Prop := ∀ c ∈ s.head?, c.isDigit = false

theorem takeWhile_digits {d rest : Txt} (hd : ∀ c ∈ d, '0' ≤ c ∧ c ≤ '9') (hr : NoDigit rest) :
    (d ++ rest).takeWhile Char.isDigit = d ∧ (d ++ rest).dropWhile Char.isDigit = rest := by
  have h0 : rest.takeWhile Char.isDigit = [] ∧ rest.dropWhile Char.isDigit = rest := by
    cases rest with
    | nil => exact ⟨rfl, rfl⟩
    | cons c r =>
      have := hr c (by simp)
      simp [List.takeWhile_cons, List.dropWhile_cons, this]
  have h1 : ∀ c ∈ d, Char.isDigit c = true := fun c hc => (digit_iff c).2 (hd c hc)
  rw [List.takeWhile_append_of_pos h1, List.dropWhile_append_of_pos h1, h0.1, h0.2, List.append_nil]
  exact ⟨rfl, rfl⟩

theorem digits_spec {n : ℕ} {d : Txt} (hd : Decimal n d) {rest : Txt} (hr : NoDigit rest) :
    digits (d ++ rest) = some (n, rest) := by
  obtain ⟨h0, h1, h2⟩ := hd
  obtain ⟨h3, h4⟩ := takeWhile_digits h1 hr
  simp only [digits, h3, h4, if_neg h0, fold_ofDigits, h2]

theorem delim_noDigit {s : Txt} (h : Delim s) : NoDigit s := by
  intro c hc
  have := (isSpace_iff c).1 (h c hc)
  simp only [List.mem_cons, List.not_mem_nil, or_false] at this
  rcases this with rfl | rfl | rfl | rfl | rfl | rfl <;> decide

theorem digit_not_space {c : Char} (h : '0' ≤ c ∧ c ≤ '9') : isSpace c = false := by
  have h1 := (digit_iff c).2 h
  by_contra hs
  have := (isSpace_iff c).1 (by simpa using hs)
  simp only [List.mem_cons, List.not_mem_nil, or_false] at this
  rcases this with rfl | rfl | rfl | rfl | rfl | rfl <;> simp_all (config := { decide := true })

theorem sign_spec {σ : ℤ} {w d : Txt} (hw : Sign σ w) (hd : d ≠ []) (h1 : ∀ c ∈ d, '0' ≤ c ∧ c ≤ '9') (rest : Txt) :
    ∃ b, sign (w ++ (d ++ rest)) = some (b, d ++ rest) ∧ σ = if b then -1 else 1 := by
  rcases hw with ⟨rfl, rfl | rfl⟩ | ⟨rfl, rfl⟩
  · cases d with
    | nil => exact absurd rfl hd
    | cons c d =>
      have hc := h1 c List.mem_cons_self
      refine ⟨false, ?_, rfl⟩
      have h2 : c ≠ '-' := by rintro rfl; exact absurd hc (by decide)
      have h3 : c ≠ '+' := by rintro rfl; exact absurd hc (by decide)
      simp only [List.nil_append, List.cons_append]
      unfold sign
      split
      · rename_i heq; exact absurd (List.cons.inj heq).1 h2
      · rename_i heq; exact absurd (List.cons.inj heq).1 h3
      · rfl
  · exact ⟨false, rfl, rfl⟩
  · exact ⟨true, rfl, rfl⟩

/-- The first character of a number with sign. -/
theorem sign_head {σ : ℤ} {w d : Txt} (hw : Sign σ w) (hd : d ≠ []) (h1 : ∀ c ∈ d, '0' ≤ c ∧ c ≤ '9') (t : Txt) :
    ∃ c v, w ++ d ++ t = c :: v ∧ isSpace c = false := by
  rcases hw with ⟨rfl, rfl | rfl⟩ | ⟨rfl, rfl⟩
  · cases d with
    | nil => exact absurd rfl hd
    | cons c d => exact ⟨c, d ++ t, rfl, digit_not_space (h1 c List.mem_cons_self)⟩
  · exact ⟨'+', d ++ t, rfl, by decide⟩
  · exact ⟨'-', d ++ t, rfl, by decide⟩

theorem reads_textInt (i : ℤ) : Reads Delim textInt i (intText i) := by
  rintro s ⟨h1, h2, σ, n, hi, w, d, hw, hd, ht⟩ rest hr
  refine ⟨?_, delim_token ht rest⟩
  obtain ⟨c, v, hcv, hc⟩ := sign_head hw hd.1 hd.2.1 []
  rw [List.append_nil] at hcv
  obtain ⟨b, h3, h4⟩ := sign_spec hw hd.1 hd.2.1 rest
  have h5 := digits_spec hd (delim_noDigit hr)
  have h6 : (if b = true then -(n : ℤ) else n) = i := by
    rw [hi, h4]
    cases b <;> simp
  rw [textInt, rawInt, skip_token ht hcv hc, List.append_assoc]
  simp only [bind_apply, h3, Option.bind_some, h5, h6, require, pure_apply]
  rw [if_pos ⟨h1, h2⟩]
  rfl

theorem reads_textSize (n : ℕ) : Reads Delim textSize n (sizeText n) := by
  rintro s ⟨h1, d, hd, ht⟩ rest hr
  refine ⟨?_, delim_token ht rest⟩
  have h5 := digits_spec hd (delim_noDigit hr)
  obtain ⟨c, v, hcv⟩ := List.exists_cons_of_ne_nil hd.1
  rw [textSize, skip_token ht hcv (digit_not_space (hd.2.1 c (by rw [hcv]; exact List.mem_cons_self)))]
  simp only [bind_apply, h5, Option.bind_some, require, if_pos h1, pure_apply]

theorem delim_cases {s : Txt} (h : Delim s) : s = [] ∨ ∃ c t, s = c :: t ∧ isSpace c = true := by
  cases s with
  | nil => exact Or.inl rfl
  | cons c t => exact Or.inr ⟨c, t, rfl, h c (by simp)⟩

theorem exponent_spec {e : ℤ} {w : Txt} (hw : ExpText e w) {rest : Txt} (hr : Delim rest) :
    exponent (w ++ rest) = some (e, rest) ∧ NoDigit (w ++ rest) ∧ ∀ c ∈ (w ++ rest).head?, c ≠ '.' := by
  rcases hw with ⟨rfl, rfl⟩ | ⟨σ, n, v, d, hv, hd, rfl, hw⟩
  · refine ⟨?_, delim_noDigit hr, ?_⟩
    · rcases delim_cases hr with rfl | ⟨c, t, rfl, hc⟩
      · rfl
      · have h1 : ¬ (c = 'e' ∨ c = 'E') := by
          rintro (rfl | rfl) <;> exact absurd hc (by decide)
        simp only [List.nil_append, exponent, if_neg h1]
    · rintro c hc rfl
      exact absurd (hr _ hc) (by decide)
  · obtain ⟨b, h3, h4⟩ := sign_spec hv hd.1 hd.2.1 rest
    have h5 := digits_spec hd (delim_noDigit hr)
    have h6 : (if b = true then -(n : ℤ) else n) = σ * n := by
      rw [h4]
      cases b <;> simp
    rcases hw with rfl | rfl
    · refine ⟨?_, ?_, ?_⟩
      · simp only [List.cons_append, List.append_assoc, exponent, true_or, if_true, bind_apply, h3, h5, Option.bind_some,
          pure_apply, h6]
      · intro c hc
        simp at hc
        subst hc
        decide
      · rintro c hc rfl
        simp at hc
    · refine ⟨?_, ?_, ?_⟩
      · simp only [List.cons_append, List.append_assoc, exponent, or_true, if_true, bind_apply, h3, h5, Option.bind_some,
          pure_apply, h6]
      · intro c hc
        simp at hc
        subst hc
        decide
      · rintro c hc rfl
        simp at hc

theorem reads_textReal (x : ℚ) : Reads Delim textReal x (realText x) := by
  rintro s ⟨σ, n, y, e, hx, v, d, fr, ex, hv, hd, hf, he, ht⟩ rest hr
  refine ⟨?_, delim_token ht rest⟩
  obtain ⟨c, w, hcw, hc⟩ := sign_head hv hd.1 hd.2.1 (fr ++ ex)
  obtain ⟨e1, e2, e3⟩ := exponent_spec he hr
  rw [← List.append_assoc] at hcw
  rw [textReal, rawReal, skip_token ht hcw hc]
  simp only [List.append_assoc]
  obtain ⟨b, h3, h4⟩ := sign_spec hv hd.1 hd.2.1 (fr ++ (ex ++ rest))
  have hσ : ∀ m : ℚ, (if b = true then -m else m) = σ * m := by
    intro m
    rw [h4]
    cases b <;> simp
  have hn : (d.foldl (fun a c => 10 * a + (c.toNat - 48)) 0 : ℕ) = n := by rw [fold_ofDigits, hd.2.2]
  have key : mantissa (d ++ (fr ++ (ex ++ rest))) = some ((n : ℚ) + y, ex ++ rest) := by
    rcases hf with ⟨rfl, rfl⟩ | ⟨m, f, hf, rfl, rfl⟩
    · obtain ⟨t1, t2⟩ := takeWhile_digits hd.2.1 e2
      have h7 : ¬ (ex ++ rest).head? = some '.' := fun h => e3 '.' h rfl
      simp only [mantissa, List.nil_append, t1, t2, if_neg h7, if_neg hd.1, hn, add_zero]
    · have hp : NoDigit ('.' :: f ++ (ex ++ rest)) := by
        intro c hc
        simp at hc
        subst hc
        decide
      obtain ⟨t1, t2⟩ := takeWhile_digits hd.2.1 hp
      obtain ⟨t3, t4⟩ := takeWhile_digits hf.2.1 e2
      simp only [mantissa, t1, t2]
      simp only [List.cons_append, List.head?_cons, if_true, List.tail_cons, t3, t4, hd.1, false_and, if_false, hn, fraction,
        fold_ofDigits, hf.2.2]
  simp only [bind_apply, h3, Option.bind_some, key, e1, pure_apply, hσ, hx]

/-! ## Names -/

theorem reads_name (p : PhysName) : Reads Delim physName p (nameText p) := by
  refine (reads_textInt _).bind ((reads_textInt _).bind (Reads.map (fun n => (⟨p.dim, p.tag, n⟩ : PhysName)) ?_))
  rintro s ⟨h1, h2, ht⟩ rest hr
  refine ⟨?_, delim_token ht rest⟩
  have hq : ∀ c ∈ p.name, (c != '"') = true := by
    intro c hc
    simp only [bne_iff_ne]
    rintro rfl
    exact h2 hc
  have t1 : (p.name ++ ('"' :: rest)).takeWhile (· != '"') = p.name := by
    rw [List.takeWhile_append_of_pos hq]
    simp
  have t2 : (p.name ++ ('"' :: rest)).dropWhile (· != '"') = '"' :: rest := by
    rw [List.dropWhile_append_of_pos hq]
    simp
  rw [quoted, skip_token ht (c := '"') (v := p.name ++ ['"']) rfl (by decide)]
  simp only [List.cons_append, List.append_assoc, List.nil_append, t1, t2]

theorem names_spec (l : List PhysName) (s : Txt) (hs : namesText l s) (rest : Txt) :
    (lit "$PhysicalNames".toList (s ++ rest)).bind (fun x => namesBody x.2) = some (l, rest) ∧ Delim (s ++ rest) := by
  obtain ⟨s1, _, rfl, h1, s2, _, rfl, h2, s3, s4, rfl, h3, h4⟩ := hs
  simp only [List.append_assoc]
  refine ⟨?_, delim_token h1 _⟩
  have hd := delim_token h4 rest
  have e4 : lit "$EndPhysicalNames".toList (s4 ++ rest) = some ((), rest) :=
    lit_token (c := '$') (v := "EndPhysicalNames".toList) h4 (by decide) rest
  obtain ⟨e3, d3⟩ := Reads.rep' (r := nameText) l (fun x _ => reads_name x) s3 h3 _ hd
  obtain ⟨e2, -⟩ := reads_textSize _ s2 h2 _ d3
  have e1 : lit "$PhysicalNames".toList (s1 ++ (s2 ++ (s3 ++ (s4 ++ rest)))) = some ((), s2 ++ (s3 ++ (s4 ++ rest))) :=
    lit_token (c := '$') (v := "PhysicalNames".toList) h1 (by decide) _
  rw [e1]
  simp only [Option.bind_some, namesBody, bind_apply, e2, e3, e4, pure_apply]

/-! ## Comments -/

theorem reserved_eq : reserved = sectionNames.map fun k => '$' :: k := by rfl

theorem names_no_nl : ∀ k ∈ sectionNames, '\n' ∉ k ∧ '\r' ∉ k := by decide

theorem strip_isSome_prefix {k name : Txt} (hk : '\n' ∉ k ∧ '\r' ∉ k) {nl t : Txt} (hnl : nl = ['\n'] ∨ nl = ['\r', '\n'])
    (h : (strip k (name ++ nl ++ t)).isSome = true) : k <+: name := by
  induction k generalizing name with
  | nil => exact List.nil_prefix
  | cons a k ih =>
    cases name with
    | nil =>
      exfalso
      rcases hnl with rfl | rfl
      · simp only [List.nil_append, List.cons_append, strip] at h
        split_ifs at h with ha
        · exact hk.1 (by rw [ha]; exact List.mem_cons_self)
        · simp at h
      · simp only [List.nil_append, List.cons_append, strip] at h
        split_ifs at h with ha
        · exact hk.2 (by rw [ha]; exact List.mem_cons_self)
        · simp at h
    | cons b name =>
      simp only [List.cons_append, strip] at h
      split_ifs at h with ha
      · subst ha
        have := ih ⟨fun hm => hk.1 (List.mem_cons_of_mem _ hm), fun hm => hk.2 (List.mem_cons_of_mem _ hm)⟩ h
        exact List.cons_prefix_cons.2 ⟨rfl, this⟩
      · simp at h

theorem comment_spec {res names : List Txt} (hres0 : res = names.map fun k => '$' :: k)
    (hnl : ∀ k ∈ names, '\n' ∉ k ∧ '\r' ∉ k) : Reads Delim (textComment res) () (commentOf names) := by
  rintro s ⟨name, nl, body, h1, h2, h3, h4, h5, h6, ht⟩ rest hr
  refine ⟨?_, delim_token ht rest⟩
  have hs := skip_token ht (c := '$') (v := name ++ nl ++ body ++ "$End".toList ++ name) (by simp) (by decide) rest
  have hres : (res.any fun k => (strip k ('$' :: (name ++ nl ++ (body ++ ("$End".toList ++ (name ++ rest)))))).isSome)
      = false := by
    rw [hres0, List.any_map, List.any_eq_false]
    intro k hk hsome
    simp only [Function.comp, strip, if_true] at hsome
    exact h4 k hk (strip_isSome_prefix (hnl k hk) h5 hsome)
  have hname : ∀ c ∈ name, (c != '\n' && c != '\r') = true := by
    intro c hc
    have := h2 c hc
    simp [this]
  have t1 : ∀ t, (name ++ (nl ++ t)).takeWhile (fun c => c != '\n' && c != '\r') = name ∧
      (name ++ (nl ++ t)).dropWhile (fun c => c != '\n' && c != '\r') = nl ++ t := by
    intro t
    rw [List.takeWhile_append_of_pos hname, List.dropWhile_append_of_pos hname]
    rcases h5 with rfl | rfl <;> simp
  have hb : ∀ c ∈ nl ++ body, (c != '$') = true := by
    intro c hc
    simp only [bne_iff_ne]
    rintro rfl
    rcases List.mem_append.1 hc with h | h
    · rcases h5 with rfl | rfl <;> simp at h
    · exact h6 h
  have t2 : ∀ t, (nl ++ (body ++ ("$End".toList ++ t))).dropWhile (· != '$') = "$End".toList ++ t := by
    intro t
    rw [← List.append_assoc, List.dropWhile_append_of_pos hb]
    rfl
  have l1 : ∀ t, lit "$End".toList ("$End".toList ++ t) = some ((), t) := by
    intro t
    rw [lit, show skip ("$End".toList ++ t) = "$End".toList ++ t from skip_word (by decide) _, strip_append]
    rfl
  have l2 : lit name (name ++ rest) = some ((), rest) := by
    cases name with
    | nil => exact absurd rfl h1
    | cons c v =>
      have hc : isSpace c = false := by
        by_contra hh
        refine h3 c rfl ?_
        intro d hd
        simp only [List.mem_singleton] at hd
        subst hd
        exact (isSpace_iff _).1 (by simpa using hh)
      rw [lit, List.cons_append, skip_word hc]
      rw [← List.cons_append, strip_append]
      rfl
  have hsc : startComment res (s ++ rest) = some (name, nl ++ (body ++ ("$End".toList ++ (name ++ rest)))) := by
    rw [startComment, hs]
    simp only [List.cons_append, List.append_assoc] at hres ⊢
    rw [hres]
    simp only [Bool.false_eq_true, if_false, t1, if_neg h1]
  simp only [textComment, bind_apply, hsc, Option.bind_some, untilDollar, t2, l1, l2]

theorem com_open_text {res names : List Txt} (hres0 : res = names.map fun k => '$' :: k) (k : Txt) (hk : k ∈ names) (s : Txt)
    (hs : token ('$' :: k) s) (rest : Txt) : textComment res (s ++ rest) = none := by
  have h1 : (res.any fun k' => (strip k' ('$' :: k ++ rest)).isSome) = true := by
    rw [hres0, List.any_map, List.any_eq_true]
    refine ⟨k, hk, ?_⟩
    simp only [Function.comp, strip_append]
    rfl
  have h2 : startComment res (s ++ rest) = none := by
    rw [startComment, skip_token hs rfl (by decide)]
    simp only [h1, if_true]
  simp only [textComment, bind_apply, h2, Option.bind_none]

theorem com_blank_text (res : List Txt) (s : Txt) (hs : Blank s) : textComment res s = none := by
  have h2 : startComment res s = none := by
    rw [startComment, skip_blank hs]
    simp
  simp only [textComment, bind_apply, h2, Option.bind_none]

theorem soundText : Sound textPrims textFmt commentText Delim where
  int := reads_textInt
  size := reads_textSize
  real := reads_textReal
  zero := fun _ hs rest _ => ⟨lit_token hs (by decide) rest, delim_token hs rest⟩
  sixteen := fun _ hs rest _ => ⟨lit_token hs (by decide) rest, delim_token hs rest⟩
  zero_sixteen := fun _ hs rest _ => lit_differ hs (by decide) (by decide) rest
  opening := fun _ _ hs rest _ => ⟨lit_token hs (by decide) rest, delim_token hs rest⟩
  closing := fun _ _ hs rest _ => ⟨lit_token hs (by decide) rest, delim_token hs rest⟩
  com := comment_spec reserved_eq names_no_nl
  com_pos := by
    rintro s ⟨name, nl, body, -, -, -, -, -, -, b, h0, -, rfl⟩ h
    simp at h
  D_blank := by
    intro s hs c hc
    exact blank_space hs c (List.mem_of_mem_head? hc)
  com_blank := com_blank_text reserved
  open_blank := by
    intro k s hs
    simp [textPrims, lit, skip_blank hs, strip]
  com_open := com_open_text reserved_eq
  open_open := by
    intro k hk k' hk' hne s hs rest
    have h1 : ∀ k ∈ sectionNames, ∀ k' ∈ sectionNames, k ≠ k' → differ ('$' :: k') ('$' :: k) = true := by decide
    exact lit_differ hs (by decide) (h1 k hk k' hk' hne) rest
  names_open := fun s hs rest => lit_differ hs (by decide) (by decide) rest
  com_names := com_open_text reserved_eq "PhysicalNames".toList (by decide)
  names := fun l s hs rest _ => names_spec l s hs rest

end Msh

end Verif
