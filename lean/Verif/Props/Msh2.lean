import Verif.Lemmas.Msh2

/-!
# C106: reading files in the MSH format, version 2.2
-/

namespace Verif

open Msh

private theorem nodesText2_open (l : List (ℕ × Vec ℚ)) (s : Txt) (h : nodesText2 l s) :
    ∃ u v, s = u ++ v ∧ token "$Nodes".toList u := by
  obtain ⟨u, v, rfl, hu, -⟩ := h
  exact ⟨u, v, rfl, hu⟩

private theorem elemsText2_open (l : List Elem2) (s : Txt) (h : elemsTextRel l s) :
    ∃ u v, s = u ++ v ∧ token "$Elements".toList u := by
  obtain ⟨u, v, rfl, hu, -⟩ := h
  exact ⟨u, v, rfl, hu⟩

private theorem nodesBin2_open (big : Bool) (l : List (ℕ × Vec ℕ)) (s : Txt) (h : nodesBinary big l s) :
    ∃ u v, s = u ++ v ∧ token "$Nodes".toList u := by
  obtain ⟨u, v, rfl, hu, -⟩ := h
  exact ⟨u, v, rfl, hu⟩

private theorem elemsBin2_open (big : Bool) (l : List Elem2) (s : Txt) (h : elemsBinary big l s) :
    ∃ u v, s = u ++ v ∧ token "$Elements".toList u := by
  obtain ⟨-, -, u, v, rfl, hu, -⟩ := h
  exact ⟨u, v, rfl, hu⟩

private theorem blank_lit {b : Txt} (hb : Blank b) : lit "$Periodic".toList b = none := by
  simp [lit, skip_blank hb, strip]

/-- Every text file of the format is read, and the result is its content except for the section Periodic.  Missing: the section
Periodic (see `C106_fails_periodic`) and elements with less than two tags (see `C106_fails_tags`). -/
theorem C106_text_partial (F : MshFile2 ℚ) (s : Txt) (hs : (headText2 ⊙ fileRel2 nodesText2 elemsTextRel F ⊙ Blank) s) :
    readGmshFile s = some (.text2 { F with periodic := [] }) := by
  obtain ⟨h, _, rfl, hh, t, b, rfl, ht, hb⟩ := hs
  rw [readGmshFile_text hh, whole_some (start2_spec rd_nodesText rd_elemsText nodesText2_open elemsText2_open F t ht b
    (delim_blank hb) (com_blank_text _ _ hb) (blank_lit hb)) hb]
  rfl

/-- The same for binary files with any byte order; doubles are given by their bits. -/
theorem C106_binary_partial (big : Bool) (F : MshFile2 ℕ) (s : Txt)
    (hs : (headBinary2 big ⊙ fileRel2 (nodesBinary big) (elemsBinary big) F ⊙ Blank) s) :
    readGmshFile s = some (.binary2 { F with periodic := [] }) := by
  obtain ⟨h, _, rfl, hh, t, b, rfl, ht, hb⟩ := hs
  rw [readGmshFile_binary hh, whole_some (start2_spec (rd_nodesBinary big) (rd_elemsBinary big) (nodesBin2_open big)
    (elemsBin2_open big) F t ht b (delim_blank hb) (com_blank_text _ _ hb) (blank_lit hb)) hb]
  rfl

/-- The section Periodic is lost: whatever the file contains, the list of periodic entities of the result is empty. -/
theorem C106_fails_periodic (s : Txt) :
    (∀ F, readGmshFile s = some (.text2 F) → F.periodic = []) ∧ (∀ F, readGmshFile s = some (.binary2 F) → F.periodic = []) := by
  have key : ∀ {R : Type} (node : Parser (ℕ × Vec R)) (el : Parser (List Elem2)) (t : Txt) (F : MshFile2 R),
      whole (start2 node el) t = some F → F.periodic = [] := by
    intro R node el t F h
    rw [whole, Option.bind_eq_some_iff] at h
    obtain ⟨x, hx, h⟩ := h
    split_ifs at h
    cases h
    simp only [start2, bind_apply, Option.bind_eq_some_iff, pure_apply] at hx
    obtain ⟨x1, -, x2, -, x3, -, x4, -, x5, -, x6, -, x7, h7, heq⟩ := hx
    cases heq
    simp only
    unfold Msh.optional at h7
    split at h7
    · cases h7; rfl
    · rw [bind_apply, Option.bind_eq_some_iff] at h7
      obtain ⟨y, hy, h7⟩ := h7
      rw [bind_apply, Option.bind_eq_some_iff] at h7
      obtain ⟨z, -, h7⟩ := h7
      cases h7
      simp only [periodicBody2, bind_apply, Option.bind_eq_some_iff, pure_apply] at hy
      obtain ⟨y1, -, y2, -, y3, -, heq⟩ := hy
      cases heq
      rfl
  constructor
  all_goals
    intro F hF
    rw [readGmshFile, Option.bind_eq_some_iff] at hF
    obtain ⟨x, hx, hF⟩ := hF
    unfold readFileV2 at hF
    split_ifs at hF
    all_goals
      rw [Option.map_eq_some_iff] at hF
      obtain ⟨y, hy, hF⟩ := hF
      cases hF <;> exact key _ _ _ _ hy

/-- The content of the file, if it is a text file with version 2.2: for each element the number, the type, the tags and the
partitions; the nodes. -/
private def exElem2 : Option AnyContent → List (List ℤ) × List (List ℕ)
  | some (.text2 F) => (F.elems.map fun e => (e.number : ℤ) :: e.type :: e.phys :: e.elementary :: e.partitions, F.elems.map fun e => e.nodes)
  | _ => ([], [])

/-- A text file with a triangle without tags (the format allows any number of tags) is accepted without an error, but the first
two nodes 7, 8 are taken for the tags, and the triangle has one node. -/
theorem C106_fails_tags : ∃ F : MshFile2 ℚ,
    readGmshFile ("$MeshFormat\n2.2 0 8\n$EndMeshFormat\n$Nodes\n0\n$EndNodes\n" ++
      "$Elements\n1\n1 2 0 7 8 9\n$EndElements\n").toList = some (.text2 F) ∧
    ∃ e, F.elems = [e] ∧ e.type = 2 ∧ e.phys = 7 ∧ e.elementary = 8 ∧ e.nodes = [9] := by
  have h : exElem2 (readGmshFile ("$MeshFormat\n2.2 0 8\n$EndMeshFormat\n$Nodes\n0\n$EndNodes\n" ++
      "$Elements\n1\n1 2 0 7 8 9\n$EndElements\n").toList) = ([[1, 2, 7, 8]], [[9]]) := by decide +kernel
  generalize readGmshFile ("$MeshFormat\n2.2 0 8\n$EndMeshFormat\n$Nodes\n0\n$EndNodes\n" ++
      "$Elements\n1\n1 2 0 7 8 9\n$EndElements\n").toList = x at h
  have aux : ∀ F : MshFile2 ℚ, exElem2 (some (.text2 F)) = ([[1, 2, 7, 8]], [[9]]) →
      ∃ e, F.elems = [e] ∧ e.type = 2 ∧ e.phys = 7 ∧ e.elementary = 8 ∧ e.nodes = [9] := by
    intro F hF
    simp only [exElem2, Prod.mk.injEq, List.map_eq_singleton_iff] at hF
    obtain ⟨⟨e, h1, h2⟩, e', h3, h4⟩ := hF
    rw [h1] at h3
    cases h3
    simp only [List.cons.injEq] at h2
    exact ⟨e, h1, h2.2.1, h2.2.2.1, h2.2.2.2.1, h4⟩
  cases x with
  | none => simp [exElem2] at h
  | some c =>
    cases c with
    | v4 c => simp [exElem2] at h
    | binary2 F => simp [exElem2] at h
    | text2 F => exact ⟨F, rfl, aux F h⟩

/-- For every accepted binary file, also for those which do not follow the format: each element has the number of nodes which
belongs to its type.  For text files this is not true, see `C106_fails_tags`. -/
theorem C106_elements (s : Txt) (F : MshFile2 ℕ) (h : readGmshFile s = some (.binary2 F)) :
    ∀ e ∈ F.elems, (e.type, e.nodes.length) ∈ nodesOfType := by
  rw [readGmshFile, Option.bind_eq_some_iff] at h
  obtain ⟨x, hx, hF⟩ := h
  unfold readFileV2 at hF
  split_ifs at hF
  all_goals
    rw [Option.map_eq_some_iff] at hF
    obtain ⟨y, hy, hF⟩ := hF
    cases hF
  all_goals
    rw [whole, Option.bind_eq_some_iff] at hy
    obtain ⟨z, hz, hy⟩ := hy
    split_ifs at hy
    cases hy
    exact (post_start2 (post_nodeBin _) (post_elemsBin _) _ _ _ hz).1.2.2

/-- A file of version 2.2 which was cut off, or where a mandatory section is missing, is refused. -/
theorem C106_truncated (s : Txt) (h : ¬ ("$EndNodes".toList <:+: s ∧ "$EndElements".toList <:+: s)) :
    (∀ F, readGmshFile s ≠ some (.text2 F)) ∧ ∀ F, readGmshFile s ≠ some (.binary2 F) := by
  constructor
  all_goals
    intro F hF
    refine h ?_
    rw [readGmshFile, Option.bind_eq_some_iff] at hF
    obtain ⟨x, hx, hF⟩ := hF
    have hsuf := (post_header s x.1 x.2 hx).2.isInfix
    suffices key : "$EndNodes".toList <:+: x.2 ∧ "$EndElements".toList <:+: x.2 from ⟨key.1.trans hsuf, key.2.trans hsuf⟩
    unfold readFileV2 at hF
    split_ifs at hF
    all_goals
      rw [Option.map_eq_some_iff] at hF
      obtain ⟨y, hy, hF⟩ := hF
      cases hF <;> (rw [whole, Option.bind_eq_some_iff] at hy; obtain ⟨z, hz, hy⟩ := hy)
  · have h1 := (post_start2 (Q := fun _ => True) post_nodeText (post_elemsText.mono fun _ _ h => ⟨h, trivial⟩) _ _ _ hz).1
    exact ⟨h1.1, h1.2.1⟩
  all_goals
    have h1 := (post_start2 (post_nodeBin _) (post_elemsBin _) _ _ _ hz).1
    exact ⟨h1.1, h1.2.1⟩

/-- Nothing after the last section is ignored silently: if something follows which is neither white space nor begins with `$`,
the file is refused. -/
theorem C106_rest (F : MshFile2 ℚ) (s b w : Txt) (c : Char) (hs : (headText2 ⊙ fileRel2 nodesText2 elemsTextRel F) s)
    (hb : Blank b) (hb0 : b ≠ []) (hc : ¬ Blank [c]) (hd : c ≠ '$') : readGmshFile (s ++ (b ++ c :: w)) = none := by
  obtain ⟨h, t, rfl, hh, ht⟩ := hs
  have hsp : isSpace c = false := by
    cases h : isSpace c with
    | false => rfl
    | true =>
      refine absurd ?_ hc
      intro x hx
      rw [List.mem_singleton] at hx
      subst hx
      exact (isSpace_iff x).1 h
  have hskip : skip (b ++ c :: w) = c :: w := by rw [skip_blank_append hb, skip_word hsp]
  have hD : Delim (b ++ c :: w) := by
    have := delim_token (w := c :: w) ⟨b, hb0, hb, rfl⟩ []
    rwa [List.append_nil] at this
  have hl : ∀ k, strip ('$' :: k) (c :: w) = none := by
    intro k
    rw [strip, if_neg (Ne.symm hd)]
  have hcom : textComment reserved2 (b ++ c :: w) = none := by
    have h2 : startComment reserved2 (b ++ c :: w) = none := by
      rw [startComment, hskip]
      simp only
      split_ifs with h
      · rfl
      · split
        · rename_i t heq
          exact absurd (List.cons.inj heq).1 hd
        · rfl
    simp only [textComment, bind_apply, h2, Option.bind_none]
  have hp : lit "$Periodic".toList (b ++ c :: w) = none := by
    rw [lit, hskip, show "$Periodic".toList = '$' :: "Periodic".toList from rfl, hl]
    rfl
  rw [List.append_assoc, readGmshFile_text hh, whole,
    start2_spec rd_nodesText rd_elemsText nodesText2_open elemsText2_open F t ht _ hD hcom hp, Option.bind_some]
  simp only [hskip]
  rfl

/-- The parser for version 4.1 (claim C105) is used for exactly the files with this version. -/
theorem C106_dispatch (s : Txt) (c : Content) : readGmshFile s = some (.v4 c) ↔ readGmsh s = some c := by
  rw [readGmshFile, readGmsh]
  cases header s with
  | none => simp
  | some h =>
    simp only [Option.bind_some]
    split_ifs with h1 h2
    · rw [Option.map_eq_some_iff]
      constructor
      · rintro ⟨c', hc', h⟩
        cases h
        exact hc'
      · intro hc'
        exact ⟨c, hc', rfl⟩
    · have h3 : readFileV4 h.1.1 h.1.2.1 h.1.2.2.1 h.1.2.2.2 h.2 = none := by
        rw [readFileV4, if_neg fun h => h1 h.1]
      rw [h3]
      constructor
      · intro hF
        unfold readFileV2 at hF
        split_ifs at hF
        all_goals
          rw [Option.map_eq_some_iff] at hF
          obtain ⟨y, -, hF⟩ := hF
          cases hF
      · intro h
        cases h
    · have h3 : readFileV4 h.1.1 h.1.2.1 h.1.2.2.1 h.1.2.2.2 h.2 = none := by
        rw [readFileV4, if_neg fun h => h1 h.1]
      rw [h3]
      simp

/-! ## Examples -/

private theorem ex_lineEnd : ∃ s, lineEnd s := ⟨_, Or.inl rfl⟩

private theorem ex_oneBlank : ∃ s, oneBlank s := ⟨_, rfl⟩

private theorem ex_bare (w : Txt) : ∃ s, bare w s := ⟨w, rfl⟩

private theorem ex_uintWord {n : ℕ} (h : n < 10) : ∃ s, uintWord n s := ⟨_, by omega, decimal_digit h⟩

private theorem ex_intWord {n : ℕ} (h : n < 10) : ∃ s, intWord n s :=
  ⟨_, by omega, by omega, 1, n, by simp, [], _, Or.inl ⟨rfl, Or.inl rfl⟩, decimal_digit h, rfl⟩

private theorem ex_realWord {n : ℕ} (h : n < 10) : ∃ s, realWord n s :=
  ⟨_, 1, n, 0, 0, by simp, [], _, [], [], Or.inl ⟨rfl, Or.inl rfl⟩, decimal_digit h, Or.inl ⟨rfl, rfl⟩, Or.inl ⟨rfl, rfl⟩, rfl⟩

private theorem ex_uintText {n : ℕ} (h : n < 10) : ∃ s, uintText n s := by
  obtain ⟨s, hs⟩ := ex_token [Char.ofNat (48 + n)]
  exact ⟨s, by omega, _, decimal_digit h, hs⟩

/-- A triangle in partition 4. -/
def exTria : Elem2 := ⟨1, 2, 5, 6, [4], [1, 2, 3]⟩

def exPeriodic : Periodic2 := ⟨1, 2, 3, [(1, 2)]⟩

private theorem ex_periodic : ∃ s, periodicRel [exPeriodic] s := by
  have h1 : ∃ s, periodicText exPeriodic s :=
    ex_seq (ex_int (n := 1) (by omega)) (ex_seq (ex_int (n := 2) (by omega)) (ex_seq (ex_int (n := 3) (by omega))
      (ex_seq (ex_uintText (by decide)) (ex_seq (ex_seq (ex_uintText (by decide)) (ex_uintText (by decide))) ⟨[], rfl⟩))))
  exact ex_seq (ex_token _) (ex_seq (ex_uintText (by decide)) (ex_seq (ex_seq h1 ⟨[], rfl⟩) (ex_token _)))

def exText2 : MshFile2 ℚ := ⟨[], [(1, (0, 0, 0)), (2, (1, 0, 0)), (3, (0, 1, 0))], [exTria], [exPeriodic]⟩

def exBin2 : MshFile2 ℕ := ⟨[], [(1, (0, 0, 0)), (2, (1, 0, 0)), (3, (0, 1, 0))], [exTria], [exPeriodic]⟩

private theorem ex_fileRel2 {R : Type} {nR : List (ℕ × Vec R) → Rel} {eR : List Elem2 → Rel} {l : List (ℕ × Vec R)}
    (hn : ∃ s, nR l s) (he : ∃ s, eR [exTria] s) : ∃ s, fileRel2 nR eR ⟨[], l, [exTria], [exPeriodic]⟩ s := by
  have h1 : ∃ s, Rel.opt ([] : List Periodic2) [exPeriodic] (periodicRel [exPeriodic] ⊙ comment2.star) s := by
    obtain ⟨s, hs⟩ := ex_seq ex_periodic (ex_star comment2)
    exact ⟨s, Or.inr hs⟩
  exact ex_seq (ex_star _) (ex_seq ex_opt (ex_seq hn (ex_seq (ex_star _) (ex_seq he (ex_seq (ex_star _) h1)))))

private theorem ex_text2 : ∃ s, fileRel2 nodesText2 elemsTextRel exText2 s := by
  have r0 : ∃ s, realWord (0 : ℚ) s := by exact_mod_cast ex_realWord (n := 0) (by omega)
  have r1 : ∃ s, realWord (1 : ℚ) s := by exact_mod_cast ex_realWord (n := 1) (by omega)
  have hl : ∀ (n : ℕ) (x y z : ℚ), n < 10 → (∃ s, realWord x s) → (∃ s, realWord y s) → (∃ s, realWord z s) →
      ∃ s, nodeLine (n, (x, y, z)) s := fun n x y z hn hx hy hz =>
    ex_seq (ex_uintWord hn) (ex_seq ex_oneBlank (ex_seq hx (ex_seq ex_oneBlank (ex_seq hy (ex_seq ex_oneBlank
      (ex_seq hz ex_lineEnd))))))
  have he : ∃ s, elemLine exTria s := by
    have h1 : ∀ n : ℕ, n < 10 → ∃ s, (intWord (n : ℤ) ⊙ oneBlank) s := fun n hn => ex_seq (ex_intWord hn) ex_oneBlank
    have h2 : ∃ s, Rel.many (fun t => intWord t ⊙ oneBlank) [(5 : ℤ), 6, 1, 4] s :=
      ex_seq (h1 5 (by omega)) (ex_seq (h1 6 (by omega)) (ex_seq (h1 1 (by omega)) (ex_seq (h1 4 (by omega)) ⟨[], rfl⟩)))
    have h3 : ∃ s, numberList [1, 2, 3] s := ex_seq (ex_uintWord (by omega)) (ex_seq (ex_seq ex_oneBlank
      (ex_uintWord (by omega))) (ex_seq (ex_seq ex_oneBlank (ex_uintWord (by omega))) ⟨[], rfl⟩))
    obtain ⟨s, hs⟩ := ex_seq (ex_intWord (n := 1) (by omega)) (ex_seq ex_oneBlank (ex_seq (ex_intWord (n := 2) (by omega))
      (ex_seq ex_oneBlank (ex_seq (ex_intWord (n := 4) (by omega)) (ex_seq ex_oneBlank (ex_seq h2 (ex_seq h3
        (ex_seq (a := fun b => ∀ c ∈ b, c = ' ' ∨ c = '\t') ⟨[], by intro c hc; simp at hc⟩ ex_lineEnd))))))))
    exact ⟨s, by decide, [5, 6, 1, 4], Or.inr rfl, hs⟩
  exact ex_fileRel2
    (ex_seq (ex_token _) (ex_seq ex_lineEnd (ex_seq (ex_uintWord (by simp)) (ex_seq ex_lineEnd (ex_seq
      (ex_seq (hl 1 0 0 0 (by omega) r0 r0 r0) (ex_seq (hl 2 1 0 0 (by omega) r1 r0 r0) (ex_seq (hl 3 0 1 0 (by omega) r0 r1 r0)
        ⟨[], rfl⟩))) (ex_bare _))))))
    (ex_seq (ex_token _) (ex_seq ex_lineEnd (ex_seq (ex_uintWord (by simp)) (ex_seq ex_lineEnd (ex_seq
      (ex_seq he ⟨[], rfl⟩) (ex_bare _))))))

private theorem ex_binary2 (big : Bool) : ∃ s, fileRel2 (nodesBinary big) (elemsBinary big) exBin2 s := by
  have hl : ∀ n x y z : ℕ, n < 10 → x < 10 → y < 10 → z < 10 → ∃ s, nodeBytes big (n, (x, y, z)) s := fun n x y z hn hx hy hz =>
    ex_seq (ex_bytes big (k := 3) (n := n) (by omega)) (ex_seq (ex_bytes big (k := 7) (n := x) (by omega))
      (ex_seq (ex_bytes big (k := 7) (n := y) (by omega)) (ex_bytes big (k := 7) (n := z) (by omega))))
  have hi : ∀ n : ℕ, n < 10 → ∃ s, int4 big n s := fun n hn => ex_binInt big hn
  have he : ∃ s, elemBytes big 2 4 exTria s := by
    have h2 : ∃ s, Rel.many (int4 big) [(5 : ℤ), 6, 1, 4] s :=
      ex_seq (hi 5 (by omega)) (ex_seq (hi 6 (by omega)) (ex_seq (hi 1 (by omega)) (ex_seq (hi 4 (by omega)) ⟨[], rfl⟩)))
    have h3 : ∃ s, (bytesOf big 4 1 ⊙ Rel.many (int4 big) [(5 : ℤ), 6, 1, 4] ⊙ Rel.many (bytesOf big 4) [1, 2, 3]) s :=
      ex_seq (ex_bytes big (k := 3) (n := 1) (by omega)) (ex_seq h2 (ex_seq (ex_bytes big (k := 3) (n := 1) (by omega))
      (ex_seq (ex_bytes big (k := 3) (n := 2) (by omega)) (ex_seq (ex_bytes big (k := 3) (n := 3) (by omega)) ⟨[], rfl⟩))))
    obtain ⟨s, hs⟩ := h3
    exact ⟨s, rfl, by decide, [5, 6, 1, 4], Or.inr rfl, rfl, hs⟩
  have hb : ∃ s, blockBytes big (2, 4, [exTria]) s := by
    have h3 : ∃ s, (int4 big 2 ⊙ int4 big 1 ⊙ int4 big 4 ⊙ Rel.many (elemBytes big 2 4) [exTria]) s :=
      ex_seq (hi 2 (by omega)) (ex_seq (hi 1 (by omega)) (ex_seq (hi 4 (by omega)) (ex_seq he ⟨[], rfl⟩)))
    obtain ⟨s, hs⟩ := h3
    exact ⟨s, by simp, hs⟩
  have hE : ∃ s, elemsBinary big [exTria] s := by
    have h3 : ∃ s, (token "$Elements".toList ⊙ lineEnd ⊙ uintWord 1 ⊙ lineEnd ⊙ Rel.many (blockBytes big) [(2, 4, [exTria])] ⊙
        lineEnd ⊙ bare "$EndElements".toList) s := ex_seq (ex_token "$Elements".toList) (ex_seq ex_lineEnd (ex_seq (ex_uintWord (n := 1) (by simp))
      (ex_seq ex_lineEnd (ex_seq (ex_seq hb ⟨[], rfl⟩) (ex_seq ex_lineEnd (ex_bare "$EndElements".toList))))))
    obtain ⟨s, hs⟩ := h3
    exact ⟨s, [(2, 4, [exTria])], rfl, hs⟩
  exact ex_fileRel2
    (ex_seq (ex_token _) (ex_seq ex_lineEnd (ex_seq (ex_uintWord (by simp)) (ex_seq ex_lineEnd (ex_seq
      (ex_seq (hl 1 0 0 0 (by omega) (by omega) (by omega) (by omega)) (ex_seq (hl 2 1 0 0 (by omega) (by omega) (by omega) (by omega))
        (ex_seq (hl 3 0 1 0 (by omega) (by omega) (by omega) (by omega)) ⟨[], rfl⟩))) (ex_seq ex_lineEnd (ex_bare _)))))))
    hE

private theorem ex_headText2 : ∃ s, headText2 s :=
  ex_seq ⟨_, rfl⟩ (ex_seq (ex_token _) (ex_seq (ex_token _) (ex_seq (ex_token _) (ex_token _))))

private theorem ex_headBinary2 (big : Bool) : ∃ s, headBinary2 big s :=
  ex_seq ⟨_, rfl⟩ (ex_seq (ex_token _) (ex_seq (ex_token _) (ex_seq (ex_token _) (ex_seq ⟨_, rfl⟩
    (ex_seq (ex_bytes big (k := 3) (by omega)) (ex_token _))))))

theorem exText2_text : ∃ s, (headText2 ⊙ fileRel2 nodesText2 elemsTextRel exText2 ⊙ Blank) s :=
  ex_seq ex_headText2 (ex_seq ex_text2 ex_blank)

theorem exBin2_binary (big : Bool) : ∃ s, (headBinary2 big ⊙ fileRel2 (nodesBinary big) (elemsBinary big) exBin2 ⊙ Blank) s :=
  ex_seq (ex_headBinary2 big) (ex_seq (ex_binary2 big) ex_blank)

/-- There are text files as required in `C106_text_partial` and `C106_rest`, with elements and periodic entities. -/
example : ∃ (F : MshFile2 ℚ) (s : Txt), (headText2 ⊙ fileRel2 nodesText2 elemsTextRel F ⊙ Blank) s ∧ F.elems ≠ [] ∧
    F.periodic ≠ [] := by
  obtain ⟨s, hs⟩ := ex_seq ex_headText2 (ex_seq ex_text2 ex_blank)
  exact ⟨_, s, hs, by simp [exText2], by simp [exText2]⟩

/-- There are binary files as required in `C106_binary_partial`, hence also in `C106_elements`. -/
example (big : Bool) : ∃ (F : MshFile2 ℕ) (s : Txt), (headBinary2 big ⊙ fileRel2 (nodesBinary big) (elemsBinary big) F ⊙ Blank) s ∧
    F.elems ≠ [] ∧ F.periodic ≠ [] := by
  obtain ⟨s, hs⟩ := ex_seq (ex_headBinary2 big) (ex_seq (ex_binary2 big) ex_blank)
  exact ⟨_, s, hs, by simp [exBin2], by simp [exBin2]⟩

/-- A literal file with two tags, with partitions, and with blanks at the end of a line. -/
example : exElem2 (readGmshFile ("$MeshFormat\n2.2 0 8\n$EndMeshFormat\n$PhysicalNames\n1\n2 5 \"square\"\n$EndPhysicalNames\n" ++
    "$Nodes\n1\n1 0 0 -0.5e1\n$EndNodes\n$Elements\n2\n1 2 2 5 6 1 2 3 \n2 1 5 5 6 2 3 4 1 2\n$EndElements\n" ++
    "$Periodic\n1\n1 2 3\n1\n1 2\n$EndPeriodic\n").toList)
      = ([[1, 2, 5, 6], [2, 1, 5, 6, 3, 4]], [[1, 2, 3], [1, 2]]) := by decide +kernel

/-- A file which ends inside of the section Elements, as required in `C106_truncated`. -/
example : ¬ "$EndElements".toList <:+: "$Nodes\n0\n$EndNodes\n$Elements\n1\n1 15 2 5 6 1\n$EndElement".toList := by
  decide +kernel

/-- A character as required in `C106_rest`. -/
example : ¬ Blank ['x'] ∧ 'x' ≠ '$' := by unfold Blank; decide

end Verif
