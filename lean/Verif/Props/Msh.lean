import Verif.Lemmas.MshFail

/-!
# C105: reading files in the MSH format, version 4.1
-/

namespace Verif

open Msh

/-- Every text file of the format which contains `F`, with any white space, any digits and comments after any section, is read,
and the result is `F`. -/
theorem C105_text (F : MshFile ℚ) (s : Txt) (hs : (headText ⊙ fileRel textFmt commentText F ⊙ Blank) s) :
    readGmsh s = some (.text F) := by
  obtain ⟨h, _, rfl, hh, t, b, rfl, ht, hb⟩ := hs
  rw [readGmsh_text hh, entry_spec soundText F t ht b (soundText.D_blank b hb) (soundText.com_blank b hb)
    (soundText.open_blank _ b hb) (soundText.open_blank _ b hb)]
  rfl

/-- Every binary file of the format without comments which contains `F`, with any byte order, is read, and the result is `F`;
doubles are given by their bits.  Missing: files with comments, see `C105_fails_comment` and `C105_fails_rest`. -/
theorem C105_binary_partial (big : Bool) (F : MshFile ℕ) (s : Txt)
    (hs : (headBinary big ⊙ fileRel (binFmt big) noComments F ⊙ Blank) s) : readGmsh s = some (.binary F) := by
  obtain ⟨h, _, rfl, hh, t, b, rfl, ht, hb⟩ := hs
  have S := soundBinary big
  rw [readGmsh_binary hh, entry_spec S F t ht b (S.D_blank b hb) (S.com_blank b hb) (S.open_blank _ b hb)
    (S.open_blank _ b hb)]
  rfl

/-- The format allows comments also in binary files, but no binary file with a comment after the header is read. -/
theorem C105_fails_comment (big : Bool) (h c rest : Txt) (hh : headBinary big h) (hc : commentText c) :
    readGmsh (h ++ c ++ rest) = none := by
  rw [List.append_assoc, readGmsh_binary hh, entry_comment big hc]
  rfl

/-- If there is a comment at the end of a binary file then everything after the comment is ignored: whatever follows, for
instance sections Periodic and GhostElements, the result is the same and no error is reported. -/
theorem C105_fails_rest (big : Bool) (F : MshFile ℕ) (h s c : Txt) (hh : headBinary big h)
    (hs : fileRel (binFmt big) noComments F s) (hc : commentText c) (rest : Txt) :
    readGmsh (h ++ s ++ c ++ rest) = some (.binary F) := by
  have h1 : (binPrims big).opening "Periodic".toList (c ++ rest) = none :=
    lit_comment hc (k := "Periodic".toList) (by decide) ['\n'] rest
  have h2 : (binPrims big).opening "GhostElements".toList (c ++ rest) = none :=
    lit_comment hc (k := "GhostElements".toList) (by decide) ['\n'] rest
  rw [List.append_assoc, List.append_assoc, readGmsh_binary hh,
    entry_spec (soundBinary big) F s hs (c ++ rest) trivial (binComment_none _) h1 h2]
  rfl

/-- For every input which is accepted, also for inputs which do not follow the format: each element has the number of nodes
which belongs to its type. -/
theorem C105_elements (s : Txt) :
    (∀ F, readGmsh s = some (.text F) → ∀ b ∈ F.elems.blocks, ∀ e ∈ b.elems, (b.type, e.2.length) ∈ nodesOfType) ∧
    (∀ F, readGmsh s = some (.binary F) → ∀ b ∈ F.elems.blocks, ∀ e ∈ b.elems, (b.type, e.2.length) ∈ nodesOfType) := by
  constructor
  all_goals
    intro F hF
    rw [readGmsh, Option.bind_eq_some_iff] at hF
    obtain ⟨x, hx, hF⟩ := hF
    unfold readFileV4 at hF
    split_ifs at hF
    all_goals
      rw [Option.map_eq_some_iff] at hF
      obtain ⟨y, hy, hF⟩ := hF
      cases hF
  · exact (post_entry postText _ _ _ hy).1.1
  · exact (post_entry (postBinary false) _ _ _ hy).1.1
  · exact (post_entry (postBinary true) _ _ _ hy).1.1

/-- A file which was cut off, or where a mandatory section is missing, is refused: an accepted file contains the ends of the
sections Entities, Nodes and Elements. -/
theorem C105_truncated (s : Txt)
    (h : ¬ ("$EndEntities".toList <:+: s ∧ "$EndNodes".toList <:+: s ∧ "$EndElements".toList <:+: s)) : readGmsh s = none := by
  by_contra hne
  refine h ?_
  obtain ⟨C, hC⟩ := Option.ne_none_iff_exists'.1 hne
  rw [readGmsh, Option.bind_eq_some_iff] at hC
  obtain ⟨x, hx, hC⟩ := hC
  have hsuf := (post_header s x.1 x.2 hx).2.isInfix
  have key : "$EndEntities".toList <:+: x.2 ∧ "$EndNodes".toList <:+: x.2 ∧ "$EndElements".toList <:+: x.2 := by
    unfold readFileV4 at hC
    split_ifs at hC
    all_goals
      rw [Option.map_eq_some_iff] at hC
      obtain ⟨y, hy, hC⟩ := hC
    · exact (post_entry postText _ _ _ hy).1.2
    · exact (post_entry (postBinary false) _ _ _ hy).1.2
    · exact (post_entry (postBinary true) _ _ _ hy).1.2
  exact ⟨key.1.trans hsuf, key.2.1.trans hsuf, key.2.2.trans hsuf⟩

/-! ## Examples -/

/-- A file with a point, a curve, a surface, three nodes, an edge and a triangle; `z` is the zero of the number type, `o` the one. -/
def exFile {R : Type} (z o : R) : MshFile R where
  names := []
  ents := ⟨[⟨1, (z, z, z), [5]⟩], [⟨2, (z, z, z), (o, z, z), [], [1]⟩], [⟨3, (z, z, z), (o, o, z), [7], []⟩], []⟩
  parts := noParts
  nodes := ⟨3, 1, 3, [⟨0, 1, false, [(1, (z, z, z)), (2, (o, z, z)), (3, (z, o, z))]⟩]⟩
  elems := ⟨2, 1, 2, [⟨1, 2, 1, [(1, [1, 2])]⟩, ⟨2, 3, 2, [(2, [1, 2, 3])]⟩]⟩
  links := []
  ghosts := []

private theorem exRel {R : Type} (f : Fmt R) (c : Rel) (z o : R) (hi : ∀ n : ℕ, n < 10 → ∃ s, f.int n s)
    (hs : ∀ n : ℕ, n < 10 → ∃ s, f.size n s) (hz : ∃ s, f.real z s) (ho : ∃ s, f.real o s)
    (hop : ∀ k, ∃ s, f.opening k s) (hcl : ∀ k, ∃ s, f.closing k s) : ∃ s, fileRel f c (exFile z o) s := by
  have hl : ∀ n : ℕ, n < 10 → ∃ s, Rel.many f.int [(n : ℤ)] s := fun n hn => ex_many (by
    intro a ha; simp only [List.mem_singleton] at ha; subst ha; exact hi n hn)
  have hv : ∃ s, f.vec (z, z, z) s := ex_seq hz (ex_seq hz hz)
  have hv1 : ∃ s, f.vec (o, z, z) s := ex_seq ho (ex_seq hz hz)
  have hv2 : ∃ s, f.vec (z, o, z) s := ex_seq hz (ex_seq ho hz)
  have hv3 : ∃ s, f.vec (o, o, z) s := ex_seq ho (ex_seq ho hz)
  have hn : ∀ {α : Type} (r : α → Rel), ∃ s, Rel.many r [] s := fun r => ⟨[], rfl⟩
  refine ex_seq (ex_star c) (ex_seq ex_opt (ex_seq ?_ (ex_seq (ex_star c) (ex_seq ex_opt (ex_seq ?_ (ex_seq (ex_star c)
    (ex_seq ?_ (ex_seq (ex_star c) (ex_seq ex_opt ex_opt)))))))))
  · refine ex_seq (hop _) (ex_seq ?_ (hcl _))
    refine ex_seq (hs 1 (by omega)) (ex_seq (hs 1 (by omega)) (ex_seq (hs 1 (by omega)) (ex_seq (hs 0 (by omega))
      (ex_seq (ex_many ?_) (ex_seq (ex_many ?_) (ex_seq (ex_many ?_) (hn _)))))))
    · intro a ha
      simp only [exFile, List.mem_singleton] at ha
      subst ha
      exact ex_seq (hi 1 (by omega)) (ex_seq hv (ex_seq (hs 1 (by omega)) (hl 5 (by omega))))
    · intro a ha
      simp only [exFile, List.mem_singleton] at ha
      subst ha
      exact ex_seq (hi 2 (by omega)) (ex_seq hv (ex_seq hv1 (ex_seq (ex_seq (hs 0 (by omega)) (hn _))
        (ex_seq (hs 1 (by omega)) (hl 1 (by omega))))))
    · intro a ha
      simp only [exFile, List.mem_singleton] at ha
      subst ha
      exact ex_seq (hi 3 (by omega)) (ex_seq hv (ex_seq hv3 (ex_seq (ex_seq (hs 1 (by omega)) (hl 7 (by omega)))
        (ex_seq (hs 0 (by omega)) (hn _)))))
  · refine ex_seq (hop _) (ex_seq ?_ (hcl _))
    refine ex_seq (hs 1 (by omega)) (ex_seq (hs 3 (by omega)) (ex_seq (hs 1 (by omega)) (ex_seq (hs 3 (by omega))
      (ex_many ?_))))
    intro a ha
    simp only [exFile, List.mem_singleton] at ha
    subst ha
    have h1 : ∃ s, (f.int 0 ⊙ f.int 1 ⊙ f.int 0 ⊙ f.size 3 ⊙
        Rel.many (fun n => f.size n.1) [(1, (z, z, z)), (2, (o, z, z)), (3, (z, o, z))] ⊙
        Rel.many (fun n => f.vec n.2) [((1 : ℕ), (z, z, z)), (2, (o, z, z)), (3, (z, o, z))]) s :=
      ex_seq (hi 0 (by omega)) (ex_seq (hi 1 (by omega)) (ex_seq (hi 0 (by omega)) (ex_seq (hs 3 (by omega))
        (ex_seq (ex_seq (hs 1 (by omega)) (ex_seq (hs 2 (by omega)) (ex_seq (hs 3 (by omega)) ⟨[], rfl⟩)))
          (ex_seq hv (ex_seq hv1 (ex_seq hv2 ⟨[], rfl⟩)))))))
    obtain ⟨s, h⟩ := h1
    exact ⟨s, rfl, h⟩
  · refine ex_seq (hop _) (ex_seq ?_ (hcl _))
    refine ex_seq (hs 2 (by omega)) (ex_seq (hs 2 (by omega)) (ex_seq (hs 1 (by omega)) (ex_seq (hs 2 (by omega))
      (ex_many ?_))))
    intro a ha
    simp only [exFile, List.mem_cons, List.not_mem_nil, or_false] at ha
    rcases ha with rfl | rfl
    · have h1 : ∃ s, (f.int 1 ⊙ f.int 2 ⊙ f.int 1 ⊙ f.size 1 ⊙
          Rel.many (fun e : ℕ × List ℕ => f.size e.1 ⊙ Rel.many f.size e.2) [(1, [1, 2])]) s :=
        ex_seq (hi 1 (by omega)) (ex_seq (hi 2 (by omega)) (ex_seq (hi 1 (by omega)) (ex_seq (hs 1 (by omega))
          (ex_seq (ex_seq (hs 1 (by omega)) (ex_seq (hs 1 (by omega)) (ex_seq (hs 2 (by omega)) ⟨[], rfl⟩))) ⟨[], rfl⟩))))
      obtain ⟨s, h⟩ := h1
      exact ⟨s, by simp only [List.mem_singleton, forall_eq]; decide, h⟩
    · have h1 : ∃ s, (f.int 2 ⊙ f.int 3 ⊙ f.int 2 ⊙ f.size 1 ⊙
          Rel.many (fun e : ℕ × List ℕ => f.size e.1 ⊙ Rel.many f.size e.2) [(2, [1, 2, 3])]) s :=
        ex_seq (hi 2 (by omega)) (ex_seq (hi 3 (by omega)) (ex_seq (hi 2 (by omega)) (ex_seq (hs 1 (by omega))
          (ex_seq (ex_seq (hs 2 (by omega)) (ex_seq (hs 1 (by omega)) (ex_seq (hs 2 (by omega)) (ex_seq (hs 3 (by omega))
            ⟨[], rfl⟩)))) ⟨[], rfl⟩))))
      obtain ⟨s, h⟩ := h1
      exact ⟨s, by simp only [List.mem_singleton, forall_eq]; decide, h⟩

private theorem exText : ∃ s, fileRel textFmt commentText (exFile 0 1) s :=
  exRel _ _ _ _ (fun _ h => ex_int h) (fun _ h => ex_size h) (by exact_mod_cast ex_real (n := 0) (by omega))
    (by exact_mod_cast ex_real (n := 1) (by omega)) (fun _ => ex_token _) (fun _ => ex_token _)

private theorem exBinary (big : Bool) : ∃ s, fileRel (binFmt big) noComments (exFile 0 0x3FF0000000000000) s := by
  refine exRel _ _ _ _ (fun _ h => ex_binInt big h) (fun n h => ex_bytes big (k := 7) (by omega))
    (ex_bytes big (k := 7) (by omega)) ?_ (fun k => ⟨'$' :: k ++ ['\n'], [], by intro c hc; simp at hc, rfl⟩)
    (fun _ => ⟨_, rfl⟩)
  cases big
  · exact ⟨_, [0, 0, 0, 0, 0, 0, 0xF0, 0x3F], rfl, by decide, by decide, rfl⟩
  · exact ⟨_, [0x3F, 0xF0, 0, 0, 0, 0, 0, 0], rfl, by decide, by decide, rfl⟩

private theorem exHeadText : ∃ s, headText s :=
  ex_seq ⟨_, rfl⟩ (ex_seq (ex_token _) (ex_seq (ex_token _) (ex_seq (ex_token _) (ex_token _))))

private theorem exHeadBinary (big : Bool) : ∃ s, headBinary big s :=
  ex_seq ⟨_, rfl⟩ (ex_seq (ex_token _) (ex_seq (ex_token _) (ex_seq (ex_token _) (ex_seq ⟨_, rfl⟩
    (ex_seq (ex_bytes big (k := 3) (by omega)) (ex_token _))))))

private theorem exComment : ∃ s, commentText s := by
  obtain ⟨s, hs⟩ := ex_token ('$' :: "Comments".toList ++ ['\n'] ++ "by hand\n".toList ++ "$End".toList ++ "Comments".toList)
  exact ⟨s, _, _, _, by decide, by decide, by unfold Blank; decide, by decide, Or.inl rfl, by decide, hs⟩

theorem exFile_text : ∃ s, (headText ⊙ fileRel textFmt commentText (exFile 0 1) ⊙ Blank) s :=
  ex_seq exHeadText (ex_seq exText ex_blank)

theorem exFile_binary (big : Bool) :
    ∃ s, (headBinary big ⊙ fileRel (binFmt big) noComments (exFile 0 0x3FF0000000000000) ⊙ Blank) s :=
  ex_seq (exHeadBinary big) (ex_seq (exBinary big) ex_blank)

/-- There are text files as required in `C105_text`. -/
example : ∃ (F : MshFile ℚ) (s : Txt), (headText ⊙ fileRel textFmt commentText F ⊙ Blank) s ∧ F.elems.blocks ≠ [] := by
  obtain ⟨s, hs⟩ := ex_seq exHeadText (ex_seq exText ex_blank)
  exact ⟨_, s, hs, by simp [exFile]⟩

/-- There are binary files as required in `C105_binary_partial`, `C105_fails_comment` and `C105_fails_rest`. -/
example (big : Bool) : (∃ (F : MshFile ℕ) (s : Txt), (headBinary big ⊙ fileRel (binFmt big) noComments F ⊙ Blank) s ∧
    F.elems.blocks ≠ []) ∧ (∃ h, headBinary big h) ∧ (∃ F s, fileRel (binFmt big) noComments F s) ∧ ∃ c, commentText c := by
  obtain ⟨s, hs⟩ := ex_seq (exHeadBinary big) (ex_seq (exBinary big) ex_blank)
  exact ⟨⟨_, s, hs, by simp [exFile]⟩, exHeadBinary big, ⟨_, exBinary big⟩, exComment⟩

private def exNodes : Option Content → Option (List (List ℕ) × List ℤ)
  | some (.text F) => some (F.elems.blocks.flatMap fun b => b.elems.map Prod.snd, F.nodes.blocks.flatMap fun b => b.nodes.map fun n => n.2.2.2.num)
  | _ => none

/-- A literal file is accepted, as required in `C105_elements`. -/
example : exNodes (readGmsh ("$MeshFormat\n4.1 0 8\n$EndMeshFormat\n$Entities\n1 0 0 0\n1 0 0 -0.5e1 0\n$EndEntities\n" ++
    "$Nodes\n1 1 1 1\n0 1 0 1\n1\n0 0 -0.5e1\n$EndNodes\n$Elements\n1 1 1 1\n0 1 15 1\n1 1\n$EndElements").toList)
      = some ([[1]], [-5]) := by decide +kernel

/-- A file which ends inside of the section Elements, as required in `C105_truncated`. -/
example : ¬ "$EndElements".toList <:+:
    "$EndEntities\n$Nodes\n0 0 0 0\n$EndNodes\n$Elements\n1 1 1 1\n0 1 15 1\n1 1\n$EndElement".toList := by
  decide +kernel

end Verif
