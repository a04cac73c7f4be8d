import Verif.Spec.MshFormat2
import Verif.Lemmas.MshFail

/-!
# Lemmas for the parser of gmsh files of version 2.2
-/

namespace Verif

namespace Msh

/-- `p` reads the value `a` from all strings of `r` if the rest of the input satisfies `D`; then the input satisfies `E`. -/
def ReadsTo {α : Type} (D E : Txt → Prop) (p : Parser α) (a : α) (r : Rel) : Prop :=
  ∀ s, r s → ∀ rest, D rest → p (s ++ rest) = some (a, rest) ∧ E (s ++ rest)

/-- No condition. -/
abbrev Tr : Txt → Prop := fun _ => True

section
variable {α β : Type} {D E G : Txt → Prop}

theorem ReadsTo.bind {p : Parser α} {h : α → Parser β} {a : α} {b : β} {r q : Rel} (hp : ReadsTo E G p a r)
    (hh : ReadsTo D E (h a) b q) : ReadsTo D G (p >>= h) b (r ⊙ q) := by
  rintro s ⟨u, v, rfl, hu, hv⟩ rest hr
  obtain ⟨h1, h2⟩ := hh v hv rest hr
  obtain ⟨h3, h4⟩ := hp u hu _ h2
  rw [List.append_assoc, bind_apply, h3]
  exact ⟨h1, h4⟩

theorem ReadsTo.map {p : Parser α} {a : α} {r : Rel} (g : α → β) (hp : ReadsTo D E p a r) :
    ReadsTo D E (p >>= fun x => pure (g x)) (g a) r := by
  intro s hs rest hr
  obtain ⟨h3, h4⟩ := hp s hs rest hr
  rw [bind_apply, h3]
  exact ⟨rfl, h4⟩

theorem ReadsTo.rep {p : Parser α} {r : α → Rel} (l : List α) (hp : ∀ a ∈ l, ReadsTo D D p a (r a)) :
    ReadsTo D D (Msh.rep l.length p) l (Rel.many r l) := Reads.rep' l hp

theorem ReadsTo.weaken {p : Parser α} {a : α} {r : Rel} (hp : ReadsTo D E p a r) : ReadsTo D Tr p a r :=
  fun s hs rest hr => ⟨(hp s hs rest hr).1, trivial⟩

theorem ReadsTo.strong {p : Parser α} {a : α} {r : Rel} (hp : ReadsTo Tr E p a r) : ReadsTo D E p a r :=
  fun s hs rest _ => hp s hs rest trivial

end

theorem rd_sp : ReadsTo Tr Delim sp () oneBlank := by
  rintro s rfl rest -
  refine ⟨rfl, ?_⟩
  intro c hc
  simp at hc
  subst hc
  decide

theorem rd_eol : ReadsTo Tr Delim eol () lineEnd := by
  rintro s (rfl | rfl) rest -
  all_goals
    refine ⟨rfl, ?_⟩
    intro c hc
    simp at hc
    subst hc
    decide

theorem rd_bare (w : Txt) : ReadsTo Tr Tr (litNoSkip w) () (bare w) := by
  rintro s rfl rest -
  refine ⟨?_, trivial⟩
  simp only [litNoSkip, strip_append]
  rfl

theorem rd_uint (n : ℕ) : ReadsTo Delim Tr rawUint n (uintWord n) := by
  rintro s ⟨h, hd⟩ rest hr
  refine ⟨?_, trivial⟩
  simp only [rawUint, bind_apply, digits_spec hd (delim_noDigit hr), Option.bind_some, require, if_pos h, pure_apply]

theorem rd_int (i : ℤ) : ReadsTo Delim Tr rawInt i (intWord i) := by
  rintro s ⟨h1, h2, σ, n, hi, w, d, hw, hd, rfl⟩ rest hr
  refine ⟨?_, trivial⟩
  obtain ⟨b, h3, h4⟩ := sign_spec hw hd.1 hd.2.1 rest
  have h5 := digits_spec hd (delim_noDigit hr)
  have h6 : (if b = true then -(n : ℤ) else n) = i := by
    rw [hi, h4]
    cases b <;> simp
  rw [rawInt, List.append_assoc]
  simp only [bind_apply, h3, Option.bind_some, h5, h6, require, pure_apply]
  rw [if_pos ⟨h1, h2⟩]
  rfl

theorem rd_real (x : ℚ) : ReadsTo Delim Tr rawReal x (realWord x) := by
  rintro s ⟨σ, n, y, e, hx, v, d, fr, ex, hv, hd, hf, he, rfl⟩ rest hr
  have h := (reads_textReal x ([' '] ++ (v ++ d ++ fr ++ ex)) ⟨σ, n, y, e, hx, v, d, fr, ex, hv, hd, hf, he, [' '], by simp,
    by intro c hc; simp at hc; simp [hc], rfl⟩ rest hr).1
  obtain ⟨c, w, hcw, hc⟩ := sign_head hv hd.1 hd.2.1 (fr ++ ex)
  rw [← List.append_assoc] at hcw
  rw [textReal, List.append_assoc, skip_blank_append (by intro c hc; simp at hc; simp [hc]), hcw, List.cons_append,
    skip_word hc, ← List.cons_append, ← hcw] at h
  exact ⟨h, trivial⟩

theorem rd_nodeLine (n : ℕ × Vec ℚ) : ReadsTo Tr Tr nodeText2 n (nodeLine n) := by
  obtain ⟨a, x, y, z⟩ := n
  exact (rd_uint a).bind (rd_sp.bind ((rd_real x).bind (rd_sp.bind ((rd_real y).bind (rd_sp.bind ((rd_real z).bind
    (ReadsTo.map (fun _ => (a, (x, y, z))) rd_eol)))))))

/-! ## Elements of text files -/

theorem delim_digits {s : Txt} (h : NoDigit s) : digits s = none := by
  cases s with
  | nil => rfl
  | cons c t =>
    have := h c (by simp)
    simp [digits, this]

/-- After the nodes of an element. -/
def AfterNodes (s : Txt) : Prop := Delim s ∧ ∀ t, s = ' ' :: t → NoDigit t

theorem afterNodes_blanks {b e : Txt} (hb : ∀ c ∈ b, c = ' ' ∨ c = '\t') (he : lineEnd e) (rest : Txt) :
    AfterNodes (b ++ (e ++ rest)) := by
  have he' : Delim (e ++ rest) := (rd_eol e he rest trivial).2
  have hb' : ∀ b : Txt, (∀ c ∈ b, c = ' ' ∨ c = '\t') → Delim (b ++ (e ++ rest)) := by
    intro b hb
    cases b with
    | nil => exact he'
    | cons c b =>
      intro d hd
      simp at hd
      subst hd
      rcases hb c List.mem_cons_self with rfl | rfl <;> decide
  refine ⟨hb' b hb, ?_⟩
  intro t ht
  cases b with
  | nil =>
    exfalso
    rcases he with rfl | rfl <;> simp at ht
  | cons c b =>
    rw [List.cons_append, List.cons.injEq] at ht
    rw [← ht.2]
    exact delim_noDigit (hb' b fun d hd => hb d (List.mem_cons_of_mem _ hd))

theorem moreNodes_spec (l : List ℕ) (s : Txt) (hs : Rel.many (fun n => oneBlank ⊙ uintWord n) l s) (rest : Txt)
    (hr : AfterNodes rest) : (∀ n, l.length ≤ n → moreNodes n (s ++ rest) = some (l, rest)) ∧ Delim (s ++ rest) ∧
      l.length ≤ s.length := by
  induction l generalizing s with
  | nil =>
    obtain rfl : s = [] := hs
    refine ⟨?_, hr.1, le_refl _⟩
    intro n _
    cases n with
    | zero => rfl
    | succ n =>
      have h : spUint rest = none := by
        rw [spUint, bind_apply]
        cases h : sp rest with
        | none => rfl
        | some x =>
          simp only [sp, litNoSkip, Option.map_eq_some_iff] at h
          obtain ⟨t, ht, hx⟩ := h
          subst hx
          have h0 := strip_eq ht
          have := delim_digits (hr.2 t h0)
          simp only [Option.bind_some, rawUint, bind_apply, this, Option.bind_none]
      simp only [moreNodes, List.nil_append, h]
  | cons a l ih =>
    obtain ⟨u, v, rfl, hu, hv⟩ := hs
    obtain ⟨h1, h2, h3⟩ := ih v hv
    obtain ⟨h4, h5⟩ : spUint (u ++ (v ++ rest)) = some (a, v ++ rest) ∧ _ := (rd_sp.bind (rd_uint a)) u hu _ h2
    rw [List.append_assoc]
    refine ⟨?_, ?_, ?_⟩
    · intro n hn
      obtain ⟨m, rfl⟩ : ∃ m, n = m + 1 := ⟨n - 1, by simp at hn; omega⟩
      simp only [moreNodes, h4, h1 m (by simpa using hn), Option.map_some]
    · exact h5
    · obtain ⟨u1, u2, rfl, h6, -⟩ := hu
      obtain rfl : u1 = [' '] := h6
      simp only [List.length_cons, List.length_append, List.length_nil]
      omega

theorem nodeList_spec {a : ℕ} {l : List ℕ} {s : Txt} (hs : numberList (a :: l) s) {rest : Txt} (hr : AfterNodes rest) :
    nodeList (s ++ rest) = some (a :: l, rest) := by
  obtain ⟨u, v, rfl, hu, hv⟩ := hs
  obtain ⟨h1, h2, h3⟩ := moreNodes_spec l v hv rest hr
  have h4 := (rd_uint a u hu _ h2).1
  rw [List.append_assoc, nodeList, bind_apply, h4]
  simp only [Option.bind_some]
  rw [bind_apply, show allNodes (v ++ rest) = some (l, rest) from h1 _ (by simp only [List.length_append]; omega)]
  rfl

theorem rd_intSp (i : ℤ) : ReadsTo Tr Tr partition2 i (intWord i ⊙ oneBlank) :=
  (rd_int i).bind (ReadsTo.map (fun _ => i) rd_sp)

theorem nodesOfType_pos : ∀ x ∈ nodesOfType, 0 < x.2 := by decide

/-- The end of an element. -/
theorem rd_tail (e : Elem2) : ReadsTo Tr AfterNodes (do
    blanks
    eol
    pure e : Parser Elem2) e ((fun b => ∀ c ∈ b, c = ' ' ∨ c = '\t') ⊙ lineEnd) := by
  rintro s ⟨b, s6, rfl, hb5, h6⟩ rest -
  rw [List.append_assoc]
  have e6 : blanks (b ++ (s6 ++ rest)) = some ((), s6 ++ rest) := by
    have hb : ∀ c ∈ b, (decide (c = ' ') || decide (c = '\t')) = true := by
      intro c hc
      simpa using hb5 c hc
    rw [blanks, List.dropWhile_append_of_pos hb]
    rcases h6 with rfl | rfl <;> rfl
  have e7 : eol (s6 ++ rest) = some ((), rest) := (rd_eol s6 h6 rest trivial).1
  refine ⟨?_, afterNodes_blanks hb5 h6 rest⟩
  rw [bind_apply, e6, Option.bind_some, bind_apply, e7]
  rfl

theorem rd_elemLine (e : Elem2) : ReadsTo Tr Tr elementText2 e (elemLine e) := by
  rintro s ⟨hty, tags, htags, hs⟩
  have hpos := nodesOfType_pos _ hty
  have hN : ReadsTo AfterNodes Tr nodeList e.nodes (numberList e.nodes) := by
    intro s hs rest hr
    refine ⟨?_, trivial⟩
    cases hn : e.nodes with
    | nil => rw [hn] at hpos; simp at hpos
    | cons a l => rw [hn] at hs; exact nodeList_spec hs hr
  have hnum : -2 ^ 31 ≤ (e.number : ℤ) ∧ (e.number : ℤ) < 2 ^ 31 → ((e.number : ℤ) % 2 ^ 32).toNat = e.number := by
    intro h
    omega
  have hlt : -2 ^ 31 ≤ (e.number : ℤ) ∧ (e.number : ℤ) < 2 ^ 31 := by
    obtain ⟨s1, _, rfl, h1, -⟩ := hs
    exact ⟨h1.1, h1.2.1⟩
  have hE := rd_tail ⟨((e.number : ℤ) % 2 ^ 32).toNat, e.type, e.phys, e.elementary, e.partitions, e.nodes⟩
  rw [hnum hlt] at hE
  suffices h : ∀ (q : Rel), (∀ t, (Rel.many (fun t => intWord t ⊙ oneBlank) tags ⊙ numberList e.nodes ⊙
      (fun b => ∀ c ∈ b, c = ' ' ∨ c = '\t') ⊙ lineEnd) t → q t) → ReadsTo Tr Tr (do
        let ph ← rawInt
        sp
        let el ← rawInt
        sp
        third tags.length
        let ps ← rep ((tags.length : ℤ) - 3).toNat partition2
        let ns ← nodeList
        blanks
        eol
        pure ⟨((e.number : ℤ) % 2 ^ 32).toNat, e.type, ph, el, ps, ns⟩ : Parser Elem2) e q → ∀ rest, Tr rest →
      elementText2 (s ++ rest) = some (e, rest) ∧ Tr (s ++ rest) by
    rcases htags with ⟨rfl, hp⟩ | rfl
    · refine h (intWord e.phys ⊙ oneBlank ⊙ intWord e.elementary ⊙ oneBlank ⊙ Rel.nil ⊙ Rel.nil ⊙ numberList e.nodes ⊙
        (fun b => ∀ c ∈ b, c = ' ' ∨ c = '\t') ⊙ lineEnd) ?_ ?_
      · rintro t ⟨t0, w, rfl, ⟨t1, _, rfl, ⟨p1, q1, rfl, g1, g1'⟩, t2, _, rfl, ⟨p2, q2, rfl, g2, g2'⟩, rfl⟩, hw⟩
        exact ⟨p1, q1 ++ (p2 ++ (q2 ++ w)), by simp, g1, q1, _, rfl, g1', p2, _, rfl, g2, q2, _, rfl, g2', [], _, rfl, rfl,
          [], _, rfl, rfl, hw⟩
      · have ht : ReadsTo Tr Tr (third (([e.phys, e.elementary].length : ℕ) : ℤ)) () Rel.nil := by
          rintro s rfl rest -
          exact ⟨rfl, trivial⟩
        have hr : ReadsTo Tr Tr (rep ((([e.phys, e.elementary].length : ℕ) : ℤ) - 3).toNat partition2) e.partitions Rel.nil := by
          rintro s rfl rest -
          rw [hp]
          exact ⟨rfl, trivial⟩
        refine (rd_int _).bind (rd_sp.bind ((rd_int _).bind (rd_sp.bind (ht.bind (hr.bind (hN.bind ?_))))))
        simp only [hnum hlt]
        exact hE
    · refine h (intWord e.phys ⊙ oneBlank ⊙ intWord e.elementary ⊙ oneBlank ⊙ (intWord e.partitions.length ⊙ oneBlank) ⊙
        Rel.many (fun t => intWord t ⊙ oneBlank) e.partitions ⊙ numberList e.nodes ⊙
        (fun b => ∀ c ∈ b, c = ' ' ∨ c = '\t') ⊙ lineEnd) ?_ ?_
      · rintro t ⟨t0, w, rfl, ⟨t1, _, rfl, ⟨p1, q1, rfl, g1, g1'⟩, t2, _, rfl, ⟨p2, q2, rfl, g2, g2'⟩, t3, t4, rfl, g3, g4⟩, hw⟩
        exact ⟨p1, q1 ++ (p2 ++ (q2 ++ (t3 ++ (t4 ++ w)))), by simp, g1, q1, _, rfl, g1', p2, _, rfl, g2, q2, _, rfl, g2', t3, _,
          rfl, g3, t4, _, rfl, g4, hw⟩
      · have ht : ReadsTo Tr Tr (third (((e.phys :: e.elementary :: (e.partitions.length : ℤ) :: e.partitions).length : ℕ) : ℤ))
            () (intWord e.partitions.length ⊙ oneBlank) := by
          intro s hs rest _
          have h10 : intSp (s ++ rest) = some ((), rest) := (((rd_int _).bind rd_sp) s hs rest trivial).1
          have h11 : (2 : ℤ) < ((e.phys :: e.elementary :: (e.partitions.length : ℤ) :: e.partitions).length : ℕ) := by
            simp only [List.length_cons]
            omega
          refine ⟨?_, trivial⟩
          simp only [third, if_pos h11, maybe, h10]
        have hz : ((((e.phys :: e.elementary :: (e.partitions.length : ℤ) :: e.partitions).length : ℕ) : ℤ) - 3).toNat =
            e.partitions.length := by
          simp only [List.length_cons]
          omega
        have hr : ReadsTo Tr Tr (rep ((((e.phys :: e.elementary :: (e.partitions.length : ℤ) :: e.partitions).length : ℕ) : ℤ)
            - 3).toNat partition2) e.partitions (Rel.many (fun t => intWord t ⊙ oneBlank) e.partitions) := by
          rw [hz]
          exact ReadsTo.rep e.partitions fun i _ => rd_intSp i
        refine (rd_int _).bind (rd_sp.bind ((rd_int _).bind (rd_sp.bind (ht.bind (hr.bind (hN.bind ?_))))))
        simp only [hnum hlt]
        exact hE
  intro q hq hp
  have hs' : (intWord e.number ⊙ oneBlank ⊙ intWord e.type ⊙ oneBlank ⊙ intWord tags.length ⊙ oneBlank ⊙ q) s := by
    obtain ⟨s1, _, rfl, h1, b1, _, rfl, k1, s2, _, rfl, h2, b2, _, rfl, k2, s3, _, rfl, h3, b3, t, rfl, k3, ht⟩ := hs
    exact ⟨s1, _, rfl, h1, b1, _, rfl, k1, s2, _, rfl, h2, b2, _, rfl, k2, s3, _, rfl, h3, b3, t, rfl, k3, hq t ht⟩
  exact ((rd_int _).bind (rd_sp.bind ((rd_int _).bind (rd_sp.bind ((rd_int _).bind (rd_sp.bind hp)))))) s hs'

/-! ## Sections -/

theorem rd_lit {c : Char} {w : Txt} (hc : isSpace c = false) : ReadsTo Tr Delim (lit (c :: w)) () (token (c :: w)) :=
  fun _ hs rest _ => ⟨lit_token hs hc rest, delim_token hs rest⟩

theorem rd_elemsText (l : List Elem2) : ReadsTo Tr Delim elemsText2 l (elemsTextRel l) :=
  (rd_lit (by decide)).bind (rd_eol.weaken.bind ((rd_uint _).bind (rd_eol.bind ((ReadsTo.rep l fun e _ => rd_elemLine e).bind
    (ReadsTo.map (fun _ => l) (rd_bare _))))))

theorem rd_nodesText (l : List (ℕ × Vec ℚ)) : ReadsTo Tr Delim (nodes2 nodeText2) l (nodesText2 l) := by
  refine (rd_lit (by decide)).bind (rd_eol.weaken.bind ((rd_uint _).bind (rd_eol.bind
    ((ReadsTo.rep l fun e _ => rd_nodeLine e).bind ?_))))
  rintro s rfl rest -
  refine ⟨?_, trivial⟩
  have h1 : maybe eol ("$EndNodes".toList ++ rest) = some ((), "$EndNodes".toList ++ rest) := rfl
  rw [bind_apply, h1]
  simp only [Option.bind_some, bind_apply, (rd_bare "$EndNodes".toList _ rfl rest trivial).1]
  rfl

theorem rd_word {big : Bool} {k n : ℕ} : ReadsTo Tr Tr (word big k) n (bytesOf big k n) :=
  fun _ hs rest _ => ⟨word_spec hs rest, trivial⟩

theorem rd_int4 (big : Bool) (i : ℤ) : ReadsTo Tr Tr (binInt big) i (int4 big i) := (soundBinary big).int i

theorem rd_nodesBinary (big : Bool) (l : List (ℕ × Vec ℕ)) : ReadsTo Tr Delim (nodes2 (nodeBin2 big)) l (nodesBinary big l) := by
  have h : ∀ n : ℕ × Vec ℕ, ReadsTo Tr Tr (nodeBin2 big) n (nodeBytes big n) := by
    rintro ⟨a, x, y, z⟩
    exact rd_word.bind (rd_word.bind (rd_word.bind (ReadsTo.map (fun z => (a, (x, y, z))) rd_word)))
  refine (rd_lit (by decide)).bind (rd_eol.weaken.bind ((rd_uint _).bind (rd_eol.bind
    ((ReadsTo.rep l fun e _ => h e).bind ?_))))
  rintro s ⟨u, v, rfl, hu, rfl⟩ rest -
  refine ⟨?_, trivial⟩
  have h1 : maybe eol (u ++ ("$EndNodes".toList ++ rest)) = some ((), "$EndNodes".toList ++ rest) := by
    rw [maybe, (rd_eol u hu _ trivial).1]
  rw [List.append_assoc, bind_apply, h1]
  simp only [Option.bind_some, bind_apply, (rd_bare "$EndNodes".toList _ rfl rest trivial).1]
  rfl

/-! ## Binary elements -/

theorem rd_elemBytes (big : Bool) (ty : ℤ) (k : ℕ) (e : Elem2) :
    ReadsTo Tr Tr (elementBin2 big ty k e.nodes.length) e (elemBytes big ty k e) := by
  rintro s ⟨hty, -, tags, ht, hk, hs⟩
  have hN : ReadsTo Tr Tr (rep e.nodes.length (word big 4)) e.nodes (Rel.many (bytesOf big 4) e.nodes) :=
    ReadsTo.rep e.nodes fun n _ => rd_word
  have hE := ReadsTo.map (fun ns => (⟨e.number, ty, e.phys, e.elementary, e.partitions, ns⟩ : Elem2)) hN
  rcases ht with ⟨rfl, hp⟩ | rfl
  · have ht : ReadsTo Tr Tr (thirdBin big k) () Rel.nil := by
      rintro s rfl rest -
      rw [← hk]
      exact ⟨rfl, trivial⟩
    have hr : ReadsTo Tr Tr (rep ((k : ℤ) - 3).toNat (binInt big)) e.partitions Rel.nil := by
      rintro s rfl rest -
      rw [hp, ← hk]
      exact ⟨rfl, trivial⟩
    have h0 := (rd_word (big := big) (k := 4) (n := e.number)).bind (h := fun n => do
      let ph ← binInt big
      let el ← binInt big
      thirdBin big k
      let ps ← rep ((k : ℤ) - 3).toNat (binInt big)
      let ns ← rep e.nodes.length (word big 4)
      pure (⟨n, ty, ph, el, ps, ns⟩ : Elem2)) ((rd_int4 big e.phys).bind ((rd_int4 big e.elementary).bind (ht.bind (hr.bind hE))))
    have h1 : (⟨e.number, ty, e.phys, e.elementary, e.partitions, e.nodes⟩ : Elem2) = e := by rw [← hty]
    rw [h1] at h0
    refine h0 s ?_
    obtain ⟨s1, _, rfl, g1, _, s2, rfl, ⟨p1, _, rfl, g2, p2, _, rfl, g3, rfl⟩, g4⟩ := hs
    exact ⟨s1, _, rfl, g1, p1, p2 ++ s2, by simp, g2, p2, s2, rfl, g3, [], s2, rfl, rfl, [], s2, rfl, rfl, g4⟩
  · have hlt : (2 : ℤ) < (k : ℤ) := by
      simp only [List.length_cons] at hk
      omega
    have ht : ReadsTo Tr Tr (thirdBin big k) () (int4 big e.partitions.length) := by
      intro s hs rest _
      have h10 : skipWord big (s ++ rest) = some ((), rest) := by
        have := word_spec hs.2.2 rest
        simp only [skipWord, bind_apply, this, Option.bind_some, pure_apply]
      refine ⟨?_, trivial⟩
      simp only [thirdBin, if_pos hlt, maybe, h10]
    have hz : ((k : ℤ) - 3).toNat = e.partitions.length := by
      simp only [List.length_cons] at hk
      omega
    have hr : ReadsTo Tr Tr (rep ((k : ℤ) - 3).toNat (binInt big)) e.partitions (Rel.many (int4 big) e.partitions) := by
      rw [hz]
      exact ReadsTo.rep e.partitions fun i _ => rd_int4 big i
    have h0 := (rd_word (big := big) (k := 4) (n := e.number)).bind (h := fun n => do
      let ph ← binInt big
      let el ← binInt big
      thirdBin big k
      let ps ← rep ((k : ℤ) - 3).toNat (binInt big)
      let ns ← rep e.nodes.length (word big 4)
      pure (⟨n, ty, ph, el, ps, ns⟩ : Elem2)) ((rd_int4 big e.phys).bind ((rd_int4 big e.elementary).bind (ht.bind (hr.bind hE))))
    have h1 : (⟨e.number, ty, e.phys, e.elementary, e.partitions, e.nodes⟩ : Elem2) = e := by rw [← hty]
    rw [h1] at h0
    refine h0 s ?_
    obtain ⟨s1, _, rfl, g1, _, s2, rfl, ⟨p1, _, rfl, g2, p2, _, rfl, g3, p3, p4, rfl, g5, g6⟩, g4⟩ := hs
    exact ⟨s1, _, rfl, g1, p1, p2 ++ (p3 ++ (p4 ++ s2)), by simp, g2, p2, _, rfl, g3, p3, _, rfl, g5, p4, s2, rfl, g6, g4⟩

theorem pushElems_spec (big : Bool) (ty : ℤ) (k kk : ℕ) (hk : numNodes ty = some kk) (l : List Elem2) (s : Txt)
    (hs : Rel.many (elemBytes big ty k) l s) (rest : Txt) :
    pushElems big ty k kk l.length (s ++ rest) = (l, some rest) := by
  induction l generalizing s with
  | nil =>
    cases hs
    rfl
  | cons e l ih =>
    obtain ⟨u, v, rfl, hu, hv⟩ := hs
    have h1 : kk = e.nodes.length := by
      have := numNodes_spec (soundBinary false) _ _ hu.2.1
      rw [hk] at this
      exact Option.some.inj this
    have h2 := (rd_elemBytes big ty k e u hu (v ++ rest) trivial).1
    rw [List.append_assoc, List.length_cons]
    subst h1
    simp only [pushElems, h2, ih v hv]

theorem rd_header (big : Bool) (b : ℤ) (c d : ℕ) : ReadsTo Tr Tr (blockHeader big) (b, c, (d : ℤ))
    (int4 big b ⊙ int4 big c ⊙ int4 big d) := by
  refine (rd_int4 big b).bind ?_
  have hc : ReadsTo Tr Tr (word big 4) c (int4 big c) := by
    rintro s ⟨h1, h2, h3⟩ rest -
    refine ⟨?_, trivial⟩
    have : (((c : ℕ) : ℤ) % 2 ^ 32).toNat = c := by omega
    rw [this] at h3
    exact word_spec h3 rest
  exact hc.bind (ReadsTo.map (fun d => (b, c, d)) (rd_int4 big d))

theorem blocks2_spec (big : Bool) (a : ℕ) (ha : a < 2 ^ 32) (blocks : List (ℤ × ℕ × List Elem2)) (fuel e : ℕ) (acc : List Elem2)
    (s : Txt) (hs : Rel.many (blockBytes big) blocks s) (rest : Txt) (hf : blocks.length ≤ fuel)
    (he : e + (blocks.flatMap fun b => b.2.2).length = a) :
    blocks2 big a fuel e acc (s ++ rest) = some (acc ++ blocks.flatMap fun b => b.2.2, rest) := by
  induction blocks generalizing fuel e acc s with
  | nil =>
    cases hs
    have : ¬ e < a := by simp at he; omega
    cases fuel with
    | zero => simp [blocks2]
    | succ n => simp [blocks2, this]
  | cons b blocks ih =>
    obtain ⟨_, v, rfl, ⟨hne, u1, _, rfl, g1, u2, _, rfl, g2, u3, u4, rfl, g3, g4⟩, hv⟩ := hs
    obtain ⟨n, rfl⟩ : ∃ n, fuel = n + 1 := ⟨fuel - 1, by simp at hf; omega⟩
    obtain ⟨e0, l0, hl0⟩ := List.exists_cons_of_ne_nil hne
    have hlen : 0 < b.2.2.length := List.length_pos_of_ne_nil hne
    simp only [List.flatMap_cons, List.length_append] at he ⊢
    have hlt : e < a := by omega
    have hH : blockHeader big (u1 ++ (u2 ++ (u3 ++ (u4 ++ (v ++ rest))))) =
        some ((b.1, b.2.2.length, (b.2.1 : ℤ)), u4 ++ (v ++ rest)) := by
      have := (rd_header big b.1 b.2.2.length b.2.1 (u1 ++ (u2 ++ u3)) ⟨u1, _, rfl, g1, u2, u3, rfl, g2, g3⟩
        (u4 ++ (v ++ rest)) trivial).1
      simpa using this
    have hn : ∃ kk, numNodes b.1 = some kk := by
      rw [hl0] at g4
      obtain ⟨w, _, rfl, ⟨-, h, -⟩, -⟩ := g4
      exact ⟨_, numNodes_spec (soundBinary false) _ _ h⟩
    obtain ⟨kk, hkk⟩ := hn
    have h3 : (toInt32 b.2.2.length).toNat = b.2.2.length := by
      have := g2.2.1
      have : b.2.2.length < 2 ^ 31 := by omega
      rw [toInt32, if_pos this]
      simp
    have hP := pushElems_spec big b.1 b.2.1 kk hkk b.2.2 u4 g4 (v ++ rest)
    have hm : (e + b.2.2.length) % 2 ^ 32 = e + b.2.2.length := Nat.mod_eq_of_lt (by omega)
    simp only [List.append_assoc, blocks2, if_pos hlt, hH, hkk, h3, hP, hm]
    rw [ih n _ _ v hv (by simpa using hf) (by omega)]
    simp

theorem rd_elemsBinary (big : Bool) (l : List Elem2) : ReadsTo Tr Delim (elemsBin2 big) l (elemsBinary big l) := by
  rintro s ⟨blocks, hl, hs⟩
  have hB : ∀ n, n = l.length → n < 2 ^ 32 → ReadsTo Tr Tr (allBlocks big n) l (Rel.many (blockBytes big) blocks) := by
    rintro n rfl hn s hs rest -
    refine ⟨?_, trivial⟩
    have : ∀ (bs : List (ℤ × ℕ × List Elem2)) (s : Txt), Rel.many (blockBytes big) bs s → bs.length ≤ s.length := by
      intro bs
      induction bs with
      | nil => simp
      | cons b bs ih =>
        rintro _ ⟨_, v, rfl, ⟨-, u1, u2, rfl, g1, -⟩, hv⟩
        have h1 := ih v hv
        obtain ⟨-, -, w, hw, -, -, rfl⟩ := g1
        simp only [List.length_cons, List.length_append, List.length_map, hw]
        omega
    have h1 := this blocks s hs
    have h2 := blocks2_spec big l.length hn blocks (s ++ rest).length 0 [] s hs rest (by simp; omega) (by rw [← hl]; simp)
    rw [← hl, List.nil_append] at h2
    exact h2
  have hlt : l.length < 2 ^ 32 := by
    obtain ⟨_, _, rfl, -, _, _, rfl, -, _, _, rfl, h, -⟩ := hs
    exact h.1
  exact ((rd_lit (by decide)).bind (rd_eol.weaken.bind ((rd_uint _).bind (rd_eol.bind ((hB _ rfl hlt).bind
    (rd_eol.weaken.bind (ReadsTo.map (fun _ => l) (rd_bare _)))))))) s hs

/-! ## The sections with white space -/

theorem rd_textInt (i : ℤ) : ReadsTo Delim Delim textInt i (intText i) := reads_textInt i

theorem rd_textUint (n : ℕ) : ReadsTo Delim Delim textUint n (uintText n) := by
  rintro s ⟨h1, d, hd, b, hb0, hb, rfl⟩ rest hr
  refine ⟨?_, delim_token ⟨b, hb0, hb, rfl⟩ rest⟩
  obtain ⟨c, t, rfl⟩ := List.exists_cons_of_ne_nil hd.1
  have hsp : isSpace c = false := by
    have := hd.2.1 c List.mem_cons_self
    by_contra h
    have h2 := (isSpace_iff c).1 (by simpa using h)
    simp only [List.mem_cons, List.not_mem_nil, or_false] at h2
    rcases h2 with rfl | rfl | rfl | rfl | rfl | rfl <;> revert this <;> decide
  rw [textUint, skip_token ⟨b, hb0, hb, rfl⟩ rfl hsp]
  exact (rd_uint n _ ⟨h1, hd⟩ rest hr).1

theorem rd_kw {c : Char} {w : Txt} (hc : isSpace c = false) : ReadsTo Delim Delim (lit (c :: w)) () (token (c :: w)) :=
  (rd_lit hc).strong

theorem rd_namesBody (l : List PhysName) : ReadsTo Delim Delim namesBody2 l
    (intText l.length ⊙ Rel.many nameText l ⊙ token "$EndPhysicalNames".toList) := by
  refine (rd_textInt _).bind ?_
  intro s hs rest hr
  have h0 : ReadsTo Delim Delim (do
      let l ← rep l.length physName
      lit "$EndPhysicalNames".toList
      pure l) l (Rel.many nameText l ⊙ token "$EndPhysicalNames".toList) :=
    (ReadsTo.rep l fun p _ => reads_name p).bind (ReadsTo.map (fun _ => l) (rd_kw (by decide)))
  have h1 := h0 s hs rest hr
  refine ⟨?_, h1.2⟩
  have h2 : require (0 ≤ ((l.length : ℕ) : ℤ)) (s ++ rest) = some ((), s ++ rest) := by
    rw [require, if_pos (by omega)]
  rw [bind_apply, h2]
  exact h1.1

theorem rd_periodic (p : Periodic2) : ReadsTo Delim Delim periodic2 ⟨p.dim, p.slave, p.master, []⟩ (periodicText p) := by
  refine (rd_textInt _).bind ((rd_textInt _).bind ((rd_textInt _).bind ((rd_textUint _).bind ?_)))
  exact ReadsTo.map (fun _ => _) (ReadsTo.rep p.nodes fun n _ =>
    (rd_textUint n.1).bind (ReadsTo.map (fun y => (n.1, y)) (rd_textUint n.2)))

theorem rd_periodicBody (l : List Periodic2) : ReadsTo Delim Delim periodicBody2 []
    (uintText l.length ⊙ Rel.many periodicText l ⊙ token "$EndPeriodic".toList) :=
  (rd_textUint _).bind ((show ReadsTo Delim Delim (rep l.length periodic2) _ _ from
    Reads.rep (h := fun p : Periodic2 => (⟨p.dim, p.slave, p.master, []⟩ : Periodic2)) l fun p _ => rd_periodic p).bind
    (ReadsTo.map (fun _ => []) (rd_kw (by decide))))

/-! ## The whole file -/

/-- The names of the sections. -/
def names2 : List Txt := ["PhysicalNames".toList, "Nodes".toList, "Elements".toList, "Periodic".toList]

theorem reserved2_eq : reserved2 = names2.map fun k => '$' :: k := by rfl

theorem com2 : Reads Delim (textComment reserved2) () comment2 := comment_spec reserved2_eq (by decide)

theorem com2_pos : ∀ s, comment2 s → s ≠ [] := by
  rintro s ⟨name, nl, body, -, -, -, -, -, -, b, h0, -, rfl⟩ h
  simp at h

theorem delim_blank {s : Txt} (hs : Blank s) : Delim s := fun c hc => blank_space hs c (List.mem_of_mem_head? hc)

/-- An optional section before something which is neither a comment nor this section. -/
theorem optional2_spec {α : Type} {dflt a b : α} {k : Txt} (hk : k ∈ names2) {body : Parser α} {r : Rel}
    (hb : ReadsTo Delim Delim body b r) (hd : a = dflt → b = dflt) (s : Txt)
    (hs : Rel.opt dflt a ((token ('$' :: k) ⊙ r) ⊙ comment2.star) s) (rest : Txt) (hr : Delim rest)
    (hn : textComment reserved2 rest = none) (ho : lit ('$' :: k) rest = none) :
    optional (textComment reserved2) dflt (lit ('$' :: k)) body (s ++ rest) = some (b, rest) ∧ Delim (s ++ rest) ∧
      textComment reserved2 (s ++ rest) = none := by
  rcases hs with ⟨h0, rfl⟩ | ⟨_, w, rfl, ⟨u, v, rfl, hu, hv⟩, hw⟩
  · refine ⟨?_, hr, hn⟩
    simp only [optional, List.nil_append, ho, hd h0]
  · obtain ⟨h1, h2⟩ := comments_spec com2 com2_pos w hw rest hr hn
    obtain ⟨h3, h4⟩ := hb v hv _ h2
    obtain ⟨h5, h6⟩ := rd_kw (by decide) u hu _ h4
    simp only [List.append_assoc]
    refine ⟨?_, h6, com_open_text reserved2_eq k hk u hu _⟩
    simp only [optional, h5, bind_apply, h3, Option.bind_some, h1, pure_apply]

theorem start2_spec {R : Type} {node : Parser (ℕ × Vec R)} {el : Parser (List Elem2)} {nR : List (ℕ × Vec R) → Rel}
    {eR : List Elem2 → Rel} (hN : ∀ l, ReadsTo Tr Delim (nodes2 node) l (nR l))
    (hE : ∀ l, ReadsTo Tr Delim el l (eR l))
    (hN' : ∀ l s, nR l s → ∃ u v, s = u ++ v ∧ token "$Nodes".toList u)
    (hE' : ∀ l s, eR l s → ∃ u v, s = u ++ v ∧ token "$Elements".toList u) (F : MshFile2 R) (s : Txt)
    (hs : fileRel2 nR eR F s) (rest : Txt) (hr : Delim rest) (hcom : textComment reserved2 rest = none)
    (hblank : lit "$Periodic".toList rest = none) :
    start2 node el (s ++ rest) = some ({ F with periodic := [] }, rest) := by
  obtain ⟨s1, _, rfl, k1, s2, _, rfl, k2, s3, _, rfl, k3, s4, _, rfl, k4, s5, _, rfl, k5, s6, s7, rfl, k6, k7⟩ := hs
  obtain ⟨a7, b7, c7⟩ := optional2_spec (k := "Periodic".toList) (by decide) (rd_periodicBody F.periodic) (fun _ => rfl) s7 k7 rest
    hr hcom hblank
  obtain ⟨a6, b6⟩ := comments_spec com2 com2_pos s6 k6 _ b7 c7
  obtain ⟨a5, b5⟩ := hE _ s5 k5 (s6 ++ (s7 ++ rest)) trivial
  have c5 : textComment reserved2 (s5 ++ (s6 ++ (s7 ++ rest))) = none := by
    obtain ⟨u, v, rfl, hu⟩ := hE' _ _ k5
    rw [List.append_assoc]
    exact com_open_text reserved2_eq "Elements".toList (by decide) u hu _
  obtain ⟨a4, b4⟩ := comments_spec com2 com2_pos s4 k4 _ b5 c5
  obtain ⟨a3, b3⟩ := hN _ s3 k3 (s4 ++ (s5 ++ (s6 ++ (s7 ++ rest)))) trivial
  have c3 : textComment reserved2 (s3 ++ (s4 ++ (s5 ++ (s6 ++ (s7 ++ rest))))) = none ∧
      lit "$PhysicalNames".toList (s3 ++ (s4 ++ (s5 ++ (s6 ++ (s7 ++ rest))))) = none := by
    obtain ⟨u, v, rfl, hu⟩ := hN' _ _ k3
    rw [List.append_assoc]
    exact ⟨com_open_text reserved2_eq "Nodes".toList (by decide) u hu _, lit_differ hu (by decide) (by decide) _⟩
  obtain ⟨a2, b2, c2⟩ := optional2_spec (k := "PhysicalNames".toList) (by decide) (rd_namesBody F.names) (fun h => h) s2 k2 _ b3
    c3.1 c3.2
  obtain ⟨a1, b1⟩ := comments_spec com2 com2_pos s1 k1 _ b2 c2
  simp only [List.append_assoc] at *
  have a2' : optional (textComment reserved2) [] (lit "$PhysicalNames".toList) namesBody2
      (s2 ++ (s3 ++ (s4 ++ (s5 ++ (s6 ++ (s7 ++ rest)))))) = some (F.names, _) := a2
  have a7' : optional (textComment reserved2) [] (lit "$Periodic".toList) periodicBody2 (s7 ++ rest) = some ([], rest) := a7
  simp only [start2, bind_apply, a1, a2', a3, a4, a5, a6, a7', Option.bind_some, pure_apply]

theorem whole_some {α : Type} {p : Parser α} {s r : Txt} {a : α} (h : p s = some (a, r)) (hr : Blank r) : whole p s = some a := by
  rw [whole, h, Option.bind_some, if_pos (skip_blank hr)]

theorem readGmshFile_text {h s : Txt} (hh : headText2 h) :
    readGmshFile (h ++ s) = (whole (start2 nodeText2 elemsText2) s).map .text2 := by
  rw [readGmshFile, header_textV (by decide) (by decide) h hh]
  rfl

theorem readGmshFile_binary {big : Bool} {h s : Txt} (hh : headBinary2 big h) :
    readGmshFile (h ++ s) = (whole (start2 (nodeBin2 big) (elemsBin2 big)) s).map .binary2 := by
  rw [readGmshFile, header_binaryV (by decide) (by decide) big h hh]
  have h1 : ¬ "2.2".toList = "4.1".toList := by decide
  cases big
  · rfl
  · have h0 : ¬ ((2 : ℤ) ^ 24 = 1) := by norm_num
    simp only [Option.bind_some, readFileV2, if_true, and_self, Bool.not_true, Bool.false_eq_true, if_false, if_neg h0,
      if_neg h1]

/-! ## Every accepted file -/

theorem post_eol : Post eol Any := by
  intro s a r hs
  refine ⟨trivial, ?_⟩
  unfold eol at hs
  split at hs <;> cases hs
  · exact (List.suffix_cons _ _).trans (List.suffix_cons _ _)
  · exact List.suffix_cons _ _
  · exact List.suffix_cons _ _

theorem post_maybe {p : Parser Unit} (hp : Post p Any) : Post (maybe p) Any := by
  intro s a r hs
  refine ⟨trivial, ?_⟩
  unfold maybe at hs
  split at hs
  · cases hs; exact List.suffix_rfl
  · rename_i x hx
    cases hs
    exact (hp _ _ _ hx).2

theorem post_rawUint : Post rawUint Any :=
  Post.bind up_any post_digits fun _ _ _ => Post.bind up_any (post_require _) fun _ _ _ => Post.pure fun _ => trivial

theorem post_textUint : Post textUint Any := post_skip post_rawUint

theorem post_rawInt : Post rawInt Any :=
  Post.bind up_any post_sign fun _ _ _ => Post.bind up_any post_digits fun _ _ _ =>
    Post.bind up_any (post_require _) fun _ _ _ => Post.pure fun _ => trivial

theorem post_rawReal : Post rawReal Any :=
  Post.bind up_any post_sign fun _ _ _ => Post.bind up_any post_mantissa fun _ _ _ => Post.map _ post_exponent

theorem post_sp : Post sp Any := post_any (post_litNoSkip _)

theorem post_nodeText : Post nodeText2 Any :=
  Post.bind up_any post_rawUint fun _ _ _ => Post.bind up_any post_sp fun _ _ _ => Post.bind up_any post_rawReal fun _ _ _ =>
    Post.bind up_any post_sp fun _ _ _ => Post.bind up_any post_rawReal fun _ _ _ => Post.bind up_any post_sp fun _ _ _ =>
    Post.bind up_any post_rawReal fun _ _ _ => Post.map _ post_eol

theorem post_third (a : ℤ) : Post (third a) Any := by
  intro s x r hs
  unfold third at hs
  split_ifs at hs
  · exact post_maybe (Post.bind up_any post_rawInt fun _ _ _ => post_sp) _ _ _ hs
  · cases hs
    exact ⟨trivial, List.suffix_rfl⟩

theorem post_moreNodes (n : ℕ) : Post (moreNodes n) Any := by
  induction n with
  | zero => intro s a r hs; cases hs; exact ⟨trivial, List.suffix_rfl⟩
  | succ n ih =>
    intro s a r hs
    refine ⟨trivial, ?_⟩
    simp only [moreNodes] at hs
    split at hs
    · cases hs; exact List.suffix_rfl
    · rename_i x t h
      rw [Option.map_eq_some_iff] at hs
      obtain ⟨y, hy, hs⟩ := hs
      cases hs
      have h1 : Post spUint Any := Post.bind up_any post_sp fun _ _ _ => post_rawUint
      exact (ih _ _ _ hy).2.trans (h1 _ _ _ h).2

theorem post_nodeList : Post nodeList Any :=
  Post.bind up_any post_rawUint fun _ _ _ => Post.map _ fun s a r hs => post_moreNodes s.length s a r hs

theorem post_blanks : Post blanks Any := by
  intro s a r hs
  simp only [blanks, Option.some.injEq] at hs
  cases hs
  exact ⟨trivial, List.dropWhile_suffix _⟩

theorem post_elementText : Post elementText2 Any :=
  Post.bind up_any post_rawInt fun _ _ _ => Post.bind up_any post_sp fun _ _ _ => Post.bind up_any post_rawInt fun _ _ _ =>
    Post.bind up_any post_sp fun _ _ _ => Post.bind up_any post_rawInt fun _ _ _ => Post.bind up_any post_sp fun _ _ _ =>
    Post.bind up_any post_rawInt fun _ _ _ => Post.bind up_any post_sp fun _ _ _ => Post.bind up_any post_rawInt fun _ _ _ =>
    Post.bind up_any post_sp fun _ _ _ => Post.bind up_any (post_third _) fun _ _ _ =>
    Post.bind up_any (Post.repAny (Post.bind up_any post_rawInt fun _ _ _ => Post.map _ post_sp) _) fun _ _ _ =>
    Post.bind up_any post_nodeList fun _ _ _ => Post.bind up_any post_blanks fun _ _ _ => Post.map _ post_eol

theorem post_end {α : Type} (k : Txt) (a : α) : Post (do litNoSkip k; pure a : Parser α) fun _ s => k <:+: s := by
  intro s b r hs
  rw [bind_apply] at hs
  cases h1 : litNoSkip k s with
  | none => rw [h1] at hs; simp at hs
  | some x =>
    rw [h1] at hs
    simp only [Option.bind_some, pure_apply] at hs
    cases hs
    exact post_litNoSkip k _ _ _ h1

theorem up_infix {α : Type} (k : Txt) : Up fun (_ : α) s => k <:+: s := fun _ _ _ h hs => h.trans hs.isInfix

theorem post_elemsText : Post elemsText2 fun _ s => "$EndElements".toList <:+: s :=
  Post.bind (up_infix _) (post_any (post_lit _)) fun _ _ _ => Post.bind (up_infix _) post_eol fun _ _ _ =>
    Post.bind (up_infix _) post_rawUint fun _ _ _ => Post.bind (up_infix _) post_eol fun _ _ _ =>
    Post.bind (up_infix _) (Post.repAny post_elementText _) fun _ _ _ => post_end _ _

theorem post_nodes2 {R : Type} {node : Parser (ℕ × Vec R)} (h : Post node Any) :
    Post (nodes2 node) fun _ s => "$EndNodes".toList <:+: s :=
  Post.bind (up_infix _) (post_any (post_lit _)) fun _ _ _ => Post.bind (up_infix _) post_eol fun _ _ _ =>
    Post.bind (up_infix _) post_rawUint fun _ _ _ => Post.bind (up_infix _) post_eol fun _ _ _ =>
    Post.bind (up_infix _) (Post.repAny h _) fun _ _ _ => Post.bind (up_infix _) (post_maybe post_eol) fun _ _ _ => post_end _ _

theorem post_nodeBin (big : Bool) : Post (nodeBin2 big) Any :=
  Post.bind up_any (post_word _ _) fun _ _ _ => Post.bind up_any (post_word _ _) fun _ _ _ =>
    Post.bind up_any (post_word _ _) fun _ _ _ => Post.map _ (post_word _ _)

theorem post_elementBin (big : Bool) (ty ntags : ℤ) (k : ℕ) :
    Post (elementBin2 big ty ntags k) fun e _ => e.type = ty ∧ e.nodes.length = k := by
  have ht : Post (thirdBin big ntags) Any := by
    intro s x r hs
    unfold thirdBin at hs
    split_ifs at hs
    · exact post_maybe (Post.bind up_any (post_word _ _) fun _ _ _ => Post.pure fun _ => trivial) _ _ _ hs
    · cases hs
      exact ⟨trivial, List.suffix_rfl⟩
  exact Post.bind (up_const _) (post_word _ _) fun _ _ _ => Post.bind (up_const _) (post_binInt _) fun _ _ _ =>
    Post.bind (up_const _) (post_binInt _) fun _ _ _ => Post.bind (up_const _) ht fun _ _ _ =>
    Post.bind (up_const _) (Post.repAny (post_binInt _) _) fun _ _ _ =>
    Post.bind (up_const _) (Post.repLen (post_word _ _) _) fun _ _ h => Post.pure fun _ => ⟨rfl, h⟩

theorem pushElems_post (big : Bool) (ty ntags : ℤ) (k n : ℕ) (s : Txt) :
    (∀ e ∈ (pushElems big ty ntags k n s).1, e.type = ty ∧ e.nodes.length = k) ∧
      ∀ r, (pushElems big ty ntags k n s).2 = some r → r <:+ s := by
  induction n generalizing s with
  | zero => exact ⟨by simp [pushElems], fun r hr => by cases hr; exact List.suffix_rfl⟩
  | succ n ih =>
    rw [pushElems]
    split
    · exact ⟨by simp, by simp⟩
    · rename_i e r h
      obtain ⟨h1, h2⟩ := post_elementBin big ty ntags k _ _ _ h
      refine ⟨?_, fun r' hr' => ((ih r).2 r' hr').trans h2⟩
      intro e' he'
      rcases List.mem_cons.1 he' with rfl | he'
      · exact h1
      · exact (ih r).1 e' he'

/-- The number of nodes belongs to the type. -/
def Elem2.Valid (e : Elem2) : Prop := (e.type, e.nodes.length) ∈ nodesOfType

theorem blocks2_post (big : Bool) (a fuel e : ℕ) (acc : List Elem2) (s : Txt) (l : List Elem2) (r : Txt)
    (hacc : ∀ e ∈ acc, e.Valid) (h : blocks2 big a fuel e acc s = some (l, r)) : (∀ e ∈ l, e.Valid) ∧ r <:+ s := by
  induction fuel generalizing e acc s with
  | zero =>
    cases h
    exact ⟨hacc, List.suffix_rfl⟩
  | succ n ih =>
    rw [blocks2] at h
    split_ifs at h
    · split at h
      · cases h
        exact ⟨hacc, List.suffix_rfl⟩
      · rename_i b c d r' hh
        have hsuf : r' <:+ s := by
          have : Post (blockHeader big) Any := Post.bind up_any (post_binInt _) fun _ _ _ =>
            Post.bind up_any (post_word _ _) fun _ _ _ => Post.map _ (post_binInt _)
          exact (this _ _ _ hh).2
        split at h
        · split_ifs at h
          obtain ⟨h1, h2⟩ := ih _ _ _ hacc h
          exact ⟨h1, h2.trans hsuf⟩
        · rename_i k hk
          have hP := pushElems_post big b d k (toInt32 c).toNat r'
          have hacc' : ∀ l' : List Elem2, (∀ e ∈ l', e.type = b ∧ e.nodes.length = k) → ∀ e ∈ acc ++ l', e.Valid := by
            intro l' hl' e he
            rcases List.mem_append.1 he with he | he
            · exact hacc e he
            · obtain ⟨h3, h4⟩ := hl' e he
              rw [Elem2.Valid, h3, h4]
              exact numNodes_mem _ _ hk
          split at h
          · rename_i l' heq
            rw [heq] at hP
            cases h
            exact ⟨hacc' l' hP.1, List.suffix_rfl⟩
          · rename_i l' r'' heq
            rw [heq] at hP
            obtain ⟨h1, h2⟩ := ih _ _ _ (hacc' l' hP.1) h
            exact ⟨h1, h2.trans ((hP.2 _ rfl).trans hsuf)⟩
    · cases h
      exact ⟨hacc, List.suffix_rfl⟩

theorem post_elemsBin (big : Bool) : Post (elemsBin2 big) fun l s => "$EndElements".toList <:+: s ∧ ∀ e ∈ l, e.Valid := by
  have up : Up fun (l : List Elem2) s => "$EndElements".toList <:+: s ∧ ∀ e ∈ l, e.Valid :=
    fun _ _ _ h hs => ⟨h.1.trans hs.isInfix, h.2⟩
  refine Post.bind up (post_any (post_lit _)) fun _ _ _ => Post.bind up post_eol fun _ _ _ =>
    Post.bind up post_rawUint fun _ _ _ => Post.bind up post_eol fun _ _ _ =>
    Post.bind (P := fun l _ => ∀ e ∈ l, e.Valid) up (fun s l r hs => blocks2_post big _ _ _ _ _ _ _ (by simp) hs) fun l _ hl =>
    Post.bind up post_eol fun _ _ _ => ?_
  intro s a r hs
  have h1 := post_end (α := List Elem2) "$EndElements".toList l _ _ _ hs
  have h2 : a = l := by
    rw [bind_apply] at hs
    cases h1 : litNoSkip "$EndElements".toList s with
    | none => rw [h1] at hs; simp at hs
    | some x =>
      rw [h1] at hs
      simp only [Option.bind_some, pure_apply] at hs
      cases hs
      rfl
  exact ⟨⟨h1.1, by rw [h2]; exact hl⟩, h1.2⟩

theorem post_start2 {R : Type} {node : Parser (ℕ × Vec R)} {el : Parser (List Elem2)} {Q : List Elem2 → Prop}
    (hn : Post node Any) (he : Post el fun l s => "$EndElements".toList <:+: s ∧ Q l) :
    Post (start2 node el) fun F s => "$EndNodes".toList <:+: s ∧ "$EndElements".toList <:+: s ∧ Q F.elems := by
  intro s F r hs
  simp only [start2, bind_apply, Option.bind_eq_some_iff, pure_apply] at hs
  obtain ⟨x1, h1, x2, h2, x3, h3, x4, h4, x5, h5, x6, h6, x7, h7, heq⟩ := hs
  cases heq
  have hc := post_textComment reserved2
  have hnames : Post namesBody2 Any := Post.bind up_any post_textInt fun _ _ _ => Post.bind up_any (post_require _) fun _ _ _ =>
    Post.bind up_any (Post.repAny (Post.bind up_any post_textInt fun _ _ _ => Post.bind up_any post_textInt fun _ _ _ =>
      Post.map _ post_quoted) _) fun _ _ _ => Post.map _ (post_any (post_lit _))
  have hper : Post periodicBody2 Any := Post.bind up_any post_textUint fun _ _ _ => Post.bind up_any (Post.repAny
    (Post.bind up_any post_textInt fun _ _ _ => Post.bind up_any post_textInt fun _ _ _ => Post.bind up_any post_textInt fun _ _ _ =>
      Post.bind up_any post_textUint fun _ _ _ => Post.map _ (Post.repAny (Post.bind up_any post_textUint fun _ _ _ =>
        Post.map _ post_textUint) _)) _) fun _ _ _ => Post.map _ (post_any (post_lit _))
  have k1 := (post_comments hc _ _ _ h1).2
  have k2 := (post_optional hc _ (post_any (post_lit _)) hnames _ _ _ h2).2.trans k1
  obtain ⟨p3, q3⟩ := post_nodes2 hn _ _ _ h3
  have k3 := q3.trans k2
  have k4 := (post_comments hc _ _ _ h4).2.trans k3
  obtain ⟨⟨p5, v5⟩, q5⟩ := he _ _ _ h5
  have k5 := q5.trans k4
  have k6 := (post_comments hc _ _ _ h6).2.trans k5
  have k7 := (post_optional hc _ (post_any (post_lit _)) hper _ _ _ h7).2.trans k6
  exact ⟨⟨p3.trans k2.isInfix, p5.trans k4.isInfix, v5⟩, k7⟩

end Msh

end Verif
