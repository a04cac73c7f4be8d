import Verif.Lemmas.MshText

/-!
# Lemmas for the parsers of gmsh files: what is known about the result for every input
-/

namespace Verif

namespace Msh

/-- If `p` succeeds then its result satisfies `P`, and the remaining input is a suffix of the input. -/
def Post {α : Type} (p : Parser α) (P : α → Txt → Prop) : Prop :=
  ∀ s a r, p s = some (a, r) → P a s ∧ r <:+ s

/-- The predicate does not become false for longer inputs. -/
def Up {α : Type} (P : α → Txt → Prop) : Prop := ∀ a s t, P a s → s <:+ t → P a t

section
variable {α β : Type}

theorem Post.bind {p : Parser α} {h : α → Parser β} {P : α → Txt → Prop} {Q : β → Txt → Prop} (hQ : Up Q)
    (hp : Post p P) (hh : ∀ a s0, P a s0 → Post (h a) Q) : Post (p >>= h) Q := by
  intro s b r hs
  rw [bind_apply] at hs
  cases h1 : p s with
  | none => rw [h1] at hs; simp at hs
  | some x =>
    rw [h1, Option.bind_some] at hs
    obtain ⟨h2, h3⟩ := hp s x.1 x.2 h1
    obtain ⟨h4, h5⟩ := hh x.1 s h2 _ _ _ hs
    exact ⟨hQ _ _ _ h4 h3, h5.trans h3⟩

theorem Post.pure {P : α → Txt → Prop} {a : α} (h : ∀ s, P a s) : Post (pure a : Parser α) P := by
  intro s b r hs
  rw [pure_apply] at hs
  cases hs
  exact ⟨h s, List.suffix_rfl⟩

/-- Nothing is claimed about the result. -/
abbrev Any : α → Txt → Prop := fun _ _ => True

theorem up_any : Up (Any : α → Txt → Prop) := fun _ _ _ _ _ => trivial

theorem up_const (P : α → Prop) : Up fun a (_ : Txt) => P a := fun _ _ _ h _ => h

theorem Post.mono {p : Parser α} {P Q : α → Txt → Prop} (hp : Post p P) (h : ∀ a s, P a s → Q a s) : Post p Q :=
  fun s a r hs => ⟨h _ _ (hp s a r hs).1, (hp s a r hs).2⟩

theorem Post.rep {p : Parser α} {P : α → Prop} (hp : Post p fun a _ => P a) (n : ℕ) :
    Post (rep n p) fun l _ => ∀ a ∈ l, P a := by
  induction n with
  | zero => exact Post.pure fun _ => by simp
  | succ n ih =>
    refine Post.bind (up_const _) hp fun a _ ha => ?_
    refine Post.bind (up_const _) ih fun l _ hl => Post.pure fun _ => ?_
    intro x hx
    rcases List.mem_cons.1 hx with rfl | hx
    · exact ha
    · exact hl x hx

theorem Post.repLen {p : Parser α} (hp : Post p Any) (n : ℕ) : Post (Msh.rep n p) fun l _ => l.length = n := by
  induction n with
  | zero => exact Post.pure fun _ => rfl
  | succ n ih =>
    refine Post.bind (up_const _) hp fun a _ _ => ?_
    refine Post.bind (up_const _) ih fun l _ hl => Post.pure fun _ => ?_
    simp [hl]

theorem Post.repAny {p : Parser α} (hp : Post p Any) (n : ℕ) : Post (Msh.rep n p) Any :=
  (Post.repLen hp n).mono fun _ _ _ => trivial

theorem Post.map {p : Parser α} (g : α → β) (hp : Post p Any) : Post (p >>= fun x => Pure.pure (g x)) Any :=
  Post.bind up_any hp fun _ _ _ => Post.pure fun _ => trivial

end

theorem strip_eq {k s r : Txt} (h : strip k s = some r) : s = k ++ r := by
  induction k generalizing s with
  | nil => simpa [strip] using h
  | cons a k ih =>
    cases s with
    | nil => simp [strip] at h
    | cons b s =>
      simp only [strip] at h
      split_ifs at h with hab
      rw [hab, ih h, List.cons_append]

theorem skip_suffix (s : Txt) : skip s <:+ s := List.dropWhile_suffix _

/-- `k` occurs in the input. -/
abbrev Has (k : Txt) : Unit → Txt → Prop := fun _ s => k <:+: s

theorem up_has (k : Txt) : Up (Has k) := fun _ _ _ h hs => h.trans hs.isInfix

theorem post_lit (k : Txt) : Post (lit k) (Has k) := by
  intro s a r hs
  simp only [lit, Option.map_eq_some_iff] at hs
  obtain ⟨x, hx, hr⟩ := hs
  cases hr
  have h1 := strip_eq hx
  have h2 := skip_suffix s
  rw [h1] at h2
  exact ⟨(List.prefix_append k r).isInfix.trans h2.isInfix, (List.suffix_append k r).trans h2⟩

theorem post_litNoSkip (k : Txt) : Post (litNoSkip k) (Has k) := by
  intro s a r hs
  simp only [litNoSkip, Option.map_eq_some_iff] at hs
  obtain ⟨x, hx, hr⟩ := hs
  cases hr
  rw [strip_eq hx]
  exact ⟨(List.prefix_append k r).isInfix, List.suffix_append k r⟩

theorem post_skip {α : Type} {p : Parser α} (hp : Post p Any) : Post (fun s => p (skip s) : Parser α) Any :=
  fun s a r hs => ⟨trivial, (hp _ a r hs).2.trans (skip_suffix s)⟩

theorem post_digits : Post digits Any := by
  intro s a r hs
  simp only [digits] at hs
  split_ifs at hs
  cases hs
  exact ⟨trivial, List.dropWhile_suffix _⟩

theorem post_sign : Post sign Any := by
  intro s a r hs
  refine ⟨trivial, ?_⟩
  unfold sign at hs
  split at hs <;> cases hs
  · exact List.suffix_cons _ _
  · exact List.suffix_cons _ _
  · exact List.suffix_rfl

theorem post_require (P : Prop) [Decidable P] : Post (require P) Any := by
  intro s a r hs
  simp only [require] at hs
  split_ifs at hs
  cases hs
  exact ⟨trivial, List.suffix_rfl⟩

theorem post_textInt : Post textInt Any :=
  post_skip (Post.bind up_any post_sign fun _ _ _ => Post.bind up_any post_digits fun _ _ _ =>
    Post.bind up_any (post_require _) fun _ _ _ => Post.pure fun _ => trivial)

theorem post_textSize : Post textSize Any :=
  post_skip (Post.bind up_any post_digits fun _ _ _ =>
    Post.bind up_any (post_require _) fun _ _ _ => Post.pure fun _ => trivial)

theorem post_mantissa : Post mantissa Any := by
  intro s a r hs
  refine ⟨trivial, ?_⟩
  simp only [mantissa] at hs
  split_ifs at hs
  · cases hs
    exact (List.dropWhile_suffix _).trans ((List.tail_suffix _).trans (List.dropWhile_suffix _))
  · cases hs
    exact List.dropWhile_suffix _

theorem post_exponent : Post exponent Any := by
  intro s a r hs
  refine ⟨trivial, ?_⟩
  unfold exponent at hs
  split at hs
  · rename_i c t
    split_ifs at hs
    · split at hs
      · cases hs
        exact List.suffix_rfl
      · rename_i x hx
        have h1 : Post (do
            let neg ← sign
            let n ← digits
            pure (if neg then -(n : ℤ) else (n : ℤ)) : Parser ℤ) Any :=
          Post.bind up_any post_sign fun _ _ _ => Post.map _ post_digits
        cases hs
        exact (h1 _ _ _ hx).2.trans (List.suffix_cons _ _)
    · cases hs
      exact List.suffix_rfl
  · cases hs
    exact List.suffix_rfl

theorem post_textReal : Post textReal Any :=
  post_skip (Post.bind up_any post_sign fun _ _ _ => Post.bind up_any post_mantissa fun _ _ _ =>
    Post.map _ post_exponent)

theorem post_quoted : Post quoted Any := by
  intro s a r hs
  refine ⟨trivial, ?_⟩
  have h0 := skip_suffix s
  unfold quoted at hs
  split at hs
  · rename_i t heq
    rw [heq] at h0
    split at hs
    · cases hs
    · cases hs
    · rename_i c x hx _
      cases hs
      have h1 : t.dropWhile (· != '"') <:+ t := List.dropWhile_suffix _
      rw [hx] at h1
      exact (List.suffix_cons _ _).trans (h1.trans ((List.suffix_cons _ _).trans h0))
  · cases hs

theorem post_word (big : Bool) (n : ℕ) : Post (word big n) Any := by
  refine Post.map _ ?_
  intro s a r hs
  simp only [bytes] at hs
  split_ifs at hs
  cases hs
  exact ⟨trivial, List.drop_suffix _ _⟩

theorem post_binInt (big : Bool) : Post (binInt big) Any := Post.map _ (post_word big 4)

/-- What is needed about the primitive parsers. -/
structure PostPrims {R : Type} (g : Prims R) : Prop where
  int : Post g.int Any
  size : Post g.size Any
  real : Post g.real Any
  zero : Post g.zero Any
  sixteen : Post g.sixteen Any
  opening : ∀ k, Post (g.opening k) (Has ('$' :: k))
  closing : ∀ k, Post (g.closing k) (Has ("$End".toList ++ k))
  comment : Post g.comment Any

theorem post_start (res : List Txt) : Post (startComment res) Any := by
  intro s a r hs
  refine ⟨trivial, ?_⟩
  have h0 := skip_suffix s
  simp only [startComment] at hs
  split_ifs at hs
  split at hs
  · rename_i t heq
    rw [heq] at h0
    split_ifs at hs
    cases hs
    exact (List.dropWhile_suffix _).trans ((List.suffix_cons _ _).trans h0)
  · cases hs

theorem post_until : Post untilDollar Any := by
  intro s a r hs
  simp only [untilDollar, Option.some.injEq] at hs
  cases hs
  exact ⟨trivial, List.dropWhile_suffix _⟩

theorem post_any {k : Txt} {p : Parser Unit} (h : Post p (Has k)) : Post p Any := h.mono fun _ _ _ => trivial

theorem post_textComment (res : List Txt) : Post (textComment res) Any :=
  Post.bind up_any (post_start _) fun _ _ _ => Post.bind up_any post_until fun _ _ _ =>
    Post.bind up_any (post_any (post_lit _)) fun _ _ _ => post_any (post_lit _)

theorem postText : PostPrims textPrims where
  int := post_textInt
  size := post_textSize
  real := post_textReal
  zero := post_any (post_lit _)
  sixteen := post_any (post_lit _)
  opening := fun _ => post_lit _
  closing := fun _ => post_lit _
  comment := post_textComment _

theorem post_binStart : Post binStartComment Any := by
  intro s a r hs
  refine ⟨trivial, ?_⟩
  simp only [binStartComment] at hs
  split_ifs at hs
  split at hs
  · split_ifs at hs
    cases hs
    exact List.nil_suffix
  · cases hs

theorem postBinary (big : Bool) : PostPrims (binPrims big) where
  int := post_binInt big
  size := post_word big 8
  real := post_word big 8
  zero := Post.bind up_any (post_word big 8) fun _ _ _ => post_require _
  sixteen := Post.bind up_any (post_word big 8) fun _ _ _ => post_require _
  opening := fun k => (post_lit _).mono fun _ s h => by
    refine List.IsInfix.trans ?_ h
    exact (List.prefix_append ('$' :: k) ['\n']).isInfix
  closing := fun k => (post_litNoSkip _).mono fun _ s h => by
    refine List.IsInfix.trans ?_ h
    exact (List.suffix_cons '\n' ("$End".toList ++ k)).isInfix
  comment := Post.bind up_any post_binStart fun _ _ _ => Post.bind up_any post_until fun _ _ _ =>
    Post.bind up_any (post_any (post_lit _)) fun _ _ _ => post_any (post_lit _)

theorem post_commentsN {c : Parser Unit} (H : Post c Any) (n : ℕ) : Post (commentsN c n) Any := by
  induction n with
  | zero => intro s a r hs; cases hs; exact ⟨trivial, List.suffix_rfl⟩
  | succ n ih =>
    intro s a r hs
    refine ⟨trivial, ?_⟩
    simp only [commentsN] at hs
    split at hs
    · cases hs; exact List.suffix_rfl
    · rename_i x h
      exact (ih _ _ _ hs).2.trans (H _ _ _ h).2

theorem post_comments {c : Parser Unit} (H : Post c Any) : Post (comments c) Any := fun s a r hs => post_commentsN H s.length s a r hs

theorem post_optional {α : Type} {c : Parser Unit} (H : Post c Any) (d : α) {o : Parser Unit} {b : Parser α} (ho : Post o Any) (hb : Post b Any) :
    Post (optional c d o b) Any := by
  intro s a r hs
  refine ⟨trivial, ?_⟩
  unfold optional at hs
  split at hs
  · cases hs; exact List.suffix_rfl
  · rename_i x h
    have h1 : Post (do
        let a ← b
        comments c
        pure a : Parser α) Any := Post.bind up_any hb fun _ _ _ => Post.map _ (post_comments H)
    exact (h1 _ _ _ hs).2.trans (ho _ _ _ h).2

section Grammar
variable {R : Type} {g : Prims R} (H : PostPrims g)
include H

theorem post_vec : Post (vec3 g) Any :=
  Post.bind up_any H.real fun _ _ _ => Post.bind up_any H.real fun _ _ _ => Post.map _ H.real

theorem post_intVec : Post (intVec g) Any :=
  Post.bind up_any H.size fun _ _ _ => Post.repAny H.int _

theorem post_ents {A B : Type} {a : Parser A} {b : Parser B} (ha : Post a Any) (hb : Post b Any) :
    Post (ents g a b) Any :=
  Post.bind up_any H.size fun _ _ _ => Post.bind up_any H.size fun _ _ _ => Post.bind up_any H.size fun _ _ _ =>
    Post.bind up_any H.size fun _ _ _ => Post.bind up_any (Post.repAny ha _) fun _ _ _ =>
    Post.bind up_any (Post.repAny hb _) fun _ _ _ => Post.bind up_any (Post.repAny hb _) fun _ _ _ =>
    Post.map _ (Post.repAny hb _)

theorem post_entities : Post (entities g) fun _ s => "$EndEntities".toList <:+: s := by
  have up : Up (fun (_ : Ents (PointEnt R) (Ent R)) s => "$EndEntities".toList <:+: s) := fun _ _ _ h hs => h.trans hs.isInfix
  refine Post.bind up (post_any (H.opening _)) fun _ _ _ => Post.bind up (post_ents H ?_ ?_) fun _ _ _ => ?_
  · exact Post.bind up_any H.int fun _ _ _ => Post.bind up_any (post_vec H) fun _ _ _ => Post.map _ (post_intVec H)
  · exact Post.bind up_any H.int fun _ _ _ => Post.bind up_any (post_vec H) fun _ _ _ =>
      Post.bind up_any (post_vec H) fun _ _ _ => Post.bind up_any (post_intVec H) fun _ _ _ => Post.map _ (post_intVec H)
  · intro s a r hs
    rw [bind_apply] at hs
    cases h1 : g.closing "Entities".toList s with
    | none => rw [h1] at hs; simp at hs
    | some x =>
      rw [h1] at hs
      simp only [Option.bind_some, pure_apply] at hs
      cases hs
      exact H.closing _ _ _ _ h1

theorem post_partPoint : Post (partPoint g) Any :=
  Post.bind up_any H.int fun _ _ _ => Post.bind up_any H.int fun _ _ _ => Post.bind up_any H.int fun _ _ _ =>
    Post.bind up_any (post_intVec H) fun _ _ _ => Post.bind up_any (post_vec H) fun _ _ _ => Post.map _ (post_intVec H)

theorem post_partEnt : Post (partEnt g) Any :=
  Post.bind up_any H.int fun _ _ _ => Post.bind up_any H.int fun _ _ _ => Post.bind up_any H.int fun _ _ _ =>
    Post.bind up_any (post_intVec H) fun _ _ _ => Post.bind up_any (post_vec H) fun _ _ _ =>
    Post.bind up_any (post_vec H) fun _ _ _ => Post.bind up_any (post_intVec H) fun _ _ _ => Post.map _ (post_intVec H)

theorem post_parts : Post (partsBody g) Any :=
  Post.bind up_any H.size fun _ _ _ =>
    Post.bind up_any (Post.bind up_any H.size fun _ _ _ => Post.repAny
      (Post.bind up_any H.int fun _ _ _ => Post.map _ H.int) _) fun _ _ _ =>
    Post.bind up_any (post_ents H (post_partPoint H) (post_partEnt H)) fun _ _ _ =>
    Post.map _ (post_any (H.closing _))

theorem post_nodeBlock : Post (nodeBlock g) Any :=
  Post.bind up_any H.int fun _ _ _ => Post.bind up_any H.int fun _ _ _ => Post.bind up_any H.int fun _ _ _ =>
    Post.bind up_any H.size fun _ _ _ => Post.bind up_any (Post.repAny H.size _) fun _ _ _ =>
    Post.map _ (Post.repAny (post_vec H) _)

theorem post_nodes : Post (nodes g) fun _ s => "$EndNodes".toList <:+: s := by
  have up : Up (fun (_ : Nodes R) s => "$EndNodes".toList <:+: s) := fun _ _ _ h hs => h.trans hs.isInfix
  refine Post.bind up (post_any (H.opening _)) fun _ _ _ => Post.bind up H.size fun _ _ _ => Post.bind up H.size fun _ _ _ =>
    Post.bind up H.size fun _ _ _ => Post.bind up H.size fun _ _ _ => Post.bind up (Post.repAny (post_nodeBlock H) _)
    fun _ _ _ => ?_
  intro s a r hs
  rw [bind_apply] at hs
  cases h1 : g.closing "Nodes".toList s with
  | none => rw [h1] at hs; simp at hs
  | some x =>
    rw [h1] at hs
    simp only [Option.bind_some, pure_apply] at hs
    cases hs
    exact H.closing _ _ _ _ h1

/-- The elements of a block have as many nodes as its type requires. -/
def ElemBlock.Valid (b : ElemBlock) : Prop := ∀ e ∈ b.elems, (b.type, e.2.length) ∈ nodesOfType

omit H in
theorem numNodes_mem (ty : ℤ) (k : ℕ) (h : numNodes ty = some k) : (ty, k) ∈ nodesOfType := by
  unfold numNodes at h
  split at h <;> simp only [Option.some.injEq, reduceCtorEq] at h <;> subst h <;> decide

theorem post_element (ty : ℤ) : Post (element g ty) fun e _ => (ty, e.2.length) ∈ nodesOfType := by
  refine Post.bind (up_const _) H.size fun t _ _ => ?_
  cases h : numNodes ty with
  | none =>
    intro s a r hs
    simp at hs
  | some k =>
    simp only
    refine Post.bind (up_const _) (Post.repLen H.size k) fun l _ hl => Post.pure fun _ => ?_
    simp only [hl]
    exact numNodes_mem ty k h

theorem post_elemBlock : Post (elemBlock g) fun b _ => b.Valid :=
  Post.bind (up_const _) H.int fun _ _ _ => Post.bind (up_const _) H.int fun _ _ _ => Post.bind (up_const _) H.int
    fun ty _ _ => Post.bind (up_const _) H.size fun _ _ _ => Post.bind (up_const _) (Post.rep (post_element H ty) _)
    fun _ _ hl => Post.pure fun _ => hl

theorem post_elems : Post (elems g) fun e s => "$EndElements".toList <:+: s ∧ ∀ b ∈ e.blocks, b.Valid := by
  have up : Up (fun (e : Elems) s => "$EndElements".toList <:+: s ∧ ∀ b ∈ e.blocks, b.Valid) :=
    fun _ _ _ h hs => ⟨h.1.trans hs.isInfix, h.2⟩
  refine Post.bind up (post_any (H.opening _)) fun _ _ _ => Post.bind up H.size fun _ _ _ => Post.bind up H.size fun _ _ _ =>
    Post.bind up H.size fun _ _ _ => Post.bind up H.size fun _ _ _ => Post.bind up (Post.rep (post_elemBlock H) _)
    fun bl _ hbl => ?_
  intro s a r hs
  rw [bind_apply] at hs
  cases h1 : g.closing "Elements".toList s with
  | none => rw [h1] at hs; simp at hs
  | some x =>
    rw [h1] at hs
    simp only [Option.bind_some, pure_apply] at hs
    cases hs
    exact ⟨⟨(H.closing _ _ _ _ h1).1, hbl⟩, (H.closing _ _ _ _ h1).2⟩

theorem post_affine : Post (affine g) Any := by
  intro s a r hs
  refine ⟨trivial, ?_⟩
  unfold affine at hs
  split at hs
  · rename_i x h
    cases hs
    exact (H.zero _ _ _ h).2
  · have h1 : Post (do
        g.sixteen
        let l ← rep 16 g.real
        pure (some l) : Parser (Option (List R))) Any :=
      Post.bind up_any H.sixteen fun _ _ _ => Post.map _ (Post.repAny H.real _)
    exact (h1 _ _ _ hs).2

theorem post_links : Post (linksBody g) Any :=
  Post.bind up_any H.size fun _ _ _ => Post.bind up_any (Post.repAny
    (Post.bind up_any H.int fun _ _ _ => Post.bind up_any H.int fun _ _ _ => Post.bind up_any H.int fun _ _ _ =>
      Post.bind up_any (post_affine H) fun _ _ _ => Post.bind up_any H.size fun _ _ _ =>
      Post.map _ (Post.repAny (Post.bind up_any H.size fun _ _ _ => Post.map _ H.size) _)) _) fun _ _ _ =>
    Post.map _ (post_any (H.closing _))

theorem post_ghosts : Post (ghostsBody g) Any :=
  Post.bind up_any H.size fun _ _ _ => Post.bind up_any (Post.repAny
    (Post.bind up_any H.size fun _ _ _ => Post.bind up_any H.int fun _ _ _ => Post.bind up_any H.size fun _ _ _ =>
      Post.map _ (Post.repAny H.int _)) _) fun _ _ _ => Post.map _ (post_any (H.closing _))

/-- What is known about every file which is accepted. -/
def Accepted (F : MshFile R) (s : Txt) : Prop :=
  (∀ b ∈ F.elems.blocks, b.Valid) ∧ "$EndEntities".toList <:+: s ∧ "$EndNodes".toList <:+: s ∧ "$EndElements".toList <:+: s

omit H in
theorem post_names : Post namesBody Any :=
  Post.bind up_any post_textSize fun _ _ _ => Post.bind up_any (Post.repAny
    (Post.bind up_any post_textInt fun _ _ _ => Post.bind up_any post_textInt fun _ _ _ => Post.map _ post_quoted) _)
    fun _ _ _ => Post.map _ (post_any (post_lit _))

theorem post_entry : Post (entry g) Accepted := by
  intro s F r hs
  simp only [entry, bind_apply, Option.bind_eq_some_iff, pure_apply] at hs
  obtain ⟨x1, h1, x2, h2, x3, h3, x4, h4, x5, h5, x6, h6, x7, h7, x8, h8, x9, h9, x10, h10, x11, h11, heq⟩ := hs
  cases heq
  have k1 := (post_comments H.comment _ _ _ h1).2
  have k2 := (post_optional H.comment _ (post_any (post_lit _)) post_names _ _ _ h2).2.trans k1
  obtain ⟨p3, q3⟩ := post_entities H _ _ _ h3
  have k3 := q3.trans k2
  have k4 := (post_comments H.comment _ _ _ h4).2.trans k3
  have k5 := (post_optional H.comment _ (post_any (H.opening _)) (post_parts H) _ _ _ h5).2.trans k4
  obtain ⟨p6, q6⟩ := post_nodes H _ _ _ h6
  have k6 := q6.trans k5
  have k7 := (post_comments H.comment _ _ _ h7).2.trans k6
  obtain ⟨⟨p8, v8⟩, q8⟩ := post_elems H _ _ _ h8
  have k8 := q8.trans k7
  have k9 := (post_comments H.comment _ _ _ h9).2.trans k8
  have k10 := (post_optional H.comment _ (post_any (H.opening _)) (post_links H) _ _ _ h10).2.trans k9
  have k11 := (post_optional H.comment _ (post_any (H.opening _)) (post_ghosts H) _ _ _ h11).2.trans k10
  exact ⟨⟨v8, p3.trans k2.isInfix, p6.trans k5.isInfix, p8.trans k7.isInfix⟩, k11⟩

end Grammar

theorem post_version : Post version Any := by
  intro s a r hs
  refine ⟨trivial, ?_⟩
  simp only [version] at hs
  split_ifs at hs
  cases hs
  exact (List.dropWhile_suffix _).trans (skip_suffix s)

theorem post_header : Post header Any := by
  have h1 : Post headerText Any :=
    Post.bind up_any post_version fun _ _ _ => Post.bind up_any (post_any (post_lit _)) fun _ _ _ =>
      Post.map _ post_textInt
  have h2 : Post headerBinary Any :=
    Post.bind up_any post_version fun _ _ _ => Post.bind up_any (post_any (post_lit _)) fun _ _ _ =>
      Post.bind up_any post_textInt fun _ _ _ => Post.map _ (post_skip (post_binInt false))
  refine Post.bind up_any (post_any (post_lit _)) fun _ _ _ => Post.bind (P := Any) up_any ?_ fun _ _ _ =>
    Post.bind up_any (post_any (post_lit _)) fun _ _ _ => Post.pure fun _ => trivial
  intro s a r hs
  unfold orElse at hs
  split at hs
  · rename_i x hx
    cases hs
    exact h1 _ _ _ hx
  · exact h2 _ _ _ hs

end Msh

end Verif
