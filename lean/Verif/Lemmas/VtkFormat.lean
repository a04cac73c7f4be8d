import Verif.Lemmas.VtkNumber
import Verif.Lemmas.Msh

/-!
# Lemmas for VTK files: reading what was written
-/

namespace Verif

namespace VtkF

open Msh (Txt Vec Parser)

variable {α β R : Type}

/-- Some white space. -/
def Bl (b : Txt) : Prop := b ≠ [] ∧ ∀ c ∈ b, space c = true

/-- The end of a line. -/
def Nl (b : Txt) : Prop := b = ['\n']

/-- Nothing. -/
def Em (b : Txt) : Prop := b = []

theorem Nl.bl {b : Txt} (h : Nl b) : Bl b := by
  rw [h]
  exact ⟨by simp, by decide⟩

/-- Between a pending text in `A` and `rest`, the text `s` is read as `a`; a text in `B` remains pending. -/
def At (A B : Txt → Prop) (p : Parser α) (a : α) (s rest : Txt) : Prop :=
  ∀ b, A b → ∃ b', B b' ∧ p (b ++ (s ++ rest)) = some (a, b' ++ rest)

/-- The same for every rest. -/
def Y (A B : Txt → Prop) (p : Parser α) (a : α) (s : Txt) : Prop := ∀ rest, At A B p a s rest

theorem At.bind {A B C : Txt → Prop} {p : Parser α} {h : α → Parser β} {a : α} {x : β} {s s' rest : Txt}
    (hp : At A B p a s (s' ++ rest)) (hh : At B C (h a) x s' rest) : At A C (p >>= h) x (s ++ s') rest := by
  intro b hb
  obtain ⟨b1, h1, e1⟩ := hp b hb
  obtain ⟨b2, h2, e2⟩ := hh b1 h1
  refine ⟨b2, h2, ?_⟩
  rw [List.append_assoc, Msh.bind_apply, e1]
  exact e2

theorem Y.bind {A B C : Txt → Prop} {p : Parser α} {h : α → Parser β} {a : α} {x : β} {s s' : Txt}
    (hp : Y A B p a s) (hh : Y B C (h a) x s') : Y A C (p >>= h) x (s ++ s') := fun rest => (hp _).bind (hh rest)

theorem Y.pure {A : Txt → Prop} (a : α) : Y A A (pure a) a [] := fun _ b hb => ⟨b, hb, rfl⟩

theorem Y.lift {A : Txt → Prop} {o : Option α} {a : α} (h : o = some a) : Y A A (lift o) a [] := by
  intro rest b hb
  exact ⟨b, hb, by rw [h]; rfl⟩

theorem Y.map {A B : Txt → Prop} {p : Parser α} {a : α} {s : Txt} (g : α → β) (hp : Y A B p a s) :
    Y A B (p >>= fun x => Pure.pure (g x)) (g a) s := by
  have := hp.bind (h := fun x => Pure.pure (g x)) (Y.pure (A := B) (g a))
  rwa [List.append_nil] at this

theorem Y.filter {A B : Txt → Prop} {p : Parser α} {a : α} {x : β} {s : Txt} {g : α → Option β} (hp : Y A B p a s)
    (hx : g a = some x) : Y A B (p >>= fun x => VtkF.lift (g x)) x s := by
  have := hp.bind (h := fun x => VtkF.lift (g x)) (Y.lift (A := B) hx)
  rwa [List.append_nil] at this

theorem Y.mono {A B A' B' : Txt → Prop} {p : Parser α} {a : α} {s : Txt} (hp : Y A B p a s) (hA : ∀ b, A' b → A b)
    (hB : ∀ b, B b → B' b) : Y A' B' p a s := by
  intro rest b hb
  obtain ⟨b', h1, h2⟩ := hp rest b (hA b hb)
  exact ⟨b', hB b' h1, h2⟩

theorem Y.nl {A : Txt → Prop} {p : Parser α} {a : α} {s : Txt} (hp : Y A Nl p a s) : Y A Bl p a s :=
  hp.mono (fun _ h => h) fun _ h => h.bl

theorem Y.after {B : Txt → Prop} {p : Parser α} {a : α} {s : Txt} (hp : Y Bl B p a s) : Y Nl B p a s :=
  hp.mono (fun _ h => h.bl) fun _ h => h

/-- White space at the end. -/
theorem Y.blank {A : Txt → Prop} {p : Parser α} {a : α} {s t : Txt} (hp : Y A Bl p a s) (ht : ∀ c ∈ t, space c = true) :
    Y A Bl p a (s ++ t) := by
  intro rest b hb
  obtain ⟨b', h1, h2⟩ := hp (t ++ rest) b hb
  refine ⟨b' ++ t, ⟨by simp [h1.1], fun c hc => (List.mem_append.1 hc).elim (h1.2 c) (ht c)⟩, ?_⟩
  rw [List.append_assoc, h2, List.append_assoc]

theorem Y.cast {A B : Txt → Prop} {p : Parser α} {a : α} {s t : Txt} (hp : Y A B p a s) (h : s = t) : Y A B p a t := h ▸ hp

/-! ## Words -/

theorem word_apply {b w : Txt} {d : Char} {rest : Txt} (hb : ∀ c ∈ b, space c = true) (hw : Name w) (hd : space d = true) :
    word (b ++ (w ++ d :: rest)) = some (w, d :: rest) := by
  have h1 : (b ++ (w ++ d :: rest)).dropWhile space = w ++ d :: rest := by
    rw [List.dropWhile_append_of_pos hb]
    cases w with
    | nil => exact absurd rfl hw.1
    | cons c w => rw [List.cons_append, List.dropWhile_cons, hw.2 c List.mem_cons_self]; rfl
  obtain ⟨h2, h3⟩ := takeWhile_append_stop (p := fun c => !space c) (u := w) (c := d) (v := rest)
    (fun c hc => by simp [hw.2 c hc]) (by simp [hd])
  simp only [word, h1, h2, h3, if_neg hw.1]

theorem y_wordSp {w : Txt} (hw : Name w) : Y Bl Bl word w (w ++ [' ']) := by
  intro rest b hb
  refine ⟨[' '], ⟨by simp, by decide⟩, ?_⟩
  rw [List.append_assoc]
  exact word_apply hb.2 hw (by decide)

theorem y_wordNl {w : Txt} (hw : Name w) : Y Bl Nl word w (w ++ eol) := by
  intro rest b hb
  refine ⟨['\n'], rfl, ?_⟩
  rw [List.append_assoc]
  exact word_apply hb.2 hw (by decide)

theorem y_word {w : Txt} {d : Char} (hw : Name w) (hd : space d = true) : Y Bl Bl word w (w ++ [d]) := by
  intro rest b hb
  refine ⟨[d], ⟨by simp, by simpa using hd⟩, ?_⟩
  rw [List.append_assoc]
  exact word_apply hb.2 hw hd

theorem y_kwSp (k : Txt) (hk : Name k) : Y Bl Bl (keyword k) () (k ++ [' ']) := (y_wordSp hk).filter (if_pos rfl)

theorem y_kwNl (k : Txt) (hk : Name k) : Y Bl Nl (keyword k) () (k ++ eol) := (y_wordNl hk).filter (if_pos rfl)

theorem y_natSp (n : ℕ) : Y Bl Bl nat n (dec n ++ [' ']) := (y_wordSp (name_dec n)).filter (decimal_dec n)

theorem y_natNl (n : ℕ) : Y Bl Nl nat n (dec n ++ eol) := (y_wordNl (name_dec n)).filter (decimal_dec n)

theorem y_times {A : Txt → Prop} {p : Parser β} {f : α → Txt} {v : α → β} (l : List α) (h : ∀ a ∈ l, Y A A p (v a) (f a)) :
    Y A A (times l.length p) (l.map v) (l.map f).flatten := by
  induction l with
  | nil => exact Y.pure _
  | cons a l ih =>
    have h1 := h a List.mem_cons_self
    have h2 := (ih fun x hx => h x (List.mem_cons_of_mem _ hx)).map fun l => v a :: l
    exact h1.bind (h := fun x => times l.length p >>= fun l => Pure.pure (x :: l)) h2

/-! ## Text data -/

/-- Words with white space after each of them. -/
inductive Chunks (f : α → Txt) : List α → Txt → Prop
  | nil : Chunks f [] []
  | cons (a : α) (l : List α) (s : Txt) (d : Char) (hd : space d = true) (h : Chunks f l s) : Chunks f (a :: l) (f a ++ d :: s)

theorem Chunks.append {f : α → Txt} {l l' : List α} {s s' : Txt} (h : Chunks f l s) (h' : Chunks f l' s') :
    Chunks f (l ++ l') (s ++ s') := by
  induction h with
  | nil => exact h'
  | cons a l s d hd h ih =>
    rw [List.append_assoc]
    exact Chunks.cons a _ _ d hd ih

theorem Chunks.flatten {f : α → Txt} {g : β → List α} {t : β → Txt} (l : List β) (h : ∀ b ∈ l, Chunks f (g b) (t b)) :
    Chunks f (l.map g).flatten (l.map t).flatten := by
  induction l with
  | nil => exact Chunks.nil
  | cons b l ih => exact (h b List.mem_cons_self).append (ih fun x hx => h x (List.mem_cons_of_mem _ hx))

theorem Chunks.map {f : β → Txt} {g : α → β} {l : List α} {s : Txt} (h : Chunks (fun a => f (g a)) l s) : Chunks f (l.map g) s := by
  induction h with
  | nil => exact Chunks.nil
  | cons a l s d hd h ih => exact Chunks.cons _ _ _ d hd ih

theorem chunks_sepBy {f : α → Txt} {sep d : Char} (hs : space sep = true) (hd : space d = true) (l : List α) (s : Txt)
    (h : sepBy [sep] f l = some s) : Chunks f l (s ++ [d]) := by
  cases l with
  | nil => simp [sepBy] at h
  | cons a l =>
    simp only [sepBy, Option.some.injEq] at h
    subst h
    induction l generalizing a with
    | nil =>
      simp only [List.map_nil, List.flatten_nil, List.append_nil]
      exact Chunks.cons a [] [] d hd Chunks.nil
    | cons b l ih =>
      have := Chunks.cons (f := f) a _ _ sep hs (ih b)
      simpa [List.append_assoc] using this

theorem y_chunks {f : α → Txt} {p : Txt → Option β} {v : α → β} {l : List α} {s : Txt} (h : Chunks f l s)
    (hn : ∀ a ∈ l, Name (f a)) (hv : ∀ a ∈ l, p (f a) = some (v a)) :
    Y Bl Bl (times l.length (word >>= fun w => lift (p w))) (l.map v) s := by
  induction h with
  | nil => exact Y.pure _
  | cons a l s d hd h ih =>
    have h1 : Y Bl Bl (word >>= fun w => lift (p w)) (v a) (f a ++ [d]) :=
      (y_word (hn a List.mem_cons_self) hd).filter (hv a List.mem_cons_self)
    have h2 := (ih (fun x hx => hn x (List.mem_cons_of_mem _ hx)) fun x hx => hv x (List.mem_cons_of_mem _ hx)).map
      fun l => v a :: l
    have h3 := h1.bind (h := fun x => times l.length (word >>= fun w => lift (p w)) >>= fun l => Pure.pure (x :: l)) h2
    refine h3.cast ?_
    rw [List.append_assoc]
    rfl

theorem y_textInts {l : List ℤ} {s : Txt} (ty : IntTy) (h : Chunks int l s) (hl : ∀ i ∈ l, ty.Has i) :
    Y Bl Bl (textCodec.ints ty l.length) l s := by
  have := y_chunks (p := fun w => (integer w).bind fun i => if ty.Has i then some i else none) (v := id) h
    (fun i _ => name_int i) fun i hi => by rw [integer_int, Option.bind_some, if_pos (hl i hi)]; rfl
  rwa [List.map_id] at this

theorem y_textReals {l : List ℚ} {s : Txt} (d : Bool) (h : Chunks real l s) :
    Y Bl Bl (textCodec.reals d l.length) (l.map rho) s :=
  y_chunks (p := number) h (fun i _ => name_real i) fun i _ => number_real i

/-! ## Binary data -/

/-- Reading exactly `s`. -/
def Z (p : Parser α) (a : α) (s : Txt) : Prop := ∀ rest, p (s ++ rest) = some (a, rest)

theorem z_times {p : Parser β} {f : α → Txt} {v : α → β} (l : List α) (h : ∀ a ∈ l, Z p (v a) (f a)) :
    Z (times l.length p) (l.map v) (l.map f).flatten := by
  induction l with
  | nil => exact fun rest => rfl
  | cons a l ih =>
    intro rest
    simp only [List.length_cons, times, Msh.bind_apply, List.map_cons, List.flatten_cons, List.append_assoc,
      h a List.mem_cons_self _, Option.bind_some, ih (fun x hx => h x (List.mem_cons_of_mem _ hx)) rest, Msh.pure_apply]

theorem bytes_length (k n : ℕ) : (bytes k n).length = k := by
  induction k generalizing n with
  | zero => rfl
  | succ k ih => rw [bytes, List.length_append, ih]; rfl

theorem toNat_byte {n : ℕ} (h : n < 256) : (Char.ofNat n).toNat = n := by
  have hv : n.isValidChar := Or.inl (by omega)
  simp only [Char.ofNat, dif_pos hv]
  rfl

theorem bytes_value (k n : ℕ) (h : n < 256 ^ k) : (bytes k n).foldl (fun a c => 256 * a + c.toNat) 0 = n := by
  induction k generalizing n with
  | zero => simp at h; subst h; rfl
  | succ k ih =>
    rw [bytes, List.foldl_append, ih (n / 256) (by rw [pow_succ] at h; exact Nat.div_lt_of_lt_mul (by rwa [mul_comm] at h))]
    simp only [List.foldl_cons, List.foldl_nil, toNat_byte (Nat.mod_lt n (by norm_num : 0 < 256))]
    omega

theorem z_bytes (k n : ℕ) (h : n < 256 ^ k) : Z (bigEndian k) n (bytes k n) := by
  intro rest
  have hl := bytes_length k n
  rw [bigEndian, if_pos (by rw [List.length_append, hl]; omega), List.take_left' hl, List.drop_left' hl, bytes_value k n h]

theorem intTy_value (ty : IntTy) (i : ℤ) (h : ty.Has i) : ty.value (i % 256 ^ ty.size).toNat = i := by
  unfold IntTy.Has at h
  cases ty <;> simp only [IntTy.lo, IntTy.hi, IntTy.size, IntTy.value, signed] at h ⊢ <;> norm_num at h ⊢ <;> omega

theorem z_int (ty : IntTy) (i : ℤ) (h : ty.Has i) :
    Z (bigEndian ty.size >>= fun v => Pure.pure (ty.value v)) i (intBytes ty.size i) := by
  intro rest
  have h1 : (i % 256 ^ ty.size).toNat < 256 ^ ty.size := by
    have h2 := Int.emod_lt_of_pos i (by positivity : (0 : ℤ) < 256 ^ ty.size)
    have h3 := Int.emod_nonneg i (by positivity : (256 ^ ty.size : ℤ) ≠ 0)
    zify
    rw [Int.toNat_of_nonneg h3]
    exact h2
  rw [Msh.bind_apply, intBytes, z_bytes _ _ h1 rest]
  simp only [Option.bind_some, Msh.pure_apply, intTy_value ty i h]

theorem star_some (g : α → Txt) (l : List α) : star (fun a => some (g a)) l = (l.map g).flatten := by
  rw [star]
  congr 1
  induction l with
  | nil => rfl
  | cons a l ih => simp

theorem y_payload {p : Parser α} {a : α} {s : Txt} (h : Z p a s) : Y Nl Bl (newline >>= fun _ => p) a (s ++ eol) := by
  rintro rest b rfl
  refine ⟨['\n'], Nl.bl rfl, ?_⟩
  rw [Msh.bind_apply]
  have : newline (['\n'] ++ (s ++ eol ++ rest)) = some ((), s ++ (eol ++ rest)) := by
    rw [List.append_assoc]; rfl
  rw [this, Option.bind_some, h]
  rfl

theorem y_binInts {l : List ℤ} (ty : IntTy) (hl : ∀ i ∈ l, ty.Has i) :
    Y Nl Bl (binaryCodec.ints ty l.length) l ((l.map (intBytes ty.size)).flatten ++ eol) := by
  have := z_times (p := bigEndian ty.size >>= fun v => Pure.pure (ty.value v)) (f := intBytes ty.size) (v := id) l
    fun i hi => z_int ty i (hl i hi)
  rw [List.map_id] at this
  exact y_payload this

theorem y_binReals {l : List ℕ} (d : Bool) (hl : ∀ n ∈ l, bitsFit d n) :
    Y Nl Bl (binaryCodec.reals d l.length) l ((l.map (bytes (realSize d))).flatten ++ eol) := by
  have := z_times (p := bigEndian (if d then 8 else 4)) (f := bytes (realSize d)) (v := id) l fun n hn => by
    refine z_bytes _ n ?_
    have := hl n hn
    unfold bitsFit at this
    cases d <;> norm_num at this ⊢ <;> exact this
  rw [List.map_id] at this
  exact y_payload this

end VtkF

end Verif
