import Verif.Lemmas.VtkFormat

/-!
# Lemmas for VTK files: the parts of a file
-/

namespace Verif

namespace VtkF

open Msh (Txt Vec Parser)

variable {R S : Type}

/-- The coordinates one after the other. -/
def flat (l : List (Vec R)) : List R := (l.map fun v => [v.1, v.2.1, v.2.2]).flatten

theorem flat_length (l : List (Vec R)) : (flat l).length = 3 * l.length := by
  induction l with
  | nil => rfl
  | cons v l ih =>
    have : flat (v :: l) = [v.1, v.2.1, v.2.2] ++ flat l := rfl
    rw [this, List.length_append, ih]
    simp only [List.length_cons, List.length_nil]
    omega

theorem triples_flat (r : R → S) (l : List (Vec R)) : triples ((flat l).map r) = l.map (mapVec r) := by
  induction l with
  | nil => rfl
  | cons v l ih =>
    have : flat (v :: l) = [v.1, v.2.1, v.2.2] ++ flat l := rfl
    rw [this, List.map_append]
    simp only [List.map_cons, List.map_nil, List.cons_append, List.nil_append, triples, ih, mapVec]

/-- The integers of the section CELLS. -/
def cellInts (l : List (List ℕ)) : List ℤ := (l.map fun c => (c.length :: c).map fun n : ℕ => (n : ℤ)).flatten

theorem cellListSize_eq (l : List (List ℕ)) : cellListSize l = l.length + (l.map List.length).sum := by
  have h : ∀ (k : ℕ), l.foldl (fun r v => r + v.length) k = k + (l.map List.length).sum := by
    induction l with
    | nil => intro k; rfl
    | cons c l ih => intro k; rw [List.foldl_cons, ih, List.map_cons, List.sum_cons]; omega
  exact h _

theorem cellInts_length (l : List (List ℕ)) : (cellInts l).length = cellListSize l := by
  rw [cellListSize_eq]
  induction l with
  | nil => rfl
  | cons c l ih =>
    have : cellInts (c :: l) = (c.length :: c).map (fun n : ℕ => (n : ℤ)) ++ cellInts l := rfl
    rw [this, List.length_append, ih, List.length_map, List.map_cons, List.sum_cons]
    simp only [List.length_cons]
    omega

theorem groups_cellInts (l : List (List ℕ)) : groups l.length (cellInts l) = some l := by
  induction l with
  | nil => rfl
  | cons c l ih =>
    have h : cellInts (c :: l) = (c.length : ℤ) :: (c.map (fun n : ℕ => (n : ℤ)) ++ cellInts l) := rfl
    have hl : (c.map fun n : ℕ => (n : ℤ)).length = c.length := List.length_map _
    rw [h, List.length_cons, groups, Int.toNat_natCast, List.take_left' hl, List.drop_left' hl, ih]
    rw [if_pos]
    · simp only [Option.map_some, List.map_map, Option.some.injEq, List.cons.injEq, and_true]
      conv_rhs => rw [← List.map_id c]
      exact List.map_congr_left fun n _ => Int.toNat_natCast n
    · refine ⟨by omega, by rw [List.length_append, hl]; omega, ?_⟩
      intro i hi
      obtain ⟨n, -, rfl⟩ := List.mem_map.1 hi
      omega

/-- The rules write what the codec reads. -/
structure Sound (g : Rules R) (c : Codec R) (fits : Bool → R → Prop) (rd : R → R) (cellOk : List ℕ → Prop) : Prop where
  format : c.format = g.format ∧ Name g.format
  points : ∀ l, (∀ v ∈ l, fits false v.1 ∧ fits false v.2.1 ∧ fits false v.2.2) →
    Y Nl Bl (c.reals false (flat l).length) ((flat l).map rd) (g.points l)
  cells : ∀ l, (∀ i ∈ cellInts l, IntTy.int.Has i) → (∀ x ∈ l, cellOk x) →
    Y Nl Bl (c.ints .int (cellInts l).length) (cellInts l) (star g.cell l ++ eol)
  types : ∀ l : List ℕ, (∀ t ∈ l, t < 2 ^ 31) →
    Y Nl Bl (c.ints .int l.length) (l.map fun n : ℕ => (n : ℤ)) (star (fun t => some (g.type t)) l ++ eol)
  fieldInts : ∀ l s, (∀ i ∈ l, IntTy.int.Has i) → g.fieldInts l = some s → Y Nl Bl (c.ints .int l.length) l s
  fieldReals : ∀ d l s, (∀ x ∈ l, fits d x) → g.fieldReals d l = some s → Y Nl Bl (c.reals d l.length) (l.map rd) s
  ints : ∀ ty l, (∀ i ∈ l, ty.Has i) → Y Nl Bl (c.ints ty l.length) l (g.ints ty l)
  reals : ∀ d l, (∀ x ∈ l, fits d x) → Y Nl Bl (c.reals d l.length) (l.map rd) (g.reals d l)
  vecs : ∀ d l, (∀ v ∈ l, fits d v.1 ∧ fits d v.2.1 ∧ fits d v.2.2) →
    Y Nl Bl (c.reals d (flat l).length) ((flat l).map rd) (g.vecs d l)

theorem mem_flat {P : R → Prop} {l : List (Vec R)} (h : ∀ v ∈ l, P v.1 ∧ P v.2.1 ∧ P v.2.2) : ∀ x ∈ flat l, P x := by
  intro x hx
  simp only [flat, List.mem_flatten, List.mem_map] at hx
  obtain ⟨_, ⟨v, hv, rfl⟩, hx⟩ := hx
  simp only [List.mem_cons, List.not_mem_nil, or_false] at hx
  rcases hx with rfl | rfl | rfl
  · exact (h v hv).1
  · exact (h v hv).2.1
  · exact (h v hv).2.2

/-- Text files. -/
theorem soundText : Sound textRules textCodec (fun _ _ => True) rho (fun c => c ≠ []) := by
  have hvec : ∀ l : List (Vec ℚ), Chunks real (flat l) (star (fun v => some (vecLine v)) l) := by
    intro l
    rw [star_some]
    refine Chunks.flatten (g := fun v => [v.1, v.2.1, v.2.2]) l fun v _ => ?_
    have h := Chunks.cons (f := real) v.1 _ _ ' ' (by decide) (Chunks.cons v.2.1 _ _ ' ' (by decide)
      (Chunks.cons v.2.2 _ _ '\n' (by decide) Chunks.nil))
    simpa [vecLine, eol, List.append_assoc] using h
  have hlines : ∀ {α : Type} (f : α → Txt) (l : List α), ∃ t, (∀ d ∈ t, space d = true) ∧ ∃ u,
      starSepBy eol f l ++ eol = u ++ t ∧ Chunks f l u := by
    intro α f l
    cases hl : sepBy eol f l with
    | none =>
      refine ⟨eol, by decide, [], by simp [starSepBy, hl], ?_⟩
      cases l with
      | nil => exact Chunks.nil
      | cons a l => simp [sepBy] at hl
    | some s =>
      refine ⟨[], by simp, s ++ eol, by simp [starSepBy, hl], ?_⟩
      exact chunks_sepBy (by decide) (by decide) l s hl
  refine ⟨⟨rfl, ?_⟩, ?_, ?_, ?_, ?_, ?_, ?_, ?_, ?_⟩
  · exact ⟨by decide, by decide⟩
  · intro l _
    exact (y_textReals false (hvec l)).after
  · intro l h1 h2
    have hc : Chunks int (cellInts l) (star textRules.cell l) := by
      have hs : star textRules.cell l = (l.map fun c => (textRules.cell c).getD []).flatten := by
        unfold star
        congr 1
        clear h1
        induction l with
        | nil => rfl
        | cons c l ih =>
          have hc := h2 c List.mem_cons_self
          rw [List.filterMap_cons, List.map_cons, ih fun x hx => h2 x (List.mem_cons_of_mem _ hx)]
          cases c with
          | nil => exact absurd rfl hc
          | cons a c => rfl
      rw [hs]
      refine Chunks.flatten l fun c hc => Chunks.map ?_
      simp only [int_natCast]
      cases hsep : sepBy [' '] dec c with
      | none =>
        exact absurd hsep (by cases c with
          | nil => exact absurd rfl (h2 _ hc)
          | cons a c => simp [sepBy])
      | some s =>
        have h3 := Chunks.cons (f := dec) c.length _ _ ' ' (by decide)
          (chunks_sepBy (d := '\n') (by decide) (by decide) c s hsep)
        simpa [textRules, hsep, eol, List.append_assoc] using h3
    exact ((y_textInts .int hc h1).blank (by decide)).after
  · intro l hl
    have hc : Chunks int (l.map fun n : ℕ => (n : ℤ)) (star (fun t => some (textRules.type t)) l) := by
      rw [star_some]
      have := Chunks.flatten (f := int) (g := fun n : ℕ => [(n : ℤ)]) (t := fun t : ℕ => textRules.type t) l fun n _ =>
        Chunks.cons (n : ℤ) [] [] '\n' (by decide) Chunks.nil
      have e : (l.map fun n : ℕ => [(n : ℤ)]).flatten = l.map fun n : ℕ => (n : ℤ) := by
        clear hl this
        induction l with
        | nil => rfl
        | cons a l ih => simp [ih]
      rwa [e] at this
    have h := y_textInts .int hc (by
      intro i hi
      obtain ⟨n, hn, rfl⟩ := List.mem_map.1 hi
      have := hl n hn
      constructor <;> simp only [IntTy.lo, IntTy.hi] <;> norm_num at this ⊢ <;> omega)
    rw [List.length_map] at h
    exact (h.blank (by decide)).after
  · intro l s hl hs
    simp only [textRules, Option.map_eq_some_iff] at hs
    obtain ⟨t, ht, rfl⟩ := hs
    exact (y_textInts .int (chunks_sepBy (by decide) (by decide) l t ht) hl).after
  · intro d l s hl hs
    simp only [textRules, Option.map_eq_some_iff] at hs
    obtain ⟨t, ht, rfl⟩ := hs
    exact (y_textReals d (chunks_sepBy (by decide) (by decide) l t ht)).after
  · intro ty l hl
    obtain ⟨t, ht, u, hu, hc⟩ := hlines int l
    exact (((y_textInts ty hc hl).blank ht).cast hu.symm).after
  · intro d l hl
    obtain ⟨t, ht, u, hu, hc⟩ := hlines real l
    exact (((y_textReals d hc).blank ht).cast hu.symm).after
  · intro d l _
    exact (y_textReals d (hvec l)).after

/-- Binary files. -/
theorem soundBinary : Sound binaryRules binaryCodec bitsFit id (fun _ => True) := by
  have hvec : ∀ (k : ℕ) (l : List (Vec ℕ)), star (fun v => some (vecBytes k v)) l = ((flat l).map (bytes k)).flatten := by
    intro k l
    rw [star_some]
    induction l with
    | nil => rfl
    | cons v l ih =>
      have : flat (v :: l) = [v.1, v.2.1, v.2.2] ++ flat l := rfl
      rw [this, List.map_append, List.flatten_append, ← ih]
      simp [vecBytes, List.append_assoc]
  have hnat : ∀ n : ℕ, IntTy.int.Has (n : ℤ) → intBytes 4 (n : ℤ) = bytes 4 n := by
    intro n hn
    have h1 : (n : ℤ) % 256 ^ 4 = n := by
      refine Int.emod_eq_of_lt (by omega) ?_
      have := hn.2
      simp only [IntTy.hi] at this
      norm_num at this ⊢
      omega
    rw [intBytes, h1, Int.toNat_natCast]
  refine ⟨⟨rfl, ?_⟩, ?_, ?_, ?_, ?_, ?_, ?_, ?_, ?_⟩
  · exact ⟨by decide, by decide⟩
  · intro l hl
    rw [List.map_id]
    refine (y_binReals false (mem_flat hl)).cast ?_
    simp only [binaryRules, hvec]
    rfl
  · intro l h1 _
    refine (y_binInts .int h1).cast ?_
    congr 1
    have : star binaryRules.cell l = (l.map fun c => bytes 4 c.length ++ (c.map (bytes 4)).flatten).flatten := by
      rw [← star_some]
      congr 1
      funext c
      simp only [binaryRules, star_some]
    rw [this]
    clear this
    induction l with
    | nil => rfl
    | cons c l ih =>
      have e : cellInts (c :: l) = (c.length :: c).map (fun n : ℕ => (n : ℤ)) ++ cellInts l := rfl
      rw [e] at h1 ⊢
      rw [List.map_append, List.flatten_append, ih (fun i hi => h1 i (List.mem_append_right _ hi)) (fun _ _ => trivial),
        List.map_map, List.map_cons (l := l), List.flatten_cons (L := List.map _ l)]
      congr 1
      have : (c.length :: c).map (intBytes IntTy.int.size ∘ fun n : ℕ => (n : ℤ)) = (c.length :: c).map (bytes 4) := by
        refine List.map_congr_left fun n hn => hnat n (h1 _ (List.mem_append_left _ (List.mem_map_of_mem hn)))
      rw [this]
      rfl
  · intro l hl
    have h := y_binInts (l := l.map fun n : ℕ => (n : ℤ)) .int (by
      intro i hi
      obtain ⟨n, hn, rfl⟩ := List.mem_map.1 hi
      have := hl n hn
      constructor <;> simp only [IntTy.lo, IntTy.hi] <;> norm_num at this ⊢ <;> omega)
    rw [List.length_map] at h
    refine h.cast ?_
    rw [star_some, List.map_map]
    rfl
  · intro l s hl hs
    simp only [binaryRules, star_some, Option.some.injEq] at hs
    exact (y_binInts .int hl).cast hs
  · intro d l s hl hs
    simp only [binaryRules, star_some, Option.some.injEq] at hs
    rw [List.map_id]
    exact (y_binReals d hl).cast hs
  · intro ty l hl
    exact (y_binInts ty hl).cast (by simp only [binaryRules, star_some])
  · intro d l hl
    rw [List.map_id]
    exact (y_binReals d hl).cast (by simp only [binaryRules, star_some])
  · intro d l hl
    rw [List.map_id]
    exact (y_binReals d (mem_flat hl)).cast (by simp only [binaryRules, hvec])

/-! ## The parts of a file -/

section
variable {g : Rules R} {c : Codec R} {fits : Bool → R → Prop} {rd : R → R} {cellOk : List ℕ → Prop}

theorem name_of {w : Txt} (h : (decide (w ≠ []) && w.all fun c => !space c) = true) : Name w := by
  rw [Bool.and_eq_true, decide_eq_true_eq] at h
  exact ⟨h.1, fun c hc => by simpa using List.all_eq_true.1 h.2 c hc⟩

theorem split_points : "POINTS ".toList = "POINTS".toList ++ [' '] := by decide +kernel
theorem split_float : " float".toList = [' '] ++ "float".toList := by decide +kernel
theorem split_int : " int".toList = [' '] ++ "int".toList := by decide +kernel
theorem split_cells : "CELLS ".toList = "CELLS".toList ++ [' '] := by decide +kernel
theorem split_types : "CELL_TYPES ".toList = "CELL_TYPES".toList ++ [' '] := by decide +kernel
theorem split_grid : "DATASET UNSTRUCTURED_GRID".toList = "DATASET".toList ++ ([' '] ++ "UNSTRUCTURED_GRID".toList) := by
  decide +kernel
theorem split_one : " 1 ".toList = [' ', '1', ' '] := by decide +kernel
theorem split_end : " 1".toList = [' ', '1'] := by decide +kernel
theorem split_field : "FIELD FieldData ".toList = "FIELD".toList ++ ([' '] ++ ("FieldData".toList ++ [' '])) := by decide +kernel
theorem split_scalars : "SCALARS ".toList = "SCALARS".toList ++ [' '] := by decide +kernel
theorem split_vectors : "VECTORS ".toList = "VECTORS".toList ++ [' '] := by decide +kernel
theorem split_table : "LOOKUP_TABLE ".toList = "LOOKUP_TABLE".toList ++ [' '] := by decide +kernel
theorem split_pd : "POINT_DATA ".toList = "POINT_DATA".toList ++ [' '] := by decide +kernel
theorem split_cd : "CELL_DATA ".toList = "CELL_DATA".toList ++ [' '] := by decide +kernel

theorem count_eq {n : ℕ} (h : n < 2 ^ 31) : count n = dec n := by
  rw [count, Nat.mod_eq_of_lt (by norm_num at h ⊢; omega)]

theorem y_points (hS : Sound g c fits rd cellOk) (l : List (Vec R)) (hn : l.length < 2 ^ 31)
    (hl : ∀ v ∈ l, fits false v.1 ∧ fits false v.2.1 ∧ fits false v.2.2) :
    Y Bl Bl (readPoints c) (l.map (mapVec rd)) (points g l) := by
  have h1 := (hS.points l hl).map triples
  rw [triples_flat, flat_length] at h1
  have h2 : Y Bl Bl (readPoints c) _ _ := (y_kwSp "POINTS".toList (name_of (by decide +kernel))).bind
    ((y_natSp l.length).bind ((y_kwNl "float".toList (name_of (by decide +kernel))).bind h1))
  refine h2.cast ?_
  unfold points
  simp only [count_eq hn, split_points, split_float, List.append_assoc, List.nil_append, List.cons_append]

theorem cellInts_has {l : List (List ℕ)} (hn : l.length + (l.map List.length).sum < 2 ^ 31) (hi : ∀ c ∈ l, ∀ i ∈ c, i < 2 ^ 31) :
    ∀ i ∈ cellInts l, IntTy.int.Has i := by
  have hlen : ∀ c ∈ l, c.length ≤ (l.map List.length).sum := by
    intro c hc
    exact List.le_sum_of_mem (List.mem_map_of_mem hc)
  intro i h
  simp only [cellInts, List.mem_flatten, List.mem_map] at h
  obtain ⟨_, ⟨c, hc, rfl⟩, h⟩ := h
  obtain ⟨n, hn', rfl⟩ := List.mem_map.1 h
  have : n < 2 ^ 31 := by
    rcases List.mem_cons.1 hn' with rfl | hn'
    · have := hlen c hc
      omega
    · exact hi c hc n hn'
  constructor <;> simp only [IntTy.lo, IntTy.hi] <;> norm_num at this ⊢ <;> omega

theorem y_cells (hS : Sound g c fits rd cellOk) (l : List (List ℕ)) (hn : l.length + (l.map List.length).sum < 2 ^ 31)
    (hi : ∀ c ∈ l, ∀ i ∈ c, i < 2 ^ 31) (hl : ∀ x ∈ l, cellOk x) : Y Bl Bl (readCells c) l (cells g l) := by
  have h1 := (hS.cells l (cellInts_has hn hi) hl).filter (groups_cellInts l)
  rw [cellInts_length] at h1
  have h2 : Y Bl Bl (readCells c) _ _ := (y_kwSp "CELLS".toList (name_of (by decide +kernel))).bind
    ((y_natSp l.length).bind ((y_natNl (cellListSize l)).bind h1))
  refine h2.cast ?_
  have e1 := count_eq (n := l.length) (by omega)
  have e2 := count_eq (n := cellListSize l) (by rw [cellListSize_eq]; omega)
  unfold cells
  simp only [e1, e2, split_cells, List.append_assoc, List.nil_append, List.cons_append]

theorem y_types (hS : Sound g c fits rd cellOk) (l : List ℕ) (hn : l.length < 2 ^ 31) (hl : ∀ t ∈ l, t < 2 ^ 31) :
    Y Bl Bl (readTypes c l.length) l (cellTypes g l ++ eol) := by
  have h1 : Y Nl Bl (c.ints .int l.length >>= fun l => lift (if ∀ i ∈ l, (0 : ℤ) ≤ i then some (l.map Int.toNat) else none)) l _ :=
    (hS.types l hl).filter (by
      rw [if_pos]
      · rw [List.map_map]
        congr 1
        conv_rhs => rw [← List.map_id l]
        exact List.map_congr_left fun n _ => Int.toNat_natCast n
      · intro i hi
        obtain ⟨n, -, rfl⟩ := List.mem_map.1 hi
        omega)
  have h0 : Y Nl Nl (lift (if l.length = l.length then some () else none)) () [] := Y.lift (if_pos rfl)
  have h2 : Y Bl Bl (readTypes c l.length) _ _ := (y_kwSp "CELL_TYPES".toList (name_of (by decide +kernel))).bind
    ((y_natNl l.length).bind (h0.bind h1))
  refine h2.cast ?_
  unfold cellTypes
  simp only [count_eq hn, split_types, List.append_assoc, List.nil_append, List.cons_append]

theorem typeName_of {w : Txt} {t : IntTy ⊕ Bool} {B : Txt → Prop} {s : Txt} (h : Y Bl B word w s) (ht : typeNames.lookup w = some t) :
    Y Bl B typeName t s := h.filter ht

theorem y_realTy (d : Bool) : Y Bl Nl typeName (.inr d) ((realTy d).drop 1 ++ eol) := by
  cases d
  · exact typeName_of (y_wordNl (w := "float".toList) (name_of (by decide +kernel))) (by decide +kernel)
  · exact typeName_of (y_wordNl (w := "double".toList) (name_of (by decide +kernel))) (by decide +kernel)

theorem y_realTySp (d : Bool) : Y Bl Bl typeName (.inr d) ((realTy d).drop 1 ++ [' ']) := by
  cases d
  · exact typeName_of (y_wordSp (w := "float".toList) (name_of (by decide +kernel))) (by decide +kernel)
  · exact typeName_of (y_wordSp (w := "double".toList) (name_of (by decide +kernel))) (by decide +kernel)

theorem realTy_cons (d : Bool) : realTy d = ' ' :: (realTy d).drop 1 := by cases d <;> rfl

theorem y_field (hS : Sound g c fits rd cellOk) (f : Field R) (hf : f.Ok fits) {s : Txt} (hs : field g f = some s) :
    Y Bl Bl (readField c) (f.map rd) s := by
  cases f with
  | ints name d =>
    simp only [field, Option.map_eq_some_iff] at hs
    obtain ⟨t, ht, rfl⟩ := hs
    have h1 := (hS.fieldInts d t hf.2 ht).map fun l => (Field.ints name l : Field R)
    have h2 : Y Bl Nl typeName (.inl .int) ("int".toList ++ eol) :=
      typeName_of (y_wordNl (w := "int".toList) (name_of (by decide +kernel))) (by decide +kernel)
    have h3 : Y Bl Bl (readField c) _ _ := (y_wordSp hf.1).bind ((y_kwSp ['1'] (name_of (by decide +kernel))).bind
      ((y_natSp d.length).bind (h2.bind h1)))
    refine h3.cast ?_
    simp only [split_one, split_int, List.append_assoc, List.nil_append, List.cons_append]
  | reals b name d =>
    simp only [field, Option.map_eq_some_iff] at hs
    obtain ⟨t, ht, rfl⟩ := hs
    have h1 := (hS.fieldReals b d t hf.2 ht).map fun l => (Field.reals b name l : Field R)
    have h3 : Y Bl Bl (readField c) _ _ := (y_wordSp hf.1).bind ((y_kwSp ['1'] (name_of (by decide +kernel))).bind
      ((y_natSp d.length).bind ((y_realTy b).bind h1)))
    refine h3.cast ?_
    have e := realTy_cons b
    generalize (realTy b).drop 1 = w at e ⊢
    simp only [e, split_one, List.append_assoc, List.nil_append, List.cons_append]

theorem y_fields (hS : Sound g c fits rd cellOk) (l : List (Field R)) (hl : ∀ f ∈ l, f.Ok fits)
    (hs : ∀ f ∈ l, (field g f).isSome) : Y Bl Bl (readFields c) (l.map (Field.map rd)) (fieldData g l) := by
  have e : star (field g) l = (l.map fun f => (field g f).getD []).flatten := by
    unfold star
    congr 1
    clear hl
    induction l with
    | nil => rfl
    | cons f l ih =>
      obtain ⟨t, ht⟩ := Option.isSome_iff_exists.1 (hs f List.mem_cons_self)
      rw [List.filterMap_cons_some ht, List.map_cons, ih fun x hx => hs x (List.mem_cons_of_mem _ hx), ht]
      rfl
  have h1 := y_times (A := Bl) (p := readField c) (f := fun f => (field g f).getD []) (v := Field.map rd) l fun f hf => by
    obtain ⟨t, ht⟩ := Option.isSome_iff_exists.1 (hs f hf)
    rw [ht]
    exact y_field hS f (hl f hf) ht
  have h3 : Y Bl Bl (readFields c) _ _ := (y_kwSp "FIELD".toList (name_of (by decide +kernel))).bind
    ((y_wordSp (w := "FieldData".toList) (name_of (by decide +kernel))).bind ((y_natNl l.length).nl.bind h1))
  refine h3.cast ?_
  unfold fieldData
  simp only [e, split_field, List.append_assoc, List.nil_append, List.cons_append]

theorem y_intTy (ty : IntTy) (h : ty ≠ .uchar) : ∃ w, ty.text = ' ' :: w ++ " 1".toList ∧ Y Bl Bl typeName (.inl ty) (w ++ [' ']) := by
  cases ty
  case uchar => exact absurd rfl h
  case char => exact ⟨"char".toList, by decide +kernel, typeName_of (y_wordSp (name_of (by decide +kernel))) (by decide +kernel)⟩
  case short => exact ⟨"short".toList, by decide +kernel, typeName_of (y_wordSp (name_of (by decide +kernel))) (by decide +kernel)⟩
  case ushort => exact ⟨"unsigned_short".toList, by decide +kernel, typeName_of (y_wordSp (name_of (by decide +kernel))) (by decide +kernel)⟩
  case int => exact ⟨"int".toList, by decide +kernel, typeName_of (y_wordSp (name_of (by decide +kernel))) (by decide +kernel)⟩
  case uint => exact ⟨"unsigned_int".toList, by decide +kernel, typeName_of (y_wordSp (name_of (by decide +kernel))) (by decide +kernel)⟩
  case long => exact ⟨"long".toList, by decide +kernel, typeName_of (y_wordSp (name_of (by decide +kernel))) (by decide +kernel)⟩
  case ulong => exact ⟨"unsigned_long".toList, by decide +kernel, typeName_of (y_wordSp (name_of (by decide +kernel))) (by decide +kernel)⟩

/-- What follows the keyword of an attribute. -/
theorem y_attr (hS : Sound g c fits rd cellOk) (n : ℕ) (a : Attr R) (ha : a.Ok fits n) :
    (∃ s, attr g a = "SCALARS".toList ++ [' '] ++ s ∧ Y Bl Bl (readScalars c n) (a.map rd) s) ∨
    ∃ s, attr g a = "VECTORS".toList ++ [' '] ++ s ∧ Y Bl Bl (readVectors c n) (a.map rd) s := by
  cases a with
  | ints ty name table d =>
    obtain ⟨h1, h2, h3, h4, h5⟩ := ha
    obtain ⟨w, hw, hy⟩ := y_intTy ty h4
    subst h3
    left
    have h6 := (hS.ints ty d h5).map fun l => (Attr.ints ty name table l : Attr R)
    have h7 : Y Bl Bl (readScalars c d.length) _ _ := (y_wordSp h1).bind (hy.bind ((y_kwNl ['1'] (name_of (by decide +kernel))).nl.bind
      ((y_kwSp "LOOKUP_TABLE".toList (name_of (by decide +kernel))).bind ((y_wordNl h2).bind h6))))
    refine ⟨_, ?_, h7⟩
    unfold attr
    simp only [hw, split_end, split_scalars, split_table, List.append_assoc, List.nil_append, List.cons_append]
  | reals b name table d =>
    obtain ⟨h1, h2, h3, h4⟩ := ha
    subst h3
    left
    have h6 := (hS.reals b d h4).map fun l => (Attr.reals b name table l : Attr R)
    have h7 : Y Bl Bl (readScalars c d.length) _ _ := (y_wordSp h1).bind ((y_realTySp b).bind
      ((y_kwNl ['1'] (name_of (by decide +kernel))).nl.bind
      ((y_kwSp "LOOKUP_TABLE".toList (name_of (by decide +kernel))).bind ((y_wordNl h2).bind h6))))
    refine ⟨_, ?_, h7⟩
    have e := realTy_cons b
    generalize (realTy b).drop 1 = w at e ⊢
    unfold attr
    simp only [e, split_end, split_scalars, split_vectors, split_table, List.append_assoc, List.nil_append, List.cons_append]
  | vecs b name d =>
    obtain ⟨h1, h3, h4⟩ := ha
    subst h3
    right
    have h6 := (hS.vecs b d h4).map fun l => (Attr.vecs b name (triples l) : Attr R)
    rw [triples_flat, flat_length] at h6
    have h7 : Y Bl Bl (readVectors c d.length) _ _ := (y_wordSp h1).bind ((y_realTy b).bind h6)
    refine ⟨_, ?_, h7⟩
    have e := realTy_cons b
    generalize (realTy b).drop 1 = w at e ⊢
    unfold attr
    simp only [e, split_end, split_scalars, split_vectors, split_table, List.append_assoc, List.nil_append, List.cons_append]

/-- No attribute follows. -/
def Stop (rest : Txt) : Prop :=
  ∀ b, Bl b → word (b ++ rest) = none ∨ ∃ w r, word (b ++ rest) = some (w, r) ∧ w ≠ "SCALARS".toList ∧ w ≠ "VECTORS".toList

theorem at_attrs (hS : Sound g c fits rd cellOk) (n : ℕ) (l : List (Attr R)) (hl : ∀ a ∈ l, a.Ok fits n) (fuel : ℕ)
    (hf : l.length ≤ fuel) (rest : Txt) (hr : Stop rest) :
    At Bl Bl (readAttrs c n fuel) (l.map (Attr.map rd)) (attributes g l) rest := by
  induction l generalizing fuel with
  | nil =>
    intro b hb
    refine ⟨b, hb, ?_⟩
    have e : attributes g ([] : List (Attr R)) = [] := rfl
    rw [e, List.nil_append]
    cases fuel with
    | zero => rfl
    | succ fuel =>
      rcases hr b hb with h | ⟨w, r, h, h1, h2⟩
      · simp only [readAttrs, h, List.map_nil]
      · simp only [readAttrs, h, if_neg h1, if_neg h2, List.map_nil]
  | cons a l ih =>
    cases fuel with
    | zero => simp at hf
    | succ fuel =>
      have ih' := ih (fun x hx => hl x (List.mem_cons_of_mem _ hx)) fuel (by simpa using hf)
      have e : attributes g (a :: l) = attr g a ++ attributes g l := by
        simp only [attributes, star_some, List.map_cons, List.flatten_cons]
      intro b hb
      rcases y_attr hS n a (hl a List.mem_cons_self) with ⟨s, hs, hy⟩ | ⟨s, hs, hy⟩
      · have hw : word (b ++ (attributes g (a :: l) ++ rest)) = some ("SCALARS".toList, ' ' :: (s ++ (attributes g l ++ rest))) := by
          rw [e, hs]
          simp only [List.append_assoc, List.cons_append, List.nil_append]
          exact word_apply hb.2 (name_of (by decide +kernel)) (by decide +kernel)
        obtain ⟨b1, hb1, e1⟩ := hy (attributes g l ++ rest) [' '] ⟨by simp, by decide +kernel⟩
        obtain ⟨b2, hb2, e2⟩ := ih' b1 hb1
        refine ⟨b2, hb2, ?_⟩
        have e1' : readScalars c n (' ' :: (s ++ (attributes g l ++ rest))) = some (a.map rd, b1 ++ (attributes g l ++ rest)) := e1
        simp only [readAttrs, hw, if_true, Msh.bind_apply, e1', e2, Option.bind_some, Msh.pure_apply, List.map_cons]
      · have hw : word (b ++ (attributes g (a :: l) ++ rest)) = some ("VECTORS".toList, ' ' :: (s ++ (attributes g l ++ rest))) := by
          rw [e, hs]
          simp only [List.append_assoc, List.cons_append, List.nil_append]
          exact word_apply hb.2 (name_of (by decide +kernel)) (by decide +kernel)
        obtain ⟨b1, hb1, e1⟩ := hy (attributes g l ++ rest) [' '] ⟨by simp, by decide +kernel⟩
        obtain ⟨b2, hb2, e2⟩ := ih' b1 hb1
        refine ⟨b2, hb2, ?_⟩
        have e1' : readVectors c n (' ' :: (s ++ (attributes g l ++ rest))) = some (a.map rd, b1 ++ (attributes g l ++ rest)) := e1
        have hne : ¬ "VECTORS".toList = "SCALARS".toList := by decide +kernel
        simp only [readAttrs, hw, if_neg hne, if_true, Msh.bind_apply, e1', e2, Option.bind_some, Msh.pure_apply, List.map_cons]

theorem attributes_length (l : List (Attr R)) : l.length ≤ (attributes g l).length := by
  induction l with
  | nil => exact Nat.zero_le _
  | cons a l ih =>
    have e : attributes g (a :: l) = attr g a ++ attributes g l := by
      simp only [attributes, star_some, List.map_cons, List.flatten_cons]
    have h1 : 1 ≤ (attr g a).length := by
      have e1 : "SCALARS".toList.length = 7 := by decide +kernel
      have e2 : "VECTORS".toList.length = 7 := by decide +kernel
      cases a <;> unfold attr <;> simp only [split_scalars, split_vectors, List.length_append, List.length_cons] <;> omega
    rw [e, List.length_append, List.length_cons]
    omega

theorem at_data (hS : Sound g c fits rd cellOk) (k : Txt) (hk : Name k) (n : ℕ) (l : List (Attr R)) (hl : ∀ a ∈ l, a.Ok fits n)
    (rest : Txt) (hr : Stop rest) :
    At Bl Bl (readData c k n) (l.map (Attr.map rd)) (k ++ [' '] ++ dec n ++ eol ++ attributes g l) rest := by
  have h0 : Y Nl Nl (lift (if n = n then some () else none)) () [] := Y.lift (if_pos rfl)
  have h1 : At Nl Bl (fun s => readAttrs c n s.length s) (l.map (Attr.map rd)) (attributes g l) rest := by
    intro b hb
    refine at_attrs hS n l hl _ ?_ rest hr b hb.bl
    have := attributes_length (g := g) l
    simp only [List.length_append]
    omega
  have h2 : At Bl Bl (readData c k n) _ _ rest := (y_kwSp k hk _).bind ((y_natNl n _).bind ((h0 _).bind h1))
  simpa only [List.append_assoc, List.nil_append] using h2

theorem read_of {x : File R} {s t : Txt} (h : At Em Bl (readFile c) x s []) (hs : s = t) : readVtk c t = some x := by
  subst hs
  obtain ⟨b, hb, e⟩ := h [] rfl
  rw [List.nil_append, List.append_nil, List.append_nil] at e
  rw [readVtk, e, Option.bind_some, if_pos]
  exact hb.2

/-- A file is read as it was written. -/
theorem read_root (hS : Sound g c fits rd cellOk) (F : File R) (hF : F.Ok fits) (hc : ∀ x ∈ F.cells, cellOk x)
    (hf : ∀ f ∈ F.fields, (field g f).isSome) : readVtk c (root g F) = some (F.map rd) := by
  have hline : ∀ w : Txt, '\n' ∉ w → Y Em Nl line w (w ++ eol) := by
    rintro w hw rest b rfl
    refine ⟨['\n'], rfl, ?_⟩
    obtain ⟨t1, t2⟩ := takeWhile_append_stop (p := fun c => decide (c ≠ '\n')) (u := w) (c := '\n') (v := rest)
      (fun c hc => decide_eq_true fun h => hw (h ▸ hc)) (by decide +kernel)
    have e : ([] : Txt) ++ (w ++ eol ++ rest) = w ++ '\n' :: rest := by simp [eol]
    rw [e, line, t1, t2]
    rfl
  have hnew : Y Nl Em newline () [] := by
    rintro rest b rfl
    exact ⟨[], rfl, rfl⟩
  have hlift : Y Nl Nl (lift (if "# vtk DataFile Version 3.0".toList = "# vtk DataFile Version 3.0".toList then some () else none)) ()
      [] := Y.lift (if_pos rfl)
  have hname : Name c.format := hS.format.1 ▸ hS.format.2
  have hstop1 : Stop ("CELL_DATA".toList ++ [' '] ++ dec F.cells.length ++ eol ++ attributes g F.cellData ++ []) := by
    intro b hb
    right
    refine ⟨"CELL_DATA".toList, ' ' :: (dec F.cells.length ++ eol ++ attributes g F.cellData ++ []), ?_, by decide +kernel, by decide +kernel⟩
    have := word_apply (rest := dec F.cells.length ++ eol ++ attributes g F.cellData ++ []) hb.2
      (name_of (w := "CELL_DATA".toList) (by decide +kernel)) (d := ' ') (by decide +kernel)
    simpa only [List.append_assoc, List.cons_append, List.nil_append] using this
  have hstop2 : Stop [] := by
    intro b hb
    left
    have : b.dropWhile space = [] := (takeWhile_all hb.2).2
    simp [word, this]
  have hty : Y Bl Bl (readTypes c F.cells.length) F.types (cellTypes g F.types ++ eol) := by
    have := y_types hS F.types (by have := hF.numCells; have := hF.types; omega) hF.typeNumbers
    rwa [hF.types] at this
  have h1 : At Bl Bl (readData c "CELL_DATA".toList F.cells.length >>= fun cd =>
      Pure.pure (⟨F.header, F.points.map (mapVec rd), F.cells, F.types, F.fields.map (Field.map rd),
        F.pointData.map (Attr.map rd), cd⟩ : File R)) (F.map rd)
      ("CELL_DATA".toList ++ [' '] ++ dec F.cells.length ++ eol ++ attributes g F.cellData ++ []) [] :=
    (at_data hS "CELL_DATA".toList (name_of (by decide +kernel)) _ _ hF.cellData ([] ++ []) (by simpa using hstop2)).bind
      (h := fun cd => Pure.pure (⟨F.header, F.points.map (mapVec rd), F.cells, F.types, F.fields.map (Field.map rd),
        F.pointData.map (Attr.map rd), cd⟩ : File R)) (Y.pure _ [])
  have hpd := at_data hS "POINT_DATA".toList (name_of (by decide +kernel)) F.points.length _ hF.pointData _ hstop1
  have h1' := h1
  rw [List.append_nil] at h1'
  have hpd' := hpd
  rw [← List.length_map (as := F.points) (mapVec rd)] at hpd'
  have h2 : At Em Bl (readFile c) (F.map rd) _ [] :=
    (hline "# vtk DataFile Version 3.0".toList (by decide +kernel) _).bind ((hlift _).bind ((hnew _).bind ((hline F.header hF.header _).bind
      (((y_kwNl c.format hname).after.nl _).bind ((y_kwSp "DATASET".toList (name_of (by decide +kernel)) _).bind
      (((y_kwNl "UNSTRUCTURED_GRID".toList (name_of (by decide +kernel))).nl _).bind ((y_points hS F.points hF.numPoints hF.points _).bind
      ((y_cells hS F.cells hF.numCells hF.indices hc _).bind ((hty _).bind ((y_fields hS F.fields hF.fields hf _).bind
      (hpd'.bind h1')))))))))))
  refine read_of h2 ?_
  unfold root grid
  simp only [hS.format.1, split_grid, split_pd, split_cd, List.length_map, List.append_assoc, List.nil_append, List.cons_append,
      List.append_nil]

end

end VtkF

end Verif
