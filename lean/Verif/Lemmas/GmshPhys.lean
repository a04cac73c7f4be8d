import Verif.Model.GmshPhys
import Mathlib.Data.List.Sort
import Mathlib.Data.List.TakeWhile
import Mathlib.Tactic.Linarith

namespace Verif
variable {κ ν : Type} [LinearOrder κ]

def PhysMap.Ordered (m : PhysMap κ ν) : Prop := m.Pairwise fun a b => a.1 ≤ b.1

theorem dropWhile_lt {m : PhysMap κ ν} (h : m.Ordered) (k : κ) :
    m.dropWhile (fun x => decide (x.1 < k)) =
      m.filter (fun x => decide (x.1 = k)) ++ m.filter (fun x => decide (k < x.1)) := by
  induction m with
  | nil => rfl
  | cons e m ih =>
    have h' := List.pairwise_cons.mp h
    by_cases h1 : e.1 < k
    · rw [List.dropWhile_cons_of_pos (by simpa using h1), ih h'.2, List.filter_cons_of_neg (by simpa using h1.ne),
        List.filter_cons_of_neg (by simpa using h1.le)]
    · rw [List.dropWhile_cons_of_neg (by simpa using h1)]
      by_cases h2 : e.1 = k
      · rw [List.filter_cons_of_pos (by simpa using h2), List.filter_cons_of_neg (by simp [h2]), List.cons_append,
          ← ih h'.2]
        congr 1
        have hd : ∀ l : PhysMap κ ν, (∀ x ∈ l, k ≤ x.1) → l.dropWhile (fun x => decide (x.1 < k)) = l := by
          intro l hl
          cases l with
          | nil => rfl
          | cons a l => rw [List.dropWhile_cons_of_neg (by simpa using hl a (by simp))]
        rw [hd m fun x hx => h2 ▸ h'.1 x hx]
      · have h3 : k < e.1 := lt_of_le_of_ne (not_lt.mp h1) (Ne.symm h2)
        rw [List.filter_cons_of_neg (by simpa using h2), List.filter_cons_of_pos (by simpa using h3)]
        have e1 : m.filter (fun x => decide (x.1 = k)) = [] :=
          List.filter_eq_nil_iff.mpr fun x hx => by simpa using (h3.trans_le (h'.1 x hx)).ne'
        have e2 : m.filter (fun x => decide (k < x.1)) = m :=
          List.filter_eq_self.mpr fun x hx => by simpa using h3.trans_le (h'.1 x hx)
        rw [e1, e2]
        rfl

theorem takeWhile_le (m : PhysMap κ ν) (k : κ) :
    ((m.filter (fun x => decide (x.1 = k)) ++ m.filter (fun x => decide (k < x.1))).takeWhile
      fun x => decide (x.1 ≤ k)) = m.filter fun x => decide (x.1 = k) := by
  rw [List.takeWhile_append_of_pos (fun x hx => by
    have := (List.mem_filter.mp hx).2
    simp only [decide_eq_true_eq] at this ⊢
    exact this.le)]
  have : (m.filter (fun x => decide (k < x.1))).takeWhile (fun x => decide (x.1 ≤ k)) = [] := by
    cases hf : m.filter (fun x => decide (k < x.1)) with
    | nil => rfl
    | cons a l =>
      have ha : a ∈ m.filter (fun x => decide (k < x.1)) := by rw [hf]; simp
      have := (List.mem_filter.mp ha).2
      rw [List.takeWhile_cons_of_neg (by simpa using this)]
  rw [this, List.append_nil]

/-- Inserting keeps the order and adds the entry behind those with the same key. -/
theorem insert_ordered {m : PhysMap κ ν} (h : m.Ordered) (e : κ × (ν × ℕ)) : (PhysMap.insert m e).Ordered := by
  have hs : m.takeWhile (fun x => decide (x.1 ≤ e.1)) ++ m.dropWhile (fun x => decide (x.1 ≤ e.1)) = m :=
    List.takeWhile_append_dropWhile
  have h0 := h
  rw [PhysMap.Ordered, ← hs, List.pairwise_append] at h0
  have hd : ∀ l : PhysMap κ ν, l.Ordered → ∀ x ∈ l.dropWhile (fun x => decide (x.1 ≤ e.1)), e.1 ≤ x.1 := by
    intro l hl
    induction l with
    | nil => simp
    | cons a l ih =>
      have hl' := List.pairwise_cons.mp hl
      by_cases ha : a.1 ≤ e.1
      · rw [List.dropWhile_cons_of_pos (by simpa using ha)]
        exact ih hl'.2
      · rw [List.dropWhile_cons_of_neg (by simpa using ha)]
        intro x hx
        rcases List.mem_cons.mp hx with rfl | hx
        · exact (not_le.mp ha).le
        · exact (not_le.mp ha).le.trans (hl'.1 x hx)
  have ht : ∀ x ∈ m.takeWhile (fun x => decide (x.1 ≤ e.1)), x.1 ≤ e.1 := fun x hx => by
    simpa using List.mem_takeWhile_imp hx
  rw [PhysMap.Ordered, PhysMap.insert, List.pairwise_append, List.pairwise_cons]
  refine ⟨h0.1, ⟨hd m h, h0.2.1⟩, fun a ha b hb => ?_⟩
  rcases List.mem_cons.mp hb with rfl | hb
  · exact ht a ha
  · exact h0.2.2 a ha b hb

theorem insert_filter {m : PhysMap κ ν} (h : m.Ordered) (e : κ × (ν × ℕ)) (k : κ) :
    (PhysMap.insert m e).filter (fun x => decide (x.1 = k)) =
      m.filter (fun x => decide (x.1 = k)) ++ if e.1 = k then [e] else [] := by
  have hs : m.takeWhile (fun x => decide (x.1 ≤ e.1)) ++ m.dropWhile (fun x => decide (x.1 ≤ e.1)) = m :=
    List.takeWhile_append_dropWhile
  conv_rhs => rw [← hs, List.filter_append]
  rw [PhysMap.insert, List.filter_append]
  by_cases hk : e.1 = k
  · rw [List.filter_cons_of_pos (by simpa using hk), if_pos hk]
    have : ∀ l : PhysMap κ ν, l.Ordered →
        (l.dropWhile (fun x => decide (x.1 ≤ e.1))).filter (fun x => decide (x.1 = k)) = [] := by
      intro l hl
      induction l with
      | nil => rfl
      | cons a l ih =>
        have hl' := List.pairwise_cons.mp hl
        by_cases ha : a.1 ≤ e.1
        · rw [List.dropWhile_cons_of_pos (by simpa using ha)]
          exact ih hl'.2
        · rw [List.dropWhile_cons_of_neg (by simpa using ha)]
          refine List.filter_eq_nil_iff.mpr fun x hx => ?_
          have : e.1 < x.1 := by
            rcases List.mem_cons.mp hx with rfl | hx
            · exact not_le.mp ha
            · exact (not_le.mp ha).trans_le (hl'.1 x hx)
          simpa using (hk ▸ this).ne'
    rw [this m h]
    simp
  · rw [List.filter_cons_of_neg (by simpa using hk), if_neg hk, List.append_nil]

theorem insert_perm (m : PhysMap κ ν) (e : κ × (ν × ℕ)) : (PhysMap.insert m e).Perm (e :: m) := by
  have hs : m.takeWhile (fun x => decide (x.1 ≤ e.1)) ++ m.dropWhile (fun x => decide (x.1 ≤ e.1)) = m :=
    List.takeWhile_append_dropWhile
  conv_rhs => rw [← hs]
  exact List.perm_middle

section table
variable {α : Type} (key : α → κ) (val : α → ν) (cod : α → ℕ)

/-- A multimap filled from a list. -/
def physTable (file : List α) : PhysMap κ ν :=
  file.foldl (fun m p => PhysMap.insert m (key p, (val p, cod p))) []

private theorem fold_aux (file : List α) (m : PhysMap κ ν) (h : m.Ordered) :
    (file.foldl (fun m p => PhysMap.insert m (key p, (val p, cod p))) m).Ordered ∧
    (∀ k, (file.foldl (fun m p => PhysMap.insert m (key p, (val p, cod p))) m).filter (fun x => decide (x.1 = k)) =
      m.filter (fun x => decide (x.1 = k)) ++
        (file.filter fun p => decide (key p = k)).map fun p => (key p, (val p, cod p))) ∧
    (file.foldl (fun m p => PhysMap.insert m (key p, (val p, cod p))) m).Perm
      (m ++ file.map fun p => (key p, (val p, cod p))) := by
  induction file generalizing m with
  | nil => exact ⟨h, fun k => by simp, by simp⟩
  | cons p file ih =>
    obtain ⟨h1, h2, h3⟩ := ih _ (insert_ordered h (key p, (val p, cod p)))
    refine ⟨h1, fun k => ?_, ?_⟩
    · rw [List.foldl_cons, h2, insert_filter h]
      by_cases hk : key p = k
      · simp [hk]
      · simp [hk]
    · rw [List.foldl_cons]
      refine h3.trans ?_
      rw [List.map_cons]
      exact ((insert_perm m _).append_right _).trans List.perm_middle.symm

theorem physTable_ordered (file : List α) : (physTable key val cod file).Ordered :=
  (fold_aux key val cod file [] List.Pairwise.nil).1

theorem physTable_filter (file : List α) (k : κ) :
    (physTable key val cod file).filter (fun x => decide (x.1 = k)) =
      (file.filter fun p => decide (key p = k)).map fun p => (key p, (val p, cod p)) := by
  have := (fold_aux key val cod file [] List.Pairwise.nil).2.1 k
  simpa [physTable] using this

theorem physTable_perm (file : List α) :
    (physTable key val cod file).Perm (file.map fun p => (key p, (val p, cod p))) := by
  have := (fold_aux key val cod file [] List.Pairwise.nil).2.2
  simpa [physTable] using this

end table

omit [LinearOrder κ] in
theorem skipOther_found (c : ℕ) (F R : PhysMap κ ν) (e : κ × (ν × ℕ)) (h : F.find? (fun x => decide (x.2.2 = c)) = some e) :
    ∃ t, skipOther c (F ++ R) F.length = some (e :: t) := by
  induction F with
  | nil => simp at h
  | cons a F ih =>
    by_cases ha : a.2.2 = c
    · rw [List.find?_cons_of_pos (by simpa using ha)] at h
      obtain rfl := Option.some.inj h
      exact ⟨F ++ R, by simp [skipOther, ha]⟩
    · rw [List.find?_cons_of_neg (by simpa using ha)] at h
      obtain ⟨t, ht⟩ := ih h
      exact ⟨t, by simpa [skipOther, ha] using ht⟩

omit [LinearOrder κ] in
theorem skipOther_missing (c : ℕ) (F R : PhysMap κ ν) (h : ∀ x ∈ F, x.2.2 ≠ c) :
    skipOther c (F ++ R) F.length = match R with | [] => none | e :: R => some (e :: R) := by
  induction F with
  | nil => cases R <;> simp [skipOther]
  | cons a F ih =>
    have := ih fun x hx => h x (by simp [hx])
    simpa [skipOther, h a (by simp)] using this

/-- The lookup in terms of the entries `F` with the key and those `R` with greater keys. -/
def lookupIn (F R : PhysMap κ ν) (c : ℕ) : Lookup ν :=
  match F with
  | [] => .throws
  | [r] => if c = noCodim ∨ c = r.2.2 then .value r.2.1 else .throws
  | r :: F' => if c = noCodim then .throws else if r.2.2 = c then .value r.2.1 else
    match skipOther c (F' ++ R) F'.length with
    | none => .undefined
    | some [] => .undefined
    | some (e :: _) => if e.2.2 = c then .value e.2.1 else .throws

theorem physLookup_eq {m : PhysMap κ ν} (h : m.Ordered) (k : κ) (c : ℕ) {F R : PhysMap κ ν}
    (hF : m.filter (fun x => decide (x.1 = k)) = F) (hR : m.filter (fun x => decide (k < x.1)) = R) :
    physLookup m k c = lookupIn F R c := by
  have h1 := dropWhile_lt h k
  have h2 := takeWhile_le m k
  rw [hF, hR] at h1 h2
  simp only [physLookup, h1, h2, lookupIn]
  match F with
  | [] => simp
  | [r] => simp
  | r :: s :: F' =>
    simp only [List.length_cons, List.cons_append, Nat.add_eq_zero_iff, Nat.one_ne_zero, and_false, if_false]
    rfl

end Verif
