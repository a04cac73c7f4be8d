import Verif.Lemmas.GmshPhys

namespace Verif
variable {κ ν : Type} [LinearOrder κ] {α : Type} {key : α → κ} {val : α → ν} {cod : α → ℕ}

theorem physTable_found {file : List α} {k : κ} {c : ℕ} (hc : c ≠ noCodim) {p : α}
    (hp : file.find? (fun p => decide (key p = k ∧ cod p = c)) = some p) :
    physLookup (physTable key val cod file) k c = .value (val p) := by
  have hF : ((file.filter fun p => decide (key p = k)).map fun p => (key p, (val p, cod p))).find?
      (fun x => decide (x.2.2 = c)) = some (key p, (val p, cod p)) := by
    rw [List.find?_map, List.find?_filter]
    simp only [Function.comp_def]
    have : file.find? (fun a => decide (key a = k) && decide (cod a = c)) = some p := by
      rw [← hp]
      congr 1
      funext a
      simp
    simp only [decide_eq_true_eq, Bool.decide_and]
    rw [this]
    rfl
  have hpc : cod p = c := by
    have := List.find?_some hp
    simp only [decide_eq_true_eq] at this
    exact this.2
  rw [physLookup_eq (physTable_ordered key val cod file) k c (physTable_filter key val cod file k) rfl]
  unfold lookupIn
  generalize (file.filter fun p => decide (key p = k)).map (fun p => (key p, (val p, cod p))) = F at hF
  match F with
  | [] => simp at hF
  | [r] =>
    by_cases hr : r.2.2 = c
    · rw [List.find?_cons_of_pos (by simpa using hr)] at hF
      obtain rfl := Option.some.inj hF
      simp [hpc]
    · rw [List.find?_cons_of_neg (by simpa using hr)] at hF
      simp at hF
  | r :: s :: F' =>
    by_cases hr : r.2.2 = c
    · rw [List.find?_cons_of_pos (by simpa using hr)] at hF
      obtain rfl := Option.some.inj hF
      simp [hpc, hc]
    · rw [List.find?_cons_of_neg (by simpa using hr)] at hF
      obtain ⟨t, ht⟩ := skipOther_found c (s :: F') ((physTable key val cod file).filter fun x => decide (k < x.1)) _ hF
      simp only [hc, hr, if_false]
      rw [ht]
      simp [hpc]

theorem physTable_unspecified {file : List α} {k : κ} :
    physLookup (physTable key val cod file) k noCodim =
      match file.filter (fun p => decide (key p = k)) with | [p] => .value (val p) | _ => .throws := by
  rw [physLookup_eq (physTable_ordered key val cod file) k noCodim (physTable_filter key val cod file k) rfl]
  unfold lookupIn
  match file.filter fun p => decide (key p = k) with
  | [] => rfl
  | [p] => simp
  | p :: q :: l => simp

theorem physTable_missing {file : List α} {k : κ} {c : ℕ} (hc : c ≠ noCodim)
    (hp : ∀ p ∈ file, ¬(key p = k ∧ cod p = c)) :
    physLookup (physTable key val cod file) k c =
      if (file.filter fun p => decide (key p = k)).length ≤ 1 then .throws
      else match (physTable key val cod file).filter (fun x => decide (k < x.1)) with
        | [] => .undefined
        | e :: _ => if e.2.2 = c then .value e.2.1 else .throws := by
  rw [physLookup_eq (physTable_ordered key val cod file) k c (physTable_filter key val cod file k) rfl]
  unfold lookupIn
  have hF : ∀ x ∈ file.filter (fun p => decide (key p = k)), cod x ≠ c := fun x hx h =>
    hp x (List.mem_filter.mp hx).1 ⟨by simpa using (List.mem_filter.mp hx).2, h⟩
  generalize file.filter (fun p => decide (key p = k)) = F at hF
  match F with
  | [] => simp
  | [p] =>
    have : c ≠ cod p := fun h => hF p (by simp) h.symm
    simp [hc, this]
  | p :: q :: l =>
    have h1 : cod p ≠ c := hF p (by simp)
    have h2 := skipOther_missing c ((q :: l).map fun p => (key p, (val p, cod p)))
      ((physTable key val cod file).filter fun x => decide (k < x.1)) (by
        intro x hx
        obtain ⟨y, hy, rfl⟩ := List.mem_map.mp hx
        exact hF y (List.mem_cons_of_mem _ hy))
    simp only [List.map_cons, List.length_cons] at h2 ⊢
    simp only [hc, h1, if_false]
    rw [h2]
    cases (physTable key val cod file).filter (fun x => decide (k < x.1)) <;> simp

/-- No entry with a greater key. -/
theorem physTable_last {file : List α} {k : κ} (h : ∀ p ∈ file, ¬ k < key p) :
    (physTable key val cod file).filter (fun x => decide (k < x.1)) = [] := by
  refine List.filter_eq_nil_iff.mpr fun x hx => ?_
  obtain ⟨p, hp, rfl⟩ := List.mem_map.mp ((physTable_perm key val cod file).mem_iff.mp hx)
  simpa using h p hp

/-- The first entry with a greater key. -/
theorem physTable_next {file : List α} {k : κ} {q : α} (hk : k < key q)
    (hmin : ∀ p ∈ file, k < key p → key q ≤ key p)
    (hq : file.find? (fun p => decide (key p = key q)) = some q) :
    ∃ t, (physTable key val cod file).filter (fun x => decide (k < x.1)) = (key q, (val q, cod q)) :: t := by
  have hm : (key q, (val q, cod q)) ∈ (physTable key val cod file).filter (fun x => decide (k < x.1)) := by
    refine List.mem_filter.mpr ⟨(physTable_perm key val cod file).mem_iff.mpr
      (List.mem_map.mpr ⟨q, List.mem_of_find?_eq_some hq, rfl⟩), by simpa using hk⟩
  have ho : PhysMap.Ordered ((physTable key val cod file).filter (fun x => decide (k < x.1))) :=
    (physTable_ordered key val cod file).sublist List.filter_sublist
  have hmem : ∀ x ∈ (physTable key val cod file).filter (fun x => decide (k < x.1)), key q ≤ x.1 := by
    intro x hx
    have := List.mem_filter.mp hx
    obtain ⟨p, hp, rfl⟩ := List.mem_map.mp ((physTable_perm key val cod file).mem_iff.mp this.1)
    exact hmin p hp (by simpa using this.2)
  have hf : ((physTable key val cod file).filter (fun x => decide (k < x.1))).filter (fun x => decide (x.1 = key q)) =
      (file.filter fun p => decide (key p = key q)).map fun p => (key p, (val p, cod p)) := by
    rw [← physTable_filter, List.filter_filter]
    refine List.filter_congr fun x _ => ?_
    by_cases hx : x.1 = key q
    · simp [hx, hk]
    · simp [hx]
  generalize (physTable key val cod file).filter (fun x => decide (k < x.1)) = R at *
  match R with
  | [] => simp at hm
  | e :: R =>
    have he : e.1 = key q := by
      refine le_antisymm ?_ (hmem e (by simp))
      rcases List.mem_cons.mp hm with h | h
      · rw [← h]
      · exact (List.pairwise_cons.mp ho).1 _ h
    rw [List.filter_cons_of_pos (by simpa using he)] at hf
    have hh := congrArg List.head? hf
    rw [List.head?_cons, List.head?_map, List.head?_filter, hq] at hh
    obtain rfl := Option.some.inj hh
    exact ⟨R, rfl⟩

theorem physEntities_eq (file : List α) (c : ℕ) :
    (physEntities (physTable key val cod file) c).Perm
      ((file.filter fun p => decide (cod p = c)).map fun p => (key p, val p)) := by
  refine ((physTable_perm key val cod file).filterMap _).trans (List.Perm.of_eq ?_)
  induction file with
  | nil => rfl
  | cons p file ih =>
    by_cases hp : cod p = c
    · rw [List.filter_cons_of_pos (by simpa using hp), List.map_cons, List.map_cons, ← ih]
      simp [hp]
    · rw [List.filter_cons_of_neg (by simpa using hp), ← ih]
      simp [hp]

theorem physEntities_sorted (file : List α) (c : ℕ) :
    (physEntities (physTable key val cod file) c).Pairwise fun a b => a.1 ≤ b.1 := by
  refine List.Pairwise.filterMap _ ?_ (physTable_ordered key val cod file)
  intro a a' h b hb b' hb'
  by_cases h1 : a.2.2 = c <;> by_cases h2 : a'.2.2 = c <;> simp [h1, h2] at hb hb'
  rw [← hb, ← hb']
  exact h

end Verif
