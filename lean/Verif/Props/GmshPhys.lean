import Verif.Lemmas.GmshLookup

/-!
# Properties of the tables of physical entities of a Gmsh file

`file` is the list of the physical entities in the order of the file, `d` the dimension of the mesh.  `κ` is the type
of the names, with the order of `std::string`.
-/

namespace Verif
variable {κ : Type} [LinearOrder κ] (d : ℕ) (file : List (PhysName κ))

private theorem name2Nr_eq : name2Nr d file = physTable PhysName.name PhysName.number (PhysName.codim d) file := rfl
omit [LinearOrder κ] in
private theorem nr2Name_eq : nr2Name d file = physTable PhysName.number PhysName.name (PhysName.codim d) file := rfl

/-- C54, found: if the file has an entity with the given name and codimension, `PhysicalEntityName2Nr` returns its
number (of the first one, if there are several). -/
theorem C54_name_found {name : κ} {c : ℕ} (hc : c ≠ noCodim) {p : PhysName κ}
    (hp : file.find? (fun p => decide (p.name = name ∧ p.codim d = c)) = some p) :
    physLookup (name2Nr d file) name c = .value p.number := by
  rw [name2Nr_eq]
  exact physTable_found hc hp

omit [LinearOrder κ] in
/-- C54, found: the same for `PhysicalEntityNr2Name`. -/
theorem C54_nr_found {number c : ℕ} (hc : c ≠ noCodim) {p : PhysName κ}
    (hp : file.find? (fun p => decide (p.number = number ∧ p.codim d = c)) = some p) :
    physLookup (nr2Name d file) number c = .value p.name := by
  rw [nr2Name_eq]
  exact physTable_found hc hp

/-- C54, codimension omitted: the number is returned if exactly one entity has the name, otherwise the function
throws. -/
theorem C54_name_unspecified (name : κ) :
    physLookup (name2Nr d file) name noCodim =
      match file.filter (fun p => decide (p.name = name)) with | [p] => .value p.number | _ => .throws := by
  rw [name2Nr_eq, physTable_unspecified]
  generalize hF : file.filter _ = F
  rcases F with _ | ⟨p, _ | _⟩ <;> rfl

omit [LinearOrder κ] in
/-- C54, codimension omitted: the same for `PhysicalEntityNr2Name`. -/
theorem C54_nr_unspecified (number : ℕ) :
    physLookup (nr2Name d file) number noCodim =
      match file.filter (fun p => decide (p.number = number)) with | [p] => .value p.name | _ => .throws := by
  rw [nr2Name_eq, physTable_unspecified]
  generalize hF : file.filter _ = F
  rcases F with _ | ⟨p, _ | _⟩ <;> rfl

/-- C54, missing: if no entity has the given name and codimension, the function throws — provided that at most one
entity has the name.  Without this hypothesis it does not hold, see `C54_name_missing_shared` and `C54_not`. -/
theorem C54_name_missing_partial {name : κ} {c : ℕ} (hc : c ≠ noCodim)
    (hp : ∀ p ∈ file, ¬(p.name = name ∧ p.codim d = c))
    (h1 : (file.filter fun p => decide (p.name = name)).length ≤ 1) :
    physLookup (name2Nr d file) name c = .throws := by
  rw [name2Nr_eq, physTable_missing hc hp, if_pos h1]

omit [LinearOrder κ] in
/-- C54, missing: the same for `PhysicalEntityNr2Name`. -/
theorem C54_nr_missing_partial {number c : ℕ} (hc : c ≠ noCodim)
    (hp : ∀ p ∈ file, ¬(p.number = number ∧ p.codim d = c))
    (h1 : (file.filter fun p => decide (p.number = number)).length ≤ 1) :
    physLookup (nr2Name d file) number c = .throws := by
  rw [nr2Name_eq, physTable_missing hc hp, if_pos h1]

/-- C54, what happens in the case left out in `C54_name_missing_partial`: the name is shared by several entities of other
codimensions.  If no entity of the file has a greater name, the behaviour is undefined. -/
theorem C54_name_missing_undefined {name : κ} {c : ℕ} (hc : c ≠ noCodim)
    (hp : ∀ p ∈ file, ¬(p.name = name ∧ p.codim d = c))
    (h2 : 2 ≤ (file.filter fun p => decide (p.name = name)).length)
    (hl : ∀ p ∈ file, ¬ name < p.name) :
    physLookup (name2Nr d file) name c = .undefined := by
  rw [name2Nr_eq, physTable_missing hc hp, if_neg (by omega), physTable_last hl]

/-- C54, what happens in the case left out in `C54_name_missing_partial`: if there are entities with greater names, let `q` be
the first one in the file with the smallest greater name.  The function returns the number of `q` — an entity with
another name — if `q` has the codimension asked for, and throws otherwise. -/
theorem C54_name_missing_shared {name : κ} {c : ℕ} (hc : c ≠ noCodim)
    (hp : ∀ p ∈ file, ¬(p.name = name ∧ p.codim d = c))
    (h2 : 2 ≤ (file.filter fun p => decide (p.name = name)).length) {q : PhysName κ} (hk : name < q.name)
    (hmin : ∀ p ∈ file, name < p.name → q.name ≤ p.name)
    (hq : file.find? (fun p => decide (p.name = q.name)) = some q) :
    physLookup (name2Nr d file) name c = if q.codim d = c then .value q.number else .throws := by
  obtain ⟨t, ht⟩ := physTable_next (val := PhysName.number) (cod := PhysName.codim d) hk hmin hq
  rw [name2Nr_eq, physTable_missing hc hp, if_neg (by omega), ht]

/-- C54 does not hold: a file (with names `0`, `1` for `"a"`, `"b"`) in which no physical point is called `"a"`, but
asking for one returns the number `3` of the point called `"b"`, or is undefined behaviour if `"b"` is left out. -/
theorem C54_not :
    ∃ file : List (PhysName ℕ), (∀ p ∈ file, ¬(p.name = 0 ∧ p.codim 2 = 2)) ∧
      physLookup (name2Nr 2 file) 0 2 = .value 3 ∧
      physLookup (name2Nr 2 (file.filter fun p => decide (p.name = 0))) 0 2 = .undefined :=
  ⟨[⟨0, 1, 2⟩, ⟨0, 2, 1⟩, ⟨1, 3, 0⟩], by decide, by decide, by decide⟩

omit [LinearOrder κ] in
/-- C54, enumeration: `PhysicalEntities(codim)` returns exactly the entities of the file with this codimension, each
as often as it is in the file, ordered by their numbers. -/
theorem C54_entities (c : ℕ) :
    (physEntities (nr2Name d file) c).Perm
      ((file.filter fun p => decide (p.codim d = c)).map fun p => (p.number, p.name)) ∧
    (physEntities (nr2Name d file) c).Pairwise fun a b => a.1 ≤ b.1 :=
  ⟨physEntities_eq file c, physEntities_sorted file c⟩

/-- C54, round trip: in a file in which neither two entities of the same codimension have the same name nor two have
the same number, names and numbers are translated into each other. -/
theorem C54_round_trip (hname : ∀ p ∈ file, ∀ q ∈ file, p.name = q.name → p.codim d = q.codim d → p = q)
    (hnr : ∀ p ∈ file, ∀ q ∈ file, p.number = q.number → p.codim d = q.codim d → p = q)
    {p : PhysName κ} (hp : p ∈ file) (hc : p.codim d ≠ noCodim) :
    physLookup (name2Nr d file) p.name (p.codim d) = .value p.number ∧
    physLookup (nr2Name d file) p.number (p.codim d) = .value p.name := by
  constructor
  · cases h : file.find? (fun q => decide (q.name = p.name ∧ q.codim d = p.codim d)) with
    | none => simpa using List.find?_eq_none.mp h p hp
    | some q =>
      have hq := List.find?_some h
      simp only [decide_eq_true_eq] at hq
      rw [C54_name_found d file hc h, hname q (List.mem_of_find?_eq_some h) p hp hq.1 hq.2]
  · cases h : file.find? (fun q => decide (q.number = p.number ∧ q.codim d = p.codim d)) with
    | none => simpa using List.find?_eq_none.mp h p hp
    | some q =>
      have hq := List.find?_some h
      simp only [decide_eq_true_eq] at hq
      rw [C54_nr_found d file hc h, hnr q (List.mem_of_find?_eq_some h) p hp hq.1 hq.2]

/-! ### A file with a name shared by a surface and a curve -/

/-- A file with the surface and the curve `0`, the points `1` and `2` and the curve `1`. -/
def samplePhys : List (PhysName ℕ) := [⟨1, 3, 0⟩, ⟨0, 1, 2⟩, ⟨2, 3, 1⟩, ⟨0, 2, 1⟩, ⟨2, 5, 0⟩, ⟨4, 7, 2⟩]

example : physLookup (name2Nr 2 samplePhys) 0 1 = .value 2 := C54_name_found 2 samplePhys (by decide) (p := ⟨0, 2, 1⟩) rfl
example : physLookup (nr2Name 2 samplePhys) 3 2 = .value 1 := C54_nr_found 2 samplePhys (by decide) (p := ⟨1, 3, 0⟩) rfl
example : physLookup (name2Nr 2 samplePhys) 0 noCodim = .throws := C54_name_unspecified 2 samplePhys 0
example : physLookup (name2Nr 2 samplePhys) 4 noCodim = .value 7 := C54_name_unspecified 2 samplePhys 4
example : physLookup (nr2Name 2 samplePhys) 3 noCodim = .throws := C54_nr_unspecified 2 samplePhys 3
example : physLookup (name2Nr 2 samplePhys) 4 1 = .throws :=
  C54_name_missing_partial 2 samplePhys (by decide) (by decide) (by decide)
example : physLookup (nr2Name 2 samplePhys) 7 1 = .throws :=
  C54_nr_missing_partial 2 samplePhys (by decide) (by decide) (by decide)
example : physLookup (name2Nr 2 samplePhys) 0 2 = .value 3 :=
  C54_name_missing_shared 2 samplePhys (c := 2) (by decide) (by decide) (by decide) (q := ⟨1, 3, 0⟩) (by decide) (by decide)
    rfl
example : physLookup (name2Nr 2 (samplePhys.take 5)) 2 0 = .undefined :=
  C54_name_missing_undefined 2 _ (by decide) (by decide) (by decide) (by decide)
example : physEntities (nr2Name 2 samplePhys) 2 = [(3, 1), (5, 2)] := by decide
example : physLookup (nr2Name 2 samplePhys) 5 2 = .value 2 :=
  (C54_round_trip 2 samplePhys (by decide) (by decide) (p := ⟨2, 5, 0⟩) (by decide) (by decide)).2

end Verif
