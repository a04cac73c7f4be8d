import Verif.Props.Msh
import Verif.Props.Msh2
import Verif.Props.GmshReader
import Verif.Props.GmshPhys
import Verif.Props.Mesh
import Verif.Lemmas.GmshFile
import Verif.Lemmas.GmshHist
import Verif.Lemmas.GmshSucc3
import Verif.Lemmas.GmshSucc4

/-!
# Property C108: from the bytes of a Gmsh file to the mesh

`gmshOpen geo ops chk dec bits s` is the constructor `GmshReader(factory, filename)` for a file with content `s`; `none` is a failing
assertion or an exception.
-/

namespace Verif

open Msh

variable {P G : Type} {geo : GmshGeo P G} {ops : GeoOps G} {chk : Bool} {dec : Msh.Vec ℚ → P} {bits : Msh.Vec ℕ → P}

private theorem open_v2 {s : Txt} {file : FileV2 P} {names : List (Verif.PhysName Txt)} (hs : IsFileV2 dec bits s file names) :
    gmshOpen geo ops chk dec bits s = (readV2 geo ops chk file).map fun r => ⟨r, names⟩ := by
  cases hs with
  | text F hs hf hn =>
    have hf' : ({ F with periodic := [] } : MshFile2 ℚ).toV2 dec = file := (toV2_eq hf :)
    unfold gmshOpen
    rw [C106_text_partial F s hs, Option.bind_some]
    simp only
    rw [hf', physNames_eq hn]
  | binary big F hs hf hn =>
    have hf' : ({ F with periodic := [] } : MshFile2 ℕ).toV2 bits = file := (toV2_eq hf :)
    unfold gmshOpen
    rw [C106_binary_partial big F s hs, Option.bind_some]
    simp only
    rw [hf', physNames_eq hn]

private theorem open_v4 {s : Txt} {file : FileV4 P} {names : List (Verif.PhysName Txt)} (hs : IsFileV4 dec bits s file names) :
    gmshOpen geo ops chk dec bits s = (readV4 geo ops chk file).map fun r => ⟨r, names⟩ := by
  cases hs with
  | text F hs hf hn =>
    unfold gmshOpen
    rw [(C106_dispatch s _).mpr (C105_text F s hs), Option.bind_some]
    simp only
    rw [toV4_eq hf, physNames_eq hn, Option.bind_some]
  | binary big F hs hf hn =>
    unfold gmshOpen
    rw [(C106_dispatch s _).mpr (C105_binary_partial big F s hs), Option.bind_some]
    simp only
    rw [toV4_eq hf, physNames_eq hn, Option.bind_some]

private theorem sameEnds_iff (ns : List ℕ) (a b : ℕ) : (ns = [a, b] ∨ ns = [b, a]) ↔ SameEnds ns [a, b] := Iff.rfl

/-- Every file of version 2.2, text or binary, whose content describes a mesh is read without failure; mesh, physical numbers and
names are those of the file.  Missing: files with a point element whose node is not in the mesh and has too large a number
(`C69_v2_point_range`), with repeated points in an unlucky order (`C69_v2_node_numbers_not`, `C69_v2_point_undefined`), with edges
repeated later (`C108_edge_twice_not`), or with elements without tags (`C106_fails_tags`). -/
theorem C108_v2_partial {s : Txt} {file : FileV2 P} {names : List (Verif.PhysName Txt)} (hs : IsFileV2 dec bits s file names)
    (hv : file.Valid geo chk) :
    ∃ o, gmshOpen geo ops chk dec bits s = some o ∧ ReadsV2 geo file o.reader ∧ o.names = names := by
  obtain ⟨r, hr⟩ := readV2_some (ops := ops) hv
  refine ⟨⟨r, names⟩, by rw [open_v2 hs, hr]; rfl, ?_, rfl⟩
  have hc := C69_v2_cells hv.numbers hr
  exact ⟨C69_v2_nodes hv.numbers hr, hc.1, hc.2, C69_v2_edges hv.numbers hr, C69_v2_cell_numbers hv.numbers hr,
    C69_v2_edge_numbers hv.numbers hr, C69_v2_node_numbers_partial hv.numbers hv.repeats hr⟩

/-- The same for files of version 4.1, in which different entities of one dimension have different tags.  Missing: repeated points
and edges as in `C108_v2_partial`, and comments in binary files (`C105_fails_comment`). -/
theorem C108_v4_partial {s : Txt} {file : FileV4 P} {names : List (Verif.PhysName Txt)} (hs : IsFileV4 dec bits s file names)
    (hv : file.Valid geo chk) (hent : ∀ d ≤ 2, ((file.entities d).map (·.1)).Nodup) :
    ∃ o, gmshOpen geo ops chk dec bits s = some o ∧ ReadsV4 geo file o.reader ∧ o.names = names := by
  obtain ⟨r, hr⟩ := readV4_some (ops := ops) hv
  refine ⟨⟨r, names⟩, by rw [open_v4 hs, hr]; rfl, ?_, rfl⟩
  have hc := C69_v4_cells hv.numbers hent hr
  exact ⟨C69_v4_nodes hv.numbers hent hr, hc.1, hc.2, C69_v4_edges hv.numbers hent hr, C69_v4_cell_numbers hv.numbers hent hr,
    C69_v4_edge_numbers hv.numbers hent hr, C69_v4_node_numbers_partial hv.numbers hent hv.repeats hr⟩

/-- What is in a file does not depend on the way it is written: two files, text or binary with any byte order, with the same
content give the same result (also if it is a failure). -/
theorem C108_same {s s' : Txt} {names : List (Verif.PhysName Txt)} :
    (∀ file : FileV2 P, IsFileV2 dec bits s file names → IsFileV2 dec bits s' file names →
      gmshOpen geo ops chk dec bits s = gmshOpen geo ops chk dec bits s') ∧
    (∀ file : FileV4 P, IsFileV4 dec bits s file names → IsFileV4 dec bits s' file names →
      gmshOpen geo ops chk dec bits s = gmshOpen geo ops chk dec bits s') :=
  ⟨fun _ h h' => (open_v2 h).trans (open_v2 h').symm, fun _ h h' => (open_v4 h).trans (open_v4 h').symm⟩

/-- Names of physical groups are found in the object made from a file: the number of the first entry with the name and the
codimension. -/
theorem C108_name {s : Txt} {names : List (Verif.PhysName Txt)}
    (hs : (∃ file : FileV2 P, IsFileV2 dec bits s file names) ∨ ∃ file : FileV4 P, IsFileV4 dec bits s file names)
    {o : GmshObj G} (ho : gmshOpen geo ops chk dec bits s = some o) {name : Txt} {c : ℕ} (hc : c ≠ noCodim)
    {p : Verif.PhysName Txt} (hp : names.find? (fun p => decide (p.name = name ∧ p.codim 2 = c)) = some p) :
    physLookup (name2Nr 2 o.names) name c = .value p.number := by
  have hn : o.names = names := by
    rcases hs with ⟨file, hs⟩ | ⟨file, hs⟩
    · rw [open_v2 hs] at ho
      obtain ⟨r, -, rfl⟩ := Option.map_eq_some_iff.mp ho
      rfl
    · rw [open_v4 hs] at ho
      obtain ⟨r, -, rfl⟩ := Option.map_eq_some_iff.mp ho
      rfl
  rw [hn]
  exact C54_name_found 2 names hc (by convert hp)

/-- Whatever the bytes of the file are: if the constructor returns then the mesh was made by `Build()` after a sequence of calls of
`AddPoint` and `AddEntity` which a user could have made, so that all theorems about such meshes apply. -/
theorem C108_history (s : Txt) {o : GmshObj G} (h : gmshOpen geo ops chk dec bits s = some o) :
    ∃ hist f f' rets, Factory.run ({} : Factory G) hist = some (f, rets) ∧ f.build ops chk = some (o.reader.mesh, f') := by
  have key : ∃ f f', FactoryReached f ∧ f.build ops chk = some (o.reader.mesh, f') := by
    unfold gmshOpen at h
    obtain ⟨c, -, h⟩ := Option.bind_eq_some_iff.mp h
    rcases c with (F | F) | F | F <;> simp only at h <;> obtain ⟨r, hr, rfl⟩ := Option.map_eq_some_iff.mp h
    · obtain ⟨file, -, hr⟩ := Option.bind_eq_some_iff.mp hr
      exact readV4_history hr
    · obtain ⟨file, -, hr⟩ := Option.bind_eq_some_iff.mp hr
      exact readV4_history hr
    · exact readV2_history hr
    · exact readV2_history hr
  obtain ⟨f, f', ⟨hist, rets, h1⟩, h2⟩ := key
  exact ⟨hist, f, f', rets, h1, h2⟩

/-- In particular its topology is consistent. -/
theorem C108_wellFormed (s : Txt) {o : GmshObj G} (h : gmshOpen geo ops chk dec bits s = some o) : o.reader.mesh.topo.WF := by
  obtain ⟨hist, f, f', rets, h1, h2⟩ := C108_history s h
  exact C16_wellFormed ops chk hist f f' rets _ h1 h2

/-- No object is made from a file which was cut off before the end of its nodes or elements. -/
theorem C108_truncated (s : Txt) (h : ¬ ("$EndNodes".toList <:+: s ∧ "$EndElements".toList <:+: s)) :
    gmshOpen geo ops chk dec bits s = none := by
  unfold gmshOpen
  cases hc : readGmshFile s with
  | none => rfl
  | some c =>
    exfalso
    cases c with
    | v4 c =>
      have := C105_truncated s fun hh => h hh.2
      rw [(C106_dispatch s c).mp hc] at this
      cases this
    | text2 F => exact (C106_truncated s h).1 F hc
    | binary2 F => exact (C106_truncated s h).2 F hc

/-- An edge which belongs to two physical groups is listed twice in a file of version 2.2, but `GmshReader` accepts this only if
the two entries follow each other. -/
theorem C108_edge_twice_not : (readV2 listGeo listOps true
    ⟨[(1, 0, 0), (2, 1, 0), (3, 0, 1)],
      [⟨.edge2, 1, [1, 2]⟩, ⟨.edge2, 1, [2, 3]⟩, ⟨.edge2, 2, [1, 2]⟩, ⟨.tria3, 3, [1, 2, 3]⟩]⟩).isNone = true ∧
    (readV2 listGeo listOps true
    ⟨[(1, 0, 0), (2, 1, 0), (3, 0, 1)],
      [⟨.edge2, 1, [2, 3]⟩, ⟨.edge2, 1, [1, 2]⟩, ⟨.edge2, 2, [1, 2]⟩, ⟨.tria3, 3, [1, 2, 3]⟩]⟩).isSome = true := by
  decide +kernel

/-! ### Examples -/

private theorem split_at {α : Type} {xs l r : List α} {y : α} (h : xs = l ++ y :: r) :
    l.length < xs.length ∧ l = xs.take l.length ∧ xs[l.length]? = some y := by
  subst h
  refine ⟨by simp, by simp, ?_⟩
  rw [List.getElem?_append_right (le_refl _), Nat.sub_self]
  rfl

/-- The file with repeated cells, edges and points of the examples in GmshReader.lean meets the hypotheses. -/
theorem sampleV2_valid : sampleV2.Valid listGeo true := by
  refine ⟨by decide, by decide, ?_, ?_, ?_, sampleV2_repeats, ?_, fun _ => ⟨by decide, ?_⟩⟩
  · intro e he ht
    simp only [sampleV2, List.mem_cons, List.not_mem_nil, or_false] at he
    rcases he with rfl | rfl | rfl | rfl | rfl | rfl | rfl | rfl
    · exact ⟨5, rfl, Or.inl (by decide)⟩
    · exact ⟨1, rfl, Or.inl (by decide)⟩
    · exact ⟨1, rfl, Or.inl (by decide)⟩
    all_goals exact absurd ht (by decide)
  · intro e he ht
    simp only [sampleV2, List.mem_cons, List.not_mem_nil, or_false] at he
    rcases he with rfl | rfl | rfl | rfl | rfl | rfl | rfl | rfl
    · exact absurd rfl ht
    · exact absurd rfl ht
    · exact absurd rfl ht
    all_goals exact ⟨by decide, by decide, by decide, by decide, by decide⟩
  · intro x _ _
    rfl
  · intro l y r h
    obtain ⟨h1, h2, h3⟩ := split_at h
    have key : ∀ i < sampleV2.elements.length, ∀ y ∈ sampleV2.elements[i]?, y.type.dim = 1 → ∀ x ∈ sampleV2.elements.take i, x.type.dim = 1 →
        SameEnds (cornerNumbers x.type x.nodes) (cornerNumbers y.type y.nodes) →
        ∃ z ∈ (sampleV2.elements.take i).getLast?, z.type = y.type ∧ z.nodes = y.nodes := by decide
    have := key l.length h1 y h3
    rw [← h2] at this
    exact this
  · intro n hn
    have : n ∈ [5, 1, 7, 3] := by
      simp only [FileV2.isMain, List.any_eq_true, Bool.and_eq_true, decide_eq_true_eq] at hn
      obtain ⟨e, he, hp, hn⟩ := hn
      simp only [sampleV2, List.mem_cons, List.not_mem_nil, or_false] at he
      rcases he with rfl | rfl | rfl | rfl | rfl | rfl | rfl | rfl
      · exact absurd rfl hp
      · exact absurd rfl hp
      · exact absurd rfl hp
      all_goals
        simp only [GmshType.corners, GmshType.refEl, List.take, List.mem_cons, List.not_mem_nil, or_false] at hn ⊢
        tauto
    simp only [List.mem_cons, List.not_mem_nil, or_false] at this
    rcases this with rfl | rfl | rfl | rfl <;> decide

theorem sampleV4_valid : sampleV4.Valid listGeo true := by
  refine ⟨by decide, by decide, by decide, by decide, ?_, ?_, by decide, ?_, sampleV4_repeats, ?_, by decide, fun _ => ⟨by decide, ?_⟩⟩
  · intro e he ht
    have he' : e ∈ [((⟨0, 2, .point, [[5]]⟩ : BlockV4), [5]), (⟨1, 1, .edge2, [[7, 5]]⟩, [7, 5]), (⟨2, 1, .quad4, [[5, 9, 4, 7]]⟩, [5, 9, 4, 7]),
      (⟨2, 2, .tria6, [[9, 3, 4, 6, 8, 10]]⟩, [9, 3, 4, 6, 8, 10])] := he
    simp only [List.mem_cons, List.not_mem_nil, or_false] at he'
    rcases he' with rfl | rfl | rfl | rfl
    · exact ⟨5, rfl, by decide⟩
    all_goals exact absurd ht (by decide)
  · intro e he ht
    have he' : e ∈ [((⟨0, 2, .point, [[5]]⟩ : BlockV4), [5]), (⟨1, 1, .edge2, [[7, 5]]⟩, [7, 5]), (⟨2, 1, .quad4, [[5, 9, 4, 7]]⟩, [5, 9, 4, 7]),
      (⟨2, 2, .tria6, [[9, 3, 4, 6, 8, 10]]⟩, [9, 3, 4, 6, 8, 10])] := he
    simp only [List.mem_cons, List.not_mem_nil, or_false] at he'
    rcases he' with rfl | rfl | rfl | rfl
    · exact absurd rfl ht
    all_goals exact ⟨by decide, by decide, by decide, by decide, by decide⟩
  · intro x _ _
    rfl
  · intro pre b post h
    obtain ⟨h1, h2, h3⟩ := split_at h
    intro hb l y r hl
    obtain ⟨h4, h5, h6⟩ := split_at hl
    have key : ∀ i < sampleV4.blocks.length, ∀ b ∈ sampleV4.blocks[i]?, b.type.dim = 1 → ∀ j < b.elements.length, ∀ y ∈ b.elements[j]?,
        ∀ x ∈ ((sampleV4.blocks.take i).flatMap fun b => b.elements.map fun ns => (b.type, ns)) ++
          (b.elements.take j).map fun ns => (b.type, ns), x.1.dim = 1 →
        SameEnds (cornerNumbers x.1 x.2) (cornerNumbers b.type y) → (b.elements.take j).getLast? = some y := by decide
    have := key pre.length h1 b h3 hb l.length h4 y h6
    rw [← h2, ← h5] at this
    exact this
  · intro n hn
    have : n ∈ [5, 9, 4, 7, 3] := by
      simp only [FileV4.isMain, List.any_eq_true, Bool.and_eq_true, decide_eq_true_eq] at hn
      obtain ⟨e, he, hp, hn⟩ := hn
      have he' : e ∈ [((⟨0, 2, .point, [[5]]⟩ : BlockV4), [5]), (⟨1, 1, .edge2, [[7, 5]]⟩, [7, 5]), (⟨2, 1, .quad4, [[5, 9, 4, 7]]⟩, [5, 9, 4, 7]),
        (⟨2, 2, .tria6, [[9, 3, 4, 6, 8, 10]]⟩, [9, 3, 4, 6, 8, 10])] := he
      simp only [List.mem_cons, List.not_mem_nil, or_false] at he'
      rcases he' with rfl | rfl | rfl | rfl
      · exact absurd hp (by decide)
      · exact absurd hp (by decide)
      all_goals
        simp only [GmshType.corners, GmshType.refEl, List.take, List.mem_cons, List.not_mem_nil, or_false] at hn ⊢
        tauto
    simp only [List.mem_cons, List.not_mem_nil, or_false] at this
    rcases this with rfl | rfl | rfl | rfl | rfl <;> decide

private def triaV2 : FileV2 (ℤ × ℤ) := ⟨[(1, 0, 0), (2, 1, 0), (3, 0, 1)], [⟨.tria3, 5, [1, 2, 3]⟩]⟩

private theorem triaV2_valid : triaV2.Valid listGeo true := by
  refine ⟨by decide, by decide, ?_, ?_, fun _ _ _ => rfl, ?_, ?_, fun _ => ⟨by decide, ?_⟩⟩
  · intro e he ht
    simp only [triaV2, List.mem_singleton] at he
    subst he
    cases ht
  · intro e he _
    simp only [triaV2, List.mem_singleton] at he
    subst he
    exact ⟨by decide, by decide, by decide, by decide, by decide⟩
  · intro l x y r h
    have := congrArg List.length h
    simp [triaV2] at this
    omega
  · intro l y r h hy
    have := congrArg List.length h
    simp [triaV2] at this
    obtain rfl := List.length_eq_zero_iff.mp (show l.length = 0 by omega)
    intro x hx
    simp at hx
  · intro n hn
    simp only [FileV2.isMain, List.any_eq_true, Bool.and_eq_true, decide_eq_true_eq] at hn
    obtain ⟨e, he, hp, hn⟩ := hn
    simp only [triaV2, List.mem_singleton] at he
    subst he
    exact ⟨_, List.mem_map.mpr ⟨_, List.mem_singleton.mpr rfl, rfl⟩, rfl, hn⟩

/-- There are files as required in `C108_v2_partial`, with text and with numbers in binary form. -/
example : ∃ s file names, IsFileV2 (fun v => (v.1.num, v.2.1.num)) (fun v => ((v.1 : ℤ), (v.2.1 : ℤ))) s file names ∧
    file.Valid listGeo true := by
  obtain ⟨s, hs⟩ := exText2_text
  exact ⟨s, triaV2, [], .text exText2 hs ⟨rfl, .cons ⟨by unfold HasNumber; decide, by unfold IsUnsigned Int.ModEq; decide, rfl⟩ .nil⟩ .nil,
    triaV2_valid⟩

example (big : Bool) : ∃ s file names, IsFileV2 (fun v => (v.1.num, v.2.1.num)) (fun v => ((v.1 : ℤ), (v.2.1 : ℤ))) s file names ∧
    file.Valid listGeo true := by
  obtain ⟨s, hs⟩ := exBin2_binary big
  exact ⟨s, triaV2, [], .binary big exBin2 hs ⟨rfl, .cons ⟨by unfold HasNumber; decide, by unfold IsUnsigned Int.ModEq; decide, rfl⟩ .nil⟩ .nil,
    triaV2_valid⟩

private def triaV4 : FileV4 (ℤ × ℤ) where
  minTag := 1
  maxTag := 3
  nodeBlocks := [[(1, 0, 0), (2, 1, 0), (3, 0, 1)]]
  blocks := [⟨1, 2, .edge2, [[1, 2]]⟩, ⟨2, 3, .tria3, [[1, 2, 3]]⟩]
  entities d := match d with
    | 0 => [(1, [5])]
    | 1 => [(2, [])]
    | 2 => [(3, [7])]
    | _ => []

private theorem triaV4_valid : triaV4.Valid listGeo true := by
  have hel : ∀ e ∈ triaV4.elements, e = (⟨1, 2, .edge2, [[1, 2]]⟩, [1, 2]) ∨ e = (⟨2, 3, .tria3, [[1, 2, 3]]⟩, [1, 2, 3]) := by
    intro e he
    have he' : e ∈ [((⟨1, 2, .edge2, [[1, 2]]⟩ : BlockV4), [1, 2]), (⟨2, 3, .tria3, [[1, 2, 3]]⟩, [1, 2, 3])] := he
    simpa using he'
  refine ⟨by decide, by decide, by decide, by decide, ?_, ?_, by decide, fun _ _ _ => rfl, ?_, ?_, by decide, fun _ => ⟨by decide, ?_⟩⟩
  · intro e he ht
    rcases hel e he with rfl | rfl <;> cases ht
  · intro e he _
    rcases hel e he with rfl | rfl
    all_goals exact ⟨by decide, by decide, by decide, by decide, by decide⟩
  · intro pre b post h hb
    have hmem : b ∈ triaV4.blocks := by rw [h]; simp
    simp only [triaV4, List.mem_cons, List.not_mem_nil, or_false] at hmem
    rcases hmem with rfl | rfl
    all_goals simp at hb
  · intro pre b post h
    obtain ⟨h1, h2, h3⟩ := split_at h
    intro hb l y r hl
    obtain ⟨h4, h5, h6⟩ := split_at hl
    have key : ∀ i < triaV4.blocks.length, ∀ b ∈ triaV4.blocks[i]?, b.type.dim = 1 → ∀ j < b.elements.length, ∀ y ∈ b.elements[j]?,
        ∀ x ∈ ((triaV4.blocks.take i).flatMap fun b => b.elements.map fun ns => (b.type, ns)) ++
          (b.elements.take j).map fun ns => (b.type, ns), x.1.dim = 1 →
        SameEnds (cornerNumbers x.1 x.2) (cornerNumbers b.type y) → (b.elements.take j).getLast? = some y := by decide
    have := key pre.length h1 b h3 hb l.length h4 y h6
    rw [← h2, ← h5] at this
    exact this
  · intro n hn
    simp only [FileV4.isMain, List.any_eq_true, Bool.and_eq_true, decide_eq_true_eq] at hn
    obtain ⟨e, he, hp, hn⟩ := hn
    exact ⟨_, List.mem_map.mpr ⟨e, he, rfl⟩, hp, hn⟩

/-- There are files as required in `C108_v4_partial`, with text and with numbers in binary form (`0x3FF0000000000000` are the bits
of the double 1). -/
example : ∃ s file names, IsFileV4 (fun v => (v.1.num, v.2.1.num)) (fun v => ((v.1 : ℤ), (v.2.1 : ℤ))) s file names ∧
    file.Valid listGeo true ∧ ∀ d ≤ 2, ((file.entities d).map (·.1)).Nodup := by
  obtain ⟨s, hs⟩ := exFile_text
  have hb : List.Forall₂ IsUnsigned [(5 : ℤ)] [5] := .cons (by unfold IsUnsigned Int.ModEq; decide) .nil
  have hc : List.Forall₂ IsUnsigned [(7 : ℤ)] [7] := .cons (by unfold IsUnsigned Int.ModEq; decide) .nil
  refine ⟨s, triaV4, [], .text (exFile 0 1) hs ?_ .nil, triaV4_valid, by decide⟩
  exact ⟨rfl, rfl, rfl, .cons ⟨rfl, by decide, rfl, by decide, by unfold HasNumber; decide, rfl⟩ (.cons ⟨rfl, by decide, rfl, by decide, by unfold HasNumber; decide, rfl⟩ .nil),
    fun _ => .cons ⟨rfl, by decide, hb⟩ .nil, fun _ => .cons ⟨rfl, by decide, .nil⟩ .nil, fun _ => .cons ⟨rfl, by decide, hc⟩ .nil,
    fun h => absurd rfl h, fun h => absurd rfl h, fun h => absurd rfl h, by
      intro d hd
      obtain ⟨k, rfl⟩ : ∃ k, d = k + 3 := ⟨d - 3, by omega⟩
      rfl⟩

example (big : Bool) : ∃ s file names, IsFileV4 (fun v => (v.1.num, v.2.1.num))
    (fun v => ((v.1 / 0x3FF0000000000000 : ℤ), (v.2.1 / 0x3FF0000000000000 : ℤ))) s file names ∧
    file.Valid listGeo true ∧ ∀ d ≤ 2, ((file.entities d).map (·.1)).Nodup := by
  obtain ⟨s, hs⟩ := exFile_binary big
  have hb : List.Forall₂ IsUnsigned [(5 : ℤ)] [5] := .cons (by unfold IsUnsigned Int.ModEq; decide) .nil
  have hc : List.Forall₂ IsUnsigned [(7 : ℤ)] [7] := .cons (by unfold IsUnsigned Int.ModEq; decide) .nil
  refine ⟨s, triaV4, [], .binary big (exFile 0 0x3FF0000000000000) hs ?_ .nil, triaV4_valid, by decide⟩
  exact ⟨rfl, rfl, rfl, .cons ⟨rfl, by decide, rfl, by decide, by unfold HasNumber; decide, rfl⟩ (.cons ⟨rfl, by decide, rfl, by decide, by unfold HasNumber; decide, rfl⟩ .nil),
    fun _ => .cons ⟨rfl, by decide, hb⟩ .nil, fun _ => .cons ⟨rfl, by decide, .nil⟩ .nil, fun _ => .cons ⟨rfl, by decide, hc⟩ .nil,
    fun h => absurd rfl h, fun h => absurd rfl h, fun h => absurd rfl h, by
      intro d hd
      obtain ⟨k, rfl⟩ : ∃ k, d = k + 3 := ⟨d - 3, by omega⟩
      rfl⟩

/-- A literal file: two groups with names, a boundary edge and two triangles; the object has the mesh and the numbers. -/
example : (gmshOpen listGeo listOps true (fun v => (v.1.num, v.2.1.num)) (fun _ => (0, 0))
    ("$MeshFormat\n2.2 0 8\n$EndMeshFormat\n$PhysicalNames\n2\n1 4 \"wall\"\n2 5 \"square\"\n$EndPhysicalNames\n" ++
      "$Nodes\n4\n1 0 0 0\n2 1 0 0\n3 1 1 0\n4 0 1 0\n$EndNodes\n" ++
      "$Elements\n3\n1 1 2 4 1 1 2\n2 2 2 5 1 1 2 3\n3 2 2 5 1 1 3 4\n$EndElements\n").toList).any (fun o =>
        decide (o.reader.mesh.topo.numCells = 2) && decide (o.reader.mesh.topo.numEdges = 5) &&
        decide ((o.reader.mesh.entityByIndex 0 1).bind o.reader.physNr = some [5]) &&
        decide ((o.reader.mesh.entityByIndex 1 0).bind o.reader.physNr = some [4]) &&
        decide (physLookup (name2Nr 2 o.names) ['w', 'a', 'l', 'l'] 1 = .value 4)) = true := by decide +kernel

end Verif
