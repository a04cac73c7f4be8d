import Verif.Lemmas.VtkData

/-!
# Histories of a `VtkWriter`
-/

namespace Verif
open Geo

variable {K : Type} [Field K] {V P : Type} {w : ℕ}

omit [Field K] in
theorem foldlM_keeps {σ α : Type} {f : σ → α → Option σ} {l : List α} {s0 s : σ} (Q : σ → Prop)
    (h : l.foldlM f s0 = some s) (h0 : Q s0) (step : ∀ s a s', Q s → f s a = some s' → Q s') : Q s := by
  induction l generalizing s0 with
  | nil =>
    simp only [List.foldlM_nil] at h
    cases h
    exact h0
  | cons a l ih =>
    rw [List.foldlM_cons] at h
    obtain ⟨s2, h2, h3⟩ := Option.bind_eq_some_iff.mp h
    exact ih h3 (step s0 a s2 h0 h2)

theorem setEntry_length {A : Type} {l l' : List A} {i : ℕ} {v : A} (h : setEntry l i v = some l') : l'.length = l.length := by
  unfold setEntry at h
  split_ifs at h
  cases h
  simp

theorem vtkAssign_length {pts pts' : List (Option V)} {start : ℕ} {vals : List V} (h : vtkAssign pts start vals = some pts') :
    pts'.length = pts.length := by
  unfold vtkAssign at h
  refine foldlM_keeps (fun p => p.length = pts.length) h rfl ?_
  intro s i s' hs hf
  obtain ⟨v, -, h2⟩ := Option.bind_eq_some_iff.mp hf
  rw [setEntry_length h2, hs]

theorem vtkMainPoints_length {T : Topo} {F : MeshFn K V} {pts pts' : List (Option V)}
    (h : vtkMainPoints T F pts = some pts') : pts'.length = pts.length := by
  unfold vtkMainPoints at h
  refine foldlM_keeps (fun p => p.length = pts.length) h rfl ?_
  intro s i s' hs hf
  obtain ⟨v, -, h2⟩ := Option.bind_eq_some_iff.mp hf
  obtain ⟨v, -, h2⟩ := Option.bind_eq_some_iff.mp h2
  rw [setEntry_length h2, hs]

theorem vtkPoints_length {T : Topo} {codim n : ℕ} {aux : RefEl → List (List K)} {F : MeshFn K V} {st : VtkLoop V}
    (h : vtkPoints T codim n aux F = some st) : st.points.length = vtkNumPoints T codim n := by
  unfold vtkPoints at h
  obtain ⟨pts, h1, h2⟩ := Option.bind_eq_some_iff.mp h
  have hl := vtkMainPoints_length h1
  rw [List.length_replicate] at hl
  simp only [] at h2
  split_ifs at h2
  · refine foldlM_keeps (fun s : VtkLoop V => s.points.length = vtkNumPoints T codim n) h2 hl ?_
    intro s cd s' hs hf
    refine foldlM_keeps (fun s : VtkLoop V => s.points.length = vtkNumPoints T codim n) hf hs ?_
    intro s e s' hs hf
    unfold vtkAuxEntity at hf
    obtain ⟨r, -, h3⟩ := Option.bind_eq_some_iff.mp hf
    split_ifs at h3
    · cases h3
      exact hs
    · obtain ⟨coords, -, h4⟩ := Option.bind_eq_some_iff.mp h3
      split_ifs at h4
      obtain ⟨p, h5, h6⟩ := Option.bind_eq_some_iff.mp h4
      obtain ⟨l, -, rfl⟩ := Option.map_eq_some_iff.mp h6
      exact (vtkAssign_length h5).trans hs
  · cases h2
    exact hl

variable [LinearOrder K]

theorem make_sizes {T : Topo} {geo : Ent → Option (Geo K w)} {codim n : ℕ} {W : VtkWriter K}
    (h : VtkWriter.make T geo codim n = some W) : W.mesh = T ∧ W.codim = codim ∧ W.order = n ∧
      W.points.length = vtkNumPoints T codim n ∧ W.cells.length = T.num codim ∧ W.types.length = T.num codim ∧
      W.header = "" ∧ W.fieldData = [] ∧ W.pointData = [] ∧ W.cellData = [] := by
  unfold VtkWriter.make at h
  split_ifs at h
  obtain ⟨aux, -, h1⟩ := Option.bind_eq_some_iff.mp h
  obtain ⟨st, h2, h3⟩ := Option.bind_eq_some_iff.mp h1
  obtain ⟨cells, h4, rfl⟩ := Option.map_eq_some_iff.mp h3
  have hl := (mapM_get _ _ _ h4).1
  refine ⟨rfl, rfl, rfl, vtkPoints_length h2, ?_, ?_, rfl, rfl, rfl, rfl⟩
  · simp [hl, Topo.entities]
  · simp [hl, Topo.entities]

theorem numPoints_one (T : Topo) {codim : ℕ} (hc : codim < 2) : vtkNumPoints T codim 1 = T.numNodes := by
  interval_cases codim <;> simp [vtkNumPoints, RefEl.dimension, numAuxNodes]

/-- The grid is the same. -/
structure SameGrid (W W' : VtkWriter K) : Prop where
  mesh : W'.mesh = W.mesh
  codim : W'.codim = W.codim
  order : W'.order = W.order
  aux : W'.aux = W.aux
  offset : W'.offset = W.offset
  points : W'.points = W.points
  cells : W'.cells = W.cells
  types : W'.types = W.types
  header : W'.header = W.header

theorem SameGrid.refl (W : VtkWriter K) : SameGrid W W := ⟨rfl, rfl, rfl, rfl, rfl, rfl, rfl, rfl, rfl⟩

theorem SameGrid.trans {W W' W'' : VtkWriter K} (h : SameGrid W W') (h' : SameGrid W' W'') : SameGrid W W'' :=
  ⟨h'.mesh.trans h.mesh, h'.codim.trans h.codim, h'.order.trans h.order, h'.aux.trans h.aux, h'.offset.trans h.offset,
    h'.points.trans h.points, h'.cells.trans h.cells, h'.types.trans h.types, h'.header.trans h.header⟩

theorem pointValues_length {W : VtkWriter K} {mf : MeshFn K V} {conv : V → Option P} {d : List (Option P)}
    (h : W.pointValues mf conv = some d) : d.length = W.points.length := by
  unfold VtkWriter.pointValues at h
  obtain ⟨pts, h1, h2⟩ := Option.bind_eq_some_iff.mp h
  have hl := vtkMainPoints_length h1
  rw [List.length_replicate] at hl
  refine foldlM_keeps (fun s : List (Option P) => s.length = W.points.length) h2 hl ?_
  intro s cd s' hs hf
  refine foldlM_keeps (fun s : List (Option P) => s.length = W.points.length) hf hs ?_
  intro s e s' hs hf
  obtain ⟨r, -, h3⟩ := Option.bind_eq_some_iff.mp hf
  split_ifs at h3
  · cases h3
    exact hs
  · obtain ⟨_, -, h4⟩ := Option.bind_eq_some_iff.mp h3
    obtain ⟨_, -, h5⟩ := Option.bind_eq_some_iff.mp h4
    obtain ⟨_, -, h6⟩ := Option.bind_eq_some_iff.mp h5
    exact (vtkAssign_length h6).trans hs

theorem dataSetValues_length {W : VtkWriter K} {cd : ℕ} {mds : Ent → Option V} {u : V} {conv : V → Option P}
    {d : List (Option P)} (h : W.dataSetValues cd mds u conv = some d) : d.length = W.mesh.num cd := by
  unfold VtkWriter.dataSetValues at h
  obtain ⟨p, -, h2⟩ := Option.bind_eq_some_iff.mp h
  refine foldlM_keeps (fun s : List (Option P) => s.length = W.mesh.num cd) h2 (by simp) ?_
  intro s e s' hs hf
  cases hm : mds e with
  | none =>
    rw [hm] at hf
    exact (setEntry_length hf).trans hs
  | some v =>
    rw [hm] at hf
    obtain ⟨_, -, h6⟩ := Option.bind_eq_some_iff.mp hf
    exact (setEntry_length h6).trans hs

theorem cellValues_length {W : VtkWriter K} {mf : MeshFn K V} {conv : V → Option P} {d : List (Option P)}
    (h : W.cellValues mf conv = some d) : d.length = W.mesh.num W.codim := by
  unfold VtkWriter.cellValues at h
  refine foldlM_keeps (fun s : List (Option P) => s.length = W.mesh.num W.codim) h (by simp) ?_
  intro s e s' hs hf
  obtain ⟨r, -, h3⟩ := Option.bind_eq_some_iff.mp hf
  obtain ⟨_, -, h4⟩ := Option.bind_eq_some_iff.mp h3
  obtain ⟨_, -, h5⟩ := Option.bind_eq_some_iff.mp h4
  obtain ⟨_, -, h6⟩ := Option.bind_eq_some_iff.mp h5
  exact (setEntry_length h6).trans hs

theorem checkName_iff (names : List String) (name : String) :
    checkName names name = true ↔ name ∉ names ∧ ' ' ∉ name.toList := by
  simp [checkName]

/-- Effects of a call that does not fail. -/
theorem call_effect {W W' : VtkWriter K} {c : VtkCall K} (h : c.run W = some W') : SameGrid W W' ∧
    ((W'.pointData = W.pointData ∧ W'.cellData = W.cellData ∧ W'.fieldData = W.fieldData) ∨
    (∃ name d, checkName (W.pointData.map fun d => d.1) name = true ∧ W'.pointData = W.pointData ++ [(name, d)] ∧
      (d.size = W.points.length ∨ W.order = 1 ∧ d.size = W.mesh.num 2) ∧
      W'.cellData = W.cellData ∧ W'.fieldData = W.fieldData) ∨
    (∃ name d, checkName (W.cellData.map fun d => d.1) name = true ∧ W'.cellData = W.cellData ++ [(name, d)] ∧
      d.size = W.mesh.num W.codim ∧ W'.pointData = W.pointData ∧ W'.fieldData = W.fieldData) ∨
    (∃ name d, checkName (W.fieldData.map fun d => d.1) name = true ∧ W'.fieldData = W.fieldData ++ [(name, d)] ∧
      W'.pointData = W.pointData ∧ W'.cellData = W.cellData)) := by
  cases c with
  | pointScalar name ty mf =>
    simp only [VtkCall.run, VtkWriter.writePointScalar] at h
    split_ifs at h with hc
    obtain ⟨d, h1, rfl⟩ := Option.map_eq_some_iff.mp h
    exact ⟨⟨rfl, rfl, rfl, rfl, rfl, rfl, rfl, rfl, rfl⟩, .inr (.inl ⟨name, _, hc, rfl, .inl (pointValues_length h1), rfl, rfl⟩)⟩
  | pointVector name ty mf =>
    simp only [VtkCall.run, VtkWriter.writePointVector] at h
    split_ifs at h with hc
    obtain ⟨d, h1, rfl⟩ := Option.map_eq_some_iff.mp h
    exact ⟨⟨rfl, rfl, rfl, rfl, rfl, rfl, rfl, rfl, rfl⟩, .inr (.inl ⟨name, _, hc, rfl, .inl (pointValues_length h1), rfl, rfl⟩)⟩
  | pointDSScalar name ty mds u =>
    simp only [VtkCall.run, VtkWriter.writePointDSScalar] at h
    split_ifs at h with ho hc
    obtain ⟨d, h1, rfl⟩ := Option.map_eq_some_iff.mp h
    exact ⟨⟨rfl, rfl, rfl, rfl, rfl, rfl, rfl, rfl, rfl⟩,
      .inr (.inl ⟨name, _, hc, rfl, .inr ⟨ho, dataSetValues_length h1⟩, rfl, rfl⟩)⟩
  | pointDSVector name ty mds u =>
    simp only [VtkCall.run, VtkWriter.writePointDSVector] at h
    split_ifs at h with ho hc
    obtain ⟨d, h1, rfl⟩ := Option.map_eq_some_iff.mp h
    exact ⟨⟨rfl, rfl, rfl, rfl, rfl, rfl, rfl, rfl, rfl⟩,
      .inr (.inl ⟨name, _, hc, rfl, .inr ⟨ho, dataSetValues_length h1⟩, rfl, rfl⟩)⟩
  | cellScalar name ty mf =>
    simp only [VtkCall.run, VtkWriter.writeCellScalar] at h
    split_ifs at h with hc
    obtain ⟨d, h1, rfl⟩ := Option.map_eq_some_iff.mp h
    exact ⟨⟨rfl, rfl, rfl, rfl, rfl, rfl, rfl, rfl, rfl⟩,
      .inr (.inr (.inl ⟨name, _, hc, rfl, cellValues_length h1, rfl, rfl⟩))⟩
  | cellVector name ty mf =>
    simp only [VtkCall.run, VtkWriter.writeCellVector] at h
    split_ifs at h with hc
    obtain ⟨d, h1, rfl⟩ := Option.map_eq_some_iff.mp h
    exact ⟨⟨rfl, rfl, rfl, rfl, rfl, rfl, rfl, rfl, rfl⟩,
      .inr (.inr (.inl ⟨name, _, hc, rfl, cellValues_length h1, rfl, rfl⟩))⟩
  | cellDSScalar name ty mds u =>
    simp only [VtkCall.run, VtkWriter.writeCellDSScalar] at h
    split_ifs at h with hc
    obtain ⟨d, h1, rfl⟩ := Option.map_eq_some_iff.mp h
    exact ⟨⟨rfl, rfl, rfl, rfl, rfl, rfl, rfl, rfl, rfl⟩,
      .inr (.inr (.inl ⟨name, _, hc, rfl, dataSetValues_length h1, rfl, rfl⟩))⟩
  | cellDSVector name ty mds u =>
    simp only [VtkCall.run, VtkWriter.writeCellDSVector] at h
    split_ifs at h with hc
    obtain ⟨d, h1, rfl⟩ := Option.map_eq_some_iff.mp h
    exact ⟨⟨rfl, rfl, rfl, rfl, rfl, rfl, rfl, rfl, rfl⟩,
      .inr (.inr (.inl ⟨name, _, hc, rfl, dataSetValues_length h1, rfl, rfl⟩))⟩
  | global name ty data =>
    simp only [VtkCall.run, VtkWriter.writeGlobal] at h
    split_ifs at h with hc
    cases h
    exact ⟨⟨rfl, rfl, rfl, rfl, rfl, rfl, rfl, rfl, rfl⟩, .inr (.inr (.inr ⟨name, _, hc, rfl, rfl, rfl⟩))⟩
  | binary b =>
    simp only [VtkCall.run] at h
    cases h
    exact ⟨⟨rfl, rfl, rfl, rfl, rfl, rfl, rfl, rfl, rfl⟩, .inl ⟨rfl, rfl, rfl⟩⟩

theorem after_cons (W : VtkWriter K) (c : VtkCall K) (cs : List (VtkCall K)) :
    W.after (c :: cs) = ((c.run W).getD W).after cs := rfl

theorem after_sameGrid (W : VtkWriter K) (cs : List (VtkCall K)) : SameGrid W (W.after cs) := by
  induction cs generalizing W with
  | nil => exact .refl W
  | cons c cs ih =>
    rw [after_cons]
    refine SameGrid.trans ?_ (ih _)
    cases h : c.run W with
    | none => exact .refl W
    | some W' => exact (call_effect h).1

/-- Names of attributes: pairwise different and without spaces. -/
def GoodNames (names : List String) : Prop := names.Nodup ∧ ∀ n ∈ names, ' ' ∉ n.toList

theorem GoodNames.add {names : List String} {name : String} (h : GoodNames names) (hc : checkName names name = true) :
    GoodNames (names ++ [name]) := by
  obtain ⟨h1, h2⟩ := (checkName_iff names name).1 hc
  refine ⟨List.nodup_append'.2 ⟨h.1, List.nodup_singleton _, by simpa using h1⟩, ?_⟩
  intro n hn
  rcases List.mem_append.1 hn with hn | hn
  · exact h.2 n hn
  · rw [List.mem_singleton.1 hn]
    exact h2

/-- Invariant of a writer. -/
structure GoodWriter (W : VtkWriter K) : Prop where
  header : W.header = ""
  types : W.types.length = W.cells.length
  cells : W.cells.length = W.mesh.num W.codim
  points : W.order = 1 → W.points.length = W.mesh.num 2
  pointData : ∀ d ∈ W.pointData, d.2.size = W.points.length
  cellData : ∀ d ∈ W.cellData, d.2.size = W.cells.length
  pointNames : GoodNames (W.pointData.map fun d => d.1)
  cellNames : GoodNames (W.cellData.map fun d => d.1)
  fieldNames : GoodNames (W.fieldData.map fun d => d.1)

theorem GoodWriter.call {W W' : VtkWriter K} (hW : GoodWriter W) {c : VtkCall K} (h : c.run W = some W') : GoodWriter W' := by
  obtain ⟨hg, he⟩ := call_effect h
  have hcells : W'.cells.length = W'.mesh.num W'.codim := by rw [hg.cells, hg.mesh, hg.codim]; exact hW.cells
  have hpoints : W'.order = 1 → W'.points.length = W'.mesh.num 2 := by
    rw [hg.order, hg.points, hg.mesh]; exact hW.points
  have htypes : W'.types.length = W'.cells.length := by rw [hg.types, hg.cells]; exact hW.types
  have hh : W'.header = "" := hg.header.trans hW.header
  rcases he with ⟨h1, h2, h3⟩ | ⟨name, d, hn, h1, hs, h2, h3⟩ | ⟨name, d, hn, h2, hs, h1, h3⟩ | ⟨name, d, hn, h3, h1, h2⟩
  · exact ⟨hh, htypes, hcells, hpoints, by rw [h1, hg.points]; exact hW.pointData, by rw [h2, hg.cells]; exact hW.cellData,
      h1 ▸ hW.pointNames, h2 ▸ hW.cellNames, h3 ▸ hW.fieldNames⟩
  · refine ⟨hh, htypes, hcells, hpoints, ?_, by rw [h2, hg.cells]; exact hW.cellData, ?_, h2 ▸ hW.cellNames,
      h3 ▸ hW.fieldNames⟩
    · rw [h1, hg.points]
      intro e he
      rcases List.mem_append.1 he with he | he
      · exact hW.pointData e he
      · rw [List.mem_singleton.1 he]
        rcases hs with hs | ⟨ho, hs⟩
        · exact hs
        · exact hs.trans (hW.points ho).symm
    · rw [h1, List.map_append]
      exact hW.pointNames.add hn
  · refine ⟨hh, htypes, hcells, hpoints, by rw [h1, hg.points]; exact hW.pointData, ?_, h1 ▸ hW.pointNames, ?_,
      h3 ▸ hW.fieldNames⟩
    · rw [h2, hg.cells]
      intro e he
      rcases List.mem_append.1 he with he | he
      · exact hW.cellData e he
      · rw [List.mem_singleton.1 he]
        exact hs.trans hW.cells.symm
    · rw [h2, List.map_append]
      exact hW.cellNames.add hn
  · refine ⟨hh, htypes, hcells, hpoints, by rw [h1, hg.points]; exact hW.pointData, by rw [h2, hg.cells]; exact hW.cellData,
      h1 ▸ hW.pointNames, h2 ▸ hW.cellNames, ?_⟩
    rw [h3, List.map_append]
    exact hW.fieldNames.add hn

theorem GoodWriter.after {W : VtkWriter K} (hW : GoodWriter W) (cs : List (VtkCall K)) : GoodWriter (W.after cs) := by
  induction cs generalizing W with
  | nil => exact hW
  | cons c cs ih =>
    rw [after_cons]
    refine ih ?_
    cases h : c.run W with
    | none => exact hW
    | some W' => exact hW.call h

theorem GoodWriter.make {T : Topo} {geo : Ent → Option (Geo K w)} {codim n : ℕ} {W : VtkWriter K}
    (h : VtkWriter.make T geo codim n = some W) : GoodWriter W := by
  obtain ⟨h1, h2, h3, h4, h5, h6, h7, h8, h9, h10⟩ := make_sizes h
  have hc : codim < 2 := by
    unfold VtkWriter.make at h
    split_ifs at h with hh
    exact hh.2.2.1
  refine ⟨h7, by rw [h5, h6], by rw [h5, h1, h2], ?_, by simp [h9], by simp [h10], ?_, ?_, ?_⟩
  · intro ho
    rw [h4, h1, ← h3, ho, numPoints_one T hc]
    rfl
  · simp [h9, GoodNames]
  · simp [h10, GoodNames]
  · simp [h8, GoodNames]

theorem GoodWriter.validates {W : VtkWriter K} (hW : GoodWriter W) : W.validates = true := by
  unfold VtkWriter.validates
  simp only [Bool.and_eq_true, List.all_eq_true, decide_eq_true_eq]
  refine ⟨⟨⟨⟨?_, ?_⟩, hW.types⟩, hW.pointData⟩, hW.cellData⟩
  · simp [hW.header]
  · simp [hW.header]

/-- Data that has been written stays. -/
theorem after_prefix (W : VtkWriter K) (cs : List (VtkCall K)) : W.pointData <+: (W.after cs).pointData ∧
    W.cellData <+: (W.after cs).cellData ∧ W.fieldData <+: (W.after cs).fieldData := by
  induction cs generalizing W with
  | nil => exact ⟨List.prefix_rfl, List.prefix_rfl, List.prefix_rfl⟩
  | cons c cs ih =>
    rw [after_cons]
    cases h : c.run W with
    | none => exact ih W
    | some W' =>
      obtain ⟨k1, k2, k3⟩ := ih W'
      have : W.pointData <+: W'.pointData ∧ W.cellData <+: W'.cellData ∧ W.fieldData <+: W'.fieldData := by
        obtain ⟨-, he⟩ := call_effect h
        rcases he with ⟨h1, h2, h3⟩ | ⟨name, d, hn, h1, hs, h2, h3⟩ | ⟨name, d, hn, h2, hs, h1, h3⟩ | ⟨name, d, hn, h3, h1, h2⟩ <;>
          rw [h1, h2, h3] <;> simp
      exact ⟨this.1.trans k1, this.2.1.trans k2, this.2.2.trans k3⟩

variable [IsStrictOrderedRing K]

theorem VtkBuilt.sameGrid {T : Topo} {cd n : ℕ} {W W' : VtkWriter K} (h : VtkBuilt T cd n W) (hg : SameGrid W W') :
    VtkBuilt T cd n W' := by
  obtain ⟨h1, h2, h3, h4, h5, h6, h7, h8, h9, h10, h11, h12, h13⟩ := h
  refine ⟨hg.mesh.trans h1, hg.codim.trans h2, hg.order.trans h3, ?_, ?_, ?_, ?_, ?_, ?_, ?_, ?_, ?_, ?_⟩
  all_goals simp only [hg.aux, hg.points, hg.cells, hg.types, hg.offset]
  all_goals assumption

end Verif
