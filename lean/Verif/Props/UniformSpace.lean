import Verif.Lemmas.LagrConform
import Verif.Props.DofHandler
import Verif.Props.Lagrange

/-!
# C58, C59: `UniformScalarFESpace`, its numbers of shape functions and its dof handler
-/

namespace Verif
variable {K : Type} [Field K]

/-- What a successful construction tells. -/
private theorem make_inv {T : Topo} {tria quad edge point : Option (RefFE K)} {U : UniformFESpace K}
    (h : UniformFESpace.make T tria quad edge point = some U) :
    U.tria = tria ∧ U.quad = quad ∧ U.edge = edge ∧ U.point = point ∧
    uniformDofHandler T ⟨U.numNode, U.numEdge, U.numTria, U.numQuad⟩ true = some U.dofh ∧
    (∀ f, tria = some f → f.ref = .tria ∧ f.numCodim 2 = some U.numNode ∧
      (f.numCodim 1).getD 0 = U.numEdge ∧ (f.numCodim 0).getD 0 = U.numTria) ∧
    (∀ f, quad = some f → f.ref = .quad ∧ f.numCodim 2 = some U.numNode ∧
      (f.numCodim 1).getD 0 = U.numEdge ∧ (f.numCodim 0).getD 0 = U.numQuad) ∧
    (∀ f, edge = some f → f.ref = .segment ∧ f.numCodim 1 = some U.numNode ∧
      (f.numCodim 0).getD 0 = U.numEdge) := by
  unfold UniformFESpace.make at h
  simp only at h
  split at h
  · rename_i hc
    rw [Option.map_eq_some_iff] at h
    obtain ⟨dh, h1, rfl⟩ := h
    refine ⟨rfl, rfl, rfl, rfl, h1, ?_⟩
    simp only [Bool.and_eq_true] at hc
    obtain ⟨⟨⟨⟨⟨⟨⟨⟨⟨⟨⟨-, -⟩, -⟩, p1⟩, p2⟩, p3⟩, a1⟩, a2⟩, a3⟩, a4⟩, a5⟩, a6⟩ := hc
    have any_some : ∀ {o : Option ℕ} {q : ℕ → Bool}, o.any q = true → o = some (o.getD 0) := by
      intro o q ho
      cases o with
      | none => cases ho
      | some n => rfl
    rcases tria with _ | ft <;> rcases quad with _ | fq <;> rcases edge with _ | fs <;>
      simp only [UniformFESpace.probe, UniformFESpace.agree, UniformFESpace.pick, Bool.and_eq_true,
        decide_eq_true_eq, beq_iff_eq, List.foldl_cons, List.foldl_nil] at p1 p2 p3 a1 a2 a3 a4 a5 a6 ⊢ <;>
      refine ⟨fun f hf => ?_, fun f hf => ?_, fun f hf => ?_⟩ <;> cases hf
    all_goals first
      | exact ⟨p1.1, any_some p1.2, rfl, rfl⟩
      | exact ⟨p2.1, any_some p2.2, rfl, rfl⟩
      | exact ⟨p3.1, any_some p3.2, rfl⟩
      | exact ⟨p1.1, by rw [a1.2]; exact any_some p2.2, by rw [a2.2], rfl⟩
      | exact ⟨p1.1, by rw [a3.2]; exact any_some p3.2, by rw [a4.2], rfl⟩
      | exact ⟨p2.1, by rw [a5.2]; exact any_some p3.2, by rw [a6.2], rfl⟩
  · cases h

private theorem refEl_isEnt {T : Topo} {e : Ent} {r : RefEl} (he : T.refEl e = some r) : T.IsEnt e := by
  obtain ⟨k, i⟩ := e
  simp only [Topo.refEl] at he
  split at he
  · rename_i hi
    refine ⟨?_, hi⟩
    by_contra hk
    rw [not_le] at hk
    simp only at hk hi
    match k, hk with
    | k + 3, _ => simp [Topo.num] at hi
  · cases he

/-! ### C58 -/

/-- `NumRefShapeFunctions` aborts on a space which has been constructed successfully, with a finite
element for triangles only, on a mesh consisting of triangles. -/
theorem C58_fails : ∃ (T : Topo) (_ : T.WF) (U : UniformFESpace ℚ),
    UniformFESpace.make T (some lagrO2Tria) none (some lagrO2Segment) none = some U ∧
    T.refEl (0, 0) = some .tria ∧ U.dofh.numInteriorDofs (1, 0) = some 1 ∧
    U.numRefShapeFunctions .segment = none ∧ U.numRefShapeFunctions .tria = none := by
  refine ⟨⟨3, 3, 1, fun e => ([(0, 1), (1, 2), (2, 0)] : List (ℕ × ℕ)).getD e (0, 0),
    fun _ => ⟨[0, 1, 2], [0, 1, 2], [true, true, true]⟩⟩, ?_, _, rfl, ?_, ?_, rfl, rfl⟩
  · constructor <;> decide
  · decide
  · decide

/-- If an element for quadrilaterals is given, `NumRefShapeFunctions(ref_el)` is the number of dofs that
the dof handler associates with every entity of this type.  (Missing for the full property: spaces
without an element for quadrilaterals, see `C58_fails`.) -/
theorem C58_partial (T : Topo) (hT : T.WF) (tria quad edge point : Option (RefFE K))
    (U : UniformFESpace K) (hU : UniformFESpace.make T tria quad edge point = some U)
    (hq : quad.isSome) : ∀ r, ∃ n, U.numRefShapeFunctions r = some n ∧
      ∀ e, T.refEl e = some r → U.dofh.numInteriorDofs e = some n := by
  obtain ⟨-, h1, -, -, h2, -⟩ := make_inv hU
  obtain ⟨h, hh, ha, -, hc⟩ := C09_uniform T hT ⟨U.numNode, U.numEdge, U.numTria, U.numQuad⟩ true
  rw [h2] at hh
  cases hh
  intro r
  refine ⟨(⟨U.numNode, U.numEdge, U.numTria, U.numQuad⟩ : UniformLayout).interior r, ?_, ?_⟩
  · simp only [UniformFESpace.numRefShapeFunctions, h1, hq, Bool.and_self, if_true]
    cases r <;> rfl
  · intro e he
    have hE := refEl_isEnt he
    rw [(ha e hE).2.2.1, hc e r hE he]

example : ∃ U : UniformFESpace ℚ, UniformFESpace.make sampleTopo (some lagrO2Tria) (some lagrO2Quad) none
    none = some U ∧ U.numRefShapeFunctions .segment = some 1 := ⟨_, rfl, rfl⟩

/-! ### C59 -/

/-- On every cell and every edge of the mesh of a successfully constructed space, the number of dofs that
the dof handler assigns is the number of shape functions of the element used there, provided the
elements announce their shape functions consistently. -/
theorem C59_local_dofs (T : Topo) (hT : T.WF) (tria quad edge point : Option (RefFE K))
    (U : UniformFESpace K) (hU : UniformFESpace.make T tria quad edge point = some U)
    (hc : ∀ f, tria = some f ∨ quad = some f ∨ edge = some f → f.CountsConsistent) :
    (∀ e fe, e.1 ≤ 1 → (U.space T).layout e = some fe → U.dofh.numLocalDofs e = some fe.num) ∧
    (∀ c < T.numCells, ∃ fe, (U.space T).layout (0, c) = some fe) := by
  obtain ⟨e1, e2, e3, e4, h2, ht, hq, hs⟩ := make_inv hU
  have hloc : ∀ e r, T.refEl e = some r → U.dofh.numLocalDofs e =
      some ((⟨U.numNode, U.numEdge, U.numTria, U.numQuad⟩ : UniformLayout).covered r) := by
    intro e r hr
    rw [uniformDofHandler, Option.map_eq_some_iff] at h2
    obtain ⟨d, -, hd⟩ := h2
    rw [← hd]
    simp [UniformFE.Data.handler, hr]
  constructor
  · rintro ⟨k, i⟩ fe hk hfe
    change (T.refEl (k, i)).bind U.layout = some fe at hfe
    obtain ⟨r, hr, hl⟩ := Option.bind_eq_some_iff.mp hfe
    rw [hloc _ r hr]
    congr 1
    cases r with
    | point =>
      simp only [Topo.refEl] at hr
      exfalso
      split at hr
      · simp only at hk
        interval_cases k
        · simp only [OfNat.zero_ne_ofNat, zero_ne_one, if_false] at hr
          split at hr
          · cases hr
          · split at hr <;> cases hr
        · simp at hr
      · cases hr
    | segment =>
      rw [UniformFESpace.layout, e3] at hl
      obtain ⟨r1, r2, r3⟩ := hs fe hl
      rw [(hc fe (Or.inr (Or.inr hl))).2, r1]
      simp [Finset.sum_range_succ, RefEl.dimension, RefEl.numSubEntities, r2, r3,
        UniformLayout.covered, UniformLayout.nEdge]
      ring
    | tria =>
      rw [UniformFESpace.layout, e1] at hl
      obtain ⟨r1, r2, r3, r4⟩ := ht fe hl
      rw [(hc fe (Or.inl hl)).2, r1]
      simp [Finset.sum_range_succ, RefEl.dimension, RefEl.numSubEntities, r2, r3, r4,
        UniformLayout.covered, UniformLayout.nTria]
      ring
    | quad =>
      rw [UniformFESpace.layout, e2] at hl
      obtain ⟨r1, r2, r3, r4⟩ := hq fe hl
      rw [(hc fe (Or.inr (Or.inl hl))).2, r1]
      simp [Finset.sum_range_succ, RefEl.dimension, RefEl.numSubEntities, r2, r3, r4,
        UniformLayout.covered, UniformLayout.nQuad]
      ring
  · intro c hcn
    have hcase : T.refEl (0, c) = some .tria ∨ T.refEl (0, c) = some .quad := by
      rw [Topo.refEl, if_pos (show c < T.num 0 from hcn)]
      rcases hT.cell_len c hcn with h | h <;> simp [h]
    unfold UniformFESpace.make at hU
    simp only at hU
    split at hU
    · rename_i hcond
      simp only [Bool.and_eq_true] at hcond
      obtain ⟨⟨⟨⟨⟨⟨⟨⟨⟨⟨⟨-, p1⟩, p2⟩, -⟩, -⟩, -⟩, -⟩, -⟩, -⟩, -⟩, -⟩, -⟩ := hcond
      change ∃ fe, (T.refEl (0, c)).bind U.layout = some fe
      rcases hcase with h | h
      · rw [h]
        have : tria.isSome = true := by
          rw [Bool.or_eq_true] at p1
          refine p1.resolve_left fun hn => ?_
          simp only [Bool.not_eq_true', List.any_eq_false, List.mem_range, decide_eq_true_eq] at hn
          exact hn c hcn h
        obtain ⟨fe, hfe⟩ := Option.isSome_iff_exists.mp this
        exact ⟨fe, by simp [UniformFESpace.layout, e1, hfe]⟩
      · rw [h]
        have : quad.isSome = true := by
          rw [Bool.or_eq_true] at p2
          refine p2.resolve_left fun hn => ?_
          simp only [Bool.not_eq_true', List.any_eq_false, List.mem_range, decide_eq_true_eq] at hn
          exact hn c hcn h
        obtain ⟨fe, hfe⟩ := Option.isSome_iff_exists.mp this
        exact ⟨fe, by simp [UniformFESpace.layout, e2, hfe]⟩
    · cases hU

/-- The hypotheses hold e.g. for a space with elements of second order. -/
example : (∃ U : UniformFESpace ℝ, UniformFESpace.make sampleTopo (some lagrO2Tria) (some lagrO2Quad)
      (some lagrO2Segment) none = some U ∧ U.dofh.numLocalDofs (0, 1) = some 9) ∧
    ∀ f : RefFE ℝ, some lagrO2Tria = some f ∨ some lagrO2Quad = some f ∨ some lagrO2Segment = some f →
      f.CountsConsistent := by
  refine ⟨⟨_, rfl, by decide⟩, ?_⟩
  rintro f (h | h | h) <;> cases h
  · exact C44_o2Tria.countsConsistent
  · exact C44_o2Quad.countsConsistent
  · exact C44_o2Segment.countsConsistent

end Verif
