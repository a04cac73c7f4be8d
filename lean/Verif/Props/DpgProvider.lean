import Verif.Lemmas.DpgProduct

/-!
# C89: element matrices and vectors on product spaces
-/

namespace Verif
open Dpg Finset

section
variable {T : Topo} (hT : T.WF) {lsU lsV : List UniformLayout} {U V : ProductFE.Data}
  (hU : ProductFE.init T lsU = some U) (hV : ProductFE.init T lsV = some V)
include hT hU hV

/-- **C89**, one cell: `Eval` returns, and the element matrix is the sum of the matrices of the active sub-providers, each
in the rows of its test component and the columns of its trial component: as a bilinear form of vectors `x` and `y` of
local coefficients it is the sum of the forms of the parts of `x` and `y` which start at the local start indices. -/
theorem C89_local (subs : List SubMat) (hs : ∀ p ∈ subs, p.FitsIn T U V) (e : Ent) (he : e ∈ T.entities 0) :
    ∃ M, productMatEval T U V subs e = some M ∧ M.rows = ((V.handler T).all e).length ∧
      M.cols = ((U.handler T).all e).length ∧
      ∀ x y, M.form x y = ((subs.filter fun p => p.isActive e).map fun p =>
        ((p.eval e).getD ⟨0, 0, fun _ _ => 0⟩).form (x.drop ((V.localStartIndex e p.testComponent).getD 0))
          (y.drop ((U.localStartIndex e p.trialComponent).getD 0))).sum := by
  have hlenU := ((C15_construct T hT lsU).2 U hU).1
  have hlenV := ((C15_construct T hT lsV).2 V hV).1
  have key : ∀ (subs : List SubMat), (∀ p ∈ subs, p.FitsIn T U V) → ∀ M0 : Dense ℝ,
      M0.rows = ((V.handler T).all e).length → M0.cols = ((U.handler T).all e).length →
      ∃ M, subs.foldlM (productMatStep U V e) M0 = some M ∧ M.rows = M0.rows ∧ M.cols = M0.cols ∧
        ∀ x y, M.form x y = M0.form x y + ((subs.filter fun p => p.isActive e).map fun p =>
          ((p.eval e).getD ⟨0, 0, fun _ _ => 0⟩).form (x.drop ((V.localStartIndex e p.testComponent).getD 0))
            (y.drop ((U.localStartIndex e p.trialComponent).getD 0))).sum := by
    intro subs
    induction subs with
    | nil => intro _ M0 _ _; exact ⟨M0, rfl, rfl, rfl, by simp⟩
    | cons p ps ih =>
      intro hs M0 hr hc
      by_cases ha : p.isActive e = true
      · obtain ⟨gU, gV, a1, a2, a3⟩ := hs p (by simp)
        obtain ⟨B, b1, b2, b3⟩ := a3 e he ha
        have i1 : p.trialComponent < lsU.length := by rw [← hlenU]; exact (List.getElem?_eq_some_iff.1 a1).1
        have i2 : p.testComponent < lsV.length := by rw [← hlenV]; exact (List.getElem?_eq_some_iff.1 a2).1
        obtain ⟨_, oU, c1, c2, -⟩ := comp_some hT hU i1
        rw [a1] at c1; cases c1
        obtain ⟨_, oV, d1, d2, -⟩ := comp_some hT hV i2
        rw [a2] at d1; cases d1
        obtain ⟨sU, s1, s2, -⟩ := comp_start hT hU i1 he a1 c2
        obtain ⟨sV, t1, t2, -⟩ := comp_start hT hV i2 he a2 d2
        obtain ⟨M1, hM1⟩ : ∃ M1, addBlock M0 sV sU B = some M1 := by
          rw [addBlock, if_pos (by omega)]; exact ⟨_, rfl⟩
        have hstep : productMatStep U V e M0 p = some M1 := by
          rw [productMatStep, if_pos ha, b1, Option.bind_some, t1, Option.bind_some, s1, Option.bind_some, hM1]
        have hfm : ∀ x y, M1.rows = M0.rows ∧ M1.cols = M0.cols ∧ M1.form x y = M0.form x y + B.form (x.drop sV) (y.drop sU) :=
          fun x y => addBlock_form hM1 x y _ _ (by intro i _; simp [List.getD_eq_getElem?_getD])
            (by intro i _; simp [List.getD_eq_getElem?_getD])
        obtain ⟨M, e1, e2, e3, e4⟩ := ih (fun q hq => hs q (by simp [hq])) M1 (by rw [(hfm [] []).1, hr])
          (by rw [(hfm [] []).2.1, hc])
        refine ⟨M, ?_, by rw [e2, (hfm [] []).1], by rw [e3, (hfm [] []).2.1], ?_⟩
        · rw [List.foldlM_cons, hstep]; exact e1
        · intro x y
          rw [e4, (hfm x y).2.2, List.filter_cons_of_pos (by exact ha), List.map_cons, List.sum_cons, b1, t1, s1]
          simp only [Option.getD_some]
          ring
      · obtain ⟨M, e1, e2, e3, e4⟩ := ih (fun q hq => hs q (by simp [hq])) M0 hr hc
        refine ⟨M, ?_, e2, e3, ?_⟩
        · rw [List.foldlM_cons, productMatStep, if_neg ha]; exact e1
        · intro x y
          rw [e4, List.filter_cons_of_neg (by simpa using ha)]
  obtain ⟨M, e1, e2, e3, e4⟩ := key subs hs ⟨((V.handler T).all e).length, ((U.handler T).all e).length, fun _ _ => 0⟩ rfl rfl
  refine ⟨M, ?_, e2, e3, fun x y => ?_⟩
  · rw [productMatEval, product_numLocal hT hV he, Option.bind_some, product_numLocal hT hU he, Option.bind_some, e1]
  · rw [e4]
    simp [Dense.form]

/-- **C89**: the matrix assembled from a product provider represents the bilinear form
`∑ₖ bₖ(u_{jₖ}, v_{iₖ})`, where `bₖ` is the form represented by the matrix that is assembled from sub-provider `k` on the
spaces of its components `jₖ` (trial) and `iₖ` (test). -/
theorem C89_matrix (subs : List SubMat) (hs : ∀ p ∈ subs, p.FitsIn T U V)
    (hf : (U.handler T).numDofs < 2 ^ 31) (hf' : (V.handler T).numDofs < 2 ^ 31) :
    (∀ p ∈ subs, (componentMatrix T U V p).isSome = true) ∧
    ∃ A D, assembleMat T (U.handler T) (V.handler T) (productMat T U V subs) = some A ∧ A.makeDense = some D ∧
      D.rows = (V.handler T).numDofs ∧ D.cols = (U.handler T).numDofs ∧
      ∀ ν μ, D.form ν μ = (subs.map fun p => ((componentMatrix T U V p).getD ⟨0, 0, fun _ _ => 0⟩).form
        (compPart V p.testComponent ν) (compPart U p.trialComponent μ)).sum := by
  have hlenU := ((C15_construct T hT lsU).2 U hU).1
  have hlenV := ((C15_construct T hT lsV).2 V hV).1
  -- one sub-provider
  have hsub : ∀ p ∈ subs, ∃ gU gV Dp, U.comps[p.trialComponent]? = some gU ∧ V.comps[p.testComponent]? = some gV ∧
      componentMatrix T U V p = some Dp ∧ ∀ ν μ, Dp.form ν μ = (((T.entities 0).filter p.isActive).map fun e =>
        ((p.eval e).getD ⟨0, 0, fun _ _ => 0⟩).form (localPart gV ν e) (localPart gU μ e)).sum := by
    intro p hp
    obtain ⟨gU, gV, a1, a2, a3⟩ := hs p hp
    have i1 : p.trialComponent < lsU.length := by rw [← hlenU]; exact (List.getElem?_eq_some_iff.1 a1).1
    have i2 : p.testComponent < lsV.length := by rw [← hlenV]; exact (List.getElem?_eq_some_iff.1 a2).1
    obtain ⟨A, D, e1, e2, -, -, e5⟩ := assembleMat_form T gU gV (comp_dofsOk hT hU hf i1 a1) (comp_dofsOk hT hV hf' i2 a2)
      p.toMatProv (fun e => (p.eval e).getD ⟨0, 0, fun _ _ => 0⟩) (fun e he ha => by
        obtain ⟨B, b1, b2, b3⟩ := a3 e he ha
        rw [b1]; exact ⟨rfl, b2, b3⟩)
    refine ⟨gU, gV, D, a1, a2, ?_, e5⟩
    rw [componentMatrix, a1, Option.bind_some, a2, Option.bind_some, e1, Option.bind_some, e2]
  refine ⟨fun p hp => ?_, ?_⟩
  · obtain ⟨_, _, _, -, -, h, -⟩ := hsub p hp
    rw [h]; rfl
  haveI : Nonempty (Dense ℝ) := ⟨⟨0, 0, fun _ _ => 0⟩⟩
  haveI : Nonempty DofHandler := ⟨U.handler T⟩
  choose! M hM using fun e (he : e ∈ T.entities 0) => C89_local hT hU hV subs hs e he
  choose! gU gV Dp hg using hsub
  obtain ⟨A, D, e1, e2, e3, e4, e5⟩ := assembleMat_form T (U.handler T) (V.handler T) (product_dofsOk hT hU hf)
    (product_dofsOk hT hV hf') (productMat T U V subs) M (fun e he _ => ⟨(hM e he).1, (hM e he).2.1, (hM e he).2.2.1⟩)
  refine ⟨A, D, e1, e2, e3, e4, fun ν μ => ?_⟩
  rw [e5]
  have hall : (T.entities 0).filter (productMat T U V subs).isActive = T.entities 0 := by
    rw [List.filter_eq_self]; intro _ _; rfl
  rw [hall]
  -- the local forms in terms of components
  have hloc : ∀ e ∈ T.entities 0, (M e).form (localPart (V.handler T) ν e) (localPart (U.handler T) μ e) =
      (subs.map fun p => if p.isActive e = true then ((p.eval e).getD ⟨0, 0, fun _ _ => 0⟩).form
        (localPart (gV p) (compPart V p.testComponent ν) e)
        (localPart (gU p) (compPart U p.trialComponent μ) e) else 0).sum := by
    intro e he
    rw [(hM e he).2.2.2]
    symm
    refine map_filter_sum _ _ _ _ ?_ ?_
    · intro p hp ha
      obtain ⟨g, g', a1, a2, a3⟩ := hs p hp
      obtain ⟨B, b1, b2, b3⟩ := a3 e he ha
      have i1 : p.trialComponent < lsU.length := by rw [← hlenU]; exact (List.getElem?_eq_some_iff.1 a1).1
      have i2 : p.testComponent < lsV.length := by rw [← hlenV]; exact (List.getElem?_eq_some_iff.1 a2).1
      obtain ⟨_, oU, c1, c2, -⟩ := comp_some hT hU i1
      rw [a1] at c1; cases c1
      obtain ⟨_, oV, d1, d2, -⟩ := comp_some hT hV i2
      rw [a2] at d1; cases d1
      obtain ⟨sU, s1, s2, -⟩ := comp_start hT hU i1 he a1 c2
      obtain ⟨sV, t1, t2, -⟩ := comp_start hT hV i2 he a2 d2
      have hgU : gU p = g := Option.some.inj ((hg p hp).1.symm.trans a1)
      have hgV : gV p = g' := Option.some.inj ((hg p hp).2.1.symm.trans a2)
      rw [if_pos ha, b1, hgU, hgV, s1, t1]
      simp only [Option.getD_some]
      unfold Dense.form
      refine Finset.sum_congr rfl fun r hr => Finset.sum_congr rfl fun c hc => ?_
      rw [← localPart_comp hT hV i2 he a2 t1 ν (by rw [← b2]; exact Finset.mem_range.1 hr),
        ← localPart_comp hT hU i1 he a1 s1 μ (by rw [← b3]; exact Finset.mem_range.1 hc)]
      simp [List.getD_eq_getElem?_getD]
    · intro p hp ha
      rw [if_neg (by simp [ha])]
  rw [List.map_congr_left hloc, list_list_sum_comm]
  congr 1
  refine List.map_congr_left fun p hp => ?_
  rw [(hg p hp).2.2.1, Option.getD_some, (hg p hp).2.2.2]
  refine map_filter_sum _ _ _ _ ?_ ?_
  · intro e _ ha
    rw [if_pos ha]
  · intro e _ ha
    rw [if_neg (by simp [ha])]

omit hU in
/-- **C89**, vectors on one cell. -/
theorem C89_localVec (subs : List SubVec) (hs : ∀ p ∈ subs, p.FitsIn T V) (e : Ent) (he : e ∈ T.entities 0) :
    ∃ b, productVecEval T V subs e = some b ∧ b.length = ((V.handler T).all e).length ∧
      ∀ x, dotList x b = ((subs.filter fun p => p.isActive e).map fun p =>
        dotList (x.drop ((V.localStartIndex e p.testComponent).getD 0)) ((p.eval e).getD [])).sum := by
  have hlenV := ((C15_construct T hT lsV).2 V hV).1
  have key : ∀ (subs : List SubVec), (∀ p ∈ subs, p.FitsIn T V) → ∀ b0 : List ℝ,
      b0.length = ((V.handler T).all e).length →
      ∃ b, subs.foldlM (productVecStep V e) b0 = some b ∧ b.length = b0.length ∧
        ∀ x, dotList x b = dotList x b0 + ((subs.filter fun p => p.isActive e).map fun p =>
          dotList (x.drop ((V.localStartIndex e p.testComponent).getD 0)) ((p.eval e).getD [])).sum := by
    intro subs
    induction subs with
    | nil => intro _ b0 _; exact ⟨b0, rfl, rfl, by simp⟩
    | cons p ps ih =>
      intro hs b0 hr
      by_cases ha : p.isActive e = true
      · obtain ⟨gV, a2, a3⟩ := hs p (by simp)
        obtain ⟨v, b1, b2⟩ := a3 e he ha
        have i2 : p.testComponent < lsV.length := by rw [← hlenV]; exact (List.getElem?_eq_some_iff.1 a2).1
        obtain ⟨_, oV, d1, d2, -⟩ := comp_some hT hV i2
        rw [a2] at d1; cases d1
        obtain ⟨sV, t1, t2, -⟩ := comp_start hT hV i2 he a2 d2
        obtain ⟨v1, hv1⟩ : ∃ v1, addSegment b0 sV v = some v1 := by
          rw [addSegment, if_pos (by omega)]; exact ⟨_, rfl⟩
        have hstep : productVecStep V e b0 p = some v1 := by
          rw [productVecStep, if_pos ha, b1, Option.bind_some, t1, Option.bind_some, hv1]
        have hfm : ∀ x, v1.length = b0.length ∧ dotList x v1 = dotList x b0 + dotList (x.drop sV) v :=
          fun x => addSegment_dot hv1 x _ (by intro i _; simp [List.getD_eq_getElem?_getD])
        obtain ⟨b, e1, e2, e4⟩ := ih (fun q hq => hs q (by simp [hq])) v1 (by rw [(hfm []).1, hr])
        refine ⟨b, ?_, by rw [e2, (hfm []).1], ?_⟩
        · rw [List.foldlM_cons, hstep]; exact e1
        · intro x
          rw [e4, (hfm x).2, List.filter_cons_of_pos (by exact ha), List.map_cons, List.sum_cons, b1, t1]
          simp only [Option.getD_some]
          ring
      · obtain ⟨b, e1, e2, e4⟩ := ih (fun q hq => hs q (by simp [hq])) b0 hr
        refine ⟨b, ?_, e2, ?_⟩
        · rw [List.foldlM_cons, productVecStep, if_neg ha]; exact e1
        · intro x
          rw [e4, List.filter_cons_of_neg (by simpa using ha)]
  obtain ⟨b, e1, e2, e4⟩ := key subs hs (List.replicate ((V.handler T).all e).length 0) (by simp)
  refine ⟨b, ?_, by simpa using e2, fun x => ?_⟩
  · rw [productVecEval, product_numLocal hT hV he, Option.bind_some, e1]
  · rw [e4]
    have : dotList x (List.replicate ((V.handler T).all e).length 0) = 0 := by
      unfold dotList
      refine Finset.sum_eq_zero fun r _ => ?_
      by_cases hr : r < ((V.handler T).all e).length <;> simp [List.getD_eq_getElem?_getD, hr]
    rw [this, zero_add]

omit hU in
/-- **C89**: the vector assembled from a product provider represents the linear form `∑ₖ lₖ(v_{iₖ})`. -/
theorem C89_vector (subs : List SubVec) (hs : ∀ p ∈ subs, p.FitsIn T V) (hf' : (V.handler T).numDofs < 2 ^ 31) :
    (∀ p ∈ subs, (componentVector T V p).isSome = true) ∧
    ∃ b, assembleVec T (V.handler T) (productVec T V subs) = some b ∧ b.length = (V.handler T).numDofs ∧
      ∀ ν, dotList ν b = (subs.map fun p =>
        dotList (compPart V p.testComponent ν) ((componentVector T V p).getD [])).sum := by
  have hlenV := ((C15_construct T hT lsV).2 V hV).1
  have hsub : ∀ p ∈ subs, ∃ gV bp, V.comps[p.testComponent]? = some gV ∧
      componentVector T V p = some bp ∧ ∀ ν, dotList ν bp = (((T.entities 0).filter p.isActive).map fun e =>
        dotList (localPart gV ν e) ((p.eval e).getD [])).sum := by
    intro p hp
    obtain ⟨gV, a2, a3⟩ := hs p hp
    have i2 : p.testComponent < lsV.length := by rw [← hlenV]; exact (List.getElem?_eq_some_iff.1 a2).1
    obtain ⟨b, e1, -, e5⟩ := assembleVec_form T gV (comp_dofsOk hT hV hf' i2 a2)
      p.toVecProv (fun e => (p.eval e).getD []) (fun e he ha => by
        obtain ⟨v, b1, b2⟩ := a3 e he ha
        rw [b1]; exact ⟨rfl, b2⟩)
    refine ⟨gV, b, a2, ?_, e5⟩
    rw [componentVector, a2, Option.bind_some, e1]
  refine ⟨fun p hp => ?_, ?_⟩
  · obtain ⟨_, _, -, h, -⟩ := hsub p hp
    rw [h]; rfl
  haveI : Nonempty DofHandler := ⟨V.handler T⟩
  choose! v hv using fun e (he : e ∈ T.entities 0) => C89_localVec hT hV subs hs e he
  choose! gV bp hg using hsub
  obtain ⟨b, e1, e2, e5⟩ := assembleVec_form T (V.handler T) (product_dofsOk hT hV hf') (productVec T V subs) v
    (fun e he _ => ⟨(hv e he).1, (hv e he).2.1⟩)
  refine ⟨b, e1, e2, fun ν => ?_⟩
  rw [e5]
  have hall : (T.entities 0).filter (productVec T V subs).isActive = T.entities 0 := by
    rw [List.filter_eq_self]; intro _ _; rfl
  rw [hall]
  have hloc : ∀ e ∈ T.entities 0, dotList (localPart (V.handler T) ν e) (v e) =
      (subs.map fun p => if p.isActive e = true then
        dotList (localPart (gV p) (compPart V p.testComponent ν) e) ((p.eval e).getD []) else 0).sum := by
    intro e he
    rw [(hv e he).2.2]
    symm
    refine map_filter_sum _ _ _ _ ?_ ?_
    · intro p hp ha
      obtain ⟨g', a2, a3⟩ := hs p hp
      obtain ⟨w, b1, b2⟩ := a3 e he ha
      have i2 : p.testComponent < lsV.length := by rw [← hlenV]; exact (List.getElem?_eq_some_iff.1 a2).1
      obtain ⟨_, oV, d1, d2, -⟩ := comp_some hT hV i2
      rw [a2] at d1; cases d1
      obtain ⟨sV, t1, t2, -⟩ := comp_start hT hV i2 he a2 d2
      have hgV : gV p = g' := Option.some.inj ((hg p hp).1.symm.trans a2)
      rw [if_pos ha, b1, hgV, t1]
      simp only [Option.getD_some]
      unfold dotList
      refine Finset.sum_congr rfl fun r hr => ?_
      rw [← localPart_comp hT hV i2 he a2 t1 ν (by rw [← b2]; exact Finset.mem_range.1 hr)]
      simp [List.getD_eq_getElem?_getD]
    · intro p hp ha
      rw [if_neg (by simp [ha])]
  rw [List.map_congr_left hloc, list_list_sum_comm]
  congr 1
  refine List.map_congr_left fun p hp => ?_
  rw [(hg p hp).2.1, Option.getD_some, (hg p hp).2.2]
  refine map_filter_sum _ _ _ _ ?_ ?_
  · intro e _ ha
    rw [if_pos ha]
  · intro e _ ha
    rw [if_neg (by simp [ha])]

end

/-- Two components: one dof per node, one dof per cell; three sub-providers, one of them active on the second cell only. -/
example : ∃ (D : ProductFE.Data) (h0 h1 : DofHandler) (subs : List SubMat),
    ProductFE.init sampleTopo [⟨1, 0, 0, 0⟩, ⟨0, 0, 1, 1⟩] = some D ∧ D.comps = [h0, h1] ∧ subs.length = 3 ∧
    (∀ p ∈ subs, p.FitsIn sampleTopo D D) ∧ (D.handler sampleTopo).numDofs = 7 := by
  obtain ⟨D, h0, h1, e1, e2, e3⟩ : ∃ D h0 h1, ProductFE.init sampleTopo [⟨1, 0, 0, 0⟩, ⟨0, 0, 1, 1⟩] = some D ∧
      D.comps = [h0, h1] ∧ (D.handler sampleTopo).numDofs = 7 := by
    refine ⟨_, _, _, rfl, rfl, by decide +kernel⟩
  refine ⟨D, h0, h1, [⟨⟨fun _ => true, fun e => some ⟨(h0.all e).length, (h1.all e).length, fun i j => i + 2 * j⟩⟩, 1, 0⟩,
    ⟨⟨fun _ => true, fun e => some ⟨(h0.all e).length, (h0.all e).length, fun i j => i * j⟩⟩, 0, 0⟩,
    ⟨⟨fun e => e.2 == 1, fun e => some ⟨(h1.all e).length, (h1.all e).length, fun _ _ => 1⟩⟩, 1, 1⟩], e1, e2, rfl, ?_, e3⟩
  intro p hp
  simp only [List.mem_cons, List.not_mem_nil, or_false] at hp
  rcases hp with rfl | rfl | rfl
  · exact ⟨h1, h0, by rw [e2]; rfl, by rw [e2]; rfl, fun e _ _ => ⟨_, rfl, rfl, rfl⟩⟩
  · exact ⟨h0, h0, by rw [e2]; rfl, by rw [e2]; rfl, fun e _ _ => ⟨_, rfl, rfl, rfl⟩⟩
  · exact ⟨h1, h1, by rw [e2]; rfl, by rw [e2]; rfl, fun e _ _ => ⟨_, rfl, rfl, rfl⟩⟩

end Verif
