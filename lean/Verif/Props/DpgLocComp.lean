import Verif.Lemmas.DpgBoundary

/-!
# C91: local bilinear and linear forms of the DPG method
-/

namespace Verif
open Geo Finset Dpg

variable {w : ℕ}

/-! ## Quadrature on cells -/

section
variable (B : QuadBase ℝ) (U V : ProductSpace ℝ) (T : Topo) (geo : Ent → Option (Geo ℝ w)) (i j : ℕ) (e : Ent)
  {g : Geo ℝ w} {r : RefEl} {ft fv : RefFE ℝ} {q : QuadRule ℝ} {detJ : List ℝ → ℝ}
  (hr : r = .tria ∨ r = .quad) (hT : T.refEl e = some r) (hg : geo e = some g)
  (hft : U.shapeFunctionLayout r i = some (some ft)) (hfv : V.shapeFunctionLayout r j = some (some fv))
  (hq : makeQuadRule B r (ft.degree + fv.degree) = some q)
include hr hT hg hft hfv hq

/-- **C91**, reaction: for all cells, elements, rules and coefficients, the element matrix of the form
`∫ γ u v` of a trial function `u` and a test function `v` is that of the quadrature rule. -/
theorem C91_reaction (hd : g.kind.dimension = 2) (ht : Computable g ft q detJ) (hv : Computable g fv q detJ)
    (gamma : MeshFn ℝ ℝ) (γ : List ℝ → ℝ) (hγ : gamma e q.points = some (q.points.map γ)) (P : SubMat)
    (hP : reactionProvider B U V T geo i j gamma = some P) :
    P.isActive e = true ∧ P.trialComponent = i ∧ P.testComponent = j ∧
    ∃ M, P.eval e = some M ∧ M.rows = fv.num ∧ M.cols = ft.num ∧ ∀ v u,
      M.form v u = q.integrate fun x => detJ x * γ x * (comb fv v x * comb ft u x) := by
  rw [reactionProvider, Option.map_eq_some_iff] at hP
  obtain ⟨pre, hpre, rfl⟩ := hP
  refine ⟨rfl, rfl, rfl, ⟨fv.num, ft.num, fun a b => 0 + ∑ k ∈ range q.numPoints, q.weights.getD k 0 *
    (detJ (q.points.getD k []) * γ (q.points.getD k []) * (fv.shape a (q.points.getD k []) * ft.shape b (q.points.getD k [])))⟩,
    ?_, rfl, rfl, fun v u => ?_⟩
  · simp only [reactionEval, hT, Option.bind_some, cellPair_get hpre hr hft hfv hq, hg, hd, ne_eq, not_true_eq_false, if_false,
      ht.dets, hγ, zeroMat]
    refine foldlM_plusEq _ (fun k a b => q.weights.getD k 0 *
      (detJ (q.points.getD k []) * γ (q.points.getD k []) * (fv.shape a (q.points.getD k []) * ft.shape b (q.points.getD k []))))
      _ _ _ _ fun k hk f => ?_
    rw [get_self q.weights (ht.rule ▸ hk) 0, get_map _ _ hk [], get_map _ _ hk [], get_map _ _ hk [], get_map _ _ hk []]
    simp only [Option.bind_some]
    rw [if_pos ⟨ht.col hk, hv.col hk⟩, plusEq]
    simp only [Option.some.injEq, Dense.mk.injEq, true_and]
    funext a b
    simp only [RefFE.shape]
    ring
  · rw [dense_form q ht.rule _ _ fun a b x => detJ x * γ x * (fv.shape a x * ft.shape b x)]
    exact integrate_congr q fun x _ => comb_mul fv ft v u _ x x

/-- **C91**, diffusion: likewise for the form `∫ grad v · α grad u`. -/
theorem C91_diffusion (ht : ComputableGrad g ft q detJ) (hv : ComputableGrad g fv q detJ)
    (alpha : MeshFn ℝ (DiffCoeff w)) (α : List ℝ → DiffCoeff w) (hα : alpha e q.points = some (q.points.map α)) (P : SubMat)
    (hP : diffusionProvider B U V T geo i j alpha = some P) :
    P.isActive e = true ∧ P.trialComponent = i ∧ P.testComponent = j ∧
    ∃ M, P.eval e = some M ∧ M.rows = fv.num ∧ M.cols = ft.num ∧ ∀ v u,
      M.form v u = q.integrate fun x => detJ x *
        dot (g.pushGrad x (combGrad fv v x)) ((α x).toMatrix.mulVec (g.pushGrad x (combGrad ft u x))) := by
  rw [diffusionProvider, Option.map_eq_some_iff] at hP
  obtain ⟨pre, hpre, rfl⟩ := hP
  refine ⟨rfl, rfl, rfl, ⟨fv.num, ft.num, fun a b => 0 + ∑ k ∈ range q.numPoints, q.weights.getD k 0 *
    (detJ (q.points.getD k []) * dot (g.pushGrad (q.points.getD k []) (fv.gradAt a (q.points.getD k [])))
      ((α (q.points.getD k [])).toMatrix.mulVec (g.pushGrad (q.points.getD k []) (ft.gradAt b (q.points.getD k [])))))⟩,
    ?_, rfl, rfl, fun v u => ?_⟩
  · change diffusionEval T geo pre alpha e = _
    unfold diffusionEval
    rw [hT, Option.bind_some, cellPair_get hpre hr hft hfv hq, Option.bind_some, hg, Option.bind_some,
      if_neg (not_not.mpr ht.dim)]
    dsimp only
    rw [ht.dets, Option.bind_some, ht.jinvT, Option.bind_some, hα, Option.bind_some]
    refine foldlM_plusEq _ (fun k a b => q.weights.getD k 0 *
      (detJ (q.points.getD k []) * dot (g.pushGrad (q.points.getD k []) (fv.gradAt a (q.points.getD k [])))
      ((α (q.points.getD k [])).toMatrix.mulVec (g.pushGrad (q.points.getD k []) (ft.gradAt b (q.points.getD k []))))))
      _ _ _ _ fun k hk f => ?_
    rw [get_self q.weights (ht.rule ▸ hk) 0, get_map _ _ hk [], get_map _ _ hk [], get_map _ _ hk [], get_map _ _ hk [],
      get_map _ _ hk []]
    simp only [Option.bind_some]
    rw [if_pos ⟨ht.fit (getD_mem_list _ hk []), hv.fit (getD_mem_list _ hk [])⟩, plusEq]
    simp only [ht.trf (getD_mem_list _ hk []), hv.trf (getD_mem_list _ hk []), DiffCoeff.act_eq, Option.some.injEq,
      Dense.mk.injEq, true_and]
    funext a b
    ring
  · rw [dense_form q ht.rule _ _ fun a b x => detJ x * dot (g.pushGrad x (fv.gradAt a x))
      ((α x).toMatrix.mulVec (g.pushGrad x (ft.gradAt b x)))]
    refine integrate_congr q fun x _ => ?_
    rw [combGrad_push g ht.dim, combGrad_push g ht.dim, Matrix.mulVec_sum, dot_eq, sum_dotProduct, Finset.mul_sum]
    refine Finset.sum_congr rfl fun a _ => ?_
    rw [dotProduct_sum, Finset.mul_sum]
    refine Finset.sum_congr rfl fun b _ => ?_
    rw [Matrix.mulVec_smul, smul_dotProduct, dotProduct_smul, dot_eq, smul_eq_mul, smul_eq_mul]
    ring

/-- **C91**, convection: likewise for the form `∫ u β₁ · grad v + v β₂ · grad u`. -/
theorem C91_convection (ht : ComputableGrad g ft q detJ) (hv : ComputableGrad g fv q detJ)
    (ht' : Computable g ft q detJ) (hv' : Computable g fv q detJ)
    (beta1 beta2 : MeshFn ℝ (Vec ℝ w)) (β₁ β₂ : List ℝ → Vec ℝ w) (h1 : beta1 e q.points = some (q.points.map β₁))
    (h2 : beta2 e q.points = some (q.points.map β₂)) (P : SubMat)
    (hP : convectionProvider B U V T geo i j beta1 beta2 = some P) :
    P.isActive e = true ∧ P.trialComponent = i ∧ P.testComponent = j ∧
    ∃ M, P.eval e = some M ∧ M.rows = fv.num ∧ M.cols = ft.num ∧ ∀ v u,
      M.form v u = q.integrate fun x => detJ x * (dot (β₁ x) (g.pushGrad x (combGrad fv v x)) * comb ft u x +
        comb fv v x * dot (β₂ x) (g.pushGrad x (combGrad ft u x))) := by
  rw [convectionProvider, Option.map_eq_some_iff] at hP
  obtain ⟨pre, hpre, rfl⟩ := hP
  refine ⟨rfl, rfl, rfl, ⟨fv.num, ft.num, fun a b => 0 + ∑ k ∈ range q.numPoints, q.weights.getD k 0 *
    (detJ (q.points.getD k []) * (dot (β₁ (q.points.getD k [])) (g.pushGrad (q.points.getD k []) (fv.gradAt a (q.points.getD k [])))
      * ft.shape b (q.points.getD k []) + fv.shape a (q.points.getD k []) *
      dot (β₂ (q.points.getD k [])) (g.pushGrad (q.points.getD k []) (ft.gradAt b (q.points.getD k [])))))⟩,
    ?_, rfl, rfl, fun v u => ?_⟩
  · change convectionEval T geo pre beta1 beta2 e = _
    unfold convectionEval
    rw [hT, Option.bind_some, cellPair_get hpre hr hft hfv hq, Option.bind_some, hg, Option.bind_some,
      if_neg (not_not.mpr ht.dim)]
    dsimp only
    rw [ht.dets, Option.bind_some, ht.jinvT, Option.bind_some, h1, Option.bind_some, h2, Option.bind_some]
    refine foldlM_plusEq _ (fun k a b => q.weights.getD k 0 *
      (detJ (q.points.getD k []) * (dot (β₁ (q.points.getD k [])) (g.pushGrad (q.points.getD k []) (fv.gradAt a (q.points.getD k [])))
      * ft.shape b (q.points.getD k []) + fv.shape a (q.points.getD k []) *
      dot (β₂ (q.points.getD k [])) (g.pushGrad (q.points.getD k []) (ft.gradAt b (q.points.getD k []))))))
      _ _ _ _ fun k hk f => ?_
    rw [get_self q.weights (ht.rule ▸ hk) 0]
    simp only [get_map _ _ hk [], Option.bind_some]
    rw [if_pos ⟨⟨ht.fit (getD_mem_list _ hk []), hv.fit (getD_mem_list _ hk [])⟩, ht'.col hk, hv'.col hk⟩, plusEq]
    simp only [ht.trf (getD_mem_list _ hk []), hv.trf (getD_mem_list _ hk []), Option.some.injEq, Dense.mk.injEq, true_and]
    funext a b
    simp only [RefFE.shape]
    ring
  · rw [dense_form q ht.rule _ _ fun a b x => detJ x * (dot (β₁ x) (g.pushGrad x (fv.gradAt a x)) * ft.shape b x +
      fv.shape a x * dot (β₂ x) (g.pushGrad x (ft.gradAt b x)))]
    refine integrate_congr q fun x _ => ?_
    rw [combGrad_push g ht.dim, combGrad_push g ht.dim, dot_eq, dot_eq, dotProduct_sum, dotProduct_sum, comb, comb, RefFE.combine,
      RefFE.combine, Finset.sum_mul_sum, Finset.sum_mul_sum, ← Finset.sum_add_distrib, Finset.mul_sum]
    refine Finset.sum_congr rfl fun a _ => ?_
    rw [← Finset.sum_add_distrib, Finset.mul_sum]
    refine Finset.sum_congr rfl fun b _ => ?_
    rw [dotProduct_smul, dotProduct_smul, dot_eq, dot_eq, smul_eq_mul, smul_eq_mul]
    ring

end

/-- **C91**, load: for all cells, elements, rules and source functions, the element vector is that of the quadrature
rule for the linear form `∫ f v`. -/
theorem C91_load (B : QuadBase ℝ) (V : ProductSpace ℝ) (T : Topo) (geo : Ent → Option (Geo ℝ w)) (j : ℕ) (e : Ent)
    {g : Geo ℝ w} {r : RefEl} {fv : RefFE ℝ} {q : QuadRule ℝ} {detJ : List ℝ → ℝ}
    (hr : r = .tria ∨ r = .quad) (hT : T.refEl e = some r) (hg : geo e = some g)
    (hfv : V.shapeFunctionLayout r j = some (some fv)) (hq : makeQuadRule B r (2 * fv.degree) = some q)
    (hd : g.kind.dimension = 2) (hv : Computable g fv q detJ)
    (f : MeshFn ℝ ℝ) (F : List ℝ → ℝ) (hF : f e q.points = some (q.points.map F)) (P : SubVec)
    (hP : loadProvider B V T geo j f = some P) :
    P.isActive e = true ∧ P.testComponent = j ∧
    ∃ l, P.eval e = some l ∧ l.length = fv.num ∧ ∀ v,
      dotList v l = q.integrate fun x => detJ x * (F x * comb fv v x) := by
  rw [loadProvider, Option.map_eq_some_iff] at hP
  obtain ⟨pre, hpre, rfl⟩ := hP
  have h1 := construct_get hpre hr
  unfold loadEntry at h1
  rw [hfv] at h1
  simp only [Option.bind_some] at h1
  rw [hq, Option.bind_some, Option.map_eq_some_iff] at h1
  obtain ⟨⟨b1, b2, b3, b4⟩, hb, h1⟩ := h1
  obtain ⟨c1, c2, c3, c4⟩ := make_precomp hb
  simp only at c1 c2 c3 c4
  subst c1 c2 c3 c4
  refine ⟨rfl, rfl, (List.range b1.num).map fun a => ∑ k ∈ range b2.numPoints, F (b2.points.getD k []) *
    (b2.weights.getD k 0 * detJ (b2.points.getD k [])) * b1.shape a (b2.points.getD k []), ?_, by simp, fun v => ?_⟩
  · change loadEval T geo pre f e = _
    unfold loadEval
    rw [hT, Option.bind_some, ← h1, Option.bind_some, hg, Option.bind_some, if_neg (not_not.mpr hd)]
    dsimp only
    rw [hv.dets, Option.bind_some, hF, Option.bind_some]
    refine foldlM_vec _ (fun k a => F (b2.points.getD k []) * (b2.weights.getD k 0 * detJ (b2.points.getD k [])) *
      b1.shape a (b2.points.getD k [])) _ _ fun k hk φ => ?_
    rw [get_self b2.weights (hv.rule ▸ hk) 0]
    simp only [get_map _ _ hk [], Option.bind_some]
    rw [if_pos (hv.col hk)]
    exact congrArg some (mapIdx_add _ _ _)
  · unfold dotList
    rw [List.length_map, List.length_range]
    simp only [comb, RefFE.combine, Finset.mul_sum]
    rw [integrate_sum, ← Fin.sum_univ_eq_sum_range (fun a => v.getD a 0 * ((List.range b1.num).map fun a =>
      ∑ k ∈ range b2.numPoints, F (b2.points.getD k []) * (b2.weights.getD k 0 * detJ (b2.points.getD k [])) *
      b1.shape a (b2.points.getD k [])).getD a 0)]
    refine Finset.sum_congr rfl fun a _ => ?_
    rw [integrate_eq_sum _ hv.rule]
    simp only [List.getD_eq_getElem?_getD, List.getElem?_map, List.getElem?_range a.2, Option.map_some, Option.getD_some]
    rw [Finset.mul_sum]
    refine Finset.sum_congr rfl fun k _ => ?_
    ring

/-! ## Quadrature on sides -/

/-- **C91**, trace: for all cells, elements, rules and coefficients, the element matrix of the form `∫ u v β · n` over
the boundary of the cell is that of the quadrature rule on all sides, where `n` is the normal computed by
`OuterNormals` and `detS s` is the metric factor of side `s`. -/
theorem C91_trace (B : QuadBase ℝ) (U V : ProductSpace ℝ) (T : Topo) (geo : Ent → Option (Geo ℝ 2)) (i j : ℕ) (e : Ent)
    {g : Geo ℝ 2} {r : RefEl} {ft fv : RefFE ℝ} {q : QuadRule ℝ}
    (hr : r = .tria ∨ r = .quad) (hT : T.refEl e = some r) (hg : geo e = some g) (hd : g.kind.dimension = 2)
    (hft : U.shapeFunctionLayout r i = some (some ft)) (hfv : V.shapeFunctionLayout r j = some (some fv))
    (hq : makeQuadRule B .segment (ft.degree + fv.degree) = some q) (hqr : q.ref = .segment) (hqw : q.WellFormed)
    (et : ft.Evaluates) (ev : fv.Evaluates) (ht : ft.ref = r) (hv : fv.ref = r)
    {ns : List (Vec ℝ 2)} (hn : outerNormals g = some ns) (hnl : ns.length = r.numNodes) {detS : ℕ → List ℝ → ℝ}
    (hs : ∀ s < r.numNodes, ∃ side, g.sub 1 s = some side ∧ ∀ t ∈ q.points, side.integrationElement t = some (detS s t))
    (beta : MeshFn ℝ (Vec ℝ 2)) (β : List ℝ → Vec ℝ 2) (hβ : ∀ pts, beta e pts = some (pts.map β)) (P : SubMat)
    (hP : traceProvider B U V T geo i j beta = some P) :
    P.isActive e = true ∧ P.trialComponent = i ∧ P.testComponent = j ∧
    ∃ M, P.eval e = some M ∧ M.rows = fv.num ∧ M.cols = ft.num ∧ ∀ v u,
      M.form v u = ∑ s ∈ range r.numNodes, q.integrate fun t => detS s t *
        dot (ns.getD s 0) (β (sideAt r s t)) * (comb fv v (sideAt r s t) * comb ft u (sideAt r s t)) := by
  have hr2 : r.dimension = 2 := by rcases hr with rfl | rfl <;> rfl
  have hnum : r.numSubEntities 1 = some r.numNodes := by rcases hr with rfl | rfl <;> rfl
  have hpos : 0 < r.numNodes := by rcases hr with rfl | rfl <;> decide
  rw [traceProvider, Option.map_eq_some_iff] at hP
  obtain ⟨pre, hpre, rfl⟩ := hP
  have h1 := construct_get hpre hr
  unfold traceEntry at h1
  rw [hft, hfv] at h1
  simp only [Option.bind_some] at h1
  rw [hq, Option.bind_some, Option.bind_eq_some_iff] at h1
  obtain ⟨qs, hqs, h1⟩ := h1
  obtain ⟨l1, l2⟩ := boundary_points hr hqr hqw hqs
  rw [if_pos (by rw [l1, hnum]), Option.map_eq_some_iff] at h1
  obtain ⟨ps, hps, h1⟩ := h1
  have hf2 := mapM_forall₂ _ _ _ hps
  -- the precomputed values on the sides
  have hside : ∀ s < r.numNodes, ∃ p, ps[s]? = some p ∧ p.1.fe = ft ∧ p.2.fe = fv ∧ p.1.qr.points = q.points.map (sideAt r s) ∧
      p.1.rsf = (q.points.map (sideAt r s)).map (fun x => (ft.eval x).getD []) ∧
      p.2.rsf = (q.points.map (sideAt r s)).map fun x => (fv.eval x).getD [] := by
    intro s hs
    obtain ⟨q', k1, -, k2⟩ := l2 s hs
    obtain ⟨p, p1, p2⟩ := forall₂_get hf2 k1
    rw [Option.bind_eq_some_iff] at p2
    obtain ⟨a, ha, p2⟩ := p2
    rw [Option.map_eq_some_iff] at p2
    obtain ⟨b, hb, rfl⟩ := p2
    obtain ⟨a1, a2, a3, -⟩ := make_precomp ha
    obtain ⟨b1, b2, b3, -⟩ := make_precomp hb
    exact ⟨_, p1, a1, b1, by rw [a2, k2], by rw [a3, k2], by rw [b3, k2]⟩
  have hpl : ps.length = r.numNodes := by rw [← l1, hf2.length_eq]
  refine ⟨rfl, rfl, rfl, ⟨fv.num, ft.num, fun a b => 0 + ∑ s ∈ range r.numNodes, ∑ k ∈ range q.numPoints, q.weights.getD k 0 *
    (detS s (q.points.getD k []) * dot (ns.getD s 0) (β (sideAt r s (q.points.getD k []))) *
      (fv.shape a (sideAt r s (q.points.getD k [])) * ft.shape b (sideAt r s (q.points.getD k []))))⟩, ?_, rfl, rfl,
      fun v u => ?_⟩
  · change traceEval T geo pre beta e = _
    unfold traceEval
    obtain ⟨p0, z1, z2, z3, z4, -, -⟩ := hside 0 hpos
    rw [hT, Option.bind_some, ← h1, Option.bind_some, hnum, Option.bind_some, if_pos hpl, z1, Option.bind_some,
      if_pos (by simp [QuadRule.numPoints, z4]), hg, Option.bind_some, if_neg (not_not.mpr hd), hn, Option.bind_some, if_pos hnl, z2, z3]
    refine foldlM_plusEq _ (fun s a b => ∑ k ∈ range q.numPoints, q.weights.getD k 0 *
      (detS s (q.points.getD k []) * dot (ns.getD s 0) (β (sideAt r s (q.points.getD k []))) *
      (fv.shape a (sideAt r s (q.points.getD k [])) * ft.shape b (sideAt r s (q.points.getD k [])))))
      _ _ _ _ fun s hsn f => ?_
    obtain ⟨side, s1, s2⟩ := hs s hsn
    obtain ⟨p, y1, y2, y3, y4, y5, y6⟩ := hside s hsn
    unfold traceSide
    rw [s1, Option.bind_some, y1, Option.bind_some, mapM_eq_map _ _ _ s2, Option.bind_some,
      if_pos (by simp [QuadRule.numPoints, y4]), hβ, Option.bind_some]
    have hnp : p.1.qr.numPoints = q.numPoints := by simp [QuadRule.numPoints, y4]
    rw [hnp]
    refine foldlM_plusEq _ (fun k a b => q.weights.getD k 0 *
      (detS s (q.points.getD k []) * dot (ns.getD s 0) (β (sideAt r s (q.points.getD k []))) *
      (fv.shape a (sideAt r s (q.points.getD k [])) * ft.shape b (sideAt r s (q.points.getD k [])))))
      _ _ _ _ fun k hk f => ?_
    have hk : k < q.points.length := hk
    have hk' : k < (q.points.map (sideAt r s)).length := by simpa using hk
    rw [get_self q.weights (hqw.2 ▸ hk) 0, y4, y5, y6, get_self ns (hnl ▸ hsn) 0]
    simp only [get_map _ _ hk [], get_map _ _ hk' [], Option.bind_some, getD_sideAt hk, y2, y3]
    have e2 : ∀ fe : RefFE ℝ, fe.Evaluates → fe.ref = r →
        ((fe.eval (sideAt r s (q.points.getD k []))).getD []).length = fe.num := by
      intro fe hfe href
      obtain ⟨v, hv1, hv2⟩ := hfe.1 (sideAt r s (q.points.getD k [])) (by rw [sideAt_length hr hsn, href, hr2])
      rw [hv1]; exact hv2
    rw [if_pos ⟨⟨e2 ft et ht, e2 fv ev hv⟩, trivial, trivial⟩, plusEq]
    simp only [Option.some.injEq, Dense.mk.injEq, true_and]
    funext a b
    simp only [RefFE.shape]
    ring
  · rw [form_sum fv.num ft.num r.numNodes (fun s a b => ∑ k ∈ range q.numPoints, q.weights.getD k 0 *
      (detS s (q.points.getD k []) * dot (ns.getD s 0) (β (sideAt r s (q.points.getD k []))) *
      (fv.shape a (sideAt r s (q.points.getD k [])) * ft.shape b (sideAt r s (q.points.getD k [])))))]
    refine Finset.sum_congr rfl fun s _ => ?_
    rw [dense_form q hqw.2 _ _ fun a b t => detS s t * dot (ns.getD s 0) (β (sideAt r s t)) *
      (fv.shape a (sideAt r s t) * ft.shape b (sideAt r s t))]
    exact integrate_congr q fun x _ => comb_mul fv ft v u _ _ _

/-- **C91**, flux: for all meshes, cells, elements, rules and coefficients, the element matrix of the form
`∫ α q v σ` over the boundary of the cell, where `q` is the flux on the side and `σ` is the sign of the cell at the side,
is that of the quadrature rule on all sides. -/
theorem C91_flux (B : QuadBase ℝ) (U V : ProductSpace ℝ) (m : MeshObj) (hT : m.topo.WF) (hN : m.topo.numCells ≤ 2 ^ 31)
    (geo : Ent → Option (Geo ℝ w)) (i j c : ℕ) (hc : c < m.topo.numCells)
    {g : Geo ℝ w} {r : RefEl} {ft fv : RefFE ℝ} {q : QuadRule ℝ}
    (hr : m.topo.refEl (0, c) = some r) (hg : geo (0, c) = some g) (hd : g.kind.dimension = 2)
    (hft : U.shapeFunctionLayout .segment i = some (some ft)) (hfv : V.shapeFunctionLayout r j = some (some fv))
    (hq : makeQuadRule B .segment (ft.degree + fv.degree) = some q) (hqr : q.ref = .segment) (hqw : q.WellFormed)
    (et : ft.Evaluates) (ev : fv.Evaluates) (ht : ft.ref = .segment) (hv : fv.ref = r) {detS : ℕ → List ℝ → ℝ}
    (hs : ∀ s < r.numNodes, ∃ side, g.sub 1 s = some side ∧ ∀ t ∈ q.points, side.integrationElement t = some (detS s t))
    (alpha : MeshFn ℝ ℝ) (α : List ℝ → ℝ) (hα : ∀ pts, alpha (0, c) pts = some (pts.map α)) (P : SubMat)
    (hP : fluxProvider B U V geo m i j alpha = some P) :
    P.isActive (0, c) = true ∧ P.trialComponent = i ∧ P.testComponent = j ∧
    ∃ M, P.eval (0, c) = some M ∧ M.rows = fv.num ∧ M.cols = ft.num * r.numNodes ∧ ∀ v u,
      M.form v u = ∑ s ∈ range r.numNodes, q.integrate fun t => detS s t * α (sideAt r s t) *
        edgeSign m.topo c ((m.topo.cell c).edges.getD s 0) * (comb fv v (sideAt r s t) * comb ft (sidePart ft.num u s) t) := by
  obtain ⟨hr', hlen⟩ : (r = .tria ∨ r = .quad) ∧ (m.topo.cell c).nodes.length = r.numNodes := by
    unfold Topo.refEl at hr
    rw [if_pos (show (0, c).2 < m.topo.num (0, c).1 from hc)] at hr
    simp only [OfNat.zero_ne_ofNat, if_false, zero_ne_one] at hr
    split_ifs at hr with h3 h4
    · cases hr; exact ⟨.inl rfl, h3⟩
    · cases hr; exact ⟨.inr rfl, h4⟩
  have hr2 : r.dimension = 2 := by rcases hr' with rfl | rfl <;> rfl
  have hnum : r.numSubEntities 1 = some r.numNodes := by rcases hr' with rfl | rfl <;> rfl
  have hpos : 0 < r.numNodes := by rcases hr' with rfl | rfl <;> decide
  have hel : (m.topo.cell c).edges.length = r.numNodes := (hT.cell_edges_len c hc).trans hlen
  obtain ⟨d, hd1, hd2⟩ := C85_sign m hT hN
  rw [fluxProvider, hd1, Option.bind_some, hft, Option.bind_some, Option.bind_some] at hP
  split_ifs at hP with hcod
  rw [Option.map_eq_some_iff] at hP
  obtain ⟨pre, hpre, rfl⟩ := hP
  have h1 := construct_get hpre hr'
  unfold fluxEntry at h1
  rw [hfv] at h1
  simp only [Option.bind_some] at h1
  rw [hq, Option.bind_some, Option.bind_eq_some_iff] at h1
  obtain ⟨pt, hpt, h1⟩ := h1
  rw [Option.bind_eq_some_iff] at h1
  obtain ⟨qs, hqs, h1⟩ := h1
  obtain ⟨l1, l2⟩ := boundary_points hr' hqr hqw hqs
  rw [if_pos (by rw [l1, hnum]), Option.map_eq_some_iff] at h1
  obtain ⟨ps, hps, h1⟩ := h1
  obtain ⟨t1, t2, t3, -⟩ := make_precomp hpt
  have hf2 := mapM_forall₂ _ _ _ hps
  have hside : ∀ s < r.numNodes, ∃ p, ps[s]? = some p ∧ p.fe = fv ∧ p.qr.points = q.points.map (sideAt r s) ∧
      p.rsf = (q.points.map (sideAt r s)).map fun x => (fv.eval x).getD [] := by
    intro s hs
    obtain ⟨q', k1, -, k2⟩ := l2 s hs
    obtain ⟨p, p1, p2⟩ := forall₂_get hf2 k1
    obtain ⟨b1, b2, b3, -⟩ := make_precomp p2
    exact ⟨_, p1, b1, by rw [b2, k2], by rw [b3, k2]⟩
  have hpl : ps.length = r.numNodes := by rw [← l1, hf2.length_eq]
  -- the signs
  have hsgn : ∀ s < r.numNodes, prescribedSign d ⟨m.id, (0, c)⟩ ⟨m.id, (1, (m.topo.cell c).edges.getD s 0)⟩ =
      some (edgeSign m.topo c ((m.topo.cell c).edges.getD s 0)) := by
    intro s hs
    have hmem : (m.topo.cell c).edges.getD s 0 ∈ (m.topo.cell c).edges := getD_mem_list _ (hel ▸ hs) 0
    obtain ⟨σ, h1, h2⟩ := hd2 c hc _ hmem
    rw [h1]
    unfold edgeSign
    rcases h2 with ⟨rfl, h⟩ | ⟨rfl, h⟩
    · rw [if_neg]
      rintro ⟨c', a1, a2, a3⟩
      have := h c' a1 a2
      omega
    · rw [if_pos h]
  set E : ℕ → ℕ → ℕ → ℕ → ℝ := fun s k a b => q.weights.getD k 0 *
    (detS s (q.points.getD k []) * α (sideAt r s (q.points.getD k [])) *
      edgeSign m.topo c ((m.topo.cell c).edges.getD s 0) *
      (fv.shape a (sideAt r s (q.points.getD k [])) * ft.shape b (q.points.getD k []))) with hE
  refine ⟨rfl, rfl, rfl, ⟨fv.num, ft.num * r.numNodes, fun a b => 0 + ∑ s ∈ range r.numNodes, ∑ k ∈ range q.numPoints,
    if (0 ≤ a ∧ a < 0 + fv.num) ∧ s * ft.num ≤ b ∧ b < s * ft.num + ft.num then E s k a (b - s * ft.num) else 0⟩, ?_, rfl, rfl,
      fun v u => ?_⟩
  · change fluxEval geo m pre d alpha (0, c) = _
    unfold fluxEval
    obtain ⟨p0, z1, z2, z3, -⟩ := hside 0 hpos
    rw [hr, Option.bind_some, ← h1, Option.bind_some, hnum, Option.bind_some, if_pos hpl, if_pos, hg, Option.bind_some,
      if_neg (not_not.mpr hd), z1, Option.bind_some, z2]
    · rw [t1]
      refine foldlM_plusEq _ (fun s a b => ∑ k ∈ range q.numPoints,
        if (0 ≤ a ∧ a < 0 + fv.num) ∧ s * ft.num ≤ b ∧ b < s * ft.num + ft.num then E s k a (b - s * ft.num) else 0)
        _ _ _ _ fun s hsn f => ?_
      obtain ⟨side, s1, s2⟩ := hs s hsn
      obtain ⟨p, y1, y2, y3, y4⟩ := hside s hsn
      have hsub : m.topo.subEntities (0, c) 1 = some ((m.topo.cell c).edges.map fun i => (1, i)) := by
        simp [Topo.subEntities]
      unfold fluxSide
      rw [s1, Option.bind_some]
      dsimp only
      rw [t2, mapM_eq_map _ _ _ s2, Option.bind_some, y1, Option.bind_some, y3, hα, Option.bind_some, hsub, Option.bind_some,
        get_map _ _ (hel ▸ hsn) 0, Option.bind_some, hsgn s hsn, Option.bind_some]
      refine foldlM_plusEq _ (fun k a b =>
        if (0 ≤ a ∧ a < 0 + fv.num) ∧ s * ft.num ≤ b ∧ b < s * ft.num + ft.num then E s k a (b - s * ft.num) else 0)
        _ _ _ _ fun k hk f => ?_
      have hk : k < q.points.length := hk
      have hk' : k < (q.points.map (sideAt r s)).length := by simpa using hk
      rw [get_self q.weights (hqw.2 ▸ hk) 0, t3, y4, t1, y2]
      simp only [get_map _ _ hk [], get_map _ _ hk' [], Option.bind_some, getD_sideAt hk]
      have e1 : ((ft.eval (q.points.getD k [])).getD []).length = ft.num := by
        obtain ⟨v, hv1, hv2⟩ := et.1 (q.points.getD k []) (by
          rw [hqw.1 _ (getD_mem_list _ hk []), hqr, ht])
        rw [hv1]; exact hv2
      have e2 : ((fv.eval (sideAt r s (q.points.getD k []))).getD []).length = fv.num := by
        obtain ⟨v, hv1, hv2⟩ := ev.1 (sideAt r s (q.points.getD k [])) (by rw [sideAt_length hr' hsn, hv, hr2])
        rw [hv1]; exact hv2
      rw [if_pos ⟨e1, e2⟩, addBlock]
      dsimp only
      rw [if_pos]
      · simp only [Option.some.injEq, Dense.mk.injEq, true_and]
        funext a b
        by_cases hab : (0 ≤ a ∧ a < 0 + fv.num) ∧ s * ft.num ≤ b ∧ b < s * ft.num + ft.num
        · rw [if_pos hab, if_pos hab, hE]
          simp only [RefFE.shape, Nat.sub_zero]
          ring
        · rw [if_neg hab, if_neg hab, add_zero]
      · refine ⟨by omega, ?_⟩
        calc s * ft.num + ft.num = ft.num * (s + 1) := by ring
          _ ≤ ft.num * r.numNodes := Nat.mul_le_mul_left _ hsn
    · dsimp only
      rw [List.all_eq_true]
      intro p hp
      obtain ⟨s, hsl, rfl⟩ := List.getElem_of_mem hp
      obtain ⟨p', y1, -, y3, -⟩ := hside s (hpl ▸ hsl)
      rw [List.getElem?_eq_getElem hsl] at y1
      cases y1
      simp [QuadRule.numPoints, y3, t2]
  · rw [form_sum fv.num (ft.num * r.numNodes) r.numNodes (fun s a b => ∑ k ∈ range q.numPoints,
      if (0 ≤ a ∧ a < 0 + fv.num) ∧ s * ft.num ≤ b ∧ b < s * ft.num + ft.num then E s k a (b - s * ft.num) else 0)]
    refine Finset.sum_congr rfl fun s hsr => ?_
    have hsum : ∀ a b, (∑ k ∈ range q.numPoints,
        if (0 ≤ a ∧ a < 0 + fv.num) ∧ s * ft.num ≤ b ∧ b < s * ft.num + ft.num then E s k a (b - s * ft.num) else 0) =
        if (0 ≤ a ∧ a < 0 + fv.num) ∧ s * ft.num ≤ b ∧ b < s * ft.num + ft.num then
          (fun a b => ∑ k ∈ range q.numPoints, E s k a b) a (b - s * ft.num) else 0 := by
      intro a b
      split_ifs <;> simp
    simp only [hsum]
    rw [form_block _ _ _ _ (Finset.mem_range.1 hsr) fun a b => ∑ k ∈ range q.numPoints, E s k a b, hE]
    rw [dense_form q hqw.2 _ _ fun a b t => detS s t * α (sideAt r s t) *
      edgeSign m.topo c ((m.topo.cell c).edges.getD s 0) * (fv.shape a (sideAt r s t) * ft.shape b t)]
    exact integrate_congr q fun x _ => comb_mul fv ft v _ _ _ _

end Verif
