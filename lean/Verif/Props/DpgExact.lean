import Verif.Lemmas.DpgExact
import Verif.Props.Gauss
import Verif.Props.DpgSpace

/-!
# C91: exactness of the element matrices and vectors of the DPG method
-/

namespace Verif
open Geo Finset Dpg

/-- **C91**, elements: for all kinds of components and all degrees, the finite elements added by the factory consist of
polynomials of this degree, with correct gradients. -/
theorem C91_elements (k : Kind) (p : ℕ) (c : CompSpec ℝ) (h : compSpec k p = some c) :
    (∀ fe, c.tria = some fe → Regular fe .tria p) ∧ (∀ fe, c.quad = some fe → Regular fe .quad p) ∧
    (∀ fe, c.edge = some fe → Regular fe .segment p) ∧ c.point = none := by
  have hT := regular_reference .tria (by decide) p
  have hQ := regular_reference .quad (by decide) p
  have hS := regular_reference .segment (by decide) p
  cases k with
  | h1 =>
    simp only [compSpec] at h
    split_ifs at h
    simp only [Option.bind_eq_some_iff, Option.some.injEq] at h
    obtain ⟨t, ht, q, hq, s, hs, rfl⟩ := h
    exact ⟨fun fe hf => Option.some.inj hf ▸ hT t ht, fun fe hf => Option.some.inj hf ▸ hQ q hq,
      fun fe hf => Option.some.inj hf ▸ hS s hs, rfl⟩
  | l2 =>
    simp only [compSpec, Option.bind_eq_some_iff, Option.some.injEq] at h
    obtain ⟨t, ht, q, hq, rfl⟩ := h
    exact ⟨fun fe hf => Option.some.inj hf ▸ regular_disc (hT t ht), fun fe hf => Option.some.inj hf ▸ regular_disc (hQ q hq),
      fun fe hf => (Option.some_ne_none _ hf.symm).elim, rfl⟩
  | flux =>
    simp only [compSpec, Option.bind_eq_some_iff, Option.some.injEq] at h
    obtain ⟨s, hs, rfl⟩ := h
    exact ⟨fun fe hf => (Option.some_ne_none _ hf.symm).elim, fun fe hf => (Option.some_ne_none _ hf.symm).elim,
      fun fe hf => Option.some.inj hf ▸ regular_disc (hS s hs), rfl⟩
  | trace =>
    simp only [compSpec, Option.bind_eq_some_iff, Option.some.injEq] at h
    obtain ⟨t, ⟨t', ht', ht⟩, q, ⟨q', hq', hq⟩, s, hs, rfl⟩ := h
    exact ⟨fun fe hf => Option.some.inj hf ▸ regular_trace (hT t' ht') ht,
      fun fe hf => Option.some.inj hf ▸ regular_trace (hQ q' hq') hq,
      fun fe hf => Option.some.inj hf ▸ hS s hs, rfl⟩

/-- **C91**, constructors: for all components added by the factory and all coefficients, the providers can be constructed;
`FluxElementMatrixProvider` if and only if the trial component is a flux.  Hypothesis: Newton's iterations for the
quadrature rules have converged. -/
theorem C91_construct {w : ℕ} (leg jac : ℕ → ℕ → ℝ) (hl : ∀ n, 0 < n → LegConverged n (leg n))
    (hj : ∀ n, 0 < n → JacConverged n 1 0 (jac n)) (U V : ProductSpace ℝ) (i j : ℕ) (kt kv : Kind) (pt pv : ℕ)
    (st : kt.supports pt) (sv : kv.supports pv) (ht : U.comps[i]? = compSpec kt pt) (hv : V.comps[j]? = compSpec kv pv)
    (m : MeshObj) (hT : m.topo.WF) (hN : m.topo.numCells ≤ 2 ^ 31) (geo : Ent → Option (Geo ℝ w)) (geo2 : Ent → Option (Geo ℝ 2))
    (alpha : MeshFn ℝ (DiffCoeff w)) (gamma f : MeshFn ℝ ℝ) (beta1 beta2 : MeshFn ℝ (Vec ℝ w)) (beta : MeshFn ℝ (Vec ℝ 2)) :
    (diffusionProvider (gaussBase leg jac) U V m.topo geo i j alpha).isSome ∧
    (reactionProvider (gaussBase leg jac) U V m.topo geo i j gamma).isSome ∧
    (convectionProvider (gaussBase leg jac) U V m.topo geo i j beta1 beta2).isSome ∧
    (traceProvider (gaussBase leg jac) U V m.topo geo2 i j beta).isSome ∧
    (loadProvider (gaussBase leg jac) V m.topo geo j f).isSome ∧
    ((fluxProvider (gaussBase leg jac) U V geo m i j gamma).isSome ↔ kt = .flux) := by
  have hB : ∀ r d, r ≠ .point → ∃ q, makeQuadRule (gaussBase leg jac) r d = some q ∧ q.ref = r ∧ q.WellFormed := by
    intro r d hr
    obtain ⟨q, h1, h2, h3, -⟩ := C76_make leg jac hl hj r hr d
    exact ⟨q, h1, h2, h3⟩
  obtain ⟨ct, hct, -⟩ := compSpec_layout (K := ℝ) kt pt st
  obtain ⟨cv, hcv, -⟩ := compSpec_layout (K := ℝ) kv pv sv
  obtain ⟨t1, t2, t3, -⟩ := C91_elements kt pt ct hct
  obtain ⟨v1, v2, -, -⟩ := C91_elements kv pv cv hcv
  rw [hct] at ht
  rw [hcv] at hv
  have lt : ∀ r, r = .tria ∨ r = .quad → ∃ o, U.shapeFunctionLayout r i = some o ∧ ∀ fe, o = some fe → Regular fe r pt := by
    rintro r (rfl | rfl) <;> rw [ProductSpace.shapeFunctionLayout, ht]
    · exact ⟨_, rfl, t1⟩
    · exact ⟨_, rfl, t2⟩
  have lv : ∀ r, r = .tria ∨ r = .quad → ∃ o, V.shapeFunctionLayout r j = some o ∧ ∀ fe, o = some fe → Regular fe r pv := by
    rintro r (rfl | rfl) <;> rw [ProductSpace.shapeFunctionLayout, hv]
    · exact ⟨_, rfl, v1⟩
    · exact ⟨_, rfl, v2⟩
  have hpair : (construct (cellPair (gaussBase leg jac) U V i j)).isSome := by
    refine construct_some fun r hr => ?_
    obtain ⟨o, h1, h2⟩ := lt r hr
    obtain ⟨o', h1', h2'⟩ := lv r hr
    unfold cellPair
    rw [h1, h1', Option.bind_some, Option.bind_some]
    match o, o', h2, h2' with
    | some ft, some fv, h2, h2' =>
      obtain ⟨q, hq, hqr, hqw⟩ := hB r (ft.degree + fv.degree) (by rcases hr with rfl | rfl <;> decide)
      obtain ⟨a, ha⟩ := precomp_some (h2 _ rfl) hqr hqw
      obtain ⟨b, hb⟩ := precomp_some (h2' _ rfl) hqr hqw
      exact ⟨_, by dsimp only; rw [hq, Option.bind_some, ha, Option.bind_some, hb]; rfl⟩
    | none, _, _, _ => exact ⟨none, rfl⟩
    | some _, none, _, _ => exact ⟨none, rfl⟩
  refine ⟨by simpa [diffusionProvider] using hpair, by simpa [reactionProvider] using hpair,
    by simpa [convectionProvider] using hpair, ?_, ?_, ?_⟩
  · have : (construct (traceEntry (gaussBase leg jac) U V i j)).isSome := by
      refine construct_some fun r hr => ?_
      obtain ⟨o, h1, h2⟩ := lt r hr
      obtain ⟨o', h1', h2'⟩ := lv r hr
      unfold traceEntry
      rw [h1, h1', Option.bind_some, Option.bind_some]
      match o, o', h2, h2' with
      | some ft, some fv, h2, h2' =>
        obtain ⟨q, hq, hqr, hqw⟩ := hB .segment (ft.degree + fv.degree) (by decide)
        obtain ⟨qs, k1, k2, k3⟩ := C86_boundary_rule r hr q hqr hqw
        obtain ⟨l, hl', -⟩ := mapM_of_forall (fun q => (PrecompFE.make ft q).bind fun a => (PrecompFE.make fv q).map fun b => (a, b))
          (fun _ _ => True) qs fun q' hq' => by
            obtain ⟨n, hn, rfl⟩ := List.getElem_of_mem hq'
            obtain ⟨w1, w2, -⟩ := k3 n _ (List.getElem?_eq_getElem hn)
            obtain ⟨a, ha⟩ := precomp_some (h2 _ rfl) w2 w1
            obtain ⟨b, hb⟩ := precomp_some (h2' _ rfl) w2 w1
            exact ⟨_, by rw [ha, Option.bind_some, hb]; rfl, trivial⟩
        refine ⟨some (q, l), ?_⟩
        dsimp only
        rw [hq, Option.bind_some, k1, Option.bind_some, if_pos (by rw [k2]; rcases hr with rfl | rfl <;> rfl), hl']
        rfl
      | none, _, _, _ => exact ⟨none, rfl⟩
      | some _, none, _, _ => exact ⟨none, rfl⟩
    simpa [traceProvider] using this
  · have : (construct (loadEntry (gaussBase leg jac) V j)).isSome := by
      refine construct_some fun r hr => ?_
      obtain ⟨o', h1', h2'⟩ := lv r hr
      unfold loadEntry
      rw [h1', Option.bind_some]
      match o', h2' with
      | some fv, h2' =>
        obtain ⟨q, hq, hqr, hqw⟩ := hB r (2 * fv.degree) (by rcases hr with rfl | rfl <;> decide)
        obtain ⟨b, hb⟩ := precomp_some (h2' _ rfl) hqr hqw
        exact ⟨_, by dsimp only; rw [hq, Option.bind_some, hb]; rfl⟩
      | none, _ => exact ⟨none, rfl⟩
    simpa [loadProvider] using this
  · obtain ⟨d, hd, -⟩ := C85_sign m hT hN
    have hseg : U.shapeFunctionLayout .segment i = some ct.edge := by rw [ProductSpace.shapeFunctionLayout, ht]; rfl
    have hcod : (∃ ft, ct.edge = some ft ∧ ft.numCodim 1 = some 0) ↔ kt = .flux := by
      cases kt with
      | h1 => obtain ⟨a, b⟩ := st; interval_cases pt <;> cases hct <;> simp [lagrO1Segment, lagrO2Segment, lagrO3Segment, RefFE.numCodim]
      | l2 => simp only [Kind.supports] at st; interval_cases pt <;> cases hct <;> simp
      | flux => simp only [Kind.supports] at st; interval_cases pt <;> cases hct <;> exact iff_of_true ⟨_, rfl, rfl⟩ rfl
      | trace => obtain ⟨a, b⟩ := st; interval_cases pt <;> cases hct <;> simp [lagrO1Segment, lagrO2Segment, lagrO3Segment, RefFE.numCodim]
    unfold fluxProvider
    rw [hd, Option.bind_some, hseg, Option.bind_some]
    constructor
    · intro h
      match hct' : ct.edge with
      | none => rw [hct'] at h; cases h
      | some ft =>
        rw [hct', Option.bind_some] at h
        by_cases h0 : ft.numCodim 1 = some 0
        · exact hcod.mp ⟨ft, hct', h0⟩
        · rw [if_neg h0] at h
          cases h
    · intro hk
      obtain ⟨ft, e1, e2⟩ := hcod.mpr hk
      rw [e1, Option.bind_some, if_pos e2, Option.isSome_map]
      refine construct_some fun r hr => ?_
      obtain ⟨o', h1', h2'⟩ := lv r hr
      unfold fluxEntry
      rw [h1', Option.bind_some]
      match o', h2' with
      | some fv, h2' =>
        obtain ⟨q, hq, hqr, hqw⟩ := hB .segment (ft.degree + fv.degree) (by decide)
        obtain ⟨a, ha⟩ := precomp_some (t3 _ e1) hqr hqw
        obtain ⟨qs, k1, k2, k3⟩ := C86_boundary_rule r hr q hqr hqw
        obtain ⟨l, hl', -⟩ := mapM_of_forall (PrecompFE.make fv) (fun _ _ => True) qs fun q' hq' => by
            obtain ⟨n, hn, rfl⟩ := List.getElem_of_mem hq'
            obtain ⟨w1, w2, -⟩ := k3 n _ (List.getElem?_eq_getElem hn)
            obtain ⟨b, hb⟩ := precomp_some (h2' _ rfl) w2 w1
            exact ⟨_, hb, trivial⟩
        refine ⟨some (a, l), ?_⟩
        dsimp only
        rw [hq, Option.bind_some, ha, Option.bind_some, k1, Option.bind_some,
          if_pos (by rw [k2]; rcases hr with rfl | rfl <;> rfl), hl']
        rfl
      | none, _ => exact ⟨none, rfl⟩

section
variable {w : ℕ} (B : QuadBase ℝ) (U V : ProductSpace ℝ) (T : Topo) (geo : Ent → Option (Geo ℝ w)) (i j : ℕ) (e : Ent)
  {g : Geo ℝ w} {r : RefEl} {ft fv : RefFE ℝ} {pt pv : ℕ} {q : QuadRule ℝ} {A₁ A₂ : Vec ℝ w}
  (hr : r = .tria ∨ r = .quad) (hT : T.refEl e = some r) (hg : geo e = some g) (hgk : g.kind = r)
  (hJ : g.ConstJacobian A₁ A₂)
  (hft : U.shapeFunctionLayout r i = some (some ft)) (hfv : V.shapeFunctionLayout r j = some (some fv))
  (ht : Regular ft r pt) (hv : Regular fv r pv)
  (hq : makeQuadRule B r (pt + pv) = some q) (hqr : q.ref = r) (hqw : q.WellFormed) (hqe : q.ExactFor (pt + pv))
include hr hT hg hgk hJ hft hfv ht hv hq hqr hqw hqe

/-- **C91**, reaction: on all affine cells, for all finite elements of polynomials and all constant coefficients, the
element matrix is exact if the quadrature rule has the degree asked for. -/
theorem C91_reaction_exact (gamma : MeshFn ℝ ℝ) (K : ℝ) (hγ : ∀ pts, gamma e pts = some (pts.map fun _ => K)) (P : SubMat)
    (hP : reactionProvider B U V T geo i j gamma = some P) :
    ∃ M t, P.eval e = some M ∧ M.rows = fv.num ∧ M.cols = ft.num ∧
      0 ≤ t ∧ t ^ 2 = ((matrix 2 [A₁, A₂]).transpose * matrix 2 [A₁, A₂]).det ∧
      ∀ v u, M.form v u = refIntegral r fun x => t * K * (comb fv v x * comb ft u x) := by
  have kt : ft.ref = .tria ∨ ft.ref = .quad := ht.ref.symm ▸ hr
  have kv : fv.ref = .tria ∨ fv.ref = .quad := hv.ref.symm ▸ hr
  obtain ⟨t, h0, h2, hm⟩ := constMetric kt hJ (hgk.trans ht.ref.symm) (hqr.trans ht.ref.symm) hqw
  obtain ⟨-, -, -, M, hM, e1, e2, hform⟩ := C91_reaction B U V T geo i j e hr hT hg hft hfv
    (by rw [ht.degree, hv.degree]; exact hq) (by rw [hgk]; rcases hr with rfl | rfl <;> rfl)
    (affine_computable kt hJ (hgk.trans ht.ref.symm) (hqr.trans ht.ref.symm) hqw ht.evaluates hm)
    (affine_computable kv hJ (hgk.trans hv.ref.symm) (hqr.trans hv.ref.symm) hqw hv.evaluates hm)
    gamma (fun _ => K) (hγ _) P hP
  refine ⟨M, t, hM, e1, e2, h0, h2, fun v u => ?_⟩
  rw [hform, hqe _ ?_, hqr]
  rw [hqr]
  exact IsPolyOn.smul hr _ (IsPolyOn.mul hr (comb_poly hr hv v) (comb_poly hr ht u) (by omega))

/-- **C91**, diffusion: likewise, on cells which are not degenerate. -/
theorem C91_diffusion_exact (hrk : ((matrix 2 [A₁, A₂]).transpose * matrix 2 [A₁, A₂]).det ≠ 0)
    (alpha : MeshFn ℝ (DiffCoeff w)) (a : DiffCoeff w) (hα : ∀ pts, alpha e pts = some (pts.map fun _ => a)) (P : SubMat)
    (hP : diffusionProvider B U V T geo i j alpha = some P) :
    ∃ M t, P.eval e = some M ∧ M.rows = fv.num ∧ M.cols = ft.num ∧
      0 ≤ t ∧ t ^ 2 = ((matrix 2 [A₁, A₂]).transpose * matrix 2 [A₁, A₂]).det ∧
      ∀ v u, M.form v u = refIntegral r fun x => t *
        dot (g.pushGrad x (combGrad fv v x)) (a.toMatrix.mulVec (g.pushGrad x (combGrad ft u x))) := by
  have kt : ft.ref = .tria ∨ ft.ref = .quad := ht.ref.symm ▸ hr
  have kv : fv.ref = .tria ∨ fv.ref = .quad := hv.ref.symm ▸ hr
  obtain ⟨t, h0, h2, hm⟩ := constMetric kt hJ (hgk.trans ht.ref.symm) (hqr.trans ht.ref.symm) hqw
  obtain ⟨-, -, -, M, hM, e1, e2, hform⟩ := C91_diffusion B U V T geo i j e hr hT hg hft hfv
    (by rw [ht.degree, hv.degree]; exact hq)
    (affine_computableGrad kt hJ (hgk.trans ht.ref.symm) (hqr.trans ht.ref.symm) hqw ht.gradCorrect hm hrk)
    (affine_computableGrad kv hJ (hgk.trans hv.ref.symm) (hqr.trans hv.ref.symm) hqw hv.gradCorrect hm hrk)
    alpha (fun _ => a) (hα _) P hP
  refine ⟨M, t, hM, e1, e2, h0, h2, fun v u => ?_⟩
  rw [hform, hqe _ ?_, hqr]
  rw [hqr]
  exact IsPolyOn.smul hr _ (push_poly2 hgk hr hJ hv ht v u _)

/-- **C91**, convection: likewise. -/
theorem C91_convection_exact (hrk : ((matrix 2 [A₁, A₂]).transpose * matrix 2 [A₁, A₂]).det ≠ 0)
    (beta1 beta2 : MeshFn ℝ (Vec ℝ w)) (b₁ b₂ : Vec ℝ w) (h1 : ∀ pts, beta1 e pts = some (pts.map fun _ => b₁))
    (h2 : ∀ pts, beta2 e pts = some (pts.map fun _ => b₂)) (P : SubMat)
    (hP : convectionProvider B U V T geo i j beta1 beta2 = some P) :
    ∃ M t, P.eval e = some M ∧ M.rows = fv.num ∧ M.cols = ft.num ∧
      0 ≤ t ∧ t ^ 2 = ((matrix 2 [A₁, A₂]).transpose * matrix 2 [A₁, A₂]).det ∧
      ∀ v u, M.form v u = refIntegral r fun x => t * (dot b₁ (g.pushGrad x (combGrad fv v x)) * comb ft u x +
        comb fv v x * dot b₂ (g.pushGrad x (combGrad ft u x))) := by
  have kt : ft.ref = .tria ∨ ft.ref = .quad := ht.ref.symm ▸ hr
  have kv : fv.ref = .tria ∨ fv.ref = .quad := hv.ref.symm ▸ hr
  obtain ⟨t, h0, h2', hm⟩ := constMetric kt hJ (hgk.trans ht.ref.symm) (hqr.trans ht.ref.symm) hqw
  obtain ⟨-, -, -, M, hM, e1, e2, hform⟩ := C91_convection B U V T geo i j e hr hT hg hft hfv
    (by rw [ht.degree, hv.degree]; exact hq)
    (affine_computableGrad kt hJ (hgk.trans ht.ref.symm) (hqr.trans ht.ref.symm) hqw ht.gradCorrect hm hrk)
    (affine_computableGrad kv hJ (hgk.trans hv.ref.symm) (hqr.trans hv.ref.symm) hqw hv.gradCorrect hm hrk)
    (affine_computable kt hJ (hgk.trans ht.ref.symm) (hqr.trans ht.ref.symm) hqw ht.evaluates hm)
    (affine_computable kv hJ (hgk.trans hv.ref.symm) (hqr.trans hv.ref.symm) hqw hv.evaluates hm)
    beta1 beta2 (fun _ => b₁) (fun _ => b₂) (h1 _) (h2 _) P hP
  refine ⟨M, t, hM, e1, e2, h0, h2', fun v u => ?_⟩
  rw [hform, hqe _ ?_, hqr]
  rw [hqr]
  exact IsPolyOn.smul hr _ (IsPolyOn.add hr (IsPolyOn.mul hr (push_poly hgk hr hJ hv v b₁) (comb_poly hr ht u) (by omega))
    (IsPolyOn.mul hr (comb_poly hr hv v) (push_poly hgk hr hJ ht u b₂) (by omega)))

end

/-- **C91**, load: on all affine cells the element vector is exact if the source function is, in local coordinates, a
polynomial of the degree of the finite element. -/
theorem C91_load_exact {w : ℕ} (B : QuadBase ℝ) (V : ProductSpace ℝ) (T : Topo) (geo : Ent → Option (Geo ℝ w)) (j : ℕ) (e : Ent)
    {g : Geo ℝ w} {r : RefEl} {fv : RefFE ℝ} {pv : ℕ} {q : QuadRule ℝ} {A₁ A₂ : Vec ℝ w}
    (hr : r = .tria ∨ r = .quad) (hT : T.refEl e = some r) (hg : geo e = some g) (hgk : g.kind = r)
    (hJ : g.ConstJacobian A₁ A₂) (hfv : V.shapeFunctionLayout r j = some (some fv)) (hv : Regular fv r pv)
    (hq : makeQuadRule B r (2 * pv) = some q) (hqr : q.ref = r) (hqw : q.WellFormed) (hqe : q.ExactFor (2 * pv))
    (f : MeshFn ℝ ℝ) (F : List ℝ → ℝ) (hf : ∀ pts, f e pts = some (pts.map F)) (hF : IsPolyOn r pv F) (P : SubVec)
    (hP : loadProvider B V T geo j f = some P) :
    ∃ l t, P.eval e = some l ∧ l.length = fv.num ∧
      0 ≤ t ∧ t ^ 2 = ((matrix 2 [A₁, A₂]).transpose * matrix 2 [A₁, A₂]).det ∧
      ∀ v, dotList v l = refIntegral r fun x => t * (F x * comb fv v x) := by
  have kv : fv.ref = .tria ∨ fv.ref = .quad := hv.ref.symm ▸ hr
  obtain ⟨t, h0, h2, hm⟩ := constMetric kv hJ (hgk.trans hv.ref.symm) (hqr.trans hv.ref.symm) hqw
  obtain ⟨-, -, l, hl, e1, hform⟩ := C91_load B V T geo j e hr hT hg hfv (by rw [hv.degree]; exact hq)
    (by rw [hgk]; rcases hr with rfl | rfl <;> rfl)
    (affine_computable kv hJ (hgk.trans hv.ref.symm) (hqr.trans hv.ref.symm) hqw hv.evaluates hm) f F (hf _) P hP
  refine ⟨l, t, hl, e1, h0, h2, fun v => ?_⟩
  rw [hform, hqe _ ?_, hqr]
  rw [hqr]
  exact IsPolyOn.smul hr _ (IsPolyOn.mul hr hF (comb_poly hr hv v) (by omega))

/-- **C91**, trace: on all strictly convex cells with straight sides, for all finite elements of polynomials and all
constant velocities, the element matrix is exact if the quadrature rule on the segment has the degree asked for: it
is the sum over all sides of the integrals of `u v β · n` with the outer unit normal `n`. -/
theorem C91_trace_exact (B : QuadBase ℝ) (U V : ProductSpace ℝ) (T : Topo) (geo : Ent → Option (Geo ℝ 2)) (i j : ℕ) (e : Ent)
    {g : Geo ℝ 2} {r : RefEl} {ft fv : RefFE ℝ} {pt pv : ℕ} {q : QuadRule ℝ}
    (hr : r = .tria ∨ r = .quad) (hT : T.refEl e = some r) (hg : geo e = some g) (hgk : g.kind = r) (hgc : g.StrictlyConvex)
    (hft : U.shapeFunctionLayout r i = some (some ft)) (hfv : V.shapeFunctionLayout r j = some (some fv))
    (ht : Regular ft r pt) (hv : Regular fv r pv)
    (hq : makeQuadRule B .segment (pt + pv) = some q) (hqr : q.ref = .segment) (hqw : q.WellFormed) (hqe : q.ExactFor (pt + pv))
    (beta : MeshFn ℝ (Vec ℝ 2)) (b : Vec ℝ 2) (hβ : ∀ pts, beta e pts = some (pts.map fun _ => b)) (P : SubMat)
    (hP : traceProvider B U V T geo i j beta = some P) :
    ∃ (M : Dense ℝ) (n : ℕ → Vec ℝ 2) (len : ℕ → ℝ), P.eval e = some M ∧ M.rows = fv.num ∧ M.cols = ft.num ∧
      (∀ s < r.numNodes, g.IsOuterNormal s (n s) ∧ ∃ p₀ p₁, g.global (sidePoint r s 0) = some p₀ ∧
        g.global (sidePoint r s 1) = some p₁ ∧ 0 ≤ len s ∧ len s ^ 2 = dot (p₁ - p₀) (p₁ - p₀)) ∧
      ∀ v u, M.form v u = ∑ s ∈ range r.numNodes, len s * dot (n s) b *
        ∫ t in (0 : ℝ)..1, comb fv v (sidePoint r s t) * comb ft u (sidePoint r s t) := by
  subst hgk
  obtain ⟨ns, hn, hnl, hn'⟩ := C86_normals g hgc
  have hside : ∀ s, ∃ ℓ : ℝ, s < g.kind.numNodes → ∃ p₀ p₁, g.global (sidePoint g.kind s 0) = some p₀ ∧
      g.global (sidePoint g.kind s 1) = some p₁ ∧ 0 ≤ ℓ ∧ ℓ ^ 2 = dot (p₁ - p₀) (p₁ - p₀) ∧ ∃ side, g.sub 1 s = some side ∧
        ∀ t : List ℝ, t.length = 1 → side.integrationElement t = some ℓ := by
    intro s
    by_cases hs : s < g.kind.numNodes
    · obtain ⟨p₀, p₁, h0, h1, h2⟩ := straight g hgc s hs
      obtain ⟨ℓ, h3, h4, h5⟩ := segO1_length p₀ p₁
      exact ⟨ℓ, fun _ => ⟨p₀, p₁, h0, h1, h3, h4, _, h2, h5⟩⟩
    · exact ⟨0, fun h => absurd h hs⟩
  choose len hlen using hside
  have hq1 : ∀ t ∈ q.points, t.length = 1 := fun t htq => (hqw.1 t htq).trans (by rw [hqr]; rfl)
  obtain ⟨-, -, -, M, hM, e1, e2, hform⟩ := C91_trace B U V T geo i j e hr hT hg (by rcases hr with h | h <;> rw [h] <;> rfl)
    hft hfv (by rw [ht.degree, hv.degree]; exact hq) hqr hqw ht.evaluates hv.evaluates ht.ref hv.ref hn hnl
    (detS := fun s _ => len s) (fun s hs => by
      obtain ⟨_, _, _, _, _, _, side, h1, h2⟩ := hlen s hs
      exact ⟨side, h1, fun t htq => h2 t (hq1 t htq)⟩) beta (fun _ => b) hβ P hP
  refine ⟨M, fun s => ns.getD s 0, len, hM, e1, e2, fun s hs => ⟨hn' s _ ?_, ?_⟩, fun v u => ?_⟩
  · change ns[s]? = some (ns.getD s 0)
    rw [List.getD_eq_getElem _ _ (hnl ▸ hs), List.getElem?_eq_getElem (hnl ▸ hs)]
  · obtain ⟨p₀, p₁, h0, h1, h3, h4, -⟩ := hlen s hs
    exact ⟨p₀, p₁, h0, h1, h3, h4⟩
  · rw [hform]
    refine Finset.sum_congr rfl fun s hs => ?_
    rw [Finset.mem_range] at hs
    rw [hqe _ ?_, hqr]
    · exact intervalIntegral.integral_const_mul _ _
    · rw [hqr]
      refine PolyFn.isPolyOn (PolyFn.smul _ ?_)
      exact (side_poly hr (comb_poly hr hv v) hs).mul (side_poly hr (comb_poly hr ht u) hs) (by omega)

/-- **C91**, flux: likewise, on all meshes of such cells, for the form `∫ α q v σ` with a flux `q` on each side and the
sign `σ` of the cell at the side. -/
theorem C91_flux_exact (B : QuadBase ℝ) (U V : ProductSpace ℝ) (m : MeshObj) (hT : m.topo.WF) (hN : m.topo.numCells ≤ 2 ^ 31)
    (geo : Ent → Option (Geo ℝ 2)) (i j c : ℕ) (hc : c < m.topo.numCells)
    {g : Geo ℝ 2} {r : RefEl} {ft fv : RefFE ℝ} {pt pv : ℕ} {q : QuadRule ℝ}
    (hr : m.topo.refEl (0, c) = some r) (hg : geo (0, c) = some g) (hgk : g.kind = r) (hgc : g.StrictlyConvex)
    (hft : U.shapeFunctionLayout .segment i = some (some ft)) (hfv : V.shapeFunctionLayout r j = some (some fv))
    (ht : Regular ft .segment pt) (hv : Regular fv r pv)
    (hq : makeQuadRule B .segment (pt + pv) = some q) (hqr : q.ref = .segment) (hqw : q.WellFormed) (hqe : q.ExactFor (pt + pv))
    (alpha : MeshFn ℝ ℝ) (a : ℝ) (hα : ∀ pts, alpha (0, c) pts = some (pts.map fun _ => a)) (P : SubMat)
    (hP : fluxProvider B U V geo m i j alpha = some P) :
    ∃ (M : Dense ℝ) (len : ℕ → ℝ), P.eval (0, c) = some M ∧ M.rows = fv.num ∧ M.cols = ft.num * r.numNodes ∧
      (∀ s < r.numNodes, ∃ p₀ p₁, g.global (sidePoint r s 0) = some p₀ ∧
        g.global (sidePoint r s 1) = some p₁ ∧ 0 ≤ len s ∧ len s ^ 2 = dot (p₁ - p₀) (p₁ - p₀)) ∧
      ∀ v u, M.form v u = ∑ s ∈ range r.numNodes, len s * a * edgeSign m.topo c ((m.topo.cell c).edges.getD s 0) *
        ∫ t in (0 : ℝ)..1, comb fv v (sidePoint r s t) * comb ft (sidePart ft.num u s) [t] := by
  subst hgk
  have hrk : g.kind = .tria ∨ g.kind = .quad := by
    match g, hgc with
    | .triaO1 .., _ => exact .inl rfl
    | .quadO1 .., _ => exact .inr rfl
    | .parallelogram .., _ => exact .inr rfl
  have hside : ∀ s, ∃ ℓ : ℝ, s < g.kind.numNodes → ∃ p₀ p₁, g.global (sidePoint g.kind s 0) = some p₀ ∧
      g.global (sidePoint g.kind s 1) = some p₁ ∧ 0 ≤ ℓ ∧ ℓ ^ 2 = dot (p₁ - p₀) (p₁ - p₀) ∧ ∃ side, g.sub 1 s = some side ∧
        ∀ t : List ℝ, t.length = 1 → side.integrationElement t = some ℓ := by
    intro s
    by_cases hs : s < g.kind.numNodes
    · obtain ⟨p₀, p₁, h0, h1, h2⟩ := straight g hgc s hs
      obtain ⟨ℓ, h3, h4, h5⟩ := segO1_length p₀ p₁
      exact ⟨ℓ, fun _ => ⟨p₀, p₁, h0, h1, h3, h4, _, h2, h5⟩⟩
    · exact ⟨0, fun h => absurd h hs⟩
  choose len hlen using hside
  have hq1 : ∀ t ∈ q.points, t.length = 1 := fun t htq => (hqw.1 t htq).trans (by rw [hqr]; rfl)
  obtain ⟨-, -, -, M, hM, e1, e2, hform⟩ := C91_flux B U V m hT hN geo i j c hc hr hg (by rcases hrk with h | h <;> rw [h] <;> rfl)
    hft hfv (by rw [ht.degree, hv.degree]; exact hq) hqr hqw ht.evaluates hv.evaluates ht.ref hv.ref
    (detS := fun s _ => len s) (fun s hs => by
      obtain ⟨_, _, _, _, _, _, side, h1, h2⟩ := hlen s hs
      exact ⟨side, h1, fun t htq => h2 t (hq1 t htq)⟩) alpha (fun _ => a) hα P hP
  refine ⟨M, len, hM, e1, e2, fun s hs => ?_, fun v u => ?_⟩
  · obtain ⟨p₀, p₁, h0, h1, h3, h4, -⟩ := hlen s hs
    exact ⟨p₀, p₁, h0, h1, h3, h4⟩
  · rw [hform]
    refine Finset.sum_congr rfl fun s hs => ?_
    rw [Finset.mem_range] at hs
    rw [hqe _ ?_, hqr]
    · exact intervalIntegral.integral_const_mul _ _
    · rw [hqr]
      refine PolyFn.isPolyOn (PolyFn.smul _ ?_)
      exact (side_poly hrk (comb_poly hrk hv v) hs).mul (comb_poly_segment ht _) (by omega)

/-- A concrete case for the hypotheses: a triangle and a square, trial space with a linear trace and a flux of degree two,
discontinuous test functions of degree three, and Gauss rules; all providers can be constructed, and the theorems on exact
integration apply to the square. -/
noncomputable def dpgGeo : Ent → Option (Geo ℝ 2)
  | (0, 0) => some (triaO1 ![0, 0] ![1, 0] ![0, 1])
  | (0, 1) => some (parallelogram ![0, 1] ![1, 0] ![2, 1] ![1, 2])
  | _ => none

example : ∃ (leg jac : ℕ → ℕ → ℝ) (U V : ProductSpace ℝ) (g : Geo ℝ 2) (ft fl fv : RefFE ℝ) (q q' : QuadRule ℝ) (A₁ A₂ : Vec ℝ 2)
    (D F Tr : SubMat), let B := gaussBase leg jac
    sampleTopo.refEl (0, 1) = some .quad ∧ dpgGeo (0, 1) = some g ∧ g.kind = .quad ∧ g.ConstJacobian A₁ A₂ ∧ g.StrictlyConvex ∧
    U.shapeFunctionLayout .quad 0 = some (some ft) ∧ U.shapeFunctionLayout .segment 1 = some (some fl) ∧
    V.shapeFunctionLayout .quad 0 = some (some fv) ∧ Regular ft .quad 1 ∧ Regular fl .segment 2 ∧ Regular fv .quad 3 ∧
    makeQuadRule B .quad (1 + 3) = some q ∧ q.ref = .quad ∧ q.WellFormed ∧ q.ExactFor (1 + 3) ∧
    makeQuadRule B .segment (2 + 3) = some q' ∧ q'.ref = .segment ∧ q'.WellFormed ∧ q'.ExactFor (2 + 3) ∧
    ((matrix 2 [A₁, A₂]).transpose * matrix 2 [A₁, A₂]).det ≠ 0 ∧
    diffusionProvider B U V sampleTopo dpgGeo 0 0 (fun _ pts => some (pts.map fun _ => .scalar 1)) = some D ∧
    fluxProvider B U V dpgGeo ⟨0, sampleTopo⟩ 1 0 (fun _ pts => some (pts.map fun _ => 1)) = some F ∧
    traceProvider B U V sampleTopo dpgGeo 0 0 (fun _ pts => some (pts.map fun _ => ![1, 2])) = some Tr := by
  have h := fun n (hn : 0 < n) => C76_converged_exists n hn
  have hleg : ∀ n, ∃ root, 0 < n → LegConverged n root := fun n => by
    by_cases hn : 0 < n
    · obtain ⟨r, hr⟩ := (h n hn).1
      exact ⟨r, fun _ => hr⟩
    · exact ⟨fun _ => 0, fun h => absurd h hn⟩
  have hjac : ∀ n, ∃ root, 0 < n → JacConverged n 1 0 root := fun n => by
    by_cases hn : 0 < n
    · obtain ⟨r, hr⟩ := (h n hn).2
      exact ⟨r, fun _ => hr⟩
    · exact ⟨fun _ => 0, fun h => absurd h hn⟩
  choose leg hleg using hleg
  choose jac hjac using hjac
  obtain ⟨F, F', is, U, hU, hUb, -⟩ := C87_build (K := ℝ) sampleTopo sampleTopo_WF [(.trace, 1), (.flux, 2)] (by simp)
    (by simp [Kind.supports])
  obtain ⟨G, G', js, V, hV, hVb, -⟩ := C87_build (K := ℝ) sampleTopo sampleTopo_WF [(.l2, 3)] (by simp) (by simp [Kind.supports])
  obtain ⟨-, hU'⟩ := C87_indices _ _ _ _ hU
  obtain ⟨-, hV'⟩ := C87_indices _ _ _ _ hV
  obtain ⟨-, -, hUc⟩ := hU' _ _ hUb
  obtain ⟨-, -, hVc⟩ := hV' _ _ hVb
  obtain ⟨c0, e0, s0⟩ := hUc 0 _ _ rfl
  obtain ⟨c1, e1, s1⟩ := hUc 1 _ _ rfl
  obtain ⟨c2, e2, s2⟩ := hVc 0 _ _ rfl
  have r0 := C91_elements _ _ _ s0
  have r1 := C91_elements _ _ _ s1
  have r2 := C91_elements _ _ _ s2
  obtain ⟨q, hq, hqr, hqw, hqd, hqe⟩ := C76_make leg jac hleg hjac .quad (by decide) (1 + 3)
  obtain ⟨q', hq', hqr', hqw', hqd', hqe'⟩ := C76_make leg jac hleg hjac .segment (by decide) (2 + 3)
  rw [if_neg (by decide)] at hqe hqe'
  have hqe2 : q.ExactFor (1 + 3) := fun f hf => hqe f (by
    rw [hqr] at hf ⊢
    exact QP.mono (f := fun x y => f [x, y]) hf hqd)
  have hqe2' : q'.ExactFor (2 + 3) := fun f hf => hqe' f (by
    rw [hqr'] at hf ⊢
    obtain ⟨c, hc⟩ := hf
    refine PolyFn.isPolyOn (PolyFn.mono ?_ hqd')
    simp only [hc]
    exact PolyFn.sum _ fun a ha => PolyFn.smul _ (polyFn_pow (PolyFn.id 1 le_rfl) (by simp only [mem_range] at ha; omega)))
  have hN : sampleTopo.numCells ≤ 2 ^ 31 := by decide
  have c00 := C91_construct leg jac hleg hjac U V 0 0 .trace .l2 1 3 (by simp [Kind.supports]) (by simp [Kind.supports])
    (e0.trans s0.symm) (e2.trans s2.symm) ⟨0, sampleTopo⟩ sampleTopo_WF hN dpgGeo dpgGeo
    (fun _ pts => some (pts.map fun _ => .scalar 1)) (fun _ pts => some (pts.map fun _ => 1)) (fun _ pts => some (pts.map fun _ => 1))
    (fun _ pts => some (pts.map fun _ => ![1, 2])) (fun _ pts => some (pts.map fun _ => ![1, 2]))
    (fun _ pts => some (pts.map fun _ => ![1, 2]))
  have c10 := C91_construct leg jac hleg hjac U V 1 0 .flux .l2 2 3 (by simp [Kind.supports]) (by simp [Kind.supports])
    (e1.trans s1.symm) (e2.trans s2.symm) ⟨0, sampleTopo⟩ sampleTopo_WF hN dpgGeo dpgGeo
    (fun _ pts => some (pts.map fun _ => .scalar 1)) (fun _ pts => some (pts.map fun _ => 1)) (fun _ pts => some (pts.map fun _ => 1))
    (fun _ pts => some (pts.map fun _ => ![1, 2])) (fun _ pts => some (pts.map fun _ => ![1, 2]))
    (fun _ pts => some (pts.map fun _ => ![1, 2]))
  obtain ⟨D, hD⟩ := Option.isSome_iff_exists.mp c00.1
  obtain ⟨Tr, hTr⟩ := Option.isSome_iff_exists.mp c00.2.2.2.1
  obtain ⟨F, hF⟩ := Option.isSome_iff_exists.mp (c10.2.2.2.2.2.mpr rfl)
  obtain ⟨ft, hft⟩ : ∃ ft, c0.quad = some ft := by cases s0; exact ⟨_, rfl⟩
  obtain ⟨fl, hfl⟩ : ∃ fl, c1.edge = some fl := by cases s1; exact ⟨_, rfl⟩
  obtain ⟨fv, hfv⟩ : ∃ fv, c2.quad = some fv := by cases s2; exact ⟨_, rfl⟩
  refine ⟨leg, jac, U, V, _, ft, fl, fv, q, q', _, _, D, F, Tr, by decide, rfl, rfl, constJacobian_parallelogram _ _ _ _, ?_, ?_, ?_, ?_,
    r0.2.1 _ hft, r1.2.2.1 _ hfl, r2.2.1 _ hfv, hq, hqr, hqw, hqe2, hq', hqr', hqw', hqe2', ?_, hD, hF, hTr⟩
  · refine ⟨?_, ?_⟩
    · rw [det2_eq]; norm_num
    · funext k; fin_cases k <;> simp <;> norm_num
  · rw [ProductSpace.shapeFunctionLayout, e0]; exact congrArg some hft
  · rw [ProductSpace.shapeFunctionLayout, e1]; exact congrArg some hfl
  · rw [ProductSpace.shapeFunctionLayout, e2]; exact congrArg some hfv
  · rw [gram_two]
    norm_num [dot, Fin.sum_univ_two]

end Verif
