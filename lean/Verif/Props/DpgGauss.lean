import Verif.Lemmas.DpgGauss

/-!
# C93: discrete integration by parts in the DPG method
-/

namespace Verif
open Geo Finset Dpg

/-- **C93**: on all affine triangles and parallelograms, for all finite elements of polynomials and all constant velocities
`β`, integration by parts holds exactly for the element matrices: `ConvectionElementMatrixProvider` with both
coefficients equal to `β` and `TraceElementMatrixProvider` with coefficient `β` give the same bilinear form,
`∫_K (β · ∇v) u + v (β · ∇u) = ∫_∂K (β · n) u v`.  Hypothesis: the quadrature rules have the degree asked for. -/
theorem C93_parts (B : QuadBase ℝ) (U V : ProductSpace ℝ) (T : Topo) (geo : Ent → Option (Geo ℝ 2)) (i j : ℕ) (e : Ent)
    {g : Geo ℝ 2} {r : RefEl} {ft fv : RefFE ℝ} {pt pv : ℕ} {q q' : QuadRule ℝ} {A₁ A₂ : Vec ℝ 2}
    (hr : r = .tria ∨ r = .quad) (hT : T.refEl e = some r) (hg : geo e = some g) (hgk : g.kind = r) (hgc : g.StrictlyConvex)
    (hJ : g.ConstJacobian A₁ A₂)
    (hft : U.shapeFunctionLayout r i = some (some ft)) (hfv : V.shapeFunctionLayout r j = some (some fv))
    (ht : Regular ft r pt) (hv : Regular fv r pv)
    (hq : makeQuadRule B r (pt + pv) = some q) (hqr : q.ref = r) (hqw : q.WellFormed) (hqe : q.ExactFor (pt + pv))
    (hq' : makeQuadRule B .segment (pt + pv) = some q') (hqr' : q'.ref = .segment) (hqw' : q'.WellFormed)
    (hqe' : q'.ExactFor (pt + pv))
    (beta : MeshFn ℝ (Vec ℝ 2)) (b : Vec ℝ 2) (hβ : ∀ pts, beta e pts = some (pts.map fun _ => b)) (C F : SubMat)
    (hC : convectionProvider B U V T geo i j beta beta = some C) (hF : traceProvider B U V T geo i j beta = some F) :
    ∃ M M' : Dense ℝ, C.eval e = some M ∧ F.eval e = some M' ∧ M.rows = M'.rows ∧ M.cols = M'.cols ∧
      ∀ v u, M.form v u = M'.form v u := by
  have hD := affine_det hgc hJ
  obtain ⟨M, t, hM, m1, m2, h0, h2, hform⟩ := C91_convection_exact B U V T geo i j e hr hT hg hgk hJ hft hfv ht hv hq hqr hqw hqe
    (by rw [gram_two, det2_sq]; exact mul_ne_zero hD hD) beta beta b b hβ hβ C hC
  obtain ⟨M', n, len, hM', m1', m2', hn, hform'⟩ := C91_trace_exact B U V T geo i j e hr hT hg hgk hgc hft hfv ht hv hq' hqr' hqw'
    hqe' beta b hβ F hF
  refine ⟨M, M', hM, hM', m1.trans m1'.symm, m2.trans m2'.symm, fun v u => ?_⟩
  have ht' : t = |det2 A₁ A₂| := by
    rw [gram_two, det2_sq, ← sq] at h2
    rw [← abs_of_nonneg h0]
    exact (sq_eq_sq_iff_abs_eq_abs _ _).mp h2
  have hdim : r.dimension = 2 := by rcases hr with rfl | rfl <;> rfl
  have key := gauss_affine hr hgk hgc hJ (W := fun x => comb fv v x * comb ft u x)
    (G := fun x => [(combGrad fv v x).getD 0 0 * comb ft u x + comb fv v x * (combGrad ft u x).getD 0 0,
      (combGrad fv v x).getD 1 0 * comb ft u x + comb fv v x * (combGrad ft u x).getD 1 0])
    (IsPolyOn.mul hr (comb_poly hr hv v) (comb_poly hr ht u) le_rfl) (fun k hk x hx => by
      have hset : x.set k (x.getD k 0) = x := by
        match x, hx with
        | [a, c], _ => interval_cases k <;> rfl
      have d1 := (combGrad_eq hv hdim v hk hx).mul (combGrad_eq ht hdim u hk hx)
      rw [hset] at d1
      interval_cases k <;> exact d1) hn b
  rw [hform, hform']
  refine Eq.trans ?_ key
  rw [← ht']
  have e : ∀ x y : ℝ, dot b (g.pushGrad [x, y] (combGrad fv v [x, y])) * comb ft u [x, y] +
      comb fv v [x, y] * dot b (g.pushGrad [x, y] (combGrad ft u [x, y])) =
      dot b (g.pushGrad [x, y] [(combGrad fv v [x, y]).getD 0 0 * comb ft u [x, y] + comb fv v [x, y] * (combGrad ft u [x, y]).getD 0 0,
        (combGrad fv v [x, y]).getD 1 0 * comb ft u [x, y] + comb fv v [x, y] * (combGrad ft u [x, y]).getD 1 0]) := by
    intro x y
    have hk2 : g.kind.dimension = 2 := hgk ▸ hdim
    rw [pushGrad_two hk2 (hJ [x, y] rfl) hD, pushGrad_two hk2 (hJ [x, y] rfl) hD, pushGrad_two hk2 (hJ [x, y] rfl) hD]
    simp only [dot, Fin.sum_univ_two, Pi.add_apply, Pi.smul_apply, smul_eq_mul, List.getD_cons_zero, List.getD_cons_succ]
    ring
  rcases hr with rfl | rfl <;> simp only [refIntegral, e]

/-- A concrete case for the hypotheses: a parallelogram, linear traces, discontinuous test functions of degree three, the
velocity `(1, 2)` and Gauss rules. -/
example : ∃ (leg jac : ℕ → ℕ → ℝ) (U V : ProductSpace ℝ) (g : Geo ℝ 2) (ft fv : RefFE ℝ) (q q' : QuadRule ℝ) (A₁ A₂ : Vec ℝ 2)
    (C F : SubMat), let B := gaussBase leg jac
    let beta : MeshFn ℝ (Vec ℝ 2) := fun _ pts => some (pts.map fun _ => ![1, 2])
    sampleTopo.refEl (0, 1) = some .quad ∧ dpgGeo (0, 1) = some g ∧ g.kind = .quad ∧ g.StrictlyConvex ∧ g.ConstJacobian A₁ A₂ ∧
    U.shapeFunctionLayout .quad 0 = some (some ft) ∧ V.shapeFunctionLayout .quad 0 = some (some fv) ∧
    Regular ft .quad 1 ∧ Regular fv .quad 3 ∧
    makeQuadRule B .quad (1 + 3) = some q ∧ q.ref = .quad ∧ q.WellFormed ∧ q.ExactFor (1 + 3) ∧
    makeQuadRule B .segment (1 + 3) = some q' ∧ q'.ref = .segment ∧ q'.WellFormed ∧ q'.ExactFor (1 + 3) ∧
    convectionProvider B U V sampleTopo dpgGeo 0 0 beta beta = some C ∧
    traceProvider B U V sampleTopo dpgGeo 0 0 beta = some F := by
  have h := fun n (hn : 0 < n) => C76_converged_exists n hn
  have hleg : ∀ n, ∃ root, 0 < n → LegConverged n root := fun n => by
    by_cases hn : 0 < n
    · obtain ⟨r, hr⟩ := (h n hn).1
      exact ⟨r, fun _ => hr⟩
    · exact ⟨fun _ => 0, fun h => absurd h hn⟩
  have hjac : ∀ n, ∃ root, 0 < n → JacConverged n 1 0 root := fun n => by
    by_cases hn : 0 < n
    · obtain ⟨r, hr⟩ := (h n hn).2
      exact ⟨r, fun _ => hr⟩
    · exact ⟨fun _ => 0, fun h => absurd h hn⟩
  choose leg hleg using hleg
  choose jac hjac using hjac
  obtain ⟨F, F', is, U, hU, hUb, -⟩ := C87_build (K := ℝ) sampleTopo sampleTopo_WF [(.trace, 1)] (by simp) (by simp [Kind.supports])
  obtain ⟨G, G', js, V, hV, hVb, -⟩ := C87_build (K := ℝ) sampleTopo sampleTopo_WF [(.l2, 3)] (by simp) (by simp [Kind.supports])
  obtain ⟨-, hU'⟩ := C87_indices _ _ _ _ hU
  obtain ⟨-, hV'⟩ := C87_indices _ _ _ _ hV
  obtain ⟨-, -, hUc⟩ := hU' _ _ hUb
  obtain ⟨-, -, hVc⟩ := hV' _ _ hVb
  obtain ⟨c0, e0, s0⟩ := hUc 0 _ _ rfl
  obtain ⟨c2, e2, s2⟩ := hVc 0 _ _ rfl
  have r0 := C91_elements _ _ _ s0
  have r2 := C91_elements _ _ _ s2
  obtain ⟨q, hq, hqr, hqw, hqd, hqe⟩ := C76_make leg jac hleg hjac .quad (by decide) (1 + 3)
  obtain ⟨q', hq', hqr', hqw', hqd', hqe'⟩ := C76_make leg jac hleg hjac .segment (by decide) (1 + 3)
  rw [if_neg (by decide)] at hqe hqe'
  have hqe2 : q.ExactFor (1 + 3) := fun f hf => hqe f (by
    rw [hqr] at hf ⊢
    exact QP.mono (f := fun x y => f [x, y]) hf hqd)
  have hqe2' : q'.ExactFor (1 + 3) := fun f hf => hqe' f (by
    rw [hqr'] at hf ⊢
    obtain ⟨c, hc⟩ := hf
    refine PolyFn.isPolyOn (PolyFn.mono ?_ hqd')
    simp only [hc]
    exact PolyFn.sum _ fun a ha => PolyFn.smul _ (polyFn_pow (PolyFn.id 1 le_rfl) (by simp only [mem_range] at ha; omega)))
  have c00 := C91_construct leg jac hleg hjac U V 0 0 .trace .l2 1 3 (by simp [Kind.supports]) (by simp [Kind.supports])
    (e0.trans s0.symm) (e2.trans s2.symm) ⟨0, sampleTopo⟩ sampleTopo_WF (by decide) dpgGeo dpgGeo
    (fun _ pts => some (pts.map fun _ => .scalar 1)) (fun _ pts => some (pts.map fun _ => 1)) (fun _ pts => some (pts.map fun _ => 1))
    (fun _ pts => some (pts.map fun _ => ![1, 2])) (fun _ pts => some (pts.map fun _ => ![1, 2]))
    (fun _ pts => some (pts.map fun _ => ![1, 2]))
  obtain ⟨C, hC⟩ := Option.isSome_iff_exists.mp c00.2.2.1
  obtain ⟨Tr, hTr⟩ := Option.isSome_iff_exists.mp c00.2.2.2.1
  obtain ⟨ft, hft⟩ : ∃ ft, c0.quad = some ft := by cases s0; exact ⟨_, rfl⟩
  obtain ⟨fv, hfv⟩ : ∃ fv, c2.quad = some fv := by cases s2; exact ⟨_, rfl⟩
  refine ⟨leg, jac, U, V, _, ft, fv, q, q', _, _, C, Tr, by decide, rfl, rfl, ?_, constJacobian_parallelogram _ _ _ _, ?_, ?_,
    r0.2.1 _ hft, r2.2.1 _ hfv, hq, hqr, hqw, hqe2, hq', hqr', hqw', hqe2', hC, hTr⟩
  · refine ⟨?_, ?_⟩
    · rw [det2_eq]; norm_num
    · funext k; fin_cases k <;> simp <;> norm_num
  · rw [ProductSpace.shapeFunctionLayout, e0]; exact congrArg some hft
  · rw [ProductSpace.shapeFunctionLayout, e2]; exact congrArg some hfv

end Verif
