import Verif.Props.DpgPrimal
import Verif.Spec.DpgUltraweak

/-!
# C115: sums of forms on product spaces, and the ultraweak DPG method
-/

namespace Verif
open Geo Finset Dpg

/-! ## Elements of components -/

private theorem space_element {k : Kind} {p : ℕ} (hk : k ≠ .flux) (hs : k.supports p) {r : RefEl} (hr : r = .tria ∨ r = .quad)
    {S : ProductSpace ℝ} {i : ℕ} (hc : S.comps[i]? = compSpec k p) :
    ∃ fe, S.shapeFunctionLayout r i = some (some fe) ∧ Regular fe r p ∧
      fe.num = r.numNodes * (k.dofs p).point + r.numNodes * (k.dofs p).segment + (k.dofs p).interior r := by
  obtain ⟨cs, hcs, -⟩ := compSpec_layout (K := ℝ) k p hs
  obtain ⟨e1, e2, -, -⟩ := C91_elements k p cs hcs
  have hboth : ∃ ft fq, cs.tria = some ft ∧ cs.quad = some fq ∧
      ft.num = RefEl.tria.numNodes * (k.dofs p).point + RefEl.tria.numNodes * (k.dofs p).segment + (k.dofs p).interior .tria ∧
      fq.num = RefEl.quad.numNodes * (k.dofs p).point + RefEl.quad.numNodes * (k.dofs p).segment + (k.dofs p).interior .quad := by
    cases k <;> simp only [Kind.supports] at hs
    · obtain ⟨h1, h2⟩ := hs
      interval_cases p <;> · cases hcs; exact ⟨_, _, rfl, rfl, rfl, rfl⟩
    · interval_cases p <;> · cases hcs; exact ⟨_, _, rfl, rfl, rfl, rfl⟩
    · exact absurd rfl hk
    · obtain ⟨h1, h2⟩ := hs
      interval_cases p <;> · cases hcs; exact ⟨_, _, rfl, rfl, rfl, rfl⟩
  obtain ⟨ft, fq, h1, h2, h3, h4⟩ := hboth
  rw [hcs] at hc
  rcases hr with rfl | rfl
  · exact ⟨ft, by rw [ProductSpace.shapeFunctionLayout, hc]; simp [h1], e1 _ h1, h3⟩
  · exact ⟨fq, by rw [ProductSpace.shapeFunctionLayout, hc]; simp [h2], e2 _ h2, h4⟩

private theorem edge_element {p : ℕ} (hs : Kind.supports .flux p) {S : ProductSpace ℝ} {i : ℕ} (hc : S.comps[i]? = compSpec .flux p) :
    ∃ fe, S.shapeFunctionLayout .segment i = some (some fe) ∧ Regular fe .segment p ∧ fe.num = p + 1 := by
  obtain ⟨cs, hcs, -⟩ := compSpec_layout (K := ℝ) .flux p hs
  obtain ⟨-, -, e3, -⟩ := C91_elements .flux p cs hcs
  have h : ∃ fe, cs.edge = some fe ∧ fe.num = p + 1 := by
    simp only [Kind.supports] at hs
    interval_cases p <;> · cases hcs; exact ⟨_, rfl, rfl⟩
  obtain ⟨fe, h1, h2⟩ := h
  rw [hcs] at hc
  exact ⟨fe, by rw [ProductSpace.shapeFunctionLayout, hc]; simp [h1], e3 _ h1, h2⟩

/-! ## One form -/

section
variable {leg jac : ℕ → ℕ → ℝ} (hl : ∀ n, 0 < n → LegConverged n (leg n)) (hj : ∀ n, 0 < n → JacConverged n 1 0 (jac n))
  {m : MeshObj} (hT : m.topo.WF) (hN : m.topo.numCells ≤ 2 ^ 31) {geo : Ent → Option (Geo ℝ 2)} (hgeo : UsableCells m.topo geo)
  {us vs : List (Kind × ℕ)} (su : ∀ kp ∈ us, kp.1.supports kp.2) (sv : ∀ kp ∈ vs, kp.1.supports kp.2) {U V : ProductSpace ℝ}
  (hU : ∀ (i : ℕ) (k : Kind) (p : ℕ), us[i]? = some (k, p) → U.comps[i]? = compSpec k p ∧
        ∃ h, U.data.comps[i]? = some h ∧ uniformDofHandler m.topo (k.dofs p) true = some h)
  (hV : ∀ (i : ℕ) (k : Kind) (p : ℕ), vs[i]? = some (k, p) → V.comps[i]? = compSpec k p ∧
        ∃ h, V.data.comps[i]? = some h ∧ uniformDofHandler m.topo (k.dofs p) true = some h)
include hl hj hT hN hgeo su sv hU hV

private theorem form_provider (F : MatForm) (hF : F.Admissible m.topo us vs) :
    ∃ P, F.provider (gaussBase leg jac) m geo U V = some P ∧ P.trialComponent = F.trialIdx ∧ P.testComponent = F.testIdx ∧
      (∀ e, P.isActive e = true) ∧ ∃ hu hv, U.data.comps[F.trialIdx]? = some hu ∧ V.data.comps[F.testIdx]? = some hv ∧
      ∀ c r g, m.topo.refEl (0, c) = some r → geo (0, c) = some g → ∃ M, P.eval (0, c) = some M ∧
        M.rows = (hv.all (0, c)).length ∧ M.cols = (hu.all (0, c)).length ∧ F.Is (gaussBase leg jac) m.topo U V c r g M.form := by
  obtain ⟨⟨kv, pv, hv1, hv2, hv3⟩, ⟨ku, pu, hu1, hu2⟩, hcoef⟩ := hF
  obtain ⟨cu, hu, hhu, huu⟩ := hU _ _ _ hu1
  obtain ⟨cv, hv, hhv, huv⟩ := hV _ _ _ hv1
  have s1 : ku.supports pu := su _ (List.mem_of_getElem? hu1)
  have s2 : kv.supports pv := sv _ (List.mem_of_getElem? hv1)
  have hcell : ∀ c r g, m.topo.refEl (0, c) = some r → geo (0, c) = some g → c < m.topo.numCells ∧ (r = .tria ∨ r = .quad) ∧ g.RegularOn r := by
    intro c r g hr hg
    have hc : c < m.topo.numCells := (Topo.refEl_cell hT hr).1
    obtain ⟨r', g', e1, e2, e3, e4⟩ := hgeo.regular c hc
    obtain rfl : r = r' := Option.some.inj (hr.symm.trans e1)
    obtain rfl : g = g' := Option.some.inj (hg.symm.trans e3)
    exact ⟨hc, e2, e4⟩
  have d3 : ∀ {k p}, Kind.supports k p → p ≤ 3 := by
    intro k p h
    cases k <;> simp only [Kind.supports] at h <;> omega
  have p1 := d3 s1
  have p2 := d3 s2
  have hsegm : ∀ c r g, m.topo.refEl (0, c) = some r → geo (0, c) = some g → ∃ q, makeQuadRule (gaussBase leg jac) .segment (pu + pv) = some q ∧
      q.ref = .segment ∧ q.WellFormed ∧
      ∀ s < r.numNodes, ∃ side, g.sub 1 s = some side ∧ ∀ t ∈ q.points, side.integrationElement t = some (g.sideMetric s t) := by
    intro c r g hr hg
    obtain ⟨q, z1, z2, z3, -⟩ := C76_make leg jac hl hj .segment (by simp) (pu + pv)
    refine ⟨q, z1, z2, z3, fun s hs => ?_⟩
    obtain ⟨side, j1, j2⟩ := hgeo.sides c r g hr hg s hs
    refine ⟨side, j1, fun t ht => ?_⟩
    have hlen : t.length = 1 := by rw [z3.1 t ht, z2]; rfl
    obtain ⟨t0, rfl⟩ := List.length_eq_one_iff.1 hlen
    obtain ⟨y, hy⟩ := Option.isSome_iff_exists.1 (j2 t0)
    rw [Geo.sideMetric, j1, Option.bind_some, hy]
    rfl
  have nv : ∀ c r, m.topo.refEl (0, c) = some r → (hv.all (0, c)).length =
      r.numNodes * (kv.dofs pv).point + r.numNodes * (kv.dofs pv).segment + (kv.dofs pv).interior r :=
    fun c r hr => count_dofs m.topo hT _ hv huv c r hr
  have nu : ∀ c r, m.topo.refEl (0, c) = some r → (hu.all (0, c)).length =
      r.numNodes * (ku.dofs pu).point + r.numNodes * (ku.dofs pu).segment + (ku.dofs pu).interior r :=
    fun c r hr => count_dofs m.topo hT _ hu huu c r hr
  cases F with
  | diffusion i j alpha =>
    have hk : ku ≠ .flux := fun h => by obtain ⟨_, _, _, h⟩ := hu2.1 h; cases h
    obtain ⟨k, -⟩ := C91_construct leg jac hl hj U V i j ku kv pu pv s1 s2 cu cv m hT hN geo geo alpha (constFn 0) (constFn 0) (constFn 0) (constFn 0) (constFn 0)
    obtain ⟨P, hP⟩ := Option.isSome_iff_exists.1 k
    obtain ⟨a1, a2, a3⟩ := provider_comps.1 _ _ _ hP
    refine ⟨P, hP, a1, a2, a3, hu, hv, hhu, hhv, fun c r g hr hg => ?_⟩
    obtain ⟨hc, hr2, hreg⟩ := hcell c r g hr hg
    obtain ⟨a, ha⟩ := hcoef c hc
    obtain ⟨ft, f1, f2, f3⟩ := space_element hk s1 hr2 cu
    obtain ⟨fv, e1, e2, e3⟩ := space_element hv2 s2 hr2 cv
    obtain ⟨q, x1, x2, x3, x4, -, -⟩ := dpg_make_positive leg jac hl hj hr2 (pu + pv) (by omega)
    rw [← f2.degree, ← e2.degree] at x1
    obtain ⟨t1, t2, -⟩ := regular_cell_computable hr2 hreg f2 x2 x3 x4
    obtain ⟨v1, v2, -⟩ := regular_cell_computable hr2 hreg e2 x2 x3 x4
    obtain ⟨-, -, -, M, m1, m2, m3, m4⟩ := C91_diffusion _ U V m.topo geo i j (0, c) hr2 hr hg f1 e1 x1 t2 v2 alpha a (ha _) P hP
    exact ⟨M, m1, by rw [m2, nv c r hr, e3], by rw [m3, nu c r hr, f3], ft, fv, q, a, f1, e1, x1, ha, m4⟩
  | convection i j beta1 beta2 =>
    have hk : ku ≠ .flux := fun h => by obtain ⟨_, _, _, h⟩ := hu2.1 h; cases h
    obtain ⟨-, -, k, -⟩ := C91_construct leg jac hl hj U V i j ku kv pu pv s1 s2 cu cv m hT hN geo geo (constFn (.scalar 0)) (constFn 0) (constFn 0) beta1 beta2 (constFn 0)
    obtain ⟨P, hP⟩ := Option.isSome_iff_exists.1 k
    obtain ⟨a1, a2, a3⟩ := provider_comps.2.2.1 _ _ _ _ hP
    refine ⟨P, hP, a1, a2, a3, hu, hv, hhu, hhv, fun c r g hr hg => ?_⟩
    obtain ⟨hc, hr2, hreg⟩ := hcell c r g hr hg
    obtain ⟨⟨b₁, hb₁⟩, b₂, hb₂⟩ := hcoef c hc
    obtain ⟨ft, f1, f2, f3⟩ := space_element hk s1 hr2 cu
    obtain ⟨fv, e1, e2, e3⟩ := space_element hv2 s2 hr2 cv
    obtain ⟨q, x1, x2, x3, x4, -, -⟩ := dpg_make_positive leg jac hl hj hr2 (pu + pv) (by omega)
    rw [← f2.degree, ← e2.degree] at x1
    obtain ⟨t1, t2, -⟩ := regular_cell_computable hr2 hreg f2 x2 x3 x4
    obtain ⟨v1, v2, -⟩ := regular_cell_computable hr2 hreg e2 x2 x3 x4
    obtain ⟨-, -, -, M, m1, m2, m3, m4⟩ := C91_convection _ U V m.topo geo i j (0, c) hr2 hr hg f1 e1 x1 t2 v2 t1 v1 beta1 beta2 b₁ b₂
      (hb₁ _) (hb₂ _) P hP
    exact ⟨M, m1, by rw [m2, nv c r hr, e3], by rw [m3, nu c r hr, f3], ft, fv, q, b₁, b₂, f1, e1, x1, hb₁, hb₂, m4⟩
  | reaction i j gamma =>
    have hk : ku ≠ .flux := fun h => by obtain ⟨_, _, _, h⟩ := hu2.1 h; cases h
    obtain ⟨-, k, -⟩ := C91_construct leg jac hl hj U V i j ku kv pu pv s1 s2 cu cv m hT hN geo geo (constFn (.scalar 0)) gamma (constFn 0) (constFn 0) (constFn 0) (constFn 0)
    obtain ⟨P, hP⟩ := Option.isSome_iff_exists.1 k
    obtain ⟨a1, a2, a3⟩ := provider_comps.2.1 _ _ _ hP
    refine ⟨P, hP, a1, a2, a3, hu, hv, hhu, hhv, fun c r g hr hg => ?_⟩
    obtain ⟨hc, hr2, hreg⟩ := hcell c r g hr hg
    obtain ⟨a, ha⟩ := hcoef c hc
    obtain ⟨ft, f1, f2, f3⟩ := space_element hk s1 hr2 cu
    obtain ⟨fv, e1, e2, e3⟩ := space_element hv2 s2 hr2 cv
    obtain ⟨q, x1, x2, x3, x4, -, -⟩ := dpg_make_positive leg jac hl hj hr2 (pu + pv) (by omega)
    rw [← f2.degree, ← e2.degree] at x1
    obtain ⟨t1, t2, -⟩ := regular_cell_computable hr2 hreg f2 x2 x3 x4
    obtain ⟨v1, v2, -⟩ := regular_cell_computable hr2 hreg e2 x2 x3 x4
    obtain ⟨-, -, -, M, m1, m2, m3, m4⟩ := C91_reaction _ U V m.topo geo i j (0, c) hr2 hr hg f1 e1 x1 t2.dim t1 v1 gamma a (ha _) P hP
    exact ⟨M, m1, by rw [m2, nv c r hr, e3], by rw [m3, nu c r hr, f3], ft, fv, q, a, f1, e1, x1, ha, m4⟩
  | flux i j alpha =>
    obtain rfl : ku = .flux := hu2.2 ⟨_, _, _, rfl⟩
    obtain ⟨-, -, -, -, -, k⟩ := C91_construct leg jac hl hj U V i j .flux kv pu pv s1 s2 cu cv m hT hN geo geo (constFn (.scalar 0)) alpha (constFn 0) (constFn 0) (constFn 0) (constFn 0)
    replace k := k.2 rfl
    obtain ⟨P, hP⟩ := Option.isSome_iff_exists.1 k
    obtain ⟨a1, a2, a3⟩ := provider_comps.2.2.2 _ _ _ hP
    refine ⟨P, hP, a1, a2, a3, hu, hv, hhu, hhv, fun c r g hr hg => ?_⟩
    obtain ⟨hc, hr2, hreg⟩ := hcell c r g hr hg
    obtain ⟨a, ha⟩ := hcoef c hc
    obtain ⟨ft, f1, f2, f3⟩ := edge_element s1 cu
    obtain ⟨fv, e1, e2, e3⟩ := space_element hv2 s2 hr2 cv
    obtain ⟨q, x1, x2, x3, x4⟩ := hsegm c r g hr hg
    rw [← f2.degree, ← e2.degree] at x1
    obtain ⟨-, -, -, M, m1, m2, m3, m4⟩ := C91_flux (gaussBase leg jac) U V m hT hN geo i j c hc hr hg
      (by rw [hreg.1]; rcases hr2 with rfl | rfl <;> rfl) f1 e1 x1 x2 x3 f2.evaluates e2.evaluates f2.ref e2.ref (detS := g.sideMetric) x4
      alpha a ha P hP
    refine ⟨M, m1, by rw [m2, nv c r hr, e3], ?_, ft, fv, q, a, f1, e1, x1, ha, m4⟩
    rw [m3, nu c r hr, f3, show ((Kind.flux.dofs pu).point) = 0 from rfl, show ((Kind.flux.dofs pu).segment) = pu + 1 from rfl,
      mul_zero, zero_add, Nat.mul_comm]
    rcases hr2 with rfl | rfl <;> rfl
  | trace i j beta =>
    have hk : ku ≠ .flux := fun h => by obtain ⟨_, _, _, h⟩ := hu2.1 h; cases h
    obtain ⟨-, -, -, k, -⟩ := C91_construct leg jac hl hj U V i j ku kv pu pv s1 s2 cu cv m hT hN geo geo (constFn (.scalar 0)) (constFn 0) (constFn 0) (constFn 0) (constFn 0) beta
    obtain ⟨P, hP⟩ := Option.isSome_iff_exists.1 k
    have hPc : P.trialComponent = i ∧ P.testComponent = j ∧ ∀ e, P.isActive e = true := by
      have h := hP
      rw [traceProvider, Option.map_eq_some_iff] at h
      obtain ⟨pre, -, rfl⟩ := h
      exact ⟨rfl, rfl, fun _ => rfl⟩
    obtain ⟨a1, a2, a3⟩ := hPc
    refine ⟨P, hP, a1, a2, a3, hu, hv, hhu, hhv, fun c r g hr hg => ?_⟩
    obtain ⟨hc, hr2, hreg⟩ := hcell c r g hr hg
    obtain ⟨b, hb⟩ := hcoef c hc
    obtain ⟨ft, f1, f2, f3⟩ := space_element hk s1 hr2 cu
    obtain ⟨fv, e1, e2, e3⟩ := space_element hv2 s2 hr2 cv
    obtain ⟨q, x1, x2, x3, x4⟩ := hsegm c r g hr hg
    obtain ⟨ns, n1, n2⟩ := hgeo.normals c r g hr hg
    rw [← f2.degree, ← e2.degree] at x1
    obtain ⟨-, -, -, M, m1, m2, m3, m4⟩ := C91_trace (gaussBase leg jac) U V m.topo geo i j (0, c) hr2 hr hg
      (by rw [hreg.1]; rcases hr2 with rfl | rfl <;> rfl) f1 e1 x1 x2 x3 f2.evaluates e2.evaluates f2.ref e2.ref n1 n2 (detS := g.sideMetric) x4
      beta b hb P hP
    exact ⟨M, m1, by rw [m2, nv c r hr, e3], by rw [m3, nu c r hr, f3], ft, fv, q, b, ns, f1, e1, x1, hb, n1, m4⟩

end

private theorem built_space {T : Topo} (hT : T.WF) {us : List (Kind × ℕ)} {U : ProductSpace ℝ} (hU : BuiltSpace T us U) (hne : us ≠ [])
    (su : ∀ kp ∈ us, kp.1.supports kp.2) : ProductFE.init T (us.map fun kp => kp.1.dofs kp.2) = some U.data ∧
      ∀ (i : ℕ) (k : Kind) (p : ℕ), us[i]? = some (k, p) → U.comps[i]? = compSpec k p ∧
        ∃ h, U.data.comps[i]? = some h ∧ uniformDofHandler T (k.dofs p) true = some h := by
  obtain ⟨F, is, F', h1, h2⟩ := hU
  obtain ⟨cs, e1, rfl, rfl⟩ := addAll_spec _ _ _ _ h1
  simp only [SpaceFactory.new, SpaceFactory.build, List.nil_append, Option.map_eq_some_iff, Prod.mk.injEq] at h2
  obtain ⟨S', hS, -, rfl⟩ := h2
  obtain ⟨S, k1, k2, k3⟩ := make_space hT hne su e1
  rw [hS] at k1
  cases k1
  exact ⟨k2, k3⟩

/-! ## Sums of forms -/

section
variable (leg jac : ℕ → ℕ → ℝ) (hl : ∀ n, 0 < n → LegConverged n (leg n)) (hj : ∀ n, 0 < n → JacConverged n 1 0 (jac n))
  (m : MeshObj) (hT : m.topo.WF) (hN : m.topo.numCells ≤ 2 ^ 31) (geo : Ent → Option (Geo ℝ 2)) (hgeo : UsableCells m.topo geo)
include hl hj hT hN hgeo

/-- **C115**, forms: for all meshes of usable cells, all product spaces built by a factory from components of supported
degrees, and all lists of bilinear forms added to a builder: the builder returns a provider which is active everywhere,
and on every cell its element matrix has the size given by the dof handlers, and is the sum of the forms, each applied to
the parts of the vectors of coefficients which belong to its components. -/
theorem C115_forms (us vs : List (Kind × ℕ)) (hu : us ≠ []) (hv : vs ≠ []) (su : ∀ kp ∈ us, kp.1.supports kp.2)
    (sv : ∀ kp ∈ vs, kp.1.supports kp.2) (U V : ProductSpace ℝ) (hU : BuiltSpace m.topo us U) (hV : BuiltSpace m.topo vs V)
    (Fs : List MatForm) (hF : ∀ F ∈ Fs, F.Admissible m.topo us vs) :
    ∃ b P, runMat (gaussBase leg jac) m geo U V (Fs.map .add ++ [.build]) = some (b, [P]) ∧ (∀ e, P.isActive e = true) ∧
      ∀ c r g, m.topo.refEl (0, c) = some r → geo (0, c) = some g → ∃ M, P.eval (0, c) = some M ∧
        M.rows = ((V.data.handler m.topo).all (0, c)).length ∧ M.cols = ((U.data.handler m.topo).all (0, c)).length ∧
        SumOfForms (gaussBase leg jac) m.topo U V c r g Fs M := by
  obtain ⟨iU, cU⟩ := built_space hT hU hu su
  obtain ⟨iV, cV⟩ := built_space hT hV hv sv
  have hp := fun F hF' => form_provider hl hj hT hN hgeo su sv cU cV F (hF F hF')
  have hB := (C114_builder (gaussBase leg jac) m geo U V).1 (Fs.map .add ++ [.build])
  have hsome := hB.succeeds.2 (fun F hF' => by
    have : F ∈ Fs := by simpa using hF'
    obtain ⟨P, h, -⟩ := hp F this
    rw [h]
    rfl)
  obtain ⟨⟨b, out⟩, hout⟩ := Option.isSome_iff_exists.1 hsome
  obtain ⟨hlen, hget⟩ := hB.returns b out hout
  obtain ⟨Ps, hPs, h0⟩ := hget [] Fs [] (by simp) (.inl rfl)
  have hcnt : (Fs.map BuilderOp.add ++ [BuilderOp.build]).countP BuilderOp.isBuild = 1 := by
    rw [List.countP_append, List.countP_map]
    simp [List.countP_eq_zero, BuilderOp.isBuild]
  rw [hcnt] at hlen
  obtain ⟨P, rfl⟩ := List.length_eq_one_iff.1 hlen
  obtain rfl : P = productMat m.topo U.data V.data Ps := by simpa using h0
  have hf := mapM_forall₂ _ _ _ hPs
  have hsub : ∀ (k : ℕ) (F : MatForm), Fs[k]? = some F → ∃ Q, Ps[k]? = some Q ∧ F.provider (gaussBase leg jac) m geo U V = some Q :=
    fun k F h => forall₂_get hf h
  have hPF : ∀ Q ∈ Ps, ∃ F ∈ Fs, F.provider (gaussBase leg jac) m geo U V = some Q := by
    intro Q hQ
    obtain ⟨k, hk⟩ := List.mem_iff_getElem?.1 hQ
    have hkl : k < Fs.length := by
      rw [hf.length_eq]
      exact (List.getElem?_eq_some_iff.1 hk).1
    obtain ⟨Q', h1, h2⟩ := hsub k _ (List.getElem?_eq_getElem hkl)
    rw [hk] at h1
    cases h1
    exact ⟨_, List.getElem_mem hkl, h2⟩
  have hfit : ∀ Q ∈ Ps, Q.FitsIn m.topo U.data V.data := by
    intro Q hQ
    obtain ⟨F, hF', hQ'⟩ := hPF Q hQ
    obtain ⟨Q', h1, h2, h3, h4, hu', hv', h5, h6, h7⟩ := hp F hF'
    rw [hQ'] at h1
    cases h1
    refine ⟨hu', hv', by rw [h2]; exact h5, by rw [h3]; exact h6, fun e he _ => ?_⟩
    obtain ⟨c, hc, rfl⟩ := List.mem_map.1 he
    obtain ⟨r, g, g1, -, g3, -⟩ := hgeo.regular c (List.mem_range.1 hc)
    obtain ⟨M, m1, m2, m3, -⟩ := h7 c r g g1 g3
    exact ⟨M, m1, m2, m3⟩
  refine ⟨b, _, hout, fun _ => rfl, fun c r g hr hg => ?_⟩
  have hc : c < m.topo.numCells := (Topo.refEl_cell hT hr).1
  have hmem : ((0, c) : Ent) ∈ m.topo.entities 0 := List.mem_map.2 ⟨c, List.mem_range.2 hc, rfl⟩
  obtain ⟨M, m1, m2, m3, m4⟩ := C89_local hT iU iV Ps hfit (0, c) hmem
  refine ⟨M, m1, m2, m3, fun k => (((Ps[k]?).bind fun Q => Q.eval (0, c)).getD ⟨0, 0, fun _ _ => 0⟩).form, fun k F hk => ?_, fun v x => ?_⟩
  · obtain ⟨Q, h1, h2⟩ := hsub k F hk
    obtain ⟨Q', h1', -, -, -, hu', hv', -, -, h7⟩ := hp F (List.mem_of_getElem? hk)
    rw [h2] at h1'
    cases h1'
    obtain ⟨M', n1, -, -, n4⟩ := h7 c r g hr hg
    dsimp only
    rw [h1, Option.bind_some, n1]
    exact n4
  · have hact : (Ps.filter fun p => p.isActive (0, c)) = Ps := by
      rw [List.filter_eq_self]
      intro Q hQ
      obtain ⟨F, hF', hQ'⟩ := hPF Q hQ
      obtain ⟨Q', h1, -, -, h4, -⟩ := hp F hF'
      rw [hQ'] at h1
      cases h1
      exact h4 _
    rw [m4, hact]
    congr 1
    refine List.ext_getElem (by simp [hf.length_eq]) fun k h1 h2 => ?_
    have hk : k < Fs.length := by simpa using h2
    have hk' : k < Ps.length := by simpa using h1
    obtain ⟨Q, g1, g2⟩ := hsub k _ (List.getElem?_eq_getElem hk)
    obtain ⟨Q', e1, e2, e3, -⟩ := hp _ (List.getElem_mem hk)
    rw [g2] at e1
    cases e1
    have hQ : Ps[k] = Q := by
      rw [List.getElem?_eq_getElem hk'] at g1
      exact Option.some.inj g1
    simp only [List.getElem_map, List.getElem_zipIdx, Nat.zero_add, g1, Option.bind_some, hQ, e2, e3]

end

/-! ## The forms of given components -/

private theorem pointwise_unique {R : Type} {c : ℕ} {f : MeshFn ℝ R} {F G : List ℝ → R} (h : PointwiseOn c f F) (h' : PointwiseOn c f G) :
    F = G := by
  funext z
  have := (h [z]).symm.trans (h' [z])
  simpa using this

private theorem pointwise_const {R : Type} (c : ℕ) (a : R) : PointwiseOn c (constFn a) fun _ => a := fun _ => rfl

private theorem pointwise_map {R S : Type} {c : ℕ} {f : MeshFn ℝ R} {F : List ℝ → R} (op : R → S) (h : PointwiseOn c f F) :
    PointwiseOn c (mapFn op f) fun z => op (F z) := fun pts => by simp [mapFn, h pts]

section
variable {base : QuadBase ℝ} {T : Topo} {U V : ProductSpace ℝ} {c : ℕ} {r : RefEl} {g : Geo ℝ 2} {φ : List ℝ → List ℝ → ℝ}
  {i j : ℕ} {ft fv : RefFE ℝ} {q : QuadRule ℝ} {pt pv : ℕ}

private theorem is_diffusion {alpha : MeshFn ℝ (DiffCoeff 2)} {a} (h : (MatForm.diffusion i j alpha).Is base T U V c r g φ)
    (hft : U.shapeFunctionLayout r i = some (some ft)) (hfv : V.shapeFunctionLayout r j = some (some fv))
    (dt : ft.degree = pt) (dv : fv.degree = pv) (hq : makeQuadRule base r (pt + pv) = some q) (ha : PointwiseOn c alpha a) (v x) :
    φ v x = q.integrate fun z => g.metricAt z *
        dot (g.pushGrad z (combGrad fv v z)) ((a z).toMatrix.mulVec (g.pushGrad z (combGrad ft x z))) := by
  obtain ⟨ft', fv', q', a', h1, h2, h3, h4, h5⟩ := h
  rw [hft] at h1
  rw [hfv] at h2
  cases h1
  cases h2
  rw [dt, dv, hq] at h3
  cases h3
  rw [h5, pointwise_unique ha h4]

private theorem is_reaction {gamma : MeshFn ℝ ℝ} {a} (h : (MatForm.reaction i j gamma).Is base T U V c r g φ)
    (hft : U.shapeFunctionLayout r i = some (some ft)) (hfv : V.shapeFunctionLayout r j = some (some fv))
    (dt : ft.degree = pt) (dv : fv.degree = pv) (hq : makeQuadRule base r (pt + pv) = some q) (ha : PointwiseOn c gamma a) (v x) :
    φ v x = q.integrate fun z => g.metricAt z * a z * (comb fv v z * comb ft x z) := by
  obtain ⟨ft', fv', q', a', h1, h2, h3, h4, h5⟩ := h
  rw [hft] at h1
  rw [hfv] at h2
  cases h1
  cases h2
  rw [dt, dv, hq] at h3
  cases h3
  rw [h5, pointwise_unique ha h4]

private theorem is_convection {beta : MeshFn ℝ (Vec ℝ 2)} {b} (h : (MatForm.convection i j beta (constFn 0)).Is base T U V c r g φ)
    (hft : U.shapeFunctionLayout r i = some (some ft)) (hfv : V.shapeFunctionLayout r j = some (some fv))
    (dt : ft.degree = pt) (dv : fv.degree = pv) (hq : makeQuadRule base r (pt + pv) = some q) (hb : PointwiseOn c beta b) (v x) :
    φ v x = q.integrate fun z => g.metricAt z * (dot (b z) (g.pushGrad z (combGrad fv v z)) * comb ft x z) := by
  obtain ⟨ft', fv', q', b₁, b₂, h1, h2, h3, h4, h4', h5⟩ := h
  rw [hft] at h1
  rw [hfv] at h2
  cases h1
  cases h2
  rw [dt, dv, hq] at h3
  cases h3
  rw [h5, pointwise_unique hb h4, ← pointwise_unique (pointwise_const c (0 : Vec ℝ 2)) h4']
  exact integrate_congr _ fun z _ => by simp [dot_eq]

private theorem is_flux {alpha : MeshFn ℝ ℝ} {a} (h : (MatForm.flux i j alpha).Is base T U V c r g φ)
    (hft : U.shapeFunctionLayout .segment i = some (some ft)) (hfv : V.shapeFunctionLayout r j = some (some fv))
    (dt : ft.degree = pt) (dv : fv.degree = pv) (hq : makeQuadRule base .segment (pt + pv) = some q) (ha : PointwiseOn c alpha a) (v x) :
    φ v x = ∑ s ∈ Finset.range r.numNodes, q.integrate fun t => g.sideMetric s t * a (sideAt r s t) *
        edgeSign T c ((T.cell c).edges.getD s 0) * (comb fv v (sideAt r s t) * comb ft (sidePart ft.num x s) t) := by
  obtain ⟨ft', fv', q', a', h1, h2, h3, h4, h5⟩ := h
  rw [hft] at h1
  rw [hfv] at h2
  cases h1
  cases h2
  rw [dt, dv, hq] at h3
  cases h3
  rw [h5, pointwise_unique ha h4]

private theorem is_trace {beta : MeshFn ℝ (Vec ℝ 2)} {b} {ns : List (Vec ℝ 2)} (h : (MatForm.trace i j beta).Is base T U V c r g φ)
    (hft : U.shapeFunctionLayout r i = some (some ft)) (hfv : V.shapeFunctionLayout r j = some (some fv))
    (dt : ft.degree = pt) (dv : fv.degree = pv) (hq : makeQuadRule base .segment (pt + pv) = some q) (hb : PointwiseOn c beta b)
    (hns : outerNormals g = some ns) (v x) :
    φ v x = ∑ s ∈ Finset.range r.numNodes, q.integrate fun t => g.sideMetric s t *
        dot (ns.getD s 0) (b (sideAt r s t)) * (comb fv v (sideAt r s t) * comb ft x (sideAt r s t)) := by
  obtain ⟨ft', fv', q', b', ns', h1, h2, h3, h4, h4', h5⟩ := h
  rw [hft] at h1
  rw [hfv] at h2
  rw [hns] at h4'
  cases h1
  cases h2
  cases h4'
  rw [dt, dv, hq] at h3
  cases h3
  rw [h5, pointwise_unique hb h4]

end

private theorem l2_layout {p : ℕ} (hs : Kind.supports .l2 p) {r : RefEl} (hr : r = .tria ∨ r = .quad) {S : ProductSpace ℝ} {i : ℕ}
    (hc : S.comps[i]? = compSpec .l2 p) : ∃ fe, referenceFE r p = some fe ∧
      S.shapeFunctionLayout r i = some (some (discontinuousFE fe)) ∧ Regular (discontinuousFE fe) r p ∧
      fe.num = r.numNodes * (Kind.l2.dofs p).point + r.numNodes * (Kind.l2.dofs p).segment + (Kind.l2.dofs p).interior r := by
  obtain ⟨fe, h1, h2, h3⟩ := space_element (by simp) hs hr hc
  obtain ⟨cs, hcs, -⟩ := compSpec_layout (K := ℝ) .l2 p hs
  rw [hcs] at hc
  simp only [compSpec, Option.bind_eq_some_iff, Option.some.injEq] at hcs
  obtain ⟨t, ht, q, hq, rfl⟩ := hcs
  rw [ProductSpace.shapeFunctionLayout, hc] at h1
  rcases hr with rfl | rfl
  · obtain rfl : discontinuousFE t = fe := by simpa using h1
    exact ⟨t, ht, by rw [ProductSpace.shapeFunctionLayout, hc]; rfl, h2, h3⟩
  · obtain rfl : discontinuousFE q = fe := by simpa using h1
    exact ⟨q, hq, by rw [ProductSpace.shapeFunctionLayout, hc]; rfl, h2, h3⟩

private theorem trace_layout {p : ℕ} (hs : Kind.supports .trace p) {r : RefEl} (hr : r = .tria ∨ r = .quad) {S : ProductSpace ℝ} {i : ℕ}
    (hc : S.comps[i]? = compSpec .trace p) : ∃ fe, (referenceFE r p).bind traceFE = some fe ∧
      S.shapeFunctionLayout r i = some (some fe) ∧ Regular fe r p ∧
      fe.num = r.numNodes * (Kind.trace.dofs p).point + r.numNodes * (Kind.trace.dofs p).segment + (Kind.trace.dofs p).interior r := by
  obtain ⟨fe, h1, h2, h3⟩ := space_element (by simp) hs hr hc
  obtain ⟨cs, hcs, -⟩ := compSpec_layout (K := ℝ) .trace p hs
  rw [hcs] at hc
  refine ⟨fe, ?_, h1, h2, h3⟩
  rw [compSpec, Option.bind_eq_some_iff] at hcs
  obtain ⟨t, ht, hcs⟩ := hcs
  rw [Option.bind_eq_some_iff] at hcs
  obtain ⟨q, hq, hcs⟩ := hcs
  rw [Option.bind_eq_some_iff] at hcs
  obtain ⟨e, -, hcs⟩ := hcs
  cases hcs
  rw [ProductSpace.shapeFunctionLayout, hc] at h1
  rcases hr with rfl | rfl
  · obtain rfl : t = fe := by simpa using h1
    exact ht
  · obtain rfl : q = fe := by simpa using h1
    exact hq

private theorem flux_layout {p : ℕ} (hs : Kind.supports .flux p) {S : ProductSpace ℝ} {i : ℕ} (hc : S.comps[i]? = compSpec .flux p) :
    ∃ fe, referenceFE .segment p = some fe ∧ S.shapeFunctionLayout .segment i = some (some (discontinuousFE fe)) ∧
      Regular (discontinuousFE fe) .segment p := by
  obtain ⟨cs, hcs, -⟩ := compSpec_layout (K := ℝ) .flux p hs
  obtain ⟨-, -, e3, -⟩ := C91_elements .flux p cs hcs
  rw [hcs] at hc
  simp only [compSpec, Option.bind_eq_some_iff, Option.some.injEq] at hcs
  obtain ⟨fl, h1, rfl⟩ := hcs
  exact ⟨fl, h1, by rw [ProductSpace.shapeFunctionLayout, hc]; rfl, e3 _ rfl⟩

private theorem dot_fin (a b : Vec ℝ 2) : dot a b = a 0 * b 0 + a 1 * b 1 := by
  rw [dot_eq, dotProduct, Fin.sum_univ_two]

/-! ## The ultraweak method -/

section
variable (leg jac : ℕ → ℕ → ℝ) (hl : ∀ n, 0 < n → LegConverged n (leg n)) (hj : ∀ n, 0 < n → JacConverged n 1 0 (jac n))
  (m : MeshObj) (hT : m.topo.WF) (hN : m.topo.numCells ≤ 2 ^ 31) (geo : Ent → Option (Geo ℝ 2)) (hgeo : UsableCells m.topo geo)
include hl hj hT hN hgeo

/-- **C115**, the ultraweak method: for all meshes of usable cells, all degrees and enrichments for which the library has
elements, and all coefficients, the spaces and providers of the ultraweak DPG method can be constructed, the element
matrices and vectors are those of its forms, and the Gramian is symmetric and positive definite, so that the assumptions
of C90 are met. -/
theorem C115_ultraweak (p d : ℕ) (hp : p ≤ 2) (hd : 1 ≤ p + d ∧ p + d ≤ 3) (alpha : MeshFn ℝ ℝ) (beta : MeshFn ℝ (Vec ℝ 2))
    (f : MeshFn ℝ ℝ) (α : ℕ → List ℝ → ℝ) (β : ℕ → List ℝ → Vec ℝ 2) (F : ℕ → List ℝ → ℝ)
    (hα : ∀ c < m.topo.numCells, PointwiseOn c alpha (α c)) (hβ : ∀ c < m.topo.numCells, PointwiseOn c beta (β c))
    (hF : ∀ c < m.topo.numCells, PointwiseOn c f (F c)) :
    ∃ S, ultraweak (gaussBase leg jac) m geo p d alpha beta f = some S ∧
      (∀ c r g, m.topo.refEl (0, c) = some r → geo (0, c) = some g → ∃ B G l, S.stiffness.eval (0, c) = some B ∧
        S.gramian.eval (0, c) = some G ∧ S.load.eval (0, c) = some l ∧ SPD G ∧
        UltraweakForms (gaussBase leg jac) m.topo c r g p d (α c) (β c) (F c) B G l) ∧
      ∀ ldlt : Ldlt, ldlt.Solves → (S.trial.data.handler m.topo).numDofs < 2 ^ 31 →
        DpgSetting ldlt m.topo (S.trial.data.handler m.topo) S.stiffness S.gramian S.load := by
  have s1 : Kind.supports .l2 p := by simp only [Kind.supports]; omega
  have s2 : Kind.supports .trace (p + 1) := by simp only [Kind.supports]; omega
  have s3 : Kind.supports .flux p := by simp only [Kind.supports]; omega
  have s4 : Kind.supports .l2 (p + d) := by simp only [Kind.supports]; omega
  obtain ⟨cu, hcu, -⟩ := compSpec_layout (K := ℝ) .l2 p s1
  obtain ⟨ct, hct, -⟩ := compSpec_layout (K := ℝ) .trace (p + 1) s2
  obtain ⟨cq, hcq, -⟩ := compSpec_layout (K := ℝ) .flux p s3
  obtain ⟨cv, hcv, -⟩ := compSpec_layout (K := ℝ) .l2 (p + d) s4
  set us : List (Kind × ℕ) := [(.l2, p), (.l2, p), (.l2, p), (.trace, p + 1), (.flux, p)] with hus
  set vs : List (Kind × ℕ) := [(.l2, p + d), (.l2, p + d), (.l2, p + d)] with hvs
  have su : ∀ kp ∈ us, kp.1.supports kp.2 := by simp [hus, s1, s2, s3]
  have sv : ∀ kp ∈ vs, kp.1.supports kp.2 := by simp [hvs, s4]
  obtain ⟨U, hU, iU, cU⟩ := make_space hT (l := us) (by simp [hus]) su (cs := [cu, cu, cu, ct, cq])
    (by simp [hus, List.mapM_cons, hcu, hct, hcq])
  obtain ⟨V, hV, iV, cV⟩ := make_space hT (l := vs) (by simp [hvs]) sv (cs := [cv, cv, cv]) (by simp [hvs, List.mapM_cons, hcv])
  have bU : BuiltSpace m.topo us U := ⟨⟨m.topo, [cu, cu, cu, ct, cq], 5⟩, _, ⟨m.topo, [], 5⟩,
    by simp only [hus, SpaceFactory.addAll, SpaceFactory.add, SpaceFactory.new, hcu, hct, hcq]; rfl, by simp [SpaceFactory.build, hU]⟩
  have bV : BuiltSpace m.topo vs V := ⟨⟨m.topo, [cv, cv, cv], 3⟩, _, ⟨m.topo, [], 3⟩,
    by simp only [hvs, SpaceFactory.addAll, SpaceFactory.add, SpaceFactory.new, hcv]; rfl, by simp [SpaceFactory.build, hV]⟩
  set Bs : List MatForm := [.convection 0 0 (mapFn (- ·) beta) (constFn 0), .convection 1 0 (constFn ![1, 0]) (constFn 0),
    .convection 2 0 (constFn ![0, 1]) (constFn 0), .flux 4 0 (constFn (-1)), .convection 0 1 (constFn ![1, 0]) (constFn 0),
    .convection 0 2 (constFn ![0, 1]) (constFn 0), .reaction 1 1 (mapFn (1 / ·) alpha), .reaction 2 2 (mapFn (1 / ·) alpha),
    .trace 3 1 (mapFn (- ·) (constFn ![1, 0])), .trace 3 2 (mapFn (- ·) (constFn ![0, 1]))] with hBs
  set Gs : List MatForm := [.diffusion 0 0 (constFn (.scalar 1)), .reaction 0 0 (constFn 1),
    .diffusion 1 1 (constFn (.tensor (Matrix.of ![![1, 0], ![0, 0]]))), .diffusion 2 2 (constFn (.tensor (Matrix.of ![![0, 0], ![0, 1]]))),
    .diffusion 2 1 (constFn (.tensor (Matrix.of ![![0, 1], ![0, 0]]))), .diffusion 1 2 (constFn (.tensor (Matrix.of ![![0, 0], ![1, 0]]))),
    .reaction 1 1 (constFn 1), .reaction 2 2 (constFn 1)] with hGs
  obtain ⟨b1, P, hP, aP, eP⟩ := C115_forms leg jac hl hj m hT hN geo hgeo us vs (by simp [hus]) (by simp [hvs]) su sv U V bU bV Bs (by
    intro X hX
    simp only [hBs, List.mem_cons, List.not_mem_nil, or_false] at hX
    rcases hX with rfl | rfl | rfl | rfl | rfl | rfl | rfl | rfl | rfl | rfl
    all_goals
      refine ⟨⟨_, _, rfl, by simp, hd.1⟩, ⟨_, _, rfl, by simp⟩, fun c hc => ?_⟩
      first
        | exact ⟨⟨_, pointwise_map _ (hβ c hc)⟩, _, pointwise_const _ _⟩
        | exact ⟨⟨_, pointwise_const _ _⟩, _, pointwise_const _ _⟩
        | exact ⟨_, pointwise_const _ _⟩
        | exact ⟨_, pointwise_map _ (hα c hc)⟩
        | exact ⟨_, pointwise_map _ (pointwise_const _ _)⟩)
  obtain ⟨b2, Q, hQ, aQ, eQ⟩ := C115_forms leg jac hl hj m hT hN geo hgeo vs vs (by simp [hvs]) (by simp [hvs]) sv sv V V bV bV Gs (by
    intro X hX
    simp only [hGs, List.mem_cons, List.not_mem_nil, or_false] at hX
    rcases hX with rfl | rfl | rfl | rfl | rfl | rfl | rfl | rfl
    all_goals exact ⟨⟨_, _, rfl, by simp, hd.1⟩, ⟨_, _, rfl, by simp⟩, fun c hc => ⟨_, pointwise_const _ _⟩⟩)
  obtain ⟨v0, hv, hhv, huv⟩ := cV 0 .l2 (p + d) rfl
  obtain ⟨-, -, -, -, k5, -⟩ := C91_construct leg jac hl hj U V 0 0 .l2 .l2 p (p + d) s1 s4 (cU 0 .l2 p rfl).1 v0 m hT hN geo geo
    (constFn (.scalar 0)) f f (constFn 0) (constFn 0) (constFn 0)
  obtain ⟨L, hL⟩ := Option.isSome_iff_exists.1 k5
  have hLc : L.testComponent = 0 ∧ ∀ e, L.isActive e = true := by
    rw [loadProvider, Option.map_eq_some_iff] at hL
    obtain ⟨pre, -, rfl⟩ := hL
    exact ⟨rfl, fun _ => rfl⟩
  refine ⟨⟨U, V, P, Q, productVec m.topo V.data [L]⟩, ?_, ?_⟩
  · unfold ultraweak
    simp only [SpaceFactory.add, SpaceFactory.new, hcu, hct, hcq, hcv, Option.map_some, Option.bind_some, List.nil_append, List.cons_append,
      SpaceFactory.build, hU, hV, Nat.zero_add, Nat.reduceAdd]
    have hP' := hP
    have hQ' := hQ
    simp only [hBs, List.map_cons, List.map_nil, List.cons_append, List.nil_append] at hP'
    simp only [hGs, List.map_cons, List.map_nil, List.cons_append, List.nil_append] at hQ'
    rw [hP', Option.bind_some]
    dsimp only
    rw [hQ', Option.bind_some]
    dsimp only
    rw [show runVec (gaussBase leg jac) m geo V [.add ⟨0, f⟩, .build] = some (⟨[]⟩, [productVec m.topo V.data [L]]) by
      simp [runVec, Builder.run, Builder.new, Builder.add, Builder.build, VecForm.provider, hL]]
    rfl
  have hload : ∀ c r g, m.topo.refEl (0, c) = some r → geo (0, c) = some g → ∃ fv q l, referenceFE r (p + d) = some fv ∧
      makeQuadRule (gaussBase leg jac) r (2 * (p + d)) = some q ∧ L.eval (0, c) = some l ∧ l.length = (hv.all (0, c)).length ∧
      ∀ v, dotList v l = q.integrate fun z => g.metricAt z * (F c z * comb fv v z) := by
    intro c r g hr hg
    have hc : c < m.topo.numCells := (Topo.refEl_cell hT hr).1
    obtain ⟨r', g', x1, hr2, x3, hreg⟩ := hgeo.regular c hc
    obtain rfl : r = r' := Option.some.inj (hr.symm.trans x1)
    obtain rfl : g = g' := Option.some.inj (hg.symm.trans x3)
    obtain ⟨fv, e0, e1, e2, e3⟩ := l2_layout s4 hr2 v0
    obtain ⟨qg, y1, y2, y3, y4, -, -⟩ := dpg_make_positive leg jac hl hj hr2 (2 * (p + d)) (by omega)
    obtain ⟨w1, w2, -⟩ := regular_cell_computable hr2 hreg e2 y2 y3 y4
    obtain ⟨-, -, l, r1, r2, r3⟩ := C91_load (gaussBase leg jac) V m.topo geo 0 (0, c) hr2 hr hg e1 (by rw [e2.degree]; exact y1) w2.dim w1 f _
      (hF c hc _) L hL
    exact ⟨fv, qg, l, e0, y1, r1, by rw [r2, count_dofs m.topo hT _ hv huv c r hr]; exact e3, r3⟩
  have hfitL : ∀ P ∈ [L], P.FitsIn m.topo V.data := by
    intro P hP
    rw [List.mem_singleton] at hP
    subst hP
    refine ⟨hv, by rw [hLc.1]; exact hhv, fun e he _ => ?_⟩
    obtain ⟨c, hc, rfl⟩ := List.mem_map.1 he
    obtain ⟨r, g, g1, -, g3, -⟩ := hgeo.regular c (List.mem_range.1 hc)
    obtain ⟨_, _, l, -, -, h1, h2, -⟩ := hload c r g g1 g3
    exact ⟨l, h1, h2⟩
  have main : ∀ c r g, m.topo.refEl (0, c) = some r → geo (0, c) = some g → ∃ B G l, P.eval (0, c) = some B ∧
        Q.eval (0, c) = some G ∧ productVecEval m.topo V.data [L] (0, c) = some l ∧ SPD G ∧ B.rows = G.rows ∧
        B.cols = ((U.data.handler m.topo).all (0, c)).length ∧ l.length = G.rows ∧
        UltraweakForms (gaussBase leg jac) m.topo c r g p d (α c) (β c) (F c) B G l := by
    intro c r g hr hg
    have hc : c < m.topo.numCells := (Topo.refEl_cell hT hr).1
    have hmem : ((0, c) : Ent) ∈ m.topo.entities 0 := List.mem_map.2 ⟨c, List.mem_range.2 hc, rfl⟩
    obtain ⟨r', g', x1, hr2, x3, hreg⟩ := hgeo.regular c hc
    obtain rfl : r = r' := Option.some.inj (hr.symm.trans x1)
    obtain rfl : g = g' := Option.some.inj (hg.symm.trans x3)
    -- elements
    obtain ⟨u0, hu0, hhu0, huu0⟩ := cU 0 .l2 p rfl
    obtain ⟨u1, hu1, hhu1, huu1⟩ := cU 1 .l2 p rfl
    obtain ⟨u2, hu2, hhu2, huu2⟩ := cU 2 .l2 p rfl
    obtain ⟨u3, hu3, hhu3, huu3⟩ := cU 3 .trace (p + 1) rfl
    obtain ⟨u4, hu4, hhu4, huu4⟩ := cU 4 .flux p rfl
    obtain ⟨v1, hv1, hhv1, huv1⟩ := cV 1 .l2 (p + d) rfl
    obtain ⟨v2, hv2, hhv2, huv2⟩ := cV 2 .l2 (p + d) rfl
    obtain ⟨fu, a0, lu0, ru, nu⟩ := l2_layout s1 hr2 u0
    obtain ⟨fu', a0', lu1, -, -⟩ := l2_layout s1 hr2 u1
    obtain rfl : fu = fu' := Option.some.inj (a0.symm.trans a0')
    obtain ⟨fu', a0', lu2, -, -⟩ := l2_layout s1 hr2 u2
    obtain rfl : fu = fu' := Option.some.inj (a0.symm.trans a0')
    obtain ⟨ft, at0, lt, rt, nt⟩ := trace_layout s2 hr2 u3
    obtain ⟨fl, al0, ll, rl⟩ := flux_layout s3 u4
    obtain ⟨fv, av, lv0, rv, nv⟩ := l2_layout s4 hr2 v0
    obtain ⟨fv', av', lv1, -, -⟩ := l2_layout s4 hr2 v1
    obtain rfl : fv = fv' := Option.some.inj (av.symm.trans av')
    obtain ⟨fv', av', lv2, -, -⟩ := l2_layout s4 hr2 v2
    obtain rfl : fv = fv' := Option.some.inj (av.symm.trans av')
    obtain ⟨ns, hns, -⟩ := hgeo.normals c r g hr hg
    -- rules
    obtain ⟨qb, xb, -⟩ := dpg_make_positive leg jac hl hj hr2 (p + (p + d)) (by omega)
    obtain ⟨qg, xg, yg2, yg3, yg4, hsep⟩ := C114_separates leg jac hl hj r hr2 (p + d) hd
    obtain ⟨qs, xs, -⟩ := C76_make leg jac hl hj .segment (by simp) (p + (p + d))
    obtain ⟨qt, xt, -⟩ := C76_make leg jac hl hj .segment (by simp) (p + 1 + (p + d))
    have xg' : makeQuadRule (gaussBase leg jac) r (p + d + (p + d)) = some qg := by rw [← two_mul]; exact xg
    obtain ⟨-, -, hdet⟩ := regular_cell_computable hr2 hreg rv yg2 yg3 yg4
    -- positions
    have cnt0 := count_dofs m.topo hT _ hu0 huu0 c r hr
    have cnt1 := count_dofs m.topo hT _ hu1 huu1 c r hr
    have cnt2 := count_dofs m.topo hT _ hu2 huu2 c r hr
    have cnt3 := count_dofs m.topo hT _ hu3 huu3 c r hr
    have dnt0 := count_dofs m.topo hT _ hv huv c r hr
    have dnt1 := count_dofs m.topo hT _ hv1 huv1 c r hr
    have dnt2 := count_dofs m.topo hT _ hv2 huv2 c r hr
    rw [← nu] at cnt0 cnt1 cnt2
    rw [← nt] at cnt3
    rw [← nv] at dnt0 dnt1 dnt2
    have stU := (C15_indices m.topo hT _ U.data iU (0, c) (mem_cells hmem)).2.2
    have stV := (C15_indices m.topo hT _ V.data iV (0, c) (mem_cells hmem)).2.2
    have U0 : (U.data.localStartIndex (0, c) 0).getD 0 = 0 := by rw [stU 0 (by simp [hus])]; rfl
    have U1 : (U.data.localStartIndex (0, c) 1).getD 0 = fu.num := by
      rw [stU 1 (by simp [hus])]; simp [List.range_succ, hhu0, cnt0]
    have U2 : (U.data.localStartIndex (0, c) 2).getD 0 = 2 * fu.num := by
      rw [stU 2 (by simp [hus])]; simp [List.range_succ, hhu0, cnt0, hhu1, cnt1]; omega
    have U3 : (U.data.localStartIndex (0, c) 3).getD 0 = 3 * fu.num := by
      rw [stU 3 (by simp [hus])]; simp [List.range_succ, hhu0, cnt0, hhu1, cnt1, hhu2, cnt2]; omega
    have U4 : (U.data.localStartIndex (0, c) 4).getD 0 = 3 * fu.num + ft.num := by
      rw [stU 4 (by simp [hus])]; simp [List.range_succ, hhu0, cnt0, hhu1, cnt1, hhu2, cnt2, hhu3, cnt3]; omega
    have V0 : (V.data.localStartIndex (0, c) 0).getD 0 = 0 := by rw [stV 0 (by simp [hvs])]; rfl
    have V1 : (V.data.localStartIndex (0, c) 1).getD 0 = fv.num := by
      rw [stV 1 (by simp [hvs])]; simp [List.range_succ, hhv, dnt0]
    have V2 : (V.data.localStartIndex (0, c) 2).getD 0 = 2 * fv.num := by
      rw [stV 2 (by simp [hvs])]; simp [List.range_succ, hhv, dnt0, hhv1, dnt1]; omega
    have hlen : ((V.data.handler m.topo).all (0, c)).length = 3 * fv.num := by
      rw [DofHandler.all, (C15_indices m.topo hT _ V.data iV (0, c) (mem_cells hmem)).1]
      simp [hvs, List.range_succ, hhv, hhv1, hhv2, dnt0, dnt1, dnt2]
      omega
    obtain ⟨B, B1, B2, B3, φ, hφ, B4⟩ := eP c r g hr hg
    obtain ⟨G, G1, G2, G3, ψ, hψ, G4⟩ := eQ c r g hr hg
    obtain ⟨b, c1, c2, c3⟩ := C89_localVec hT iV [L] hfitL (0, c) hmem
    obtain ⟨fv', qg', l, l1, l2, l3, l4, l5⟩ := hload c r g hr hg
    obtain rfl : fv = fv' := Option.some.inj (av.symm.trans l1)
    obtain rfl : qg = qg' := Option.some.inj (xg.symm.trans l2)
    have hB : ∀ y x, B.form y x = φ 0 y x + φ 1 y (x.drop fu.num) + φ 2 y (x.drop (2 * fu.num)) + φ 3 y (x.drop (3 * fu.num + ft.num)) +
        φ 4 (y.drop fv.num) x + φ 5 (y.drop (2 * fv.num)) x + φ 6 (y.drop fv.num) (x.drop fu.num) +
        φ 7 (y.drop (2 * fv.num)) (x.drop (2 * fu.num)) + φ 8 (y.drop fv.num) (x.drop (3 * fu.num)) +
        φ 9 (y.drop (2 * fv.num)) (x.drop (3 * fu.num)) := by
      intro y x
      rw [B4]
      simp only [hBs, List.zipIdx_cons, List.zipIdx_nil, List.map_cons, List.map_nil, List.sum_cons, List.sum_nil, MatForm.testIdx,
        MatForm.trialIdx, U0, U1, U2, U3, U4, V0, V1, V2, List.drop_zero, Nat.reduceAdd]
      ring
    have hG : ∀ y x, G.form y x = ψ 0 y x + ψ 1 y x + ψ 2 (y.drop fv.num) (x.drop fv.num) + ψ 3 (y.drop (2 * fv.num)) (x.drop (2 * fv.num)) +
        ψ 4 (y.drop fv.num) (x.drop (2 * fv.num)) + ψ 5 (y.drop (2 * fv.num)) (x.drop fv.num) + ψ 6 (y.drop fv.num) (x.drop fv.num) +
        ψ 7 (y.drop (2 * fv.num)) (x.drop (2 * fv.num)) := by
      intro y x
      rw [G4]
      simp only [hGs, List.zipIdx_cons, List.zipIdx_nil, List.map_cons, List.map_nil, List.sum_cons, List.sum_nil, MatForm.testIdx,
        MatForm.trialIdx, V0, V1, V2, List.drop_zero, Nat.reduceAdd]
      ring
    have hform : ∀ y w, G.form y w = qg.integrate fun z => g.metricAt z *
        (dot (g.pushGrad z (combGrad fv y z)) (g.pushGrad z (combGrad fv w z)) + comb fv y z * comb fv w z +
          (g.pushGrad z (combGrad fv (y.drop fv.num) z) 0 + g.pushGrad z (combGrad fv (y.drop (2 * fv.num)) z) 1) *
            (g.pushGrad z (combGrad fv (w.drop fv.num) z) 0 + g.pushGrad z (combGrad fv (w.drop (2 * fv.num)) z) 1) +
          (comb fv (y.drop fv.num) z * comb fv (w.drop fv.num) z + comb fv (y.drop (2 * fv.num)) z * comb fv (w.drop (2 * fv.num)) z)) := by
      intro y w
      rw [hG, is_diffusion (hψ 0 _ rfl) lv0 lv0 rv.degree rv.degree xg' (pointwise_const _ _), is_reaction (hψ 1 _ rfl) lv0 lv0 rv.degree rv.degree xg' (pointwise_const _ _),
        is_diffusion (hψ 2 _ rfl) lv1 lv1 rv.degree rv.degree xg' (pointwise_const _ _), is_diffusion (hψ 3 _ rfl) lv2 lv2 rv.degree rv.degree xg' (pointwise_const _ _),
        is_diffusion (hψ 4 _ rfl) lv2 lv1 rv.degree rv.degree xg' (pointwise_const _ _), is_diffusion (hψ 5 _ rfl) lv1 lv2 rv.degree rv.degree xg' (pointwise_const _ _),
        is_reaction (hψ 6 _ rfl) lv1 lv1 rv.degree rv.degree xg' (pointwise_const _ _), is_reaction (hψ 7 _ rfl) lv2 lv2 rv.degree rv.degree xg' (pointwise_const _ _)]
      simp only [← integrate_add]
      refine integrate_congr _ fun z _ => ?_
      change g.metricAt z * dot (g.pushGrad z (combGrad fv y z)) _ + g.metricAt z * 1 * (comb fv y z * comb fv w z) +
        g.metricAt z * dot (g.pushGrad z (combGrad fv (y.drop fv.num) z)) (Matrix.mulVec _ (g.pushGrad z (combGrad fv (w.drop fv.num) z))) +
        g.metricAt z * dot (g.pushGrad z (combGrad fv (y.drop (2 * fv.num)) z)) (Matrix.mulVec _ (g.pushGrad z (combGrad fv (w.drop (2 * fv.num)) z))) +
        g.metricAt z * dot (g.pushGrad z (combGrad fv (y.drop fv.num) z)) (Matrix.mulVec _ (g.pushGrad z (combGrad fv (w.drop (2 * fv.num)) z))) +
        g.metricAt z * dot (g.pushGrad z (combGrad fv (y.drop (2 * fv.num)) z)) (Matrix.mulVec _ (g.pushGrad z (combGrad fv (w.drop fv.num) z))) +
        g.metricAt z * 1 * (comb fv (y.drop fv.num) z * comb fv (w.drop fv.num) z) +
        g.metricAt z * 1 * (comb fv (y.drop (2 * fv.num)) z * comb fv (w.drop (2 * fv.num)) z) = _
      rw [scalar_dot]
      simp only [dot_fin, DiffCoeff.toMatrix, Matrix.mulVec, dotProduct, Fin.sum_univ_two, Matrix.of_apply, Matrix.cons_val_zero, Matrix.cons_val_one]
      change _ * (1 * (_ * g.pushGrad z (combGrad fv w z) 0 + _ * g.pushGrad z (combGrad fv w z) 1)) + _ + _ + _ + _ + _ + _ + _ = _
      ring
    have hspd : SPD G := by
      refine ⟨G2.trans G3.symm, fun i hi j hj' => ?_, fun x hx => ?_⟩
      · rw [← form_unit rfl (G3.trans G2.symm) hi hj', ← form_unit rfl (G3.trans G2.symm) hj' hi, hform, hform]
        refine integrate_congr _ fun z _ => ?_
        rw [dot_symm]
        ring
      · have hnn : ∀ z ∈ qg.points, 0 ≤ g.metricAt z *
            (dot (g.pushGrad z (combGrad fv x z)) (g.pushGrad z (combGrad fv x z)) + comb fv x z * comb fv x z +
              (g.pushGrad z (combGrad fv (x.drop fv.num) z) 0 + g.pushGrad z (combGrad fv (x.drop (2 * fv.num)) z) 1) *
                (g.pushGrad z (combGrad fv (x.drop fv.num) z) 0 + g.pushGrad z (combGrad fv (x.drop (2 * fv.num)) z) 1) +
              (comb fv (x.drop fv.num) z * comb fv (x.drop fv.num) z + comb fv (x.drop (2 * fv.num)) z * comb fv (x.drop (2 * fv.num)) z)) :=
          fun z hz => mul_nonneg (hdet z hz).le (add_nonneg (add_nonneg (add_nonneg (dot_self_nonneg _) (mul_self_nonneg _)) (mul_self_nonneg _))
            (add_nonneg (mul_self_nonneg _) (mul_self_nonneg _)))
        rw [hform]
        refine lt_of_le_of_ne (integrate_nonneg _ (fun b hb => (yg4.1 b hb).le) hnn) fun h0 => ?_
        have hz := h0.symm
        rw [integrate_eq_zero qg yg3.2 yg4.1 hnn] at hz
        have hzero : ∀ z ∈ qg.points, comb fv x z = 0 ∧ comb fv (x.drop fv.num) z = 0 ∧ comb fv (x.drop (2 * fv.num)) z = 0 := by
          intro z hz'
          have h1 := hz z hz'
          rw [mul_eq_zero, or_iff_right (hdet z hz').ne'] at h1
          have n1 := dot_self_nonneg (g.pushGrad z (combGrad fv x z))
          have n2 := mul_self_nonneg (comb fv x z)
          have n3 := mul_self_nonneg (g.pushGrad z (combGrad fv (x.drop fv.num) z) 0 + g.pushGrad z (combGrad fv (x.drop (2 * fv.num)) z) 1)
          have n4 := mul_self_nonneg (comb fv (x.drop fv.num) z)
          have n5 := mul_self_nonneg (comb fv (x.drop (2 * fv.num)) z)
          exact ⟨mul_self_eq_zero.1 (by linarith), mul_self_eq_zero.1 (by linarith), mul_self_eq_zero.1 (by linarith)⟩
        have hfv : fv = lagrFE (p + d) r := Option.some.inj (av.symm.trans (referenceFE_lagr _ hd r))
        have hcoef : ∀ w : List ℝ, (∀ z ∈ qg.points, comb fv w z = 0) → ∀ i < fv.num, w.getD i 0 = 0 := by
          intro w hw i hi
          have hcell := hsep _ (comb_poly hr2 rv w) hw
          rw [hfv] at hi
          have := lagr_combine_zero (p + d) hd hr2 rfl (fun i : Fin (lagrFE (p + d) r : RefFE ℝ).num => w.getD i.val 0) fun y z hyz => by
            have := hcell y z (contains_of_inCell hr2 hyz)
            rw [hfv] at this
            exact this
          exact congrFun this ⟨i, hi⟩
        have k0 := hcoef _ fun z hz' => (hzero z hz').1
        have k1 := hcoef _ fun z hz' => (hzero z hz').2.1
        have k2 := hcoef _ fun z hz' => (hzero z hz').2.2
        obtain ⟨i, hi, hxi⟩ := hx
        rw [G2, hlen] at hi
        refine hxi ?_
        by_cases i1 : i < fv.num
        · exact k0 i i1
        · by_cases i2 : i < 2 * fv.num
          · have := k1 (i - fv.num) (by omega)
            rwa [List.getD_eq_getElem?_getD, List.getElem?_drop, show fv.num + (i - fv.num) = i by omega, ← List.getD_eq_getElem?_getD] at this
          · have := k2 (i - 2 * fv.num) (by omega)
            rwa [List.getD_eq_getElem?_getD, List.getElem?_drop, show 2 * fv.num + (i - 2 * fv.num) = i by omega, ← List.getD_eq_getElem?_getD] at this
    refine ⟨B, G, b, B1, G1, c1, hspd, by rw [B2, G2], B3, by rw [c2, G2], fu, ft, fl, fv, qb, qg, qs, qt, ns, a0, at0, al0, av, xb, xg, xs, xt,
      hns, fun y x => ?_, hform, fun y => ?_⟩
    · have e1 := is_convection (hφ 0 _ rfl) lu0 lv0 ru.degree rv.degree xb (pointwise_map _ (hβ c hc)) y x
      have e2 := is_convection (hφ 1 _ rfl) lu1 lv0 ru.degree rv.degree xb (pointwise_const _ _) y (x.drop fu.num)
      have e3 := is_convection (hφ 2 _ rfl) lu2 lv0 ru.degree rv.degree xb (pointwise_const _ _) y (x.drop (2 * fu.num))
      have e4 := is_flux (hφ 3 _ rfl) ll lv0 rl.degree rv.degree xs (pointwise_const _ _) y (x.drop (3 * fu.num + ft.num))
      have e5 := is_convection (hφ 4 _ rfl) lu0 lv1 ru.degree rv.degree xb (pointwise_const _ _) (y.drop fv.num) x
      have e6 := is_convection (hφ 5 _ rfl) lu0 lv2 ru.degree rv.degree xb (pointwise_const _ _) (y.drop (2 * fv.num)) x
      have e7 := is_reaction (hφ 6 _ rfl) lu1 lv1 ru.degree rv.degree xb (pointwise_map _ (hα c hc)) (y.drop fv.num) (x.drop fu.num)
      have e8 := is_reaction (hφ 7 _ rfl) lu2 lv2 ru.degree rv.degree xb (pointwise_map _ (hα c hc)) (y.drop (2 * fv.num)) (x.drop (2 * fu.num))
      have e9 := is_trace (hφ 8 _ rfl) lt lv1 rt.degree rv.degree xt (pointwise_map _ (pointwise_const _ _)) hns (y.drop fv.num) (x.drop (3 * fu.num))
      have e10 := is_trace (hφ 9 _ rfl) lt lv2 rt.degree rv.degree xt (pointwise_map _ (pointwise_const _ _)) hns (y.drop (2 * fv.num)) (x.drop (3 * fu.num))
      have hcomb : ∀ fe : RefFE ℝ, comb (discontinuousFE fe) = comb fe := fun _ => rfl
      have hgrad : ∀ fe : RefFE ℝ, combGrad (discontinuousFE fe) = combGrad fe := fun _ => rfl
      have hnum : ∀ fe : RefFE ℝ, (discontinuousFE fe).num = fe.num := fun _ => rfl
      simp only [hcomb, hgrad, hnum] at e1 e2 e3 e4 e5 e6 e7 e8 e9 e10
      have i1 : φ 0 y x + φ 1 y (x.drop fu.num) + φ 2 y (x.drop (2 * fu.num)) + φ 4 (y.drop fv.num) x + φ 5 (y.drop (2 * fv.num)) x +
          φ 6 (y.drop fv.num) (x.drop fu.num) + φ 7 (y.drop (2 * fv.num)) (x.drop (2 * fu.num)) = qb.integrate fun z => g.metricAt z *
        (comb fu (x.drop fu.num) z * g.pushGrad z (combGrad fv y z) 0 + comb fu (x.drop (2 * fu.num)) z * g.pushGrad z (combGrad fv y z) 1 -
          comb fu x z * dot (β c z) (g.pushGrad z (combGrad fv y z)) +
          comb fu x z * (g.pushGrad z (combGrad fv (y.drop fv.num) z) 0 + g.pushGrad z (combGrad fv (y.drop (2 * fv.num)) z) 1) +
          1 / α c z * (comb fu (x.drop fu.num) z * comb fv (y.drop fv.num) z + comb fu (x.drop (2 * fu.num)) z * comb fv (y.drop (2 * fv.num)) z)) := by
        rw [e1, e2, e3, e5, e6, e7, e8]
        simp only [← integrate_add]
        refine integrate_congr _ fun z _ => ?_
        simp only [dot_fin, Matrix.cons_val_zero, Matrix.cons_val_one, Pi.neg_apply]
        ring
      have i2 : φ 3 y (x.drop (3 * fu.num + ft.num)) = -∑ s ∈ Finset.range r.numNodes, qs.integrate fun t => g.sideMetric s t *
          (comb fl (sidePart fl.num (x.drop (3 * fu.num + ft.num)) s) t * edgeSign m.topo c ((m.topo.cell c).edges.getD s 0) *
            comb fv y (sideAt r s t)) := by
        rw [e4, ← Finset.sum_neg_distrib]
        refine Finset.sum_congr rfl fun s _ => ?_
        refine Eq.trans ?_ (neg_one_mul _)
        rw [← integrate_smul]
        exact integrate_congr _ fun t _ => by ring
      have i3 : φ 8 (y.drop fv.num) (x.drop (3 * fu.num)) + φ 9 (y.drop (2 * fv.num)) (x.drop (3 * fu.num)) =
          -∑ s ∈ Finset.range r.numNodes, qt.integrate fun t => g.sideMetric s t * (comb ft (x.drop (3 * fu.num)) (sideAt r s t) *
            (ns.getD s 0 0 * comb fv (y.drop fv.num) (sideAt r s t) + ns.getD s 0 1 * comb fv (y.drop (2 * fv.num)) (sideAt r s t))) := by
        rw [e9, e10, ← Finset.sum_add_distrib, ← Finset.sum_neg_distrib]
        refine Finset.sum_congr rfl fun s _ => ?_
        refine Eq.trans ?_ (neg_one_mul _)
        rw [← integrate_smul, ← integrate_add]
        refine integrate_congr _ fun t _ => ?_
        simp only [dot_fin, Matrix.cons_val_zero, Matrix.cons_val_one, Pi.neg_apply]
        ring
      dsimp only
      rw [hB, ← i1]
      linear_combination i2 + i3
    · rw [c3, ← l5]
      simp [hLc, V0, l3]
  refine ⟨fun c r g hr hg => ?_, fun ldlt hs hn => ?_⟩
  · obtain ⟨B, G, l, h1, h2, h3, h4, -, -, -, h5⟩ := main c r g hr hg
    exact ⟨B, G, l, h1, h2, h3, h4, h5⟩
  · refine ⟨hs, product_dofsOk hT iU hn, fun e he => product_numLocal hT iU he, fun e _ => ⟨aP e, aQ e, rfl⟩, fun e he => ?_⟩
    obtain ⟨c, hc, rfl⟩ := List.mem_map.1 he
    obtain ⟨r, g, g1, -, g3, -⟩ := hgeo.regular c (List.mem_range.1 hc)
    obtain ⟨B, G, l, h1, h2, h3, h4, h5, h6, h7, -⟩ := main c r g g1 g3
    exact ⟨B, G, l, h1, h2, h3, h4, h5, h6, h7⟩

end

/-! ## Usable cells -/

private theorem four_pos {w1 w2 w3 w4 d1 d2 d3 d4 : ℝ} (h1 : 0 ≤ w1) (h2 : 0 ≤ w2) (h3 : 0 ≤ w3) (h4 : 0 ≤ w4) (hw : w1 + w2 + w3 + w4 = 1)
    (k1 : 0 < d1) (k2 : 0 < d2) (k3 : 0 < d3) (k4 : 0 < d4) : 0 < w1 * d1 + w2 * d2 + w3 * d3 + w4 * d4 := by
  have hm : 0 < min (min d1 d2) (min d3 d4) := lt_min (lt_min k1 k2) (lt_min k3 k4)
  set m := min (min d1 d2) (min d3 d4) with hmd
  have m1 : m ≤ d1 := (min_le_left _ _).trans (min_le_left _ _)
  have m2 : m ≤ d2 := (min_le_left _ _).trans (min_le_right _ _)
  have m3 : m ≤ d3 := (min_le_right _ _).trans (min_le_left _ _)
  have m4 : m ≤ d4 := (min_le_right _ _).trans (min_le_right _ _)
  have e : (w1 + w2 + w3 + w4) * m = m := by rw [hw, one_mul]
  have := mul_le_mul_of_nonneg_left m1 h1
  have := mul_le_mul_of_nonneg_left m2 h2
  have := mul_le_mul_of_nonneg_left m3 h3
  have := mul_le_mul_of_nonneg_left m4 h4
  linarith

private theorem gram_ne {A B : Vec ℝ 2} (h : det2 A B ≠ 0) : ((matrix 2 [A, B]).transpose * matrix 2 [A, B]).det ≠ 0 := by
  rw [gram_two]
  have : dot A A * dot B B - dot A B * dot A B = det2 A B ^ 2 := by
    rw [det2_eq, dot_fin, dot_fin, dot_fin]
    ring
  rw [this]
  exact pow_ne_zero 2 h

private theorem det_quad (a b c d : Vec ℝ 2) (x y : ℝ) :
    det2 ((1 - y) • (b - a) + y • (c - d)) ((1 - x) • (d - a) + x • (c - b)) = x * (1 - y) * det2 (b - a) (c - b) + x * y * det2 (c - b) (d - c) +
      (1 - x) * y * det2 (d - c) (a - d) + (1 - x) * (1 - y) * det2 (a - d) (b - a) := by
  simp only [det2_eq, Pi.add_apply, Pi.smul_apply, Pi.sub_apply, smul_eq_mul]
  ring

/-- **C115**, cells: all meshes whose cells are triangles and strictly convex quadrilaterals with straight sides are
usable, whatever the orientation of the cells. -/
theorem C115_usable (T : Topo) (geo : Ent → Option (Geo ℝ 2))
    (h : ∀ c < T.numCells, ∃ r g, T.refEl (0, c) = some r ∧ geo (0, c) = some g ∧ g.kind = r ∧ g.StrictlyConvex) (hT : T.WF) :
    UsableCells T geo := by
  have hcell : ∀ c r g, T.refEl (0, c) = some r → geo (0, c) = some g → g.kind = r ∧ g.StrictlyConvex := by
    intro c r g hr hg
    obtain ⟨r', g', e1, e2, e3⟩ := h c (Topo.refEl_cell hT hr).1
    obtain rfl : r = r' := Option.some.inj (hr.symm.trans e1)
    obtain rfl : g = g' := Option.some.inj (hg.symm.trans e2)
    exact e3
  refine ⟨fun c hc => ?_, fun c r g hr hg s hs => ?_, fun c r g hr hg => ?_⟩
  · obtain ⟨r, g, e1, e2, rfl, e4⟩ := h c hc
    refine ⟨_, g, e1, ?_, e2, rfl, ?_⟩
    · match g, e4 with
      | .triaO1 .., _ => exact .inl rfl
      | .quadO1 .., _ => exact .inr rfl
      | .parallelogram .., _ => exact .inr rfl
    · intro z hz
      match g, e4, z, hz with
      | .triaO1 a b c, e4, [x, y], hz => exact ⟨_, rfl, gram_ne e4⟩
      | .parallelogram a b c d, e4, [x, y], hz => exact ⟨_, rfl, gram_ne e4.1⟩
      | .quadO1 a b c d, e4, [x, y], hz =>
        refine ⟨_, rfl, gram_ne ?_⟩
        obtain ⟨x0, x1, y0, y1⟩ := hz
        have x1' := sub_nonneg.2 x1
        have y1' := sub_nonneg.2 y1
        rw [det_quad]
        have hw : x * (1 - y) + x * y + (1 - x) * y + (1 - x) * (1 - y) = 1 := by ring
        rcases e4 with ⟨k1, k2, k3, k4⟩ | ⟨k1, k2, k3, k4⟩
        · exact (four_pos (mul_nonneg x0 y1') (mul_nonneg x0 y0) (mul_nonneg x1' y0) (mul_nonneg x1' y1') hw k1 k2 k3 k4).ne'
        · have := four_pos (mul_nonneg x0 y1') (mul_nonneg x0 y0) (mul_nonneg x1' y0) (mul_nonneg x1' y1') hw (neg_pos.2 k1) (neg_pos.2 k2)
            (neg_pos.2 k3) (neg_pos.2 k4)
          intro h0
          linarith
  · obtain ⟨rfl, hg2⟩ := hcell c r g hr hg
    obtain ⟨p, q, -, -, h3⟩ := straight g hg2 s hs
    exact ⟨_, h3, fun t => rfl⟩
  · obtain ⟨rfl, hg2⟩ := hcell c r g hr hg
    obtain ⟨ns, h1, h2, -⟩ := C86_normals g hg2
    exact ⟨ns, h1, h2⟩

/-! ## A concrete case -/

/-- The mesh with a triangle and a parallelogram is usable. -/
theorem dpgGeo_usable : UsableCells sampleTopo dpgGeo := by
  refine C115_usable _ _ (fun c hc => ?_) sampleTopo_WF
  obtain rfl | rfl : c = 0 ∨ c = 1 := by change c < 2 at hc; omega
  · refine ⟨_, _, (by decide : sampleTopo.refEl (0, 0) = some .tria), rfl, rfl, ?_⟩
    change det2 _ _ ≠ 0
    rw [det2_eq]; norm_num
  · refine ⟨_, _, (by decide : sampleTopo.refEl (0, 1) = some .quad), rfl, rfl, ?_, ?_⟩
    · rw [det2_eq]; norm_num
    · funext k; fin_cases k <;> simp <;> norm_num

/-- Concrete cases for the hypotheses of `C115_forms` and `C115_ultraweak`: Gauss rules, the mesh with a triangle and a
parallelogram; a builder with a flux and a reaction term; the ultraweak method of degree zero with enrichment two. -/
example : ∃ leg jac : ℕ → ℕ → ℝ, (∀ n, 0 < n → LegConverged n (leg n)) ∧ (∀ n, 0 < n → JacConverged n 1 0 (jac n)) ∧
    (∃ S, ultraweak (gaussBase leg jac) ⟨0, sampleTopo⟩ dpgGeo 0 2 (constFn 2) (constFn ![1, 2]) (constFn 1) = some S ∧
      ∀ ldlt : Ldlt, ldlt.Solves → (S.trial.data.handler sampleTopo).numDofs < 2 ^ 31 →
        DpgSetting ldlt sampleTopo (S.trial.data.handler sampleTopo) S.stiffness S.gramian S.load) ∧
    ∃ U V : ProductSpace ℝ, BuiltSpace sampleTopo [(.h1, 2), (.flux, 1)] U ∧ BuiltSpace sampleTopo [(.l2, 3)] V ∧
      ∀ F ∈ [MatForm.flux 1 0 (constFn (-1)), MatForm.reaction 0 0 (constFn 1)], F.Admissible sampleTopo [(.h1, 2), (.flux, 1)] [(.l2, 3)] := by
  have h := fun n (hn : 0 < n) => C76_converged_exists n hn
  have hleg : ∀ n, ∃ root, 0 < n → LegConverged n root := fun n => by
    by_cases hn : 0 < n
    · obtain ⟨r, hr⟩ := (h n hn).1
      exact ⟨r, fun _ => hr⟩
    · exact ⟨fun _ => 0, fun h => absurd h hn⟩
  have hjac : ∀ n, ∃ root, 0 < n → JacConverged n 1 0 root := fun n => by
    by_cases hn : 0 < n
    · obtain ⟨r, hr⟩ := (h n hn).2
      exact ⟨r, fun _ => hr⟩
    · exact ⟨fun _ => 0, fun h => absurd h hn⟩
  choose leg hleg using hleg
  choose jac hjac using hjac
  obtain ⟨S, hS, -, h3⟩ := C115_ultraweak leg jac hleg hjac ⟨0, sampleTopo⟩ sampleTopo_WF (by decide) dpgGeo dpgGeo_usable
    0 2 (by decide) (by decide) (constFn 2) (constFn ![1, 2]) (constFn 1) (fun _ _ => 2) (fun _ _ => ![1, 2]) (fun _ _ => 1)
    (fun _ _ _ => rfl) (fun _ _ _ => rfl) (fun _ _ _ => rfl)
  obtain ⟨F, F', is, U, hU, hUb, -⟩ := C87_build (K := ℝ) sampleTopo sampleTopo_WF [(.h1, 2), (.flux, 1)] (by simp)
    (by simp [Kind.supports])
  obtain ⟨G, G', js, V, hV, hVb, -⟩ := C87_build (K := ℝ) sampleTopo sampleTopo_WF [(.l2, 3)] (by simp) (by simp [Kind.supports])
  refine ⟨leg, jac, hleg, hjac, ⟨S, hS, h3⟩, U, V, ⟨F, is, F', hU, hUb⟩, ⟨G, js, G', hV, hVb⟩, fun F hF => ?_⟩
  simp only [List.mem_cons, List.not_mem_nil, or_false] at hF
  rcases hF with rfl | rfl
  all_goals exact ⟨⟨_, _, rfl, by simp, by decide⟩, ⟨_, _, rfl, by simp⟩, fun c _ => ⟨_, pointwise_const _ _⟩⟩

end Verif
