import Verif.Props.DpgGram
import Verif.Props.DpgProvider

/-!
# C114: the primal DPG method
-/

namespace Verif
open Geo Finset Dpg

/-! ## Cells -/

theorem regular_cell_computable {w : ℕ} {g : Geo ℝ w} {r : RefEl} {fe : RefFE ℝ} {p : ℕ} {q : QuadRule ℝ} (hr : r = .tria ∨ r = .quad)
    (hg : g.RegularOn r) (hfe : Regular fe r p) (hq : q.ref = r) (hw : q.WellFormed) (hp : q.Positive) :
    Computable g fe q g.metricAt ∧ ComputableGrad g fe q g.metricAt ∧ ∀ x ∈ q.points, 0 < g.metricAt x := by
  have hd2 : r.dimension = 2 := by rcases hr with rfl | rfl <;> rfl
  have hd : g.kind.dimension = 2 := hg.1 ▸ hd2
  have hlen : ∀ x ∈ q.points, x.length = fe.ref.dimension := fun x hx => by rw [hw.1 x hx, hq, hfe.ref]
  have hJ : ∀ x ∈ q.points, ∃ cols, g.jacobian x = some cols ∧ ((matrix 2 cols).transpose * matrix 2 cols).det ≠ 0 :=
    fun x hx => hg.2 x (hq ▸ hp.2 x hx)
  have hm : ∀ x ∈ q.points, g.integrationElement x = some (g.metricAt x) ∧ 0 < g.metricAt x := by
    intro x hx
    obtain ⟨cols, h1, h2⟩ := hJ x hx
    obtain ⟨t, t1, t2, t3⟩ := C38_integration_element g x cols h1
    rw [hd] at t3
    have ht : g.metricAt x = t := by rw [Geo.metricAt, t1]; rfl
    rw [ht]
    refine ⟨t1, lt_of_le_of_ne t2 fun h0 => h2 ?_⟩
    rw [← t3, ← h0]
    simp
  refine ⟨⟨hw.2, fun x hx => (hm x hx).1, fun x hx => hfe.evaluates.1 x (hlen x hx)⟩,
    ⟨hd, hw.2, fun x hx => (hm x hx).1, fun x hx => ?_, hJ⟩, fun x hx => (hm x hx).2⟩
  obtain ⟨v, hv, hl, hD⟩ := hfe.gradCorrect x (hlen x hx)
  refine ⟨v, hv, hl, fun d hd' => ?_⟩
  obtain ⟨i, hi, rfl⟩ := List.getElem_of_mem hd'
  have := (hD i (hl ▸ hi)).1
  rw [List.getD_eq_getElem _ _ hi] at this
  rw [this, hfe.ref, hd2]

theorem count_dofs (T : Topo) (hT : T.WF) (l : UniformLayout) (h : DofHandler) (hh : uniformDofHandler T l true = some h)
    (c : ℕ) (r : RefEl) (hr : T.refEl (0, c) = some r) :
    (h.all (0, c)).length = r.numNodes * l.point + r.numNodes * l.segment + l.interior r := by
  obtain ⟨hc, hn⟩ := Topo.refEl_cell hT hr
  obtain ⟨h', h1, -, -, h4⟩ := C09_uniform T hT l true
  rw [hh] at h1
  cases h1
  obtain ⟨-, hl, -⟩ := C11_uniform T hT l h hh
  have hel := hT.cell_edges_len c hc
  have hol := hT.cell_ori_len c hc
  rw [hl.2.2 c hc, List.length_append, List.length_append, h4 (0, c) r ⟨Nat.zero_le 2, hc⟩ hr]
  congr 2
  · rw [List.length_flatMap, List.map_congr_left (g := fun _ => l.point)]
    · simp [hn]
    · intro v hv
      have hv' := hT.cell_nodes c hc v hv
      refine (h4 (2, v) .point ⟨le_refl 2, hv'⟩ ?_).trans rfl
      simp [Topo.refEl, Topo.num, hv']
  · rw [List.length_flatMap, List.map_congr_left (g := fun _ => l.segment)]
    · simp [hn, hel, hol]
    · rintro ⟨e, o⟩ he
      have he' := hT.cell_edges c hc e (List.of_mem_zip he).1
      have := h4 (1, e) .segment ⟨one_le_two, he'⟩ (by simp [Topo.refEl, Topo.num, he'])
      dsimp only
      split
      · exact this
      · rw [List.length_reverse]; exact this

/-- The element of a component of degree `p` on cells, and its number of shape functions. -/
private theorem cell_element {k : Kind} {p : ℕ} (hk : k = .h1 ∨ k = .l2) (hp : 1 ≤ p ∧ p ≤ 3) {r : RefEl} (hr : r = .tria ∨ r = .quad)
    {S : ProductSpace ℝ} {i : ℕ} (hc : S.comps[i]? = compSpec k p) :
    ∃ fe, S.shapeFunctionLayout r i = some (some fe) ∧ Regular fe r p ∧
      fe.num = r.numNodes * (k.dofs p).point + r.numNodes * (k.dofs p).segment + (k.dofs p).interior r ∧
      (∀ v x, comb fe v x = comb (lagrFE p r) v x) ∧ fe.num = (lagrFE p r : RefFE ℝ).num ∧
      ∀ v x, combGrad fe v x = combGrad (lagrFE p r) v x := by
  obtain ⟨cs, hcs, -⟩ := compSpec_layout (K := ℝ) k p (by rcases hk with rfl | rfl <;> simp [Kind.supports, hp])
  obtain ⟨e1, e2, -, -⟩ := C91_elements k p cs hcs
  have hR := fun r => referenceFE_lagr (K := ℝ) p hp r
  rw [hcs] at hc
  have hn := (lagrFE_numCodim0 (K := ℝ) p hp r hr).2
  rcases hk with rfl | rfl
  · simp only [compSpec, if_pos (show p > 0 by omega), hR, Option.bind_some, Option.some.injEq] at hcs
    subst hcs
    refine ⟨lagrFE p r, ?_, ?_, ?_, fun _ _ => rfl, rfl, fun _ _ => rfl⟩
    · rw [ProductSpace.shapeFunctionLayout, hc]
      rcases hr with rfl | rfl <;> rfl
    · rcases hr with rfl | rfl
      · exact e1 _ rfl
      · exact e2 _ rfl
    · rw [hn]
      obtain ⟨h1, h3⟩ := hp
      rcases hr with rfl | rfl <;> interval_cases p <;> rfl
  · simp only [compSpec, hR, Option.bind_some, Option.some.injEq] at hcs
    subst hcs
    refine ⟨discontinuousFE (lagrFE p r), ?_, ?_, ?_, fun _ _ => rfl, rfl, fun _ _ => rfl⟩
    · rw [ProductSpace.shapeFunctionLayout, hc]
      rcases hr with rfl | rfl <;> rfl
    · rcases hr with rfl | rfl
      · exact e1 _ rfl
      · exact e2 _ rfl
    · change (lagrFE p r : RefFE ℝ).num = _
      rw [hn]
      obtain ⟨h1, h3⟩ := hp
      rcases hr with rfl | rfl <;> interval_cases p <;> rfl

/-! ## Spaces and providers -/

theorem make_space {T : Topo} (hT : T.WF) {l : List (Kind × ℕ)} (hne : l ≠ []) (hs : ∀ kp ∈ l, kp.1.supports kp.2)
    {cs : List (CompSpec ℝ)} (hcs : l.mapM (fun kp => compSpec (K := ℝ) kp.1 kp.2) = some cs) :
    ∃ S, ProductSpace.make T cs = some S ∧ ProductFE.init T (l.map fun kp => kp.1.dofs kp.2) = some S.data ∧
      ∀ (i : ℕ) (k : Kind) (p : ℕ), l[i]? = some (k, p) → S.comps[i]? = compSpec k p ∧
        ∃ h, S.data.comps[i]? = some h ∧ uniformDofHandler T (k.dofs p) true = some h := by
  obtain ⟨cs', e1, e2⟩ := mapM_of_forall (fun kp : Kind × ℕ => compSpec (K := ℝ) kp.1 kp.2)
    (fun kp c => c.layout = some (kp.1.dofs kp.2)) l fun kp hkp => compSpec_layout kp.1 kp.2 (hs kp hkp)
  rw [hcs] at e1
  cases e1
  have hm : cs.mapM CompSpec.layout = some (l.map fun kp => kp.1.dofs kp.2) := by
    clear hcs hne hs
    induction e2 with
    | nil => rfl
    | cons hab _ ih => simp [List.mapM_cons, hab, ih]
  obtain ⟨hsome, hspec⟩ := C15_construct T hT (l.map fun kp => kp.1.dofs kp.2)
  obtain ⟨D, hD⟩ := Option.isSome_iff_exists.1 (hsome.1 (by simpa using hne))
  obtain ⟨-, d2, -, -⟩ := hspec D hD
  have hlen : cs.length ≠ 0 := by
    rw [← e2.length_eq]
    simpa using hne
  refine ⟨⟨T, cs, D⟩, by simp only [ProductSpace.make, if_neg hlen, hm, Option.bind_some, hD, Option.map_some], hD,
    fun i k p hi => ⟨?_, d2 i _ (by rw [List.getElem?_map, hi]; rfl)⟩⟩
  obtain ⟨c, h1, h2⟩ := forall₂_get (mapM_forall₂ _ _ _ hcs) hi
  exact h1.trans h2.symm

theorem provider_comps {B : QuadBase ℝ} {m : MeshObj} {geo : Ent → Option (Geo ℝ 2)} {U V : ProductSpace ℝ} {P : SubMat} :
    (∀ i j a, diffusionProvider B U V m.topo geo i j a = some P →
      P.trialComponent = i ∧ P.testComponent = j ∧ ∀ e, P.isActive e = true) ∧
    (∀ i j a, reactionProvider B U V m.topo geo i j a = some P →
      P.trialComponent = i ∧ P.testComponent = j ∧ ∀ e, P.isActive e = true) ∧
    (∀ i j a b, convectionProvider B U V m.topo geo i j a b = some P →
      P.trialComponent = i ∧ P.testComponent = j ∧ ∀ e, P.isActive e = true) ∧
    ∀ i j a, fluxProvider B U V geo m i j a = some P →
      P.trialComponent = i ∧ P.testComponent = j ∧ ∀ e, P.isActive e = true := by
  refine ⟨fun i j a h => ?_, fun i j a h => ?_, fun i j a b h => ?_, fun i j a h => ?_⟩
  · rw [diffusionProvider, Option.map_eq_some_iff] at h
    obtain ⟨pre, -, rfl⟩ := h
    exact ⟨rfl, rfl, fun _ => rfl⟩
  · rw [reactionProvider, Option.map_eq_some_iff] at h
    obtain ⟨pre, -, rfl⟩ := h
    exact ⟨rfl, rfl, fun _ => rfl⟩
  · rw [convectionProvider, Option.map_eq_some_iff] at h
    obtain ⟨pre, -, rfl⟩ := h
    exact ⟨rfl, rfl, fun _ => rfl⟩
  · rw [fluxProvider, Option.bind_eq_some_iff] at h
    obtain ⟨d, -, h⟩ := h
    rw [Option.bind_eq_some_iff] at h
    obtain ⟨f, -, h⟩ := h
    rw [Option.bind_eq_some_iff] at h
    obtain ⟨ft, -, h⟩ := h
    split_ifs at h
    rw [Option.map_eq_some_iff] at h
    obtain ⟨pre, -, rfl⟩ := h
    exact ⟨rfl, rfl, fun _ => rfl⟩

theorem scalar_dot (c : ℝ) (u v : Vec ℝ 2) : dot u ((DiffCoeff.scalar c).toMatrix.mulVec v) = c * dot u v := by
  rw [← DiffCoeff.act_eq, DiffCoeff.act, dot_eq, dot_eq, dotProduct_smul, smul_eq_mul]

theorem dot_symm (u v : Vec ℝ 2) : dot u v = dot v u := by
  rw [dot_eq, dot_eq, dotProduct_comm]

/-! ## The Gramian -/

section
variable (leg jac : ℕ → ℕ → ℝ) (hl : ∀ n, 0 < n → LegConverged n (leg n)) (hj : ∀ n, 0 < n → JacConverged n 1 0 (jac n))
  (m : MeshObj) (hT : m.topo.WF) (hN : m.topo.numCells ≤ 2 ^ 31) (geo : Ent → Option (Geo ℝ 2)) (hgeo : RegularCells m.topo geo)
include hl hj hT hN hgeo

/-- **C114**, Gramian: for all meshes whose cells have Jacobians of full rank, and the degrees `p = 1, 2, 3`: the
matrices of the forms `∫ a grad u · grad v + γ u v` on the discontinuous space of degree `p`, with nonnegative `a` and
positive `γ`, can be computed with the quadrature rules of the library, and they are symmetric and positive definite. -/
theorem C114_gramian (p : ℕ) (hp : 1 ≤ p ∧ p ≤ 3) (norm : MeshFn ℝ (DiffCoeff 2)) (gamma : MeshFn ℝ ℝ) (a γ : ℕ → List ℝ → ℝ)
    (ha : ∀ c < m.topo.numCells, ∀ pts, norm (0, c) pts = some (pts.map fun x => .scalar (a c x))) (ha0 : ∀ c x, 0 ≤ a c x)
    (hγ : ∀ c < m.topo.numCells, ∀ pts, gamma (0, c) pts = some (pts.map (γ c))) (hγ0 : ∀ c x, 0 < γ c x) :
    ∃ F v F' V b P, (SpaceFactory.new m.topo).add .l2 p = some (F, v) ∧ F.build = some (F', V) ∧
      runMat (gaussBase leg jac) m geo V V [.add (.diffusion v v norm), .add (.reaction v v gamma), .build] = some (b, [P]) ∧
      (∀ e, P.isActive e = true) ∧ ∀ c r g, m.topo.refEl (0, c) = some r → geo (0, c) = some g → ∃ G fe q, P.eval (0, c) = some G ∧
        SPD G ∧ G.rows = ((V.data.handler m.topo).all (0, c)).length ∧ referenceFE r p = some fe ∧
        makeQuadRule (gaussBase leg jac) r (2 * p) = some q ∧ ∀ v u, G.form v u = q.integrate fun x => g.metricAt x *
          (a c x * dot (g.pushGrad x (combGrad fe v x)) (g.pushGrad x (combGrad fe u x)) + γ c x * (comb fe v x * comb fe u x)) := by
  have hsup : Kind.supports .l2 p := by simp [Kind.supports, hp]
  obtain ⟨cs, hcs, -⟩ := compSpec_layout (K := ℝ) .l2 p hsup
  obtain ⟨V, hV, hD, hcomp⟩ := make_space hT (l := [(.l2, p)]) (by simp) (by simpa using hsup) (cs := [cs])
    (by simp [List.mapM_cons, hcs])
  obtain ⟨hc0, h, hh, hu⟩ := hcomp 0 .l2 p rfl
  obtain ⟨k1, k2, -, -, -, -⟩ := C91_construct leg jac hl hj V V 0 0 .l2 .l2 p p hsup hsup hc0 hc0 m hT hN geo geo norm gamma gamma
    (constFn 0) (constFn 0) (constFn 0)
  obtain ⟨P1, hP1⟩ := Option.isSome_iff_exists.1 k1
  obtain ⟨P2, hP2⟩ := Option.isSome_iff_exists.1 k2
  obtain ⟨a1, a2, a3⟩ := provider_comps.1 _ _ _ hP1
  obtain ⟨b1, b2, b3⟩ := provider_comps.2.1 _ _ _ hP2
  refine ⟨⟨m.topo, [cs], 1⟩, 0, ⟨m.topo, [], 1⟩, V, ⟨[]⟩, productMat m.topo V.data V.data [P1, P2], ?_, ?_, ?_, fun _ => rfl, ?_⟩
  · simp [SpaceFactory.add, SpaceFactory.new, hcs]
  · simp [SpaceFactory.build, hV]
  · simp [runMat, Builder.run, Builder.new, Builder.add, Builder.build, MatForm.provider, hP1, hP2]
  -- the forms on one cell
  have key : ∀ c < m.topo.numCells, ∃ (r : RefEl) (g : Geo ℝ 2) (fe : RefFE ℝ) (q : QuadRule ℝ) (M1 M2 : Dense ℝ),
      (r = .tria ∨ r = .quad) ∧ m.topo.refEl (0, c) = some r ∧ geo (0, c) = some g ∧
      makeQuadRule (gaussBase leg jac) r (2 * p) = some q ∧
      P1.eval (0, c) = some M1 ∧ P2.eval (0, c) = some M2 ∧ M1.rows = fe.num ∧ M1.cols = fe.num ∧ M2.rows = fe.num ∧ M2.cols = fe.num ∧
      (h.all (0, c)).length = fe.num ∧ q.WellFormed ∧ q.Positive ∧ fe.num = (lagrFE p r : RefFE ℝ).num ∧
      (∀ v x, comb fe v x = comb (lagrFE p r) v x) ∧ (∀ v x, combGrad fe v x = combGrad (lagrFE p r) v x) ∧ (∀ v, IsPolyOn r p (comb fe v)) ∧
      (∀ f, IsPolyOn r p f → (∀ x ∈ q.points, f x = 0) → ∀ x y, r.Contains [x, y] → f [x, y] = 0) ∧
      (∀ x ∈ q.points, 0 < g.metricAt x) ∧
      (∀ v u, M1.form v u = q.integrate fun x => g.metricAt x *
        (a c x * dot (g.pushGrad x (combGrad fe v x)) (g.pushGrad x (combGrad fe u x)))) ∧
      (∀ v u, M2.form v u = q.integrate fun x => g.metricAt x * γ c x * (comb fe v x * comb fe u x)) := by
    intro c hc
    obtain ⟨r, g, hr, hr2, hg, hreg⟩ := hgeo c hc
    obtain ⟨fe, f1, f2, f3, f4, f5, f6⟩ := cell_element (.inr rfl) hp hr2 hc0
    obtain ⟨q, q1, q2, q3, q4, q5⟩ := C114_separates leg jac hl hj r hr2 p hp
    obtain ⟨c1, c2, c3⟩ := regular_cell_computable hr2 hreg f2 q2 q3 q4
    have hdeg : makeQuadRule (gaussBase leg jac) r (fe.degree + fe.degree) = some q := by rw [f2.degree, ← two_mul]; exact q1
    obtain ⟨-, -, -, M1, m1, m2, m3, m4⟩ := C91_diffusion _ V V m.topo geo 0 0 (0, c) hr2 hr hg f1 f1 hdeg c2 c2 norm _ (ha c hc _) P1 hP1
    obtain ⟨-, -, -, M2, n1, n2, n3, n4⟩ := C91_reaction _ V V m.topo geo 0 0 (0, c) hr2 hr hg f1 f1 hdeg c2.dim c1 c1 gamma _ (hγ c hc _) P2 hP2
    refine ⟨r, g, fe, q, M1, M2, hr2, hr, hg, q1, m1, n1, m2, m3, n2, n3, ?_, q3, q4, f5, f4, f6, fun v => comb_poly hr2 f2 v, q5, c3, fun v u => ?_, n4⟩
    · rw [count_dofs m.topo hT _ h hu c r hr, f3]
    · rw [m4]
      exact integrate_congr _ fun x _ => by rw [scalar_dot]
  have hfit : ∀ P ∈ [P1, P2], P.FitsIn m.topo V.data V.data := by
    have hent : ∀ e ∈ m.topo.entities 0, ∃ c < m.topo.numCells, e = (0, c) := by
      intro e he
      obtain ⟨i, hi, rfl⟩ := List.mem_map.1 he
      exact ⟨i, List.mem_range.1 hi, rfl⟩
    intro P hP
    simp only [List.mem_cons, List.not_mem_nil, or_false] at hP
    rcases hP with rfl | rfl
    · refine ⟨h, h, by rw [a1]; exact hh, by rw [a2]; exact hh, fun e he _ => ?_⟩
      obtain ⟨c, hc, rfl⟩ := hent e he
      obtain ⟨r, g, fe, q, M1, M2, -, -, -, -, m1, n1, m2, m3, n2, n3, hn, -⟩ := key c hc
      exact ⟨M1, m1, by rw [m2, hn], by rw [m3, hn]⟩
    · refine ⟨h, h, by rw [b1]; exact hh, by rw [b2]; exact hh, fun e he _ => ?_⟩
      obtain ⟨c, hc, rfl⟩ := hent e he
      obtain ⟨r, g, fe, q, M1, M2, -, -, -, -, m1, n1, m2, m3, n2, n3, hn, -⟩ := key c hc
      exact ⟨M2, n1, by rw [n2, hn], by rw [n3, hn]⟩
  intro c r' g' hr' hg'
  have hc : c < m.topo.numCells := (Topo.refEl_cell hT hr').1
  have hmem : ((0, c) : Ent) ∈ m.topo.entities 0 := List.mem_map.2 ⟨c, List.mem_range.2 hc, rfl⟩
  obtain ⟨G, g1, g2, g3, g4⟩ := C89_local hT hD hD [P1, P2] hfit (0, c) hmem
  obtain ⟨r, g, fe, q, M1, M2, hr2, hr, hg, q1, m1, n1, m2, m3, n2, n3, hn, q3, q4, f5, f4, f6, hpoly, hsep, hdet, F1, F2⟩ := key c hc
  obtain rfl : r = r' := Option.some.inj (hr.symm.trans hr')
  obtain rfl : g = g' := Option.some.inj (hg.symm.trans hg')
  have hstart : V.data.localStartIndex (0, c) 0 = some 0 := by
    rw [(C15_indices m.topo hT _ V.data hD (0, c) (mem_cells hmem)).2.2 0 (Nat.zero_le _)]
    rfl
  have hlen : ((V.data.handler m.topo).all (0, c)).length = fe.num := by
    rw [← hn, DofHandler.all, (C15_indices m.topo hT _ V.data hD (0, c) (mem_cells hmem)).1]
    simp [hh]
  have hform : ∀ x y, G.form x y = q.integrate (fun z => g.metricAt z *
        (a c z * dot (g.pushGrad z (combGrad fe x z)) (g.pushGrad z (combGrad fe y z)))) +
      q.integrate fun z => g.metricAt z * γ c z * (comb fe x z * comb fe y z) := by
    intro x y
    rw [g4, ← F1, ← F2]
    simp [a3, b3, a1, a2, b1, b2, hstart, m1, n1]
  refine ⟨G, lagrFE p r, q, g1, ⟨g2.trans g3.symm, fun i hi j hj => ?_, fun x hx => ?_⟩, g2, referenceFE_lagr p hp r, q1, fun v u => ?_⟩
  · rw [← form_unit rfl (g3.trans g2.symm) hi hj, ← form_unit rfl (g3.trans g2.symm) hj hi, hform, hform]
    congr 1
    · exact integrate_congr _ fun z _ => by rw [dot_symm]
    · exact integrate_congr _ fun z _ => by ring
  · have w0 : ∀ b ∈ q.weights, 0 ≤ b := fun b hb => (q4.1 b hb).le
    have i1 : 0 ≤ q.integrate fun z => g.metricAt z *
        (a c z * dot (g.pushGrad z (combGrad fe x z)) (g.pushGrad z (combGrad fe x z))) :=
      integrate_nonneg _ w0 fun z hz => mul_nonneg (hdet z hz).le (mul_nonneg (ha0 c z) (dot_self_nonneg _))
    have i2' : ∀ z ∈ q.points, 0 ≤ g.metricAt z * γ c z * (comb fe x z * comb fe x z) :=
      fun z hz => mul_nonneg (mul_pos (hdet z hz) (hγ0 c z)).le (mul_self_nonneg _)
    have i2 := integrate_nonneg _ w0 i2'
    rw [hform]
    refine lt_of_le_of_ne (add_nonneg i1 i2) fun h0 => ?_
    have hz : q.integrate (fun z => g.metricAt z * γ c z * (comb fe x z * comb fe x z)) = 0 := by linarith
    rw [integrate_eq_zero q q3.2 q4.1 i2'] at hz
    have hv : ∀ z ∈ q.points, comb fe x z = 0 := fun z hz' => by
      have := hz z hz'
      rwa [mul_eq_zero, or_iff_right (mul_pos (hdet z hz') (hγ0 c z)).ne', mul_self_eq_zero] at this
    have hcell := hsep _ (hpoly x) hv
    obtain ⟨i, hi, hxi⟩ := hx
    rw [g2, hlen, f5] at hi
    have := lagr_combine_zero p hp hr2 rfl (fun i : Fin (lagrFE p r : RefFE ℝ).num => x.getD i.val 0) fun y z hyz => by
      exact (f4 x [y, z]).symm.trans (hcell y z (contains_of_inCell hr2 hyz))
    exact hxi (congrFun this ⟨i, hi⟩)
  · rw [hform, ← integrate_add]
    refine integrate_congr _ fun z _ => ?_
    rw [f4, f4, f6, f6]
    ring

end

private theorem flux_element {p : ℕ} (hp : 1 ≤ p ∧ p ≤ 3) {S : ProductSpace ℝ} {i : ℕ} (hc : S.comps[i]? = compSpec .flux (p - 1)) :
    ∃ fl, referenceFE .segment (p - 1) = some fl ∧ S.shapeFunctionLayout .segment i = some (some (discontinuousFE fl)) ∧
      Regular (discontinuousFE fl) .segment (p - 1) ∧ fl.num = p := by
  obtain ⟨cs, hcs, -⟩ := compSpec_layout (K := ℝ) .flux (p - 1) (by simp only [Kind.supports]; omega)
  obtain ⟨-, -, e3, -⟩ := C91_elements .flux (p - 1) cs hcs
  rw [hcs] at hc
  simp only [compSpec, Option.bind_eq_some_iff, Option.some.injEq] at hcs
  obtain ⟨fl, h1, rfl⟩ := hcs
  refine ⟨fl, h1, by rw [ProductSpace.shapeFunctionLayout, hc]; rfl, e3 _ rfl, ?_⟩
  obtain ⟨a1, a3⟩ := hp
  interval_cases p <;> · cases h1; rfl

/-! ## The primal method -/

section
variable (leg jac : ℕ → ℕ → ℝ) (hl : ∀ n, 0 < n → LegConverged n (leg n)) (hj : ∀ n, 0 < n → JacConverged n 1 0 (jac n))
  (m : MeshObj) (hT : m.topo.WF) (hN : m.topo.numCells ≤ 2 ^ 31) (geo : Ent → Option (Geo ℝ 2)) (hgeo : RegularCells m.topo geo)
  (hside : ∀ c r g, m.topo.refEl (0, c) = some r → geo (0, c) = some g → g.SidesOn r)
include hl hj hT hN hgeo hside

/-- **C114**, the primal method: for all meshes whose cells have Jacobians of full rank, all degrees `1 ≤ p ≤ p + d ≤ 3`
and all coefficients, the spaces and providers of the primal DPG method can be constructed, and the element matrices and
vectors are those of its forms.  The assumptions of C90 are met, so that the solution minimises the residual. -/
theorem C114_primal (p d : ℕ) (hp : 1 ≤ p) (hpd : p + d ≤ 3) (alpha norm : MeshFn ℝ (DiffCoeff 2)) (beta : MeshFn ℝ (Vec ℝ 2))
    (f : MeshFn ℝ ℝ) (α : ℕ → List ℝ → DiffCoeff 2) (a : ℕ → List ℝ → ℝ) (β : ℕ → List ℝ → Vec ℝ 2) (F : ℕ → List ℝ → ℝ)
    (hα : ∀ c < m.topo.numCells, ∀ pts, alpha (0, c) pts = some (pts.map (α c)))
    (ha : ∀ c < m.topo.numCells, ∀ pts, norm (0, c) pts = some (pts.map fun x => .scalar (a c x))) (ha0 : ∀ c x, 0 ≤ a c x)
    (hβ : ∀ c < m.topo.numCells, ∀ pts, beta (0, c) pts = some (pts.map (β c)))
    (hF : ∀ c < m.topo.numCells, ∀ pts, f (0, c) pts = some (pts.map (F c))) :
    ∃ S, primal (gaussBase leg jac) m geo p d alpha norm beta f = some S ∧
      (∀ c r g, m.topo.refEl (0, c) = some r → geo (0, c) = some g → ∃ B G l, S.stiffness.eval (0, c) = some B ∧
        S.gramian.eval (0, c) = some G ∧ S.load.eval (0, c) = some l ∧
        PrimalForms (gaussBase leg jac) m.topo c r g p d (α c) (a c) (β c) (F c) B G l) ∧
      ∀ ldlt : Ldlt, ldlt.Solves → (S.trial.data.handler m.topo).numDofs < 2 ^ 31 →
        DpgSetting ldlt m.topo (S.trial.data.handler m.topo) S.stiffness S.gramian S.load := by
  have hp3 : 1 ≤ p ∧ p ≤ 3 := by omega
  have hr3 : 1 ≤ p + d ∧ p + d ≤ 3 := by omega
  have s1 : Kind.supports .h1 p := by simp [Kind.supports, hp3]
  have s2 : Kind.supports .flux (p - 1) := by simp only [Kind.supports]; omega
  have s3 : Kind.supports .l2 (p + d) := by simp [Kind.supports, hr3]
  obtain ⟨cu, hcu, -⟩ := compSpec_layout (K := ℝ) .h1 p s1
  obtain ⟨cq, hcq, -⟩ := compSpec_layout (K := ℝ) .flux (p - 1) s2
  obtain ⟨cv, hcv, -⟩ := compSpec_layout (K := ℝ) .l2 (p + d) s3
  obtain ⟨U, hU, hDU, hcompU⟩ := make_space hT (l := [(.h1, p), (.flux, p - 1)]) (by simp) (by simpa using ⟨s1, s2⟩) (cs := [cu, cq])
    (by simp [List.mapM_cons, hcu, hcq])
  obtain ⟨V, hV, hDV, hcompV⟩ := make_space hT (l := [(.l2, p + d)]) (by simp) (by simpa using s3) (cs := [cv])
    (by simp [List.mapM_cons, hcv])
  obtain ⟨u0, hu, hhu, huu⟩ := hcompU 0 .h1 p rfl
  obtain ⟨q0, hq, hhq, huq⟩ := hcompU 1 .flux (p - 1) rfl
  obtain ⟨v0, hv, hhv, huv⟩ := hcompV 0 .l2 (p + d) rfl
  obtain ⟨k1, -, k3, -, k5, -⟩ := C91_construct leg jac hl hj U V 0 0 .h1 .l2 p (p + d) s1 s3 u0 v0 m hT hN geo geo alpha f f
    (constFn 0) beta (constFn 0)
  obtain ⟨-, -, -, -, -, k6⟩ := C91_construct leg jac hl hj U V 1 0 .flux .l2 (p - 1) (p + d) s2 s3 q0 v0 m hT hN geo geo alpha (constFn (-1)) f
    (constFn 0) beta (constFn 0)
  obtain ⟨P1, hP1⟩ := Option.isSome_iff_exists.1 k1
  obtain ⟨P2, hP2⟩ := Option.isSome_iff_exists.1 (k6.2 rfl)
  obtain ⟨P3, hP3⟩ := Option.isSome_iff_exists.1 k3
  obtain ⟨L, hL⟩ := Option.isSome_iff_exists.1 k5
  obtain ⟨a1, a2, a3⟩ := provider_comps.1 _ _ _ hP1
  obtain ⟨b1, b2, b3⟩ := provider_comps.2.2.2 _ _ _ hP2
  obtain ⟨c1, c2, c3⟩ := provider_comps.2.2.1 _ _ _ _ hP3
  have hLc : L.testComponent = 0 ∧ ∀ e, L.isActive e = true := by
    rw [loadProvider, Option.map_eq_some_iff] at hL
    obtain ⟨pre, -, rfl⟩ := hL
    exact ⟨rfl, fun _ => rfl⟩
  obtain ⟨FG, v, FG', V', b, PG, g1, g2, g3, g4, g5⟩ := C114_gramian leg jac hl hj m hT hN geo hgeo (p + d) hr3 norm (constFn 1) a
    (fun _ _ => 1) ha ha0 (fun _ _ _ => rfl) fun _ _ => one_pos
  have hadd : (SpaceFactory.new m.topo).add .l2 (p + d) = some ((⟨m.topo, [cv], 1⟩ : SpaceFactory ℝ), 0) := by
    simp [SpaceFactory.add, SpaceFactory.new, hcv]
  rw [hadd] at g1
  cases g1
  have hbuild : SpaceFactory.build (⟨m.topo, [cv], 1⟩ : SpaceFactory ℝ) = some (⟨m.topo, [], 1⟩, V) := by
    simp [SpaceFactory.build, hV]
  rw [hbuild] at g2
  cases g2
  refine ⟨⟨U, V, productMat m.topo U.data V.data [P1, P2, P3], PG, productVec m.topo V.data [L]⟩, ?_, ?_⟩
  · unfold primal
    rw [show (SpaceFactory.new m.topo).add .h1 p = some ((⟨m.topo, [cu], 1⟩ : SpaceFactory ℝ), 0) by
      simp [SpaceFactory.add, SpaceFactory.new, hcu], Option.bind_some]
    dsimp only
    rw [show SpaceFactory.add (⟨m.topo, [cu], 1⟩ : SpaceFactory ℝ) .flux (p - 1) = some ((⟨m.topo, [cu, cq], 2⟩ : SpaceFactory ℝ), 1) by
      simp [SpaceFactory.add, hcq], Option.bind_some]
    dsimp only
    rw [show SpaceFactory.build (⟨m.topo, [cu, cq], 2⟩ : SpaceFactory ℝ) = some (⟨m.topo, [], 2⟩, U) by
      simp [SpaceFactory.build, hU], Option.bind_some]
    dsimp only
    rw [hadd, Option.bind_some]
    dsimp only
    rw [hbuild, Option.bind_some]
    dsimp only
    rw [show runMat (gaussBase leg jac) m geo U V [.add (.diffusion 0 0 alpha), .add (.flux 1 0 (constFn (-1))),
        .add (.convection 0 0 (constFn 0) beta), .build] = some (⟨[]⟩, [productMat m.topo U.data V.data [P1, P2, P3]]) by
      simp [runMat, Builder.run, Builder.new, Builder.add, Builder.build, MatForm.provider, hP1, hP2, hP3], Option.bind_some]
    dsimp only
    rw [g3, Option.bind_some]
    dsimp only
    rw [show runVec (gaussBase leg jac) m geo V [.add ⟨0, f⟩, .build] = some (⟨[]⟩, [productVec m.topo V.data [L]]) by
      simp [runVec, Builder.run, Builder.new, Builder.add, Builder.build, VecForm.provider, hL]]
    rfl
  -- the forms on one cell
  have key : ∀ c r g, m.topo.refEl (0, c) = some r → geo (0, c) = some g → ∃ (ft fv fl : RefFE ℝ) (qb qg qs : QuadRule ℝ) (M1 M2 M3 : Dense ℝ) (l : List ℝ),
      referenceFE r p = some ft ∧ referenceFE r (p + d) = some fv ∧ referenceFE .segment (p - 1) = some fl ∧
      makeQuadRule (gaussBase leg jac) r (p + (p + d)) = some qb ∧ makeQuadRule (gaussBase leg jac) r (2 * (p + d)) = some qg ∧
      makeQuadRule (gaussBase leg jac) .segment (p - 1 + (p + d)) = some qs ∧
      (hu.all (0, c)).length = ft.num ∧
      (P1.eval (0, c) = some M1 ∧ M1.rows = (hv.all (0, c)).length ∧ M1.cols = (hu.all (0, c)).length) ∧
      (P2.eval (0, c) = some M2 ∧ M2.rows = (hv.all (0, c)).length ∧ M2.cols = (hq.all (0, c)).length) ∧
      (P3.eval (0, c) = some M3 ∧ M3.rows = (hv.all (0, c)).length ∧ M3.cols = (hu.all (0, c)).length) ∧
      (L.eval (0, c) = some l ∧ l.length = (hv.all (0, c)).length) ∧
      (∀ v x, M1.form v x = qb.integrate fun z => g.metricAt z *
        dot (g.pushGrad z (combGrad fv v z)) ((α c z).toMatrix.mulVec (g.pushGrad z (combGrad ft x z)))) ∧
      (∀ v x, M2.form v x = -∑ s ∈ range r.numNodes, qs.integrate fun t => g.sideMetric s t *
        (comb fl (sidePart fl.num x s) t * edgeSign m.topo c ((m.topo.cell c).edges.getD s 0) * comb fv v (sideAt r s t))) ∧
      (∀ v x, M3.form v x = qb.integrate fun z => g.metricAt z *
        (comb fv v z * dot (β c z) (g.pushGrad z (combGrad ft x z)))) ∧
      ∀ v, dotList v l = qg.integrate fun z => g.metricAt z * (F c z * comb fv v z) := by
    intro c r g hr hg
    have hc : c < m.topo.numCells := (Topo.refEl_cell hT hr).1
    obtain ⟨hr2, hreg⟩ : (r = .tria ∨ r = .quad) ∧ g.RegularOn r := by
      obtain ⟨r', g', e1, e2, e3, e4⟩ := hgeo c hc
      rw [hr] at e1
      rw [hg] at e3
      cases e1
      cases e3
      exact ⟨e2, e4⟩
    obtain ⟨ft, f1, f2, f3, f4, f5, f6⟩ := cell_element (.inl rfl) hp3 hr2 u0
    obtain ⟨fv, e1, e2, e3, e4, e5, e6⟩ := cell_element (.inr rfl) hr3 hr2 v0
    obtain ⟨fl, l1, l2, l3, l4⟩ := flux_element hp3 q0
    obtain ⟨qb, x1, x2, x3, x4, -, -⟩ := dpg_make_positive leg jac hl hj hr2 (p + (p + d)) (by omega)
    obtain ⟨qg, y1, y2, y3, y4, -, -⟩ := dpg_make_positive leg jac hl hj hr2 (2 * (p + d)) (by omega)
    obtain ⟨qs, z1, z2, z3, -⟩ := C76_make leg jac hl hj .segment (by simp) (p - 1 + (p + d))
    have hdeg : makeQuadRule (gaussBase leg jac) r (ft.degree + fv.degree) = some qb := by rw [f2.degree, e2.degree]; exact x1
    obtain ⟨t1, t2, -⟩ := regular_cell_computable hr2 hreg f2 x2 x3 x4
    obtain ⟨v1, v2, -⟩ := regular_cell_computable hr2 hreg e2 x2 x3 x4
    obtain ⟨w1, w2, -⟩ := regular_cell_computable hr2 hreg e2 y2 y3 y4
    obtain ⟨-, -, -, M1, m1, m2, m3, m4⟩ := C91_diffusion _ U V m.topo geo 0 0 (0, c) hr2 hr hg f1 e1 hdeg t2 v2 alpha _ (hα c hc _) P1 hP1
    obtain ⟨-, -, -, M3, n1, n2, n3, n4⟩ := C91_convection _ U V m.topo geo 0 0 (0, c) hr2 hr hg f1 e1 hdeg t2 v2 t1 v1 (constFn 0) beta
      (fun _ => 0) _ rfl (hβ c hc _) P3 hP3
    obtain ⟨-, -, -, M2, o1, o2, o3, o4⟩ := C91_flux (gaussBase leg jac) U V m hT hN geo 1 0 c hc hr hg (by rw [hreg.1]; rcases hr2 with rfl | rfl <;> rfl) l2 e1
      (q := qs) (by rw [l3.degree, e2.degree]; exact z1) z2 z3 l3.evaluates e2.evaluates l3.ref e2.ref
      (detS := g.sideMetric) (fun s hs => by
        obtain ⟨side, j1, j2⟩ := hside c r g hr hg s hs
        refine ⟨side, j1, fun t ht => ?_⟩
        have hlen : t.length = 1 := by rw [z3.1 t ht, z2]; rfl
        obtain ⟨t0, rfl⟩ := List.length_eq_one_iff.1 hlen
        obtain ⟨y, hy⟩ := Option.isSome_iff_exists.1 (j2 t0)
        rw [Geo.sideMetric, j1, Option.bind_some, hy]
        rfl) (constFn (-1)) (fun _ => -1) (fun _ => rfl) P2 hP2
    obtain ⟨-, -, l, r1, r2, r3⟩ := C91_load (gaussBase leg jac) V m.topo geo 0 (0, c) hr2 hr hg e1 (by rw [e2.degree]; exact y1) w2.dim w1 f _ (hF c hc _) L hL
    have nu := count_dofs m.topo hT _ hu huu c r hr
    have nv := count_dofs m.topo hT _ hv huv c r hr
    have nq := count_dofs m.topo hT _ hq huq c r hr
    rw [← f3] at nu
    rw [← e3] at nv
    have nq' : (hq.all (0, c)).length = (discontinuousFE fl).num * r.numNodes := by
      rw [nq]
      change _ = fl.num * r.numNodes
      rw [l4, show ((Kind.flux.dofs (p - 1)).point) = 0 from rfl, show ((Kind.flux.dofs (p - 1)).segment) = p - 1 + 1 from rfl,
        Nat.sub_add_cancel hp, mul_zero, zero_add, Nat.mul_comm]
      rcases hr2 with rfl | rfl <;> rfl
    refine ⟨lagrFE p r, lagrFE (p + d) r, fl, qb, qg, qs, M1, M2, M3, l, referenceFE_lagr p hp3 r, referenceFE_lagr _ hr3 r, l1, x1, y1, z1,
      by rw [nu, f5], ⟨m1, by rw [m2, nv], by rw [m3, nu]⟩, ⟨o1, by rw [o2, nv], by rw [o3, nq']⟩, ⟨n1, by rw [n2, nv], by rw [n3, nu]⟩,
      ⟨r1, by rw [r2, nv]⟩, fun v x => ?_, fun v x => ?_, fun v x => ?_, fun v => ?_⟩
    · rw [m4]
      exact integrate_congr _ fun z _ => by rw [f6, e6]
    · rw [o4, ← Finset.sum_neg_distrib]
      refine Finset.sum_congr rfl fun s _ => ?_
      refine Eq.trans ?_ (neg_one_mul _)
      rw [← integrate_smul]
      refine integrate_congr _ fun t _ => ?_
      rw [e4]
      change _ * (-1 : ℝ) * _ * (_ * comb fl (sidePart fl.num x s) t) = _
      ring
    · rw [n4]
      refine integrate_congr _ fun z _ => ?_
      rw [f6, e4, dot_eq, zero_dotProduct, zero_mul, zero_add]
    · rw [r3]
      exact integrate_congr _ fun z _ => by rw [e4]
  have hcell : ∀ e ∈ m.topo.entities 0, ∃ c r g, e = (0, c) ∧ m.topo.refEl (0, c) = some r ∧ geo (0, c) = some g := by
    intro e he
    obtain ⟨i, hi, rfl⟩ := List.mem_map.1 he
    obtain ⟨r, g, h1, -, h2, -⟩ := hgeo i (List.mem_range.1 hi)
    exact ⟨i, r, g, rfl, h1, h2⟩
  have hfit : ∀ P ∈ [P1, P2, P3], P.FitsIn m.topo U.data V.data := by
    intro P hP
    simp only [List.mem_cons, List.not_mem_nil, or_false] at hP
    rcases hP with rfl | rfl | rfl
    · refine ⟨hu, hv, by rw [a1]; exact hhu, by rw [a2]; exact hhv, fun e he _ => ?_⟩
      obtain ⟨c, r, g, rfl, hr, hg⟩ := hcell e he
      obtain ⟨_, _, _, _, _, _, M1, M2, M3, l, -, -, -, -, -, -, -, h1, h2, h3, h4, -⟩ := key c r g hr hg
      exact ⟨_, h1⟩
    · refine ⟨hq, hv, by rw [b1]; exact hhq, by rw [b2]; exact hhv, fun e he _ => ?_⟩
      obtain ⟨c, r, g, rfl, hr, hg⟩ := hcell e he
      obtain ⟨_, _, _, _, _, _, M1, M2, M3, l, -, -, -, -, -, -, -, h1, h2, h3, h4, -⟩ := key c r g hr hg
      exact ⟨_, h2⟩
    · refine ⟨hu, hv, by rw [c1]; exact hhu, by rw [c2]; exact hhv, fun e he _ => ?_⟩
      obtain ⟨c, r, g, rfl, hr, hg⟩ := hcell e he
      obtain ⟨_, _, _, _, _, _, M1, M2, M3, l, -, -, -, -, -, -, -, h1, h2, h3, h4, -⟩ := key c r g hr hg
      exact ⟨_, h3⟩
  have hfitL : ∀ P ∈ [L], P.FitsIn m.topo V.data := by
    intro P hP
    rw [List.mem_singleton] at hP
    subst hP
    refine ⟨hv, by rw [hLc.1]; exact hhv, fun e he _ => ?_⟩
    obtain ⟨c, r, g, rfl, hr, hg⟩ := hcell e he
    obtain ⟨_, _, _, _, _, _, M1, M2, M3, l, -, -, -, -, -, -, -, h1, h2, h3, h4, -⟩ := key c r g hr hg
    exact ⟨_, h4⟩
  have main : ∀ c r g, m.topo.refEl (0, c) = some r → geo (0, c) = some g → ∃ B G l, productMatEval m.topo U.data V.data [P1, P2, P3] (0, c) = some B ∧
        PG.eval (0, c) = some G ∧ productVecEval m.topo V.data [L] (0, c) = some l ∧ SPD G ∧ B.rows = G.rows ∧
        B.cols = ((U.data.handler m.topo).all (0, c)).length ∧ l.length = G.rows ∧
        PrimalForms (gaussBase leg jac) m.topo c r g p d (α c) (a c) (β c) (F c) B G l := by
    intro c r g hr hg
    have hc : c < m.topo.numCells := (Topo.refEl_cell hT hr).1
    have hmem : ((0, c) : Ent) ∈ m.topo.entities 0 := List.mem_map.2 ⟨c, List.mem_range.2 hc, rfl⟩
    obtain ⟨ft, fv, fl, qb, qg, qs, M1, M2, M3, l, i1, i2, i3, i4, i5, i6, i7, ⟨m1, -, -⟩, ⟨m2, -, -⟩, ⟨m3, -, -⟩, ⟨m4, -⟩, F1, F2, F3, F4⟩ := key c r g hr hg
    obtain ⟨G, fe, q, G1, G2, G3, G4, G5, G6⟩ := g5 c r g hr hg
    obtain ⟨B, B1, B2, B3, B4⟩ := C89_local hT hDU hDV [P1, P2, P3] hfit (0, c) hmem
    obtain ⟨b, b1', b2', b3'⟩ := C89_localVec hT hDV [L] hfitL (0, c) hmem
    have st0 : V.data.localStartIndex (0, c) 0 = some 0 := by
      rw [(C15_indices m.topo hT _ V.data hDV (0, c) (mem_cells hmem)).2.2 0 (Nat.zero_le _)]
      rfl
    have st1 : U.data.localStartIndex (0, c) 0 = some 0 := by
      rw [(C15_indices m.topo hT _ U.data hDU (0, c) (mem_cells hmem)).2.2 0 (Nat.zero_le _)]
      rfl
    have st2 : U.data.localStartIndex (0, c) 1 = some ft.num := by
      rw [(C15_indices m.topo hT _ U.data hDU (0, c) (mem_cells hmem)).2.2 1 (by simp)]
      simp [hhu, i7]
    rw [i2] at G4
    cases G4
    rw [i5] at G5
    cases G5
    refine ⟨B, G, b, B1, G1, b1', G2, by rw [B2, G3], B3, by rw [b2', G3], ft, fv, fl, qb, qg, qs, i1, i2, i3, i4, i5, i6, fun v x => ?_,
      fun v w => ?_, fun v => ?_⟩
    · have : B.form v x = M1.form v x + M2.form v (x.drop ft.num) + M3.form v x := by
        rw [B4]
        simp [a3, b3, c3, a1, a2, b1, b2, c1, c2, st0, st1, st2, m1, m2, m3, add_assoc]
      have hsum : (qb.integrate fun z => g.metricAt z *
          (dot (g.pushGrad z (combGrad fv v z)) ((α c z).toMatrix.mulVec (g.pushGrad z (combGrad ft x z))) +
            comb fv v z * dot (β c z) (g.pushGrad z (combGrad ft x z)))) = M1.form v x + M3.form v x := by
        rw [F1, F3, ← integrate_add]
        exact integrate_congr _ fun z _ => by ring
      rw [this, hsum, F2]
      ring
    · rw [G6]
      exact integrate_congr _ fun z _ => by rw [one_mul]
    · rw [b3', ← F4]
      simp [hLc, st0, m4]
  refine ⟨fun c r g hr hg => ?_, fun ldlt hs hn => ?_⟩
  · obtain ⟨B, G, l, h1, h2, h3, -, -, -, -, h4⟩ := main c r g hr hg
    exact ⟨B, G, l, h1, h2, h3, h4⟩
  · refine ⟨hs, product_dofsOk hT hDU hn, fun e he => product_numLocal hT hDU he, fun e _ => ⟨rfl, g4 e, rfl⟩, fun e he => ?_⟩
    obtain ⟨c, r, g, rfl, hr, hg⟩ := hcell e he
    obtain ⟨B, G, l, h1, h2, h3, h4, h5, h6, h7, -⟩ := main c r g hr hg
    exact ⟨B, G, l, h1, h2, h3, h4, h5, h6, h7⟩

end

/-! ## A concrete case -/

/-- The cells of the mesh with a triangle and a parallelogram have Jacobians of full rank, and their sides have metric
factors. -/
theorem dpgGeo_regular : RegularCells sampleTopo dpgGeo ∧
    ∀ c r g, sampleTopo.refEl (0, c) = some r → dpgGeo (0, c) = some g → g.SidesOn r := by
  refine ⟨fun c hc => ?_, fun c r g hr hg => ?_⟩
  · obtain rfl | rfl : c = 0 ∨ c = 1 := by change c < 2 at hc; omega
    · refine ⟨.tria, _, by decide, .inl rfl, rfl, rfl, fun x hx => ?_⟩
      match x, hx with
      | [a, b], _ =>
        refine ⟨_, rfl, ?_⟩
        simp [matrix, Matrix.det_fin_two]
    · refine ⟨.quad, _, by decide, .inr rfl, rfl, rfl, fun x hx => ?_⟩
      match x, hx with
      | [a, b], _ =>
        refine ⟨_, rfl, ?_⟩
        simp [matrix, Matrix.det_fin_two]
  · match c, hg with
    | 0, hg =>
      cases hg
      obtain rfl : RefEl.tria = r := Option.some.inj ((by decide : sampleTopo.refEl (0, 0) = some .tria).symm.trans hr)
      intro s hs
      change s < 3 at hs
      interval_cases s <;> exact ⟨_, rfl, fun t => rfl⟩
    | 1, hg =>
      cases hg
      obtain rfl : RefEl.quad = r := Option.some.inj ((by decide : sampleTopo.refEl (0, 1) = some .quad).symm.trans hr)
      intro s hs
      change s < 4 at hs
      interval_cases s <;> exact ⟨_, rfl, fun t => rfl⟩

/-- Concrete cases for the hypotheses of `C114_separates`, `C114_gramian` and `C114_primal`: Gauss rules, the mesh with a
triangle and a parallelogram, linear trial functions with constant fluxes and test functions of degree three, for
`-Δu + (1, 2) · grad u = 1`. -/
example : ∃ leg jac : ℕ → ℕ → ℝ, (∀ n, 0 < n → LegConverged n (leg n)) ∧ (∀ n, 0 < n → JacConverged n 1 0 (jac n)) ∧
    ∃ S, primal (gaussBase leg jac) ⟨0, sampleTopo⟩ dpgGeo 1 2 (constFn (.scalar 1)) (constFn (.scalar 1)) (constFn ![1, 2]) (constFn 1) = some S ∧
      ∀ ldlt : Ldlt, ldlt.Solves → (S.trial.data.handler sampleTopo).numDofs < 2 ^ 31 →
        DpgSetting ldlt sampleTopo (S.trial.data.handler sampleTopo) S.stiffness S.gramian S.load := by
  have h := fun n (hn : 0 < n) => C76_converged_exists n hn
  have hleg : ∀ n, ∃ root, 0 < n → LegConverged n root := fun n => by
    by_cases hn : 0 < n
    · obtain ⟨r, hr⟩ := (h n hn).1
      exact ⟨r, fun _ => hr⟩
    · exact ⟨fun _ => 0, fun h => absurd h hn⟩
  have hjac : ∀ n, ∃ root, 0 < n → JacConverged n 1 0 root := fun n => by
    by_cases hn : 0 < n
    · obtain ⟨r, hr⟩ := (h n hn).2
      exact ⟨r, fun _ => hr⟩
    · exact ⟨fun _ => 0, fun h => absurd h hn⟩
  choose leg hleg using hleg
  choose jac hjac using hjac
  obtain ⟨S, hS, -, h3⟩ := C114_primal leg jac hleg hjac ⟨0, sampleTopo⟩ sampleTopo_WF (by decide) dpgGeo dpgGeo_regular.1 dpgGeo_regular.2
    1 2 le_rfl le_rfl (constFn (.scalar 1)) (constFn (.scalar 1)) (constFn ![1, 2]) (constFn 1) (fun _ _ => .scalar 1) (fun _ _ => 1)
    (fun _ _ => ![1, 2]) (fun _ _ => 1) (fun _ _ _ => rfl) (fun _ _ _ => rfl) (fun _ _ => zero_le_one) (fun _ _ _ => rfl) (fun _ _ _ => rfl)
  exact ⟨leg, jac, hleg, hjac, S, hS, h3⟩

end Verif
