import Verif.Lemmas.Interpolation

/-!
# C74: nodal projection onto Lagrangian spaces interpolates

`T.SingleValued f` and `T.Evaluates u f` are defined in `Verif/Spec/Interpolation.lean`.
-/

namespace Verif
open Geo

/-- Linear combination of shape functions on a cell. -/
theorem lagr_evalFE (T : Topo) (hT : T.WF) (p : ℕ) (hp : 1 ≤ p ∧ p ≤ 3) (U : UniformFESpace ℝ)
    (hU : lagrangeSpace T p = some U) (F : List ℝ) (hF : F.length = U.dofh.numDofs) (c : ℕ) (r : RefEl)
    (hr : T.refEl (0, c) = some r) (x : List ℝ) (hx : x.length = 2) :
    (U.space T).evalFE F (0, c) x = some (∑ i ∈ Finset.range (lagrFE p r : RefFE ℝ).num,
      ((U.dofh.all (0, c)).map fun d => F.getD d 0).getD i 0 * (lagrFE p r : RefFE ℝ).shape i x) := by
  obtain ⟨cnt, h⟩ := lagr_conforming T hT p hp U hU
  obtain ⟨hc, hn⟩ := Topo.refEl_cell hT hr
  have hrp : r = .tria ∨ r = .quad := by
    have := hT.cell_len c hc
    rw [← hn] at this
    revert this
    cases r <;> simp [RefEl.numNodes]
  have hE : T.IsEnt (0, c) := ⟨Nat.zero_le 2, hc⟩
  have hL := lagrFE_isLagrange p hp r (by rcases hrp with rfl | rfl <;> simp)
  have hlay : (U.space T).layout (0, c) = some (lagrFE p r) := by
    rw [lagrangeSpace_eq T p hp] at hU
    obtain ⟨dh, -, rfl⟩ := Option.map_eq_some_iff.mp hU
    change (T.refEl (0, c)).bind _ = _
    rw [hr]
    rcases hrp with rfl | rfl <;> rfl
  have hnum := h.num_cell hr hlay hL.evaluates
  have hd : (lagrFE p r : RefFE ℝ).ref.dimension = 2 := by
    obtain ⟨h1, h3⟩ := hp
    rcases hrp with rfl | rfl <;> interval_cases p <;> rfl
  obtain ⟨v, hv, hvl⟩ := hL.evaluates.1 x (by rw [hd, hx])
  rw [FeSpace.evalFE, hlay, Option.bind_some, hv, Option.bind_some,
    localDofs_eq (h.answers _ hE).2.1 (by rw [hvl, hnum]) (by rw [hF]; exact (h.range _ hE).1), Option.map_some,
    RefFE.sum_shape hv hvl (by rw [List.length_map]; exact hnum)]
  rfl

/-- **C74**, for all meshes, Lagrangian spaces of order 1, 2 and 3 and functions with one value per point: the
finite element function with the coefficients computed by `NodalProjection` has on every selected cell the values of
the given function at the evaluation nodes of the finite element, and wherever the given function is on a cell a
polynomial of the degree of the space, it is that polynomial. -/
theorem C74_interpolates (T : Topo) (hT : T.WF) (p : ℕ) (hp : 1 ≤ p ∧ p ≤ 3) (U : UniformFESpace ℝ)
    (hU : lagrangeSpace T p = some U) (u : MeshFn ℝ ℝ) (f : Ent → List ℝ → ℝ) (hf : T.SingleValued f)
    (hu : T.Evaluates u f) (pred : ℕ → Bool) :
    ∃ F, nodalProjection (U.space T) u pred = some F ∧ F.length = U.dofh.numDofs ∧
      ∀ c r, T.refEl (0, c) = some r → pred c = true → ∀ fe, (U.space T).layout (0, c) = some fe →
        (∀ x ∈ fe.nodes, (U.space T).evalFE F (0, c) x = some (f (0, c) x)) ∧
        ∀ g, IsPolyOn r p g → (∀ x, r.Contains x → f (0, c) x = g x) →
          ∀ x : List ℝ, x.length = 2 → (U.space T).evalFE F (0, c) x = some (g x) := by
  obtain ⟨cnt, h⟩ := lagr_conforming T hT p hp U hU
  obtain ⟨dh, hdh, hans, hpart, hlen⟩ := C09_uniform T hT (lagrangeLayout p) true
  have hdo : U.dofh = dh := by
    rw [lagrangeSpace_eq T p hp, hdh] at hU
    cases hU; rfl
  obtain ⟨V, hV⟩ := exists_dofVals T p U (by rw [hdo]; exact hpart) f
  have hrp : ∀ c r, T.refEl (0, c) = some r → r = .tria ∨ r = .quad := by
    intro c r hr
    obtain ⟨hc, hn⟩ := Topo.refEl_cell hT hr
    have := hT.cell_len c hc
    rw [← hn] at this
    revert this
    cases r <;> simp [RefEl.numNodes]
  have hlay : ∀ c r, T.refEl (0, c) = some r → (U.space T).layout (0, c) = some (lagrFE p r) := by
    intro c r hr
    have hU' := hU
    rw [lagrangeSpace_eq T p hp] at hU'
    obtain ⟨dh, -, rfl⟩ := Option.map_eq_some_iff.mp hU'
    change (T.refEl (0, c)).bind _ = _
    rw [hr]
    rcases hrp c r hr with rfl | rfl <;> rfl
  have hcell : ∀ c r, T.refEl (0, c) = some r →
      (U.dofh.all (0, c)).map V = (lagrFE p r : RefFE ℝ).nodes.map (f (0, c)) := fun c r hr =>
    dofVals_cell T hT p hp U h.laid (by rw [hdo]; exact hlen) f hf V hV c r hr (hrp c r hr)
  have hcr : ∀ c < T.numCells, ∃ r, T.refEl (0, c) = some r := by
    intro c hc
    simp only [Topo.refEl, if_pos (show c < T.num 0 from hc)]
    rcases hT.cell_len c hc with h | h <;> simp [h]
  have hI : ∀ c < T.numCells, pred c = true → (U.space T).Interpolant u (0, c) ((U.dofh.all (0, c)).map V) := by
    intro c hc _
    obtain ⟨r, hr⟩ := hcr c hc
    have hL := lagrFE_isLagrange p hp r (by rcases hrp c r hr with rfl | rfl <;> simp)
    refine ⟨lagrFE p r, (lagrFE p r : RefFE ℝ).nodes.map (f (0, c)), hlay c r hr,
      hu c r hr _ (lagrFE_contains p hp r (hrp c r hr)), by simpa using hL.nodes_ne, ?_, by simp; rfl, by simp⟩
    rw [hcell c r hr]
    exact lagrFE_toDofs p hp r (hrp c r hr) _ (by rw [List.length_map]; exact hL.cardinal.1)
  obtain ⟨F, h1, h2, -, h4⟩ := C49_values (U.space T) h.answers h.range u pred _ hI
  refine ⟨F, h1, h2, ?_⟩
  have hagree : ∀ c < T.numCells, pred c = true → ∀ d ∈ U.dofh.all (0, c), F.getD d 0 = V d := by
    intro c hc hp d hd
    classical
    have hex : ∃ c', c' < T.numCells ∧ pred c' = true ∧ d ∈ U.dofh.all (0, c') ∧
        ∀ c'', c' < c'' → c'' < T.numCells → pred c'' = true → d ∉ U.dofh.all (0, c'') := by
      let S := (Finset.range T.numCells).filter fun c' => pred c' = true ∧ d ∈ U.dofh.all (0, c')
      have hne : S.Nonempty := ⟨c, by simp [S, hc, hp, hd]⟩
      have hm := Finset.max'_mem S hne
      refine ⟨S.max' hne, ?_⟩
      have hm' := hm
      simp only [S, Finset.mem_filter, Finset.mem_range] at hm'
      refine ⟨hm'.1, hm'.2.1, hm'.2.2, fun c'' hlt hc'' hp'' hd'' => ?_⟩
      have := Finset.le_max' S c'' (by simp [S, hc'', hp'', hd''])
      omega
    obtain ⟨c', e1, e2, e3, e4⟩ := hex
    obtain ⟨j, j1, j2, j3⟩ := h4 c' e1 e2 d e3 e4
    have j1' : (U.dofh.all (0, c'))[j]? = some d := j1
    rw [List.getElem?_map, j1', Option.map_some] at j3
    rw [List.getD_eq_getElem?_getD, j3]
    rfl
  intro c r hr hpc fe hfe
  obtain ⟨hc, hn⟩ := Topo.refEl_cell hT hr
  have hL := lagrFE_isLagrange p hp r (by rcases hrp c r hr with rfl | rfl <;> simp)
  have hE : T.IsEnt (0, c) := ⟨Nat.zero_le 2, hc⟩
  rw [hlay c r hr] at hfe
  cases hfe
  have hcoef : (U.dofh.all (0, c)).map (fun d => F.getD d 0) = (lagrFE p r : RefFE ℝ).nodes.map (f (0, c)) := by
    rw [← hcell c r hr]
    exact List.map_congr_left fun d hd => hagree c hc hpc d hd
  have heval := fun x hx => lagr_evalFE T hT p hp U hU F h2 c r hr x hx
  rw [hcoef] at heval
  have hd : (lagrFE p r : RefFE ℝ).ref.dimension = 2 ∧ (lagrFE p r : RefFE ℝ).ref = r ∧
      (lagrFE p r : RefFE ℝ).degree = p := by
    obtain ⟨h1, h3⟩ := hp
    rcases hrp c r hr with rfl | rfl <;> interval_cases p <;> exact ⟨rfl, rfl, rfl⟩
  obtain ⟨hcn, hcl, hcd⟩ := hL.cardinal
  constructor
  · intro x hx
    rw [heval x (by rw [hcl x hx, hd.1])]
    obtain ⟨j, hj, rfl⟩ := List.mem_iff_getElem.mp hx
    have hj' : j < (lagrFE p r : RefFE ℝ).num := by omega
    have := hcd
    congr 1
    rw [Finset.sum_eq_single j]
    · have e := hcd j hj' j hj'
      rw [List.getD_eq_getElem _ _ hj, if_pos rfl] at e
      rw [e, mul_one, List.getD_eq_getElem _ _ (by simpa using hj), List.getElem_map]
    · intro i hi hij
      have e := hcd i (Finset.mem_range.mp hi) j hj'
      rw [List.getD_eq_getElem _ _ hj, if_neg hij] at e
      rw [e, mul_zero]
    · intro hn
      exact absurd (Finset.mem_range.mpr hj') hn
  · intro g hg hfg x hx
    rw [heval x hx]
    obtain ⟨co, c1, c2, c3⟩ := hL.reproduces g (by rw [hd.2.1, hd.2.2]; exact hg)
    have hm : (lagrFE p r : RefFE ℝ).nodes.map (f (0, c)) = (lagrFE p r : RefFE ℝ).nodes.map g :=
      List.map_congr_left fun y hy => hfg y (lagrFE_contains p hp r (hrp c r hr) y hy)
    rw [lagrFE_toDofs p hp r (hrp c r hr) _ (by rw [List.length_map]; exact hcn)] at c1
    cases c1
    rw [hm, c3 x (by rw [hd.1, hx])]

/-- Finite element functions have one value per point. -/
theorem evalFE_singleValued (S : FeSpace ℝ) (he : S.MatchesEdges) (hn : S.MatchesNodes) (w : List ℝ)
    (hw : w.length = S.dofh.numDofs) : S.mesh.SingleValued fun e x => (S.evalFE w e x).getD 0 := by
  intro c r hr j hj
  constructor
  · intro t _ _
    obtain ⟨y, h1, h2⟩ := he w hw c r hr j hj t
    simp only [h1, h2]
  · obtain ⟨y, h1, h2⟩ := (hn w hw).1 c r hr j hj
    simp only [h1, h2]

/-- The hypotheses of C74 are met: a function of order 1 on a mesh with a triangle and a quadrilateral. -/
example : ∃ (U : UniformFESpace ℝ) (u : MeshFn ℝ ℝ) (f : Ent → List ℝ → ℝ), lagrangeSpace sampleTopo 1 = some U ∧
    sampleTopo.SingleValued f ∧ sampleTopo.Evaluates u f ∧ f (2, 0) [] ≠ f (2, 3) [] := by
  have hT := sampleTopo_WF
  obtain ⟨U, hU, hd⟩ := C45_constructible (K := ℝ) sampleTopo hT 1 (by norm_num)
  obtain ⟨-, h2, h3⟩ := C45_continuous sampleTopo hT 1 (by norm_num) U hU
  obtain ⟨cnt, h⟩ := lagr_conforming sampleTopo hT 1 (by norm_num) U hU
  let w : List ℝ := (List.range U.dofh.numDofs).map fun i : ℕ => (i : ℝ)
  refine ⟨U, fun e pts => some (pts.map fun x => ((U.space sampleTopo).evalFE w e x).getD 0),
    fun e x => ((U.space sampleTopo).evalFE w e x).getD 0, hU, evalFE_singleValued _ h2 h3 w (by simp [w]; rfl),
    fun c r _ pts _ => rfl, ?_⟩
  have hu : w.length = (U.space sampleTopo).dofh.numDofs := by simp [w]; rfl
  have key : ((uniformDofHandler sampleTopo ⟨1, 1 - 1, (1 - 1) * (1 - 2) / 2, (1 - 1) * (1 - 1)⟩ true).map fun h =>
      (h.numDofs, h.own (2, 0), h.own (2, 3))) = some (5, [0], [3]) := by decide +kernel
  rw [hd, Option.map_some] at key
  injection key with key
  simp only [Prod.mk.injEq] at key
  simp only [h.evalNode (v := 0) (show 0 < sampleTopo.numNodes by decide) hu, h.evalNode (v := 3) (show 3 < sampleTopo.numNodes by decide) hu, Option.getD_some, FeSpace.nodeVal]
  rw [show (U.space sampleTopo).dofh = U.dofh from rfl, key.2.1, key.2.2]
  simp [w, key.1]

end Verif
