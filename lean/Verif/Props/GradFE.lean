import Verif.Props.Geometry
import Verif.Props.FeTools
import Verif.Lemmas.MeshFunction
import Mathlib.Analysis.Calculus.Deriv.Add
import Mathlib.Analysis.Calculus.Deriv.Mul
import Mathlib.Analysis.Calculus.Deriv.Pi
import Mathlib.Analysis.Calculus.FDeriv.Comp

/-!
# C70: gradients of finite element functions
-/

namespace Verif
open Geo

theorem sum_zipWith_smul {w : ℕ} : ∀ (a : List ℝ) (C : List (Vec ℝ w)) (n : ℕ), a.length = n → C.length = n →
    (List.zipWith (fun t c => t • c) a C).sum = (matrix n C).mulVec fun k => a.getD k.val 0
  | [], [], n, h, _ => by subst h; ext i; simp [Matrix.mulVec, dotProduct]
  | x :: a, y :: b, n, h, h' => by
    obtain rfl : n = a.length + 1 := by simpa using h.symm
    rw [List.zipWith_cons_cons, List.sum_cons, sum_zipWith_smul a b a.length rfl (by simpa using h')]
    ext i
    simp only [Matrix.mulVec, dotProduct, Fin.sum_univ_succ, Pi.add_apply, matrix]
    simp [mul_comm]
  | [], _ :: _, n, h, h' => by subst h; simp at h'
  | _ :: _, [], n, h, h' => by subst h'; simp at h

theorem mapM_getElem?_eq (l : List (List ℝ)) (k : ℕ) (h : ∀ r ∈ l, k < r.length) :
    (l.mapM fun r => r[k]?) = some (l.map fun r => r.getD k 0) := by
  induction l with
  | nil => rfl
  | cons r l ih =>
    rw [List.mapM_cons, List.getElem?_eq_getElem (h r (by simp)), ih fun r hr => h r (by simp [hr])]
    rw [List.map_cons, List.getD_eq_getElem _ _ (h r (by simp))]
    rfl

variable {w : ℕ}

/-- **C70**: at a point of the reference element where the Jacobian `J` of the geometry has full rank, the vector `G`
returned for a finite element function is its gradient: its scalar product with the image of the `k`-th coordinate
direction is the derivative of the finite element function with respect to the `k`-th reference coordinate, and it is
tangential to the entity. -/
theorem C70_gradient (S : FeSpace ℝ) (geo : Ent → Option (Geo ℝ w)) (dofs : List ℝ) (e : Ent) (fe : RefFE ℝ) (g : Geo ℝ w)
    (hfe : S.layout e = some fe) (hev : fe.Evaluates) (hgr : fe.GradCorrect) (hg : geo e = some g)
    (hk : S.mesh.refEl e = some g.kind) (hk' : fe.ref = g.kind) (h0 : g.kind ≠ .point)
    (p : Fin g.kind.dimension → ℝ) (cols : List (Vec ℝ w)) (hJ : g.jacobian (List.ofFn p) = some cols)
    (hr : ((matrix g.kind.dimension cols).transpose * matrix g.kind.dimension cols).det ≠ 0)
    (hd : (S.evalFE dofs e (List.ofFn p)).isSome) :
    ∃ G : Vec ℝ w, S.gradFE geo dofs e (List.ofFn p) = some G ∧
      (∀ k : Fin g.kind.dimension,
        HasDerivAt (fun t => (S.evalFE dofs e ((List.ofFn p).set k t)).getD 0) (dot G (cols.getD k 0)) (p k)) ∧
      G ∈ Submodule.span ℝ (Set.range fun k : Fin g.kind.dimension => cols.getD k 0) := by
  obtain ⟨C, hC, hCl, hCm⟩ := C38_inverse_gramian g h0 _ cols hJ hr
  have hxl : (List.ofFn p).length = fe.ref.dimension := by rw [hk']; simp
  obtain ⟨sf, hsf, hsl, hder⟩ := hgr _ hxl
  -- the coefficients
  obtain ⟨v, hv, hvl⟩ := hev.1 _ hxl
  rw [FeSpace.evalFE, hfe, Option.bind_some, hv, Option.bind_some, hvl, Option.isSome_map] at hd
  obtain ⟨loc, hloc⟩ := Option.isSome_iff_exists.1 hd
  have hll : loc.length = fe.num := by
    unfold FeSpace.localDofs at hloc
    obtain ⟨gd, -, h⟩ := Option.bind_eq_some_iff.1 hloc
    simpa using (mapM_get _ _ _ h).1
  have hrow : ∀ i < fe.num, (sf.getD i []).length = g.kind.dimension := fun i hi => by rw [(hder i hi).1, hk']
  have hrow' : ∀ r ∈ sf, r.length = g.kind.dimension := by
    intro r hr
    obtain ⟨i, hi, rfl⟩ := List.getElem_of_mem hr
    rw [← hrow i (by rw [← hsl]; exact hi), List.getD_eq_getElem _ _ hi]
  let γ : ℕ → ℝ := fun k => ∑ i ∈ Finset.range fe.num, loc.getD i 0 * (sf.getD i []).getD k 0
  have hγ : ∀ k < g.kind.dimension, dotRow loc (sf.map fun r => r.getD k 0) = γ k := by
    intro k hk
    rw [← dotRow_eq_sum hll (by simp [hsl])]
    refine Finset.sum_congr rfl fun i hi => ?_
    rw [Finset.mem_range] at hi
    congr 1
    rw [List.getD_eq_getElem _ _ (by simpa [hsl] using hi), List.getElem_map, List.getD_eq_getElem sf [] (by rw [hsl]; exact hi)]
  have hgrad : ((List.range g.kind.dimension).mapM fun k => (sf.mapM fun row => row[k]?).map fun col => dotRow loc col) =
      some ((List.range g.kind.dimension).map γ) := by
    rw [mapM_congr_mem (g := fun k => some (γ k))]
    · exact List.mapM_pure (m := Option)
    · intro k hk
      rw [List.mem_range] at hk
      rw [mapM_getElem?_eq sf k fun r hr => by rw [hrow' r hr]; exact hk, Option.map_some, hγ k hk]
  refine ⟨(matrix g.kind.dimension C).mulVec fun k => γ k, ?_, ?_, ?_⟩
  · unfold FeSpace.gradFE
    rw [hfe, Option.bind_some, hsf, Option.bind_some, hsl, hloc, Option.bind_some, hk, Option.bind_some, hgrad,
      Option.bind_some, hg, Option.bind_some, hC, Option.bind_some, if_pos hCl,
      sum_zipWith_smul _ _ g.kind.dimension (by simp) hCl]
    congr 2
    funext k
    rw [List.getD_eq_getElem _ _ (by simp)]
    simp
  · intro k
    -- scalar product
    have hdot : dot ((matrix g.kind.dimension C).mulVec fun k => γ k) (cols.getD k 0) = γ k := by
      have : ((matrix g.kind.dimension cols).transpose.mulVec ((matrix g.kind.dimension C).mulVec fun k => γ k)) k = γ k := by
        rw [hCm, Matrix.mulVec_mulVec, ← Matrix.mul_assoc, Matrix.mul_nonsing_inv _ (Ne.isUnit hr), Matrix.one_mulVec]
      rw [← this]
      unfold dot
      simp only [Matrix.mulVec, dotProduct, Matrix.transpose_apply, matrix]
      exact Finset.sum_congr rfl fun i _ => mul_comm _ _
    rw [hdot]
    have hfun : (fun t => (S.evalFE dofs e ((List.ofFn p).set k t)).getD 0) =
        fun t => ∑ i ∈ Finset.range fe.num, loc.getD i 0 * fe.shape i ((List.ofFn p).set k t) := by
      funext t
      obtain ⟨v, hv, hvl⟩ := hev.1 ((List.ofFn p).set k t) (by rw [List.length_set]; exact hxl)
      rw [FeSpace.evalFE, hfe, Option.bind_some, hv, Option.bind_some, hvl, hloc, Option.map_some, Option.getD_some,
        ← dotRow_eq_sum hll hvl]
      refine Finset.sum_congr rfl fun i _ => ?_
      rw [RefFE.shape, hv]
      rfl
    rw [hfun]
    have hpk : (List.ofFn p).getD k 0 = p k := by
      rw [List.getD_eq_getElem _ _ (by simp)]
      simp
    refine HasDerivAt.fun_sum fun i hi => ?_
    rw [Finset.mem_range] at hi
    have := (hder i hi).2 k (by rw [hk']; exact k.isLt)
    rw [hpk] at this
    exact this.const_mul _
  · rw [hCm, ← Matrix.mulVec_mulVec]
    have : ∀ c : Fin g.kind.dimension → ℝ, (matrix g.kind.dimension cols).mulVec c = ∑ k, c k • (cols.getD k 0) := by
      intro c
      ext i
      simp [Matrix.mulVec, dotProduct, matrix, mul_comm]
    rw [this]
    exact Submodule.sum_mem _ fun k _ => Submodule.smul_mem _ _ (Submodule.subset_span ⟨k, rfl⟩)

/-- **C70** in terms of functions on the mesh: if the finite element function is `f` in terms of world coordinates near the
point, and `f` is differentiable there with derivative `L`, then `L v` is the scalar product of the returned vector with
`v`, for all directions `v` tangential to the entity. -/
theorem C70_chain (S : FeSpace ℝ) (geo : Ent → Option (Geo ℝ w)) (dofs : List ℝ) (e : Ent) (fe : RefFE ℝ) (g : Geo ℝ w)
    (hfe : S.layout e = some fe) (hev : fe.Evaluates) (hgr : fe.GradCorrect) (hg : geo e = some g)
    (hk : S.mesh.refEl e = some g.kind) (hk' : fe.ref = g.kind) (h0 : g.kind ≠ .point)
    (p : Fin g.kind.dimension → ℝ) (hp : ∀ i, 0 < p i ∧ p i < 1) (cols : List (Vec ℝ w))
    (hJ : g.jacobian (List.ofFn p) = some cols)
    (hr : ((matrix g.kind.dimension cols).transpose * matrix g.kind.dimension cols).det ≠ 0)
    (hd : (S.evalFE dofs e (List.ofFn p)).isSome) (f : Vec ℝ w → ℝ) (L : Vec ℝ w →L[ℝ] ℝ) (y : Vec ℝ w)
    (hy : g.global (List.ofFn p) = some y) (hf : HasFDerivAt f L y)
    (heq : ∀ᶠ q in nhds p, ∃ z, g.global (List.ofFn q) = some z ∧ S.evalFE dofs e (List.ofFn q) = some (f z)) :
    ∃ G : Vec ℝ w, S.gradFE geo dofs e (List.ofFn p) = some G ∧
      ∀ v ∈ Submodule.span ℝ (Set.range fun k : Fin g.kind.dimension => cols.getD k 0), L v = dot G v := by
  obtain ⟨G, hG, hder, -⟩ := C70_gradient S geo dofs e fe g hfe hev hgr hg hk hk' h0 p cols hJ hr hd
  refine ⟨G, hG, fun v hv => ?_⟩
  obtain ⟨cols', hJ', -, -, hF⟩ := C38_derivative g p fun i => ⟨(hp i).1.le, (hp i).2.le⟩
  rw [hJ] at hJ'
  cases hJ'
  have hnb : {q : Fin g.kind.dimension → ℝ | ∀ i, 0 ≤ q i ∧ q i ≤ 1} ∈ nhds p := by
    have : {q : Fin g.kind.dimension → ℝ | ∀ i, 0 ≤ q i ∧ q i ≤ 1} = Set.pi Set.univ fun _ => Set.Icc 0 1 := by
      ext q; simp only [Set.mem_setOf_eq, Set.mem_univ_pi, Set.mem_Icc]
    rw [this]
    exact set_pi_mem_nhds Set.finite_univ fun i _ => Icc_mem_nhds (hp i).1 (hp i).2
  have hF' := hF.hasFDerivAt hnb
  have hy' : (fun q : Fin g.kind.dimension → ℝ => (g.global (List.ofFn q)).getD 0) p = y := by
    show (g.global (List.ofFn p)).getD 0 = y
    rw [hy]; rfl
  have hcomp := HasFDerivAt.comp p (hy'.symm ▸ hf) hF'
  have hset : ∀ (k : Fin g.kind.dimension) (t : ℝ), (List.ofFn p).set k t = List.ofFn (Function.update p k t) := by
    intro k t
    apply List.ext_getElem
    · simp
    · intro i h1 h2
      rw [List.getElem_set, List.getElem_ofFn, List.getElem_ofFn, Function.update_apply]
      by_cases h : k.val = i
      · rw [if_pos h, if_pos (Fin.ext h.symm)]
      · rw [if_neg h, if_neg fun h' => h (by rw [← h'])]
  have hk : ∀ k : Fin g.kind.dimension, L (cols.getD k 0) = dot G (cols.getD k 0) := by
    intro k
    have hline : HasDerivAt (fun t : ℝ => Function.update p k t) (Pi.single k 1) (p k) := hasDerivAt_update p k (p k)
    have h1 : HasDerivAt (fun t => f ((g.global (List.ofFn (Function.update p k t))).getD 0)) (L (cols.getD k 0)) (p k) := by
      have hup : Function.update p k (p k) = p := Function.update_eq_self k p
      have := HasFDerivAt.comp_hasDerivAt (p k) (hup.symm ▸ hcomp) hline
      have e1 : (L.comp (LinearMap.toContinuousLinearMap (matrix g.kind.dimension cols).mulVecLin)) (Pi.single k 1) =
          L (cols.getD k 0) := by
        rw [ContinuousLinearMap.comp_apply, LinearMap.coe_toContinuousLinearMap', Matrix.mulVecLin_apply,
          Matrix.mulVec_single_one]
        rfl
      rw [e1] at this
      exact this
    refine h1.unique ((hder k).congr_of_eventuallyEq ?_)
    have hc : Filter.Tendsto (fun t : ℝ => Function.update p k t) (nhds (p k)) (nhds p) := by
      have := hline.continuousAt
      rw [ContinuousAt, Function.update_eq_self] at this
      exact this
    filter_upwards [hc.eventually heq] with t ht
    obtain ⟨z, h1, h2⟩ := ht
    rw [hset, h1, h2]
    rfl
  induction hv using Submodule.span_induction with
  | mem v hv => obtain ⟨k, rfl⟩ := hv; exact hk k
  | zero => simp [dot]
  | add a b _ _ ha hb =>
    rw [map_add, ha, hb]
    simp [dot, mul_add, Finset.sum_add_distrib]
  | smul c a _ ha =>
    rw [map_smul, ha]
    simp only [dot, Pi.smul_apply, smul_eq_mul, Finset.mul_sum]
    exact Finset.sum_congr rfl fun i _ => by ring

theorem evalFE_isSome {S : FeSpace ℝ} {e : Ent} {fe : RefFE ℝ} (he : S.mesh.IsEnt e) (hA : S.dofh.Answers S.mesh)
    (hD : S.dofh.DistinctInRange S.mesh) (hfe : S.layout e = some fe) (hev : fe.Evaluates)
    (hn : (S.dofh.all e).length = fe.num) {u : List ℝ} (hu : u.length = S.dofh.numDofs) {x : List ℝ}
    (hx : x.length = fe.ref.dimension) : (S.evalFE u e x).isSome := by
  obtain ⟨v, hv, hvl⟩ := hev.1 x hx
  rw [FeSpace.evalFE, hfe, Option.bind_some, hv, Option.bind_some, hvl,
    localDofs_eq (hA e he).2.1 hn fun d hd => by rw [hu]; exact (hD e he).1 d hd]
  rfl

/-- **C70** for the Lagrangian spaces of order 1, 2, 3 on the cells and edges of all meshes. -/
theorem C70_lagrange (T : Topo) (hT : T.WF) (deg : ℕ) (hdeg : 1 ≤ deg ∧ deg ≤ 3) (U : UniformFESpace ℝ)
    (hU : lagrangeSpace T deg = some U) (u : List ℝ) (hu : u.length = U.dofh.numDofs)
    (geo : Ent → Option (Geo ℝ w)) (e : Ent) (he : T.IsEnt e) (hc : e.1 ≠ 2) (g : Geo ℝ w) (hg : geo e = some g)
    (hk : T.refEl e = some g.kind) (p : Fin g.kind.dimension → ℝ) (cols : List (Vec ℝ w))
    (hJ : g.jacobian (List.ofFn p) = some cols)
    (hr : ((matrix g.kind.dimension cols).transpose * matrix g.kind.dimension cols).det ≠ 0) :
    ∃ G : Vec ℝ w, (U.space T).gradFE geo u e (List.ofFn p) = some G ∧
      (∀ k : Fin g.kind.dimension,
        HasDerivAt (fun t => ((U.space T).evalFE u e ((List.ofFn p).set k t)).getD 0) (dot G (cols.getD k 0)) (p k)) ∧
      G ∈ Submodule.span ℝ (Set.range fun k : Fin g.kind.dimension => cols.getD k 0) := by
  obtain ⟨cnt, h⟩ := lagr_conforming T hT deg hdeg U hU
  have hkp : g.kind ≠ .point := by
    intro h0
    obtain ⟨c, i⟩ := e
    obtain ⟨h1, h2⟩ := he
    rw [h0, Topo.refEl, if_pos h2] at hk
    have : c = 0 ∨ c = 1 := by simp only at h1 hc; omega
    rcases this with rfl | rfl
    · rcases hT.cell_len i h2 with h | h <;> simp [h] at hk
    · simp at hk
  have hL := lagrFE_isLagrange deg hdeg g.kind hkp
  have hfe : (U.space T).layout e = some (lagrFE deg g.kind) := by
    rw [lagrangeSpace_eq T deg hdeg] at hU
    obtain ⟨dh, -, rfl⟩ := Option.map_eq_some_iff.mp hU
    change (T.refEl e).bind _ = _
    rw [hk]
    cases hgk : g.kind <;> rfl
  have href : (lagrFE deg g.kind : RefFE ℝ).ref = g.kind := by
    obtain ⟨h1, h3⟩ := hdeg
    interval_cases deg <;> cases hgk : g.kind <;> rfl
  refine C70_gradient (U.space T) geo u e _ g hfe hL.evaluates hL.gradCorrect hg hk href hkp p cols hJ hr
    (evalFE_isSome he h.answers h.range hfe hL.evaluates ?_ hu (by rw [href]; simp))
  obtain ⟨c, i⟩ := e
  have : c = 0 ∨ c = 1 := by have := he.1; simp only at this hc; omega
  rcases this with rfl | rfl
  · exact h.num_cell hk hfe hL.evaluates
  · exact h.num_edge he.2 hfe hL.evaluates

/-- **C70** for the hierarchic spaces on the cells and edges of all meshes. -/
theorem C70_hierarchic (get : RefEl → ℕ → Option (QuadRule ℝ)) (T : Topo) (hT : T.WF) (degree : Ent → ℕ) (S : FeSpace ℝ)
    (hS : hierSpace get T degree = some S) (u : List ℝ) (hu : u.length = S.dofh.numDofs)
    (geo : Ent → Option (Geo ℝ w)) (e : Ent) (he : T.IsEnt e) (hc : e.1 ≠ 2) (g : Geo ℝ w) (hg : geo e = some g)
    (hk : T.refEl e = some g.kind) (p : Fin g.kind.dimension → ℝ) (cols : List (Vec ℝ w))
    (hJ : g.jacobian (List.ofFn p) = some cols)
    (hr : ((matrix g.kind.dimension cols).transpose * matrix g.kind.dimension cols).det ≠ 0) :
    ∃ G : Vec ℝ w, S.gradFE geo u e (List.ofFn p) = some G ∧
      (∀ k : Fin g.kind.dimension,
        HasDerivAt (fun t => (S.evalFE u e ((List.ofFn p).set k t)).getD 0) (dot G (cols.getD k 0)) (p k)) ∧
      G ∈ Submodule.span ℝ (Set.range fun k : Fin g.kind.dimension => cols.getD k 0) := by
  have h := hier_conforming get T hT degree S hS
  obtain ⟨dh, hh, -⟩ := C09_dynamic T hT (hierCount T degree)
  rw [hierSpace, hh, Option.bind_some] at hS
  split at hS
  swap
  · cases hS
  rename_i hl
  obtain ⟨-, l1, l0⟩ := hl
  cases hS
  obtain ⟨c, i⟩ := e
  have : c = 0 ∨ c = 1 := by have := he.1; simp only at this hc; omega
  rcases this with rfl | rfl
  · obtain ⟨fe, hfe⟩ := Option.isSome_iff_exists.mp (l0 i he.2)
    have hfe' := hfe
    rw [hierLayout, hk, Option.bind_some] at hfe'
    have hrp : g.kind = .tria ∨ g.kind = .quad := by
      rw [Topo.refEl, if_pos he.2] at hk
      rcases hT.cell_len i he.2 with h | h <;> simp [h] at hk <;> simp [← hk]
    have hall : fe.ref = g.kind ∧ fe.Evaluates ∧ fe.GradCorrect := by
      rcases hrp with hgk | hgk <;> rw [hgk] at hfe'
      · obtain ⟨F, hF, rfl⟩ := Option.map_eq_some_iff.mp hfe'
        obtain ⟨a, -, b, c⟩ := C61_tria get _ _ _ F hF
        exact ⟨by rw [a, hgk], b, c⟩
      · obtain ⟨F, hF, rfl⟩ := Option.map_eq_some_iff.mp hfe'
        obtain ⟨a, -, b, c⟩ := C61_quad get _ _ _ F hF
        exact ⟨by rw [a, hgk], b, c⟩
    obtain ⟨href, hev, hgr⟩ := hall
    exact C70_gradient _ geo u _ fe g hfe hev hgr hg hk href (by rcases hrp with h | h <;> rw [h] <;> simp) p cols hJ hr
      (evalFE_isSome he h.answers h.range hfe hev (h.num_cell hk hfe hev) hu (by rw [href]; simp))
  · obtain ⟨fe, hfe⟩ := Option.isSome_iff_exists.mp (l1 i he.2)
    have hfe' := hfe
    rw [hierLayout_edge get T degree i he.2] at hfe'
    obtain ⟨a, -, hev, hgr⟩ := C61_segment get _ fe hfe'
    have hgk : g.kind = .segment := by
      rw [Topo.refEl, if_pos he.2] at hk
      simpa using hk.symm
    have href : fe.ref = g.kind := by rw [a, hgk]
    exact C70_gradient _ geo u _ fe g hfe hev hgr hg hk href (by rw [hgk]; simp) p cols hJ hr
      (evalFE_isSome he h.answers h.range hfe hev (h.num_edge he.2 hfe hev) hu (by rw [href]; simp))

/-- **C70**: on a point there is no gradient, evaluation fails. -/
theorem C70_point (T : Topo) (deg : ℕ) (hdeg : 1 ≤ deg ∧ deg ≤ 3) (U : UniformFESpace ℝ)
    (hU : lagrangeSpace T deg = some U) (u : List ℝ) (geo : Ent → Option (Geo ℝ w)) (i : ℕ) (x : List ℝ) :
    (U.space T).gradFE geo u (2, i) x = none := by
  rw [lagrangeSpace_eq T deg hdeg] at hU
  obtain ⟨dh, -, rfl⟩ := Option.map_eq_some_iff.mp hU
  unfold FeSpace.gradFE
  change (((T.refEl (2, i)).bind _).bind _) = none
  cases h : T.refEl (2, i) with
  | none => rfl
  | some r =>
    have : r = .point := by
      rw [Topo.refEl] at h
      split at h <;> simp at h
      exact h.symm
    subst this
    rfl

/-- The triangle with corners `(0, 0)`, `(2, 0)`, `(1, 3)`, and an edge of it: the Jacobians have full rank everywhere. -/
example (p : Fin 2 → ℝ) : ∃ cols, (Geo.triaO1 ![0, 0] ![2, 0] ![1, 3] : Geo ℝ 2).jacobian (List.ofFn p) = some cols ∧
    ((matrix 2 cols).transpose * matrix 2 cols).det ≠ 0 := by
  refine ⟨_, rfl, ?_⟩
  rw [gram_two]
  simp [dot, Fin.sum_univ_two]
  norm_num

example (p : Fin 1 → ℝ) : ∃ cols, (Geo.segO1 ![2, 0] ![1, 3] : Geo ℝ 2).jacobian (List.ofFn p) = some cols ∧
    ((matrix 1 cols).transpose * matrix 1 cols).det ≠ 0 := by
  refine ⟨_, rfl, ?_⟩
  simp [Matrix.det_unique, Matrix.mul_apply, matrix, Fin.sum_univ_two]
  norm_num

/-- On this triangle the function with the values of `3 x + 5 y` at the corners has gradient `(3, 5)`. -/
example : ∃ U : UniformFESpace ℚ, lagrangeSpace sampleTopo 1 = some U ∧
    (U.space sampleTopo).gradFE (fun _ => some (Geo.triaO1 ![0, 0] ![2, 0] ![1, 3] : Geo ℚ 2))
      ((List.range U.dofh.numDofs).map fun d => match (U.dofh.all (0, 0)).idxOf d with | 1 => 6 | 2 => 18 | _ => 0)
      (0, 0) [1 / 3, 1 / 5] = some ![3, 5] := by
  refine ⟨_, rfl, by decide +kernel⟩

end Verif
