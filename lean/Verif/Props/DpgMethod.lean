import Verif.Lemmas.DpgEstimator

/-!
# C90: the DPG method minimises its error estimator
-/

namespace Verif
open Dpg Finset

section
variable {ldlt : Ldlt} {T : Topo} {dofh : DofHandler} {stiffness gramian : MatProv} {load : VecProv}
  (S : DpgSetting ldlt T dofh stiffness gramian load)
include S

/-- **C90**, one cell: with the optimal test functions `zx`, `zy` of the trial functions `x`, `y`, i.e. `G zx = B x` and
`G zy = B y`, the DPG element matrix has the entries `(zx, zy)_G`, and the DPG element vector is the load of `zx`.  Such
test functions exist. -/
theorem C90_local (e : Ent) (he : e ∈ T.entities 0) : ∃ A b B G l,
    dpgMatEval ldlt stiffness gramian e = some A ∧ dpgVecEval ldlt load stiffness gramian e = some b ∧
    stiffness.eval e = some B ∧ gramian.eval e = some G ∧ load.eval e = some l ∧
    A.rows = (dofh.all e).length ∧ A.cols = (dofh.all e).length ∧ b.length = (dofh.all e).length ∧
    (∀ x : List ℝ, x.length = (dofh.all e).length → ∃ r z, mulVecD B x = some r ∧ Represents G z r) ∧
    (∀ x y zx zy rx ry, mulVecD B x = some rx → mulVecD B y = some ry → Represents G zx rx → Represents G zy ry →
      A.form x y = G.form zx zy ∧ dotList x b = dotList zx l) := by
  obtain ⟨A, b, c, a1, a2, a3, a4, a5, -, -, -, a9, a10, -⟩ := cell_package S e he
  obtain ⟨B, G, l, b1, b2, b3, hG, hB, hm, hl⟩ := S.cell e he
  refine ⟨A, b, B, G, l, a1, a4, b1, b2, b3, a2, a3, a5, fun x hx => ?_, ?_⟩
  · refine ⟨_, _, by rw [mulVecD, if_pos (by rw [hx, hm])], ldlt_represents S.solves hG (by simp [hB])⟩
  · intro x y zx zy rx ry h1 h2 h3 h4
    exact ⟨a9 B G b1 b2 x y zx zy rx ry h1 h2 h3 h4, a10 B G l b1 b2 b3 x zx rx h1 h3⟩

/-- **C90**: matrix and vector of the DPG method can be assembled, the matrix is symmetric and positive semidefinite, its
kernel consists of the functions with `B x = 0` on all cells, and the square of the error estimator of a function with
coefficients `u` is `uᵀDu - 2bᵀu + c`. -/
theorem C90_estimator (m : MeshObj) (hm : m.topo = T) :
    ∃ A D b c, assembleMat T dofh dofh (dpgMat ldlt stiffness gramian) = some A ∧ A.makeDense = some D ∧
      assembleVec T dofh (dpgVec ldlt load stiffness gramian) = some b ∧
      D.rows = dofh.numDofs ∧ D.cols = dofh.numDofs ∧ b.length = dofh.numDofs ∧
      (∀ ν μ, D.form ν μ = D.form μ ν) ∧ (∀ ν, 0 ≤ D.form ν ν) ∧
      (∀ ν, D.form ν ν = 0 ↔ ∀ e ∈ T.entities 0, ∀ B, stiffness.eval e = some B →
        ∀ i < B.rows, ∑ j ∈ range B.cols, B.entry i j * (localPart dofh ν e).getD j 0 = 0) ∧
      ∀ u, u.length = dofh.numDofs → ∃ E, estimator ldlt m dofh stiffness gramian load u = some E ∧ 0 ≤ E ∧
        E ^ 2 = D.form u u - 2 * dotList u b + c := by
  subst hm
  haveI : Nonempty (Dense ℝ) := ⟨⟨0, 0, fun _ _ => 0⟩⟩
  choose! A b c h1 h2 h3 h4 h5 h6 h7 h8 h9 h10 h11 using fun e (he : e ∈ m.topo.entities 0) => cell_package S e he
  obtain ⟨C, D, e1, e2, e3, e4, e5⟩ := assembleMat_form m.topo dofh dofh S.dofs S.dofs (dpgMat ldlt stiffness gramian) A
    (fun e he _ => ⟨h1 e he, h2 e he, h3 e he⟩)
  obtain ⟨bb, f1, f2, f3⟩ := assembleVec_form m.topo dofh S.dofs (dpgVec ldlt load stiffness gramian) b
    (fun e he _ => ⟨h4 e he, h5 e he⟩)
  have hall : ∀ l : List Ent, l.filter (dpgMat ldlt stiffness gramian).isActive = l := fun l => by
    rw [List.filter_eq_self]; intro _ _; rfl
  have hall' : ∀ l : List Ent, l.filter (dpgVec ldlt load stiffness gramian).isActive = l := fun l => by
    rw [List.filter_eq_self]; intro _ _; rfl
  simp only [hall] at e5
  simp only [hall'] at f3
  refine ⟨C, D, bb, ((m.topo.entities 0).map c).sum, e1, e2, f1, e3, e4, f2, ?_, ?_, ?_, ?_⟩
  · intro ν μ
    rw [e5, e5]
    congr 1
    exact List.map_congr_left fun e he => h6 e he _ _
  · intro ν
    rw [e5]
    refine List.sum_nonneg ?_
    intro x hx
    obtain ⟨e, he, rfl⟩ := List.mem_map.1 hx
    exact h7 e he _
  · intro ν
    rw [e5]
    constructor
    · intro h0 e he B hB
      rw [← h8 e he B hB]
      by_contra hne
      have hpos : 0 < (A e).form (localPart dofh ν e) (localPart dofh ν e) :=
        lt_of_le_of_ne (h7 e he _) (Ne.symm hne)
      have hle := List.single_le_sum (l := (m.topo.entities 0).map fun e => (A e).form (localPart dofh ν e) (localPart dofh ν e))
        (by
          intro x hx
          obtain ⟨e, he, rfl⟩ := List.mem_map.1 hx
          exact h7 e he _) _ (List.mem_map_of_mem he)
      rw [h0] at hle
      exact absurd hle (not_le.2 hpos)
    · intro h
      refine List.sum_eq_zero ?_
      intro x hx
      obtain ⟨e, he, rfl⟩ := List.mem_map.1 hx
      obtain ⟨B, G, l, b1, -⟩ := S.cell e he
      exact (h8 e he B b1 _).2 (h e he B b1)
  · intro u hu
    choose! s s1 s2 s3 using fun e (he : e ∈ m.topo.entities 0) => h11 e he u hu
    obtain ⟨d, d1, d2, d3, d4⟩ := errors_loop m (cellError ldlt dofh stiffness gramian load u) (fun i => s (0, i))
      (fun i hi => s1 (0, i) (List.mem_map.2 ⟨i, List.mem_range.2 hi, rfl⟩))
    have hs := errors_sum m d (fun i => s (0, i)) d2 d3 d4
    refine ⟨_, by rw [estimator, elementErrorEstimators, d1, Option.bind_some, hs], Real.sqrt_nonneg _, ?_⟩
    have hnn : 0 ≤ ((m.topo.entities 0).map fun e => s (0, e.2) * s (0, e.2)).sum := by
      refine List.sum_nonneg ?_
      intro x hx
      obtain ⟨e, -, rfl⟩ := List.mem_map.1 hx
      exact mul_self_nonneg _
    rw [Real.sq_sqrt hnn, e5, f3]
    have : ((m.topo.entities 0).map fun e => s (0, e.2) * s (0, e.2)) = (m.topo.entities 0).map fun e =>
        ((A e).form (localPart dofh u e) (localPart dofh u e) + (-2) * dotList (localPart dofh u e) (b e)) + c e := by
      refine List.map_congr_left fun e he => ?_
      have h0 : ((0 : ℕ), e.2) = e := by
        obtain ⟨i, -, rfl⟩ := List.mem_map.1 he
        rfl
      rw [h0, s3 e he]
      ring
    rw [this, List.sum_map_add, List.sum_map_add, List.sum_map_mul_left]
    ring

/-- **C90**: a vector of coefficients solves the assembled linear system if and only if no other function has a smaller
error estimator. -/
theorem C90_minimise (m : MeshObj) (hm : m.topo = T) :
    ∃ A D b, assembleMat T dofh dofh (dpgMat ldlt stiffness gramian) = some A ∧ A.makeDense = some D ∧
      assembleVec T dofh (dpgVec ldlt load stiffness gramian) = some b ∧
      ∀ u : List ℝ, u.length = dofh.numDofs → (Solves D b (fun j => u.getD j 0) ↔
        ∃ E, estimator ldlt m dofh stiffness gramian load u = some E ∧
          ∀ (w : List ℝ) (E' : ℝ), w.length = dofh.numDofs → estimator ldlt m dofh stiffness gramian load w = some E' →
            E ≤ E') := by
  obtain ⟨A, D, b, c, e1, e2, e3, e4, e5, e6, e7, e8, -, e10⟩ := C90_estimator S m hm
  refine ⟨A, D, b, e1, e2, e3, fun u hu => ?_⟩
  have key := minimise_iff ⟨e4, e5, e7, e8⟩ e6 (fun _ => true) u
  have h1 : Solves D b (fun j => u.getD j 0) ↔ ∀ i < dofh.numDofs, (fun _ => true) i = true →
      RowHolds D b (fun j => u.getD j 0) i := by
    rw [Solves, e4]
    exact ⟨fun h i hi _ => h i hi, fun h i hi => h i hi rfl⟩
  rw [h1, key]
  obtain ⟨E, g1, g2, g3⟩ := e10 u hu
  constructor
  · intro h
    refine ⟨E, g1, fun w E' hw hE' => ?_⟩
    obtain ⟨E'', k1, k2, k3⟩ := e10 w hw
    rw [hE'] at k1; cases k1
    have := h w hw (fun i _ hf => by cases hf)
    exact le_of_sq_le_sq (by rw [g3, k3]; linarith) k2
  · rintro ⟨E0, k0, h⟩ w hw -
    rw [g1] at k0; cases k0
    obtain ⟨E', k1, k2, k3⟩ := e10 w hw
    have := h w E' hw k1
    have : E ^ 2 ≤ E' ^ 2 := pow_le_pow_left₀ g2 this 2
    rw [g3, k3] at this
    linarith

/-- **C90** with essential conditions: after `FixFlaggedSolutionComponents` a vector solves the linear system if and only
if it satisfies the conditions and no other function which satisfies them has a smaller error estimator. -/
theorem C90_constrained (m : MeshObj) (hm : m.topo = T) (sel : ℕ → Bool × ℝ) :
    ∃ A b A' D' b', assembleMat T dofh dofh (dpgMat ldlt stiffness gramian) = some A ∧
      assembleVec T dofh (dpgVec ldlt load stiffness gramian) = some b ∧
      fixFlaggedSolutionComponents sel A b = some (A', b') ∧ A'.makeDense = some D' ∧
      ∀ u : List ℝ, u.length = dofh.numDofs → (Solves D' b' (fun j => u.getD j 0) ↔
        (∀ k < dofh.numDofs, (sel k).1 = true → u.getD k 0 = (sel k).2) ∧
        ∃ E, estimator ldlt m dofh stiffness gramian load u = some E ∧
          ∀ (w : List ℝ) (E' : ℝ), w.length = dofh.numDofs →
            (∀ k < dofh.numDofs, (sel k).1 = true → w.getD k 0 = (sel k).2) →
            estimator ldlt m dofh stiffness gramian load w = some E' → E ≤ E') := by
  obtain ⟨A, D, b, c, e1, e2, e3, e4, e5, e6, e7, e8, -, e10⟩ := C90_estimator S m hm
  obtain ⟨A', b', D', f1, f2, -, -, f3⟩ := C03_fixFlaggedSolutionComponents sel A D b
    ⟨e2, e4.trans e5.symm, e6.trans e5.symm, by rw [e5]; exact S.dofs.fits⟩
  refine ⟨A, b, A', D', b', e1, e3, f1, f2, fun u hu => ?_⟩
  rw [f3, ConstrainedSolution, e4, e5]
  refine and_congr_right fun hfix => ?_
  have key := minimise_iff ⟨e4, e5, e7, e8⟩ e6 (fun i => !(sel i).1) u
  have h1 : (∀ i < dofh.numDofs, (sel i).1 = false → RowHolds D b (fun j => u.getD j 0) i) ↔
      ∀ i < dofh.numDofs, (fun i => !(sel i).1) i = true → RowHolds D b (fun j => u.getD j 0) i := by
    simp
  rw [h1, key]
  have hw' : ∀ w : List ℝ, (∀ i < dofh.numDofs, (fun i => !(sel i).1) i = false → w.getD i 0 = u.getD i 0) ↔
      ∀ k < dofh.numDofs, (sel k).1 = true → w.getD k 0 = (sel k).2 := by
    intro w
    refine forall₂_congr fun i hi => ?_
    constructor
    · intro h hs; rw [h (by simp [hs]), hfix i hi hs]
    · intro h hs
      have hs' : (sel i).1 = true := by simpa using hs
      rw [h hs', hfix i hi hs']
  simp only [hw']
  obtain ⟨E, g1, g2, g3⟩ := e10 u hu
  constructor
  · intro h
    refine ⟨E, g1, fun w E' hw hc hE' => ?_⟩
    obtain ⟨E'', k1, k2, k3⟩ := e10 w hw
    rw [hE'] at k1; cases k1
    have := h w hw hc
    exact le_of_sq_le_sq (by rw [g3, k3]; linarith) k2
  · rintro ⟨E0, k0, h⟩ w hw hc
    rw [g1] at k0; cases k0
    obtain ⟨E', k1, k2, k3⟩ := e10 w hw
    have := h w E' hw hc k1
    have : E ^ 2 ≤ E' ^ 2 := pow_le_pow_left₀ g2 this 2
    rw [g3, k3] at this
    linarith

end

/-- A solver with the required property exists. -/
noncomputable def exactLdlt : Ldlt := fun G l =>
  open Classical in if h : ∃ z : List ℝ, Represents G z l then h.choose else []

theorem exactLdlt_solves : exactLdlt.Solves := by
  intro G hG l hl
  obtain ⟨Gi, -, h2, -, -⟩ := spd_inv hG rfl
  have hex : ∃ z : List ℝ, Represents G z l := by
    refine ⟨List.ofFn (Gi.mulVec (vecN G.rows l)), fun i hi => ?_⟩
    have : (matN G.rows G.rows G).mulVec (Gi.mulVec (vecN G.rows l)) = vecN G.rows l := by
      rw [Matrix.mulVec_mulVec, h2, Matrix.one_mulVec]
    have := congrFun this ⟨i, hi⟩
    rw [← hG.square, Finset.sum_range]
    simp only [Matrix.mulVec, dotProduct, matN, Matrix.of_apply, vecN] at this ⊢
    rw [← this]
    refine Finset.sum_congr rfl fun j _ => ?_
    simp [Matrix.mulVec, dotProduct, vecN]
  intro i hi
  have := hex.choose_spec i hi
  rw [← hG.square] at this
  rw [exactLdlt, dif_pos hex]
  exact this

/-- The setting is met: two test functions per cell with a Gramian that is not diagonal, linear Lagrange trial functions. -/
example : ∃ (dofh : DofHandler) (stiffness gramian : MatProv) (load : VecProv),
    DpgSetting exactLdlt sampleTopo dofh stiffness gramian load := by
  obtain ⟨h, h1, h2, -⟩ := C09_uniform sampleTopo sampleTopo_WF ⟨1, 0, 0, 0⟩ true
  obtain ⟨-, -, h4⟩ := C11_uniform sampleTopo sampleTopo_WF _ h h1
  have hn : h.numDofs < 2 ^ 31 := by
    have := C09_numDofs sampleTopo sampleTopo_WF ⟨1, 0, 0, 0⟩ true h h1
    rw [this]
    decide +kernel
  refine ⟨h, ⟨fun _ => true, fun e => some ⟨2, (h.all e).length, fun i j => i + 3 * j⟩⟩,
    ⟨fun _ => true, fun _ => some ⟨2, 2, fun i j => if i = j then 2 else 1⟩⟩, ⟨fun _ => true, fun _ => some [1, 4]⟩,
    exactLdlt_solves, ⟨fun e he => (h2 e (mem_cells he)).2.1, fun e he => (h4 e (mem_cells he)).1, hn⟩,
    fun e he => (h2 e (mem_cells he)).2.2.2, fun _ _ => ⟨rfl, rfl, rfl⟩, fun e he =>
      ⟨_, _, _, rfl, rfl, rfl, ⟨rfl, ?_, ?_⟩, rfl, rfl, rfl⟩⟩
  · intro i _ j _
    simp only [eq_comm]
  · rintro x ⟨i, hi, hx⟩
    simp only [Dense.form, Finset.sum_range_succ, Finset.sum_range_zero]
    simp only [if_true, zero_add, show ¬ (0 : ℕ) = 1 by decide, show ¬ (1 : ℕ) = 0 by decide, if_false]
    have : i = 0 ∨ i = 1 := by simp only at hi; omega
    rcases this with rfl | rfl
    · nlinarith [sq_nonneg (x.getD 0 0 + x.getD 1 0), sq_nonneg (x.getD 1 0), sq_pos_of_ne_zero hx]
    · nlinarith [sq_nonneg (x.getD 0 0 + x.getD 1 0), sq_nonneg (x.getD 0 0), sq_pos_of_ne_zero hx]

end Verif
