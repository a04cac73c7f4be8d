import Verif.Lemmas.DpgLocal
import Verif.Lemmas.DpgAssemble
import Verif.Lemmas.MeshFunction
import Verif.Props.FixDof

/-!
# The DPG error estimator as a quadratic function
-/

namespace Verif.Dpg
open Verif Finset Matrix

theorem localDofs_mapM (dofs : List ℕ) (sol : List ℝ) (h : ∀ d ∈ dofs, d < sol.length) :
    ((List.range dofs.length).mapM fun i => (dofs[i]?).bind fun d => sol[d]?) = some (dofs.map fun d => sol.getD d 0) := by
  obtain ⟨l, h1, h2, h3⟩ := mapM_range_some dofs.length (fun i => (dofs[i]?).bind fun d => sol[d]?)
    (fun i v => v = sol.getD (dofs.getD i 0) 0) (by
      intro i hi
      have := h dofs[i] (List.getElem_mem hi)
      simp [hi, this])
  rw [h1]
  congr 1
  apply List.ext_getElem?
  intro i
  by_cases hi : i < dofs.length
  · obtain ⟨v, e1, e2⟩ := h3 i hi
    rw [e1, e2]
    simp [hi]
  · rw [List.getElem?_eq_none (by omega), List.getElem?_eq_none (by simp; omega)]

section
variable {ldlt : Ldlt} {T : Topo} {dofh : DofHandler} {stiffness gramian : MatProv} {load : VecProv}
  (S : DpgSetting ldlt T dofh stiffness gramian load)
include S

theorem cell_package (e : Ent) (he : e ∈ T.entities 0) : ∃ (A : Dense ℝ) (b : List ℝ) (c : ℝ),
    dpgMatEval ldlt stiffness gramian e = some A ∧ A.rows = (dofh.all e).length ∧ A.cols = (dofh.all e).length ∧
    dpgVecEval ldlt load stiffness gramian e = some b ∧ b.length = (dofh.all e).length ∧
    (∀ x y, A.form x y = A.form y x) ∧ (∀ x, 0 ≤ A.form x x) ∧
    (∀ B, stiffness.eval e = some B → ∀ x, A.form x x = 0 ↔
      ∀ i < B.rows, ∑ j ∈ range B.cols, B.entry i j * x.getD j 0 = 0) ∧
    (∀ B G, stiffness.eval e = some B → gramian.eval e = some G → ∀ x y zx zy rx ry,
      mulVecD B x = some rx → mulVecD B y = some ry → Represents G zx rx → Represents G zy ry →
      A.form x y = G.form zx zy) ∧
    (∀ B G l, stiffness.eval e = some B → gramian.eval e = some G → load.eval e = some l → ∀ x zx rx,
      mulVecD B x = some rx → Represents G zx rx → dotList x b = dotList zx l) ∧
    ∀ u, u.length = dofh.numDofs → ∃ s, cellError ldlt dofh stiffness gramian load u e = some s ∧ 0 ≤ s ∧
      s * s = A.form (localPart dofh u e) (localPart dofh u e) - 2 * dotList (localPart dofh u e) b + c := by
  obtain ⟨B, G, l, b1, b2, b3, hG, hB, hm, hl⟩ := S.cell e he
  obtain ⟨c1, c2, c3⟩ := S.active e he
  obtain ⟨Gi, i1, i2, i3, i4⟩ := spd_inv hG rfl
  obtain ⟨A, a1, a2, a3, a4⟩ := normalMatrix_eq S.solves hG rfl hB hm i3
  obtain ⟨b, v1, v2, v3⟩ := normalVector_eq S.solves hG rfl hB hm hl i3
  have hsym : ∀ p q, p ⬝ᵥ Gi.mulVec q = q ⬝ᵥ Gi.mulVec p := by
    intro p q
    rw [dotProduct_mulVec, ← mulVec_transpose, i1, dotProduct_comm]
  have hmv : ∀ x r, mulVecD B x = some r → vecN G.rows r = (matN G.rows (dofh.all e).length B).mulVec (vecN _ x) ∧
      r.length = G.rows := by
    intro x r h
    unfold mulVecD at h
    split_ifs at h with hx
    cases h
    refine ⟨?_, by simp [hB]⟩
    funext i
    have hi : (i : ℕ) < B.rows := by rw [hB]; exact i.2
    simp only [vecN, List.getD_eq_getElem?_getD, List.getElem?_map, List.getElem?_range hi, Option.map_some, Option.getD_some]
    rw [hm, Finset.sum_range]
    rfl
  have hGG : ∀ zx zy, G.form zx zy = vecN G.rows zx ⬝ᵥ (matN G.rows G.rows G).mulVec (vecN G.rows zy) := fun zx zy =>
    form_eq G rfl hG.square.symm zx zy
  have hcancel : ∀ q, (matN G.rows G.rows G).mulVec (Gi.mulVec q) = q := fun q => by
    rw [mulVec_mulVec, i2, one_mulVec]
  refine ⟨A, b, vecN G.rows l ⬝ᵥ Gi.mulVec (vecN G.rows l), ?_, a2, a3, ?_, v2, ?_, ?_, ?_, ?_, ?_, ?_⟩
  · rw [dpgMatEval, if_pos ⟨c2, c1⟩, b1, Option.bind_some, b2, Option.bind_some,
      if_pos ⟨hG.square, hB.trans hG.square⟩, a1]
  · rw [dpgVecEval, if_pos ⟨c3, c1, c2⟩, b3, Option.bind_some, b1, Option.bind_some, b2, Option.bind_some,
      if_pos hG.square, v1]
  · intro x y
    rw [a4, a4, hsym]
  · intro x
    rw [a4]
    exact (i4 _).1
  · intro B' hB' x
    rw [b1] at hB'; cases hB'
    rw [a4]
    have : (∀ i < B.rows, ∑ j ∈ range B.cols, B.entry i j * x.getD j 0 = 0) ↔
        (matN G.rows (dofh.all e).length B).mulVec (vecN _ x) = 0 := by
      constructor
      · intro h
        funext i
        have := h i (by rw [hB]; exact i.2)
        rw [hm, Finset.sum_range] at this
        exact this
      · intro h i hi
        have := congrFun h ⟨i, by rw [← hB]; exact hi⟩
        rw [hm, Finset.sum_range]
        exact this
    rw [this]
    constructor
    · exact (i4 _).2
    · intro h; rw [h]; simp
  · intro B' G' hB' hG' x y zx zy rx ry hx hy h1 h2
    rw [b1] at hB'; cases hB'
    rw [b2] at hG'; cases hG'
    rw [a4, hGG, represents_eq rfl hG.square.symm i3 h1, represents_eq rfl hG.square.symm i3 h2, (hmv x rx hx).1,
      hcancel, ← (hmv x rx hx).1, ← (hmv y ry hy).1, hsym, dotProduct_comm]
  · intro B' G' l' hB' hG' hl' x zx rx hx h1
    rw [b1] at hB'; cases hB'
    rw [b2] at hG'; cases hG'
    rw [b3] at hl'; cases hl'
    rw [v3, dot_eq l hl, represents_eq rfl hG.square.symm i3 h1, (hmv x rx hx).1, hsym, dotProduct_comm]
  · intro u hu
    have hloc := localDofs_mapM (dofh.all e) u (fun d hd => by rw [hu]; exact S.dofs.range e he d hd)
    have hlp : (dofh.all e).map (fun d => u.getD d 0) = localPart dofh u e := rfl
    rw [hlp] at hloc
    obtain ⟨Bx, hBx⟩ : ∃ Bx, mulVecD B (localPart dofh u e) = some Bx := by
      rw [mulVecD, if_pos (by simp [localPart, hm])]; exact ⟨_, rfl⟩
    obtain ⟨m1, m2⟩ := hmv _ _ hBx
    set r := List.zipWith (· - ·) l Bx with hr
    have hrl : r.length = G.rows := by simp [hr, hl, m2]
    have hrv : vecN G.rows r = vecN G.rows l - vecN G.rows Bx := by
      funext i
      have h1 : (i : ℕ) < l.length := by rw [hl]; exact i.2
      have h2 : (i : ℕ) < Bx.length := by rw [m2]; exact i.2
      simp [vecN, hr, List.getElem?_zipWith, h1, h2]
    have hs : ∑ k ∈ range r.length, r.getD k 0 * (ldlt G r).getD k 0 = vecN G.rows r ⬝ᵥ Gi.mulVec (vecN G.rows r) := by
      rw [← represents_eq rfl hG.square.symm i3 (ldlt_represents S.solves hG hrl), hrl, Finset.sum_range]
      rfl
    refine ⟨Real.sqrt (vecN G.rows r ⬝ᵥ Gi.mulVec (vecN G.rows r)), ?_, Real.sqrt_nonneg _, ?_⟩
    · simp only [cellError, b2, b1, b3, S.numLocal e he, S.dofs.answers e he, Option.bind_some, hloc, hBx]
      rw [if_pos ⟨by rw [hl, m2], hG.square, hl.symm⟩]
      rw [← hr, hs, if_pos (i4 _).1]
    · rw [Real.mul_self_sqrt (i4 _).1, a4, v3, hrv, m1]
      simp only [sub_dotProduct, mulVec_sub, dotProduct_sub]
      rw [hsym (vecN G.rows l) (matN G.rows (dofh.all e).length B *ᵥ _)]
      ring

end

/-! ## Loops over cells -/

theorem errors_loop (m : MeshObj) (f : Ent → Option ℝ) (g : ℕ → ℝ) (hf : ∀ i < m.topo.num 0, f (0, i) = some (g i)) :
    ∃ d, ((CodimDS.make m 0 (0 : ℝ)).bind fun d0 => (m.topo.entities 0).foldlM (fun d cell =>
      (f cell).bind fun e => d.write ⟨m.id, cell⟩ e) d0) = some d ∧ d.mesh = m ∧ d.codim = 0 ∧
      d.data = (List.range (m.topo.num 0)).map g := by
  have key : ∀ k ≤ m.topo.num 0, ((List.range k).map fun i => ((0 : ℕ), i)).foldlM (fun (d : CodimDS ℝ) cell =>
      (f cell).bind fun e => d.write ⟨m.id, cell⟩ e) ⟨m, List.replicate (m.topo.num 0) 0, 0⟩ =
      some ⟨m, (List.range k).map g ++ List.replicate (m.topo.num 0 - k) 0, 0⟩ := by
    intro k
    induction k with
    | zero => intro _; simp
    | succ k ih =>
      intro hk
      rw [List.range_succ, List.map_append, List.foldlM_append, ih (by omega)]
      simp only [List.map_cons, List.map_nil, List.foldlM_cons, List.foldlM_nil, Option.bind_eq_bind, Option.bind_some,
        hf k (by omega)]
      have hc : CodimDS.definedOn (⟨m, (List.range k).map g ++ List.replicate (m.topo.num 0 - k) 0, 0⟩ : CodimDS ℝ)
          ⟨m.id, (0, k)⟩ = true := by
        have hk' : k < m.topo.num 0 := by omega
        simp [CodimDS.definedOn, MeshObj.contains, hk']
      rw [CodimDS.write, if_pos hc, if_pos (by simp; omega)]
      simp only [Option.bind_some, pure]
      congr 2
      rw [List.set_append_right _ _ (by simp), List.length_map, List.length_range, Nat.sub_self]
      obtain ⟨q, hq⟩ : ∃ q, m.topo.num 0 - k = q + 1 := ⟨m.topo.num 0 - (k + 1), by omega⟩
      rw [hq, List.replicate_succ, List.set_cons_zero, List.map_append, List.append_assoc]
      have : m.topo.num 0 - (k + 1) = q := by omega
      rw [this]
      rfl
  refine ⟨_, by rw [CodimDS.make, if_pos (by omega), Option.bind_some]; exact key _ le_rfl, rfl, rfl, by simp⟩

theorem errors_sum (m : MeshObj) (d : CodimDS ℝ) (g : ℕ → ℝ) (h1 : d.mesh = m) (h2 : d.codim = 0)
    (h3 : d.data = (List.range (m.topo.num 0)).map g) :
    evalPosteriorError m d = some (Real.sqrt ((m.topo.entities 0).map fun e => g e.2 * g e.2).sum) := by
  have key : ∀ k ≤ m.topo.num 0, ((List.range k).map fun i => ((0 : ℕ), i)).foldlM (fun s cell =>
      (d.read ⟨m.id, cell⟩).map fun e => s + e * e) 0 = some (((List.range k).map fun i => ((0 : ℕ), i)).map fun e => g e.2 * g e.2).sum := by
    intro k
    induction k with
    | zero => intro _; simp
    | succ k ih =>
      intro hk
      rw [List.range_succ, List.map_append, List.foldlM_append, ih (by omega)]
      have hk' : k < m.topo.num 0 := by omega
      have hr : d.read ⟨m.id, (0, k)⟩ = some (g k) := by
        rw [CodimDS.read, if_pos, h3]
        · simp [hk']
        · simp [CodimDS.definedOn, MeshObj.contains, h1, h2, hk']
      simp [hr]
  rw [evalPosteriorError, Topo.entities, key _ le_rfl]
  rfl

/-! ## Quadratic functions -/

/-- `D` is symmetric with nonnegative form, `N × N`. -/
structure SymNonneg (D : Dense ℝ) (N : ℕ) : Prop where
  rows : D.rows = N
  cols : D.cols = N
  symm : ∀ x y, D.form x y = D.form y x
  nonneg : ∀ x, 0 ≤ D.form x x

theorem form_row {D : Dense ℝ} {N : ℕ} (h : SymNonneg D N) (v u : List ℝ) :
    D.form v u = ∑ i ∈ range N, v.getD i 0 * ∑ j ∈ range D.cols, D.entry i j * u.getD j 0 := by
  unfold Dense.form
  rw [h.rows]
  refine Finset.sum_congr rfl fun i _ => ?_
  rw [Finset.mul_sum]

theorem form_add_smul {D : Dense ℝ} {N : ℕ} (h : SymNonneg D N) (u v w : List ℝ) (t : ℝ)
    (hw : ∀ i < N, w.getD i 0 = u.getD i 0 + t * v.getD i 0) :
    D.form w w = D.form u u + 2 * t * D.form v u + t ^ 2 * D.form v v := by
  have hv : vecN N w = vecN N u + t • vecN N v := by
    funext i
    exact hw i i.2
  have hs := h.symm u v
  simp only [form_eq D h.rows h.cols] at hs ⊢
  rw [hv]
  simp only [mulVec_add, mulVec_smul, add_dotProduct, dotProduct_add, smul_dotProduct, dotProduct_smul, smul_eq_mul]
  rw [hs]
  ring

theorem dot_add_smul {b : List ℝ} {N : ℕ} (hb : b.length = N) (u v w : List ℝ) (t : ℝ)
    (hw : ∀ i < N, w.getD i 0 = u.getD i 0 + t * v.getD i 0) :
    dotList w b = dotList u b + t * dotList v b := by
  have hv : vecN N w = vecN N u + t • vecN N v := by
    funext i
    exact hw i i.2
  simp only [dot_eq b hb]
  rw [hv]
  simp only [add_dotProduct, smul_dotProduct, smul_eq_mul]

/-- A vector with prescribed entries minimises `w ↦ wᵀDw - 2bᵀw` among all vectors with the same prescribed entries if and
only if the other equations of `D u = b` hold. -/
theorem minimise_iff {D : Dense ℝ} {N : ℕ} (h : SymNonneg D N) {b : List ℝ} (hb : b.length = N) (free : ℕ → Bool)
    (u : List ℝ) :
    (∀ i < N, free i = true → RowHolds D b (fun j => u.getD j 0) i) ↔
    ∀ w : List ℝ, w.length = N → (∀ i < N, free i = false → w.getD i 0 = u.getD i 0) →
      D.form u u - 2 * dotList u b ≤ D.form w w - 2 * dotList w b := by
  have hdiff : ∀ v : List ℝ, D.form v u - dotList v b =
      ∑ i ∈ range N, v.getD i 0 * (∑ j ∈ range D.cols, D.entry i j * u.getD j 0 - b.getD i 0) := by
    intro v
    rw [form_row h, dotList, hb, ← Finset.sum_sub_distrib]
    refine Finset.sum_congr rfl fun i _ => by ring
  constructor
  · intro hrow w hw hfix
    set v : List ℝ := (List.range N).map fun i => w.getD i 0 - u.getD i 0 with hv
    have hvi : ∀ i < N, v.getD i 0 = w.getD i 0 - u.getD i 0 := by
      intro i hi; simp [hv, hi]
    have hwi : ∀ i < N, w.getD i 0 = u.getD i 0 + 1 * v.getD i 0 := by
      intro i hi; rw [hvi i hi]; ring
    rw [form_add_smul h u v w 1 hwi, dot_add_smul hb u v w 1 hwi]
    have hz : D.form v u - dotList v b = 0 := by
      rw [hdiff]
      refine Finset.sum_eq_zero fun i hi => ?_
      have hi' := Finset.mem_range.1 hi
      cases hf : free i with
      | true => rw [sub_eq_zero.2 (hrow i hi' hf), mul_zero]
      | false => rw [hvi i hi', hfix i hi' hf, sub_self, zero_mul]
    have := h.nonneg v
    nlinarith
  · intro hmin i hi hf
    set v : List ℝ := (List.range N).map fun j => if j = i then 1 else 0 with hv
    have hvj : ∀ j < N, v.getD j 0 = if j = i then 1 else 0 := by
      intro j hj; simp [hv, hj]
    set g := D.form v u - dotList v b with hg
    have hg' : g = ∑ j ∈ range D.cols, D.entry i j * u.getD j 0 - b.getD i 0 := by
      rw [hg, hdiff, Finset.sum_eq_single_of_mem i (Finset.mem_range.2 hi), hvj i hi, if_pos rfl, one_mul]
      intro j hj hne
      rw [hvj j (Finset.mem_range.1 hj), if_neg hne, zero_mul]
    have hq : ∀ t : ℝ, 0 ≤ 2 * t * g + t ^ 2 * D.form v v := by
      intro t
      set w : List ℝ := (List.range N).map fun j => u.getD j 0 + t * v.getD j 0 with hw
      have hwi : ∀ j < N, w.getD j 0 = u.getD j 0 + t * v.getD j 0 := by
        intro j hj
        simp only [hw, List.getD_eq_getElem?_getD, List.getElem?_map, List.getElem?_range hj, Option.map_some,
          Option.getD_some]
      have := hmin w (by simp [hw]) (fun j hj hfj => by
        rw [hwi j hj, hvj j hj, if_neg (by rintro rfl; rw [hf] at hfj; cases hfj)]; ring)
      rw [form_add_smul h u v w t hwi, dot_add_smul hb u v w t hwi] at this
      rw [hg]
      nlinarith
    have hg0 : g = 0 := by
      by_contra hne
      have hv0 := h.nonneg v
      have hd : 0 < D.form v v + 1 := by linarith
      have h1 := hq (-g / (D.form v v + 1))
      have h2 : 2 * (-g / (D.form v v + 1)) * g + (-g / (D.form v v + 1)) ^ 2 * D.form v v =
          -(g ^ 2 * (D.form v v + 2)) / (D.form v v + 1) ^ 2 := by
        field_simp
        ring
      rw [h2] at h1
      have h3 : 0 < g ^ 2 * (D.form v v + 2) / (D.form v v + 1) ^ 2 := by positivity
      rw [neg_div] at h1
      linarith
    rw [RowHolds]
    linarith [hg'.symm.trans hg0]

end Verif.Dpg
