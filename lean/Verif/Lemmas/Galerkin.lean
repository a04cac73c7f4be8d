import Verif.Spec.Galerkin
import Verif.Props.Assembly
import Verif.Props.LocComp
import Verif.Props.GradFE
import Mathlib.Data.Matrix.Mul

/-!
# Lemmas: from element matrices to bilinear forms
-/

namespace Verif
open Geo Finset Matrix

variable {w : ℕ} {S : FeSpace ℝ}

theorem FeSpace.mem_entities {codim : ℕ} (hc : codim ≤ 2) {e : Ent} (he : e ∈ S.entities codim) : S.mesh.IsEnt e := by
  obtain ⟨i, hi, rfl⟩ := List.mem_map.1 he
  exact ⟨hc, List.mem_range.1 hi⟩

/-- Local coefficients. -/
def FeSpace.loc (S : FeSpace ℝ) (u : List ℝ) (e : Ent) (n : ℕ) : Fin n → ℝ := fun i => u.getD ((S.dofh.all e).getD i 0) 0

theorem sum_pick (l : List ℕ) (N : ℕ) (hl : ∀ d ∈ l, d < N) (i : ℕ) (hi : i < l.length) (f : ℕ → ℝ) :
    ∑ r ∈ range N, (if l[i]? = some r then f r else 0) = f (l.getD i 0) := by
  have e1 : l[i]? = some (l.getD i 0) := by simp [hi]
  simp only [e1, Option.some.injEq]
  rw [Finset.sum_ite_eq, if_pos]
  exact Finset.mem_range.2 (hl _ (by simp [hi]))

theorem list_sum_comm {α β : Type} [AddCommMonoid β] (l : List α) (n : ℕ) (f : ℕ → α → β) :
    ∑ r ∈ range n, (l.map fun e => f r e).sum = (l.map fun e => ∑ r ∈ range n, f r e).sum := by
  induction l with
  | nil => simp
  | cons a l ih => simp [Finset.sum_add_distrib, ih]

theorem map_filter_sum {α : Type} (l : List α) (p : α → Bool) (f g : α → ℝ) (h1 : ∀ e ∈ l, p e = true → f e = g e)
    (h2 : ∀ e ∈ l, p e = false → f e = 0) : (l.map f).sum = ((l.filter p).map g).sum := by
  induction l with
  | nil => rfl
  | cons a l ih =>
    have := ih (fun e he => h1 e (by simp [he])) fun e he => h2 e (by simp [he])
    rw [List.map_cons, List.sum_cons, this]
    cases hp : p a with
    | true => rw [List.filter_cons_of_pos hp, List.map_cons, List.sum_cons, h1 a (by simp) hp]
    | false => rw [List.filter_cons_of_neg (by simp [hp]), h2 a (by simp) hp, zero_add]

theorem toMap_dofs (h : S.DofsOk) {e : Ent} (he : S.mesh.IsEnt e) : S.dofh.toMap.dofs e = S.dofh.all e := by
  simp [DofHandler.toMap, (h.answers e he).2.1]

theorem allReturn_of {α : Type} (h : S.DofsOk) {codim : ℕ} (hc : codim ≤ 2) {active : Ent → Bool} {eval : Ent → Option α}
    (hM : ∀ e ∈ (S.entities codim).filter active, (eval e).isSome) : S.allReturn codim active eval = true := by
  rw [FeSpace.allReturn, List.all_eq_true]
  intro e he
  cases ha : active e with
  | false => rfl
  | true =>
    rw [(h.answers e (FeSpace.mem_entities hc he)).2.1, hM e (List.mem_filter.2 ⟨he, ha⟩)]
    rfl

/-- Assembling a matrix. -/
theorem assembleMatrixFE_form (h : S.DofsOk) (codim : ℕ) (hc : codim ≤ 2) (active : Ent → Bool)
    (eval : Ent → Option ElemMat) (F : Ent → RefFE ℝ)
    (hn : ∀ e ∈ (S.entities codim).filter active, (S.dofh.all e).length = (F e).num)
    (M : ∀ e, Matrix (Fin (F e).num) (Fin (F e).num) ℝ)
    (hM : ∀ e ∈ (S.entities codim).filter active, eval e = some ⟨(F e).num, M e⟩)
    (A : Coo ℝ) (D : Dense ℝ) (hA : A.makeDense = some D) (hr : D.rows = S.dofh.numDofs) (hcs : D.cols = S.dofh.numDofs) :
    ∃ A' D', assembleMatrixFE S codim active eval A = some A' ∧ A'.makeDense = some D' ∧ D'.rows = S.dofh.numDofs ∧
      D'.cols = S.dofh.numDofs ∧ ∀ ν μ : List ℝ, D'.form ν μ = D.form ν μ +
        (((S.entities codim).filter active).map fun e =>
          S.loc ν e (F e).num ⬝ᵥ (M e).mulVec (S.loc μ e (F e).num)).sum := by
  set prov : EntityMatrixProvider Ent ℝ :=
    ⟨active, fun e => ((eval e).map ElemMat.toDense).getD ⟨0, 0, fun _ _ => 0⟩⟩ with hprov
  have hent : ∀ e ∈ S.entities codim, S.mesh.IsEnt e := fun e he => FeSpace.mem_entities hc he
  have heval : ∀ e ∈ S.entities codim, active e = true → prov.eval e = ElemMat.toDense ⟨(F e).num, M e⟩ :=
    fun e he ha => by simp [hprov, hM e (List.mem_filter.2 ⟨he, ha⟩)]
  have hok : MatAssemblyOk (S.entities codim) S.dofh.toMap S.dofh.toMap prov D.rows D.cols := by
    refine ⟨fun e he ha => ?_, fun e he _ d hd => ?_, fun e he _ d hd => ?_, ?_⟩
    · rw [heval e he ha, toMap_dofs h (hent e he), hn e (List.mem_filter.2 ⟨he, ha⟩)]
      exact ⟨le_rfl, le_rfl⟩
    · rw [toMap_dofs h (hent e he)] at hd
      exact hr ▸ (h.range e (hent e he)).1 d hd
    · rw [toMap_dofs h (hent e he)] at hd
      exact hcs ▸ (h.range e (hent e he)).1 d hd
    · rw [hr, hcs]; exact ⟨h.fits, h.fits⟩
  obtain ⟨A', D', e1, e2, hr', hc', hE⟩ := C07_assembleMatrixLocally _ _ _ prov A D hA hok
  refine ⟨A', D', ?_, e2, hr'.trans hr, hc'.trans hcs, fun ν μ => ?_⟩
  · rw [assembleMatrixFE, if_pos (allReturn_of h hc fun e he => by rw [hM e he]; rfl)]
    exact e1
  · unfold Dense.form
    rw [hr', hc']
    simp only [hE, add_mul, mul_add, Finset.sum_add_distrib]
    congr 1
    have : ∀ r c, ν.getD r 0 * (((S.entities codim).map fun e => matContribution S.dofh.toMap S.dofh.toMap prov e r c).sum *
        μ.getD c 0) = ((S.entities codim).map fun e => ν.getD r 0 *
          (matContribution S.dofh.toMap S.dofh.toMap prov e r c * μ.getD c 0)).sum := by
      intro r c
      rw [← List.sum_map_mul_right, ← List.sum_map_mul_left]
    simp only [this]
    rw [Finset.sum_congr rfl fun r _ => list_sum_comm _ _ _, list_sum_comm]
    refine map_filter_sum _ active _ _ (fun e he ha => ?_) fun e he ha => ?_
    · have hnum := hn e (List.mem_filter.2 ⟨he, ha⟩)
      have hlt := (h.range e (hent e he)).1
      simp only [matContribution, heval e he ha, toMap_dofs h (hent e he), show prov.isActive e = true from ha, if_true]
      have step : ∀ r c, ν.getD r 0 * ((∑ i ∈ range (S.dofh.all e).length, ∑ j ∈ range (S.dofh.all e).length,
          if (S.dofh.all e)[i]? = some r ∧ (S.dofh.all e)[j]? = some c then
            (ElemMat.toDense ⟨(F e).num, M e⟩).entry i j else 0) * μ.getD c 0) =
          ∑ i ∈ range (S.dofh.all e).length, ∑ j ∈ range (S.dofh.all e).length,
            (if (S.dofh.all e)[i]? = some r then (if (S.dofh.all e)[j]? = some c then
            ν.getD r 0 * ((ElemMat.toDense ⟨(F e).num, M e⟩).entry i j * μ.getD c 0) else 0) else 0) := by
        intro r c
        rw [Finset.sum_mul, Finset.mul_sum]
        refine Finset.sum_congr rfl fun i _ => ?_
        rw [Finset.sum_mul, Finset.mul_sum]
        refine Finset.sum_congr rfl fun j _ => ?_
        by_cases h1 : (S.dofh.all e)[i]? = some r <;> by_cases h2 : (S.dofh.all e)[j]? = some c <;> simp [h1, h2]
      simp only [step]
      -- pull the sums over the local indices outside
      have pull : ∀ f : ℕ → ℕ → ℕ → ℕ → ℝ, ∑ r ∈ range D.rows, ∑ c ∈ range D.cols,
          ∑ i ∈ range (S.dofh.all e).length, ∑ j ∈ range (S.dofh.all e).length, f r c i j =
          ∑ i ∈ range (S.dofh.all e).length, ∑ j ∈ range (S.dofh.all e).length,
            ∑ r ∈ range D.rows, ∑ c ∈ range D.cols, f r c i j := by
        intro f
        rw [Finset.sum_congr rfl fun r _ => Finset.sum_comm, Finset.sum_comm]
        refine Finset.sum_congr rfl fun i _ => ?_
        rw [Finset.sum_congr rfl fun r _ => Finset.sum_comm, Finset.sum_comm]
      rw [pull, hnum]
      simp only [dotProduct, mulVec, Finset.mul_sum]
      rw [← Fin.sum_univ_eq_sum_range (fun i => ∑ j ∈ range (F e).num, ∑ r ∈ range D.rows, ∑ c ∈ range D.cols, _)]
      refine Finset.sum_congr rfl fun i _ => ?_
      rw [← Fin.sum_univ_eq_sum_range (fun j => ∑ r ∈ range D.rows, ∑ c ∈ range D.cols, _)]
      refine Finset.sum_congr rfl fun j _ => ?_
      have hi : i.val < (S.dofh.all e).length := i.isLt.trans_eq hnum.symm
      have hj : j.val < (S.dofh.all e).length := j.isLt.trans_eq hnum.symm
      have inner : ∀ r, ∑ c ∈ range D.cols, (if (S.dofh.all e)[i.val]? = some r then
          (if (S.dofh.all e)[j.val]? = some c then
            ν.getD r 0 * ((ElemMat.toDense ⟨(F e).num, M e⟩).entry i j * μ.getD c 0) else 0) else 0) =
          if (S.dofh.all e)[i.val]? = some r then
            ν.getD r 0 * ((ElemMat.toDense ⟨(F e).num, M e⟩).entry i j * S.loc μ e (F e).num j) else 0 := by
        intro r
        by_cases h1 : (S.dofh.all e)[i.val]? = some r
        · simp only [h1, if_true]
          exact sum_pick _ _ (by rw [hcs]; exact hlt) _ hj fun c =>
            ν.getD r 0 * ((ElemMat.toDense ⟨(F e).num, M e⟩).entry i j * μ.getD c 0)
        · simp [h1]
      rw [Finset.sum_congr rfl fun r _ => inner r, sum_pick _ _ (by rw [hr]; exact hlt) _ hi fun r =>
        ν.getD r 0 * ((ElemMat.toDense ⟨(F e).num, M e⟩).entry i j * S.loc μ e (F e).num j)]
      simp only [ElemMat.toDense, FeSpace.loc]
      rw [dif_pos ⟨i.isLt, j.isLt⟩]
    · simp [matContribution, hprov, ha]

/-- Assembling a vector. -/
theorem assembleVectorFE_form (h : S.DofsOk) (codim : ℕ) (hc : codim ≤ 2) (active : Ent → Bool)
    (eval : Ent → Option ElemVec) (F : Ent → RefFE ℝ)
    (hn : ∀ e ∈ (S.entities codim).filter active, (S.dofh.all e).length = (F e).num)
    (V : ∀ e, Fin (F e).num → ℝ)
    (hV : ∀ e ∈ (S.entities codim).filter active, eval e = some ⟨(F e).num, V e⟩)
    (b : List ℝ) (hb : b.length = S.dofh.numDofs) :
    ∃ b', assembleVectorFE S codim active eval b = some b' ∧ b'.length = S.dofh.numDofs ∧
      ∀ ν : List ℝ, dotList ν b' = dotList ν b +
        (((S.entities codim).filter active).map fun e => S.loc ν e (F e).num ⬝ᵥ V e).sum := by
  set prov : EntityVectorProvider Ent ℝ :=
    ⟨active, fun e => ((eval e).map fun v => List.ofFn v.2).getD []⟩ with hprov
  have hent : ∀ e ∈ S.entities codim, S.mesh.IsEnt e := fun e he => FeSpace.mem_entities hc he
  have heval : ∀ e ∈ S.entities codim, active e = true → prov.eval e = List.ofFn (V e) :=
    fun e he ha => by simp [hprov, hV e (List.mem_filter.2 ⟨he, ha⟩)]
  have hok : VecAssemblyOk (S.entities codim) S.dofh.toMap prov b.length := by
    refine ⟨fun e he ha => ?_, fun e he _ d hd => ?_⟩
    · rw [heval e he ha, toMap_dofs h (hent e he), hn e (List.mem_filter.2 ⟨he, ha⟩)]
      simp
    · rw [toMap_dofs h (hent e he)] at hd
      exact hb ▸ (h.range e (hent e he)).1 d hd
  obtain ⟨b', e1, hl, hE⟩ := C08_assembleVectorLocally _ _ prov b hok
  refine ⟨b', ?_, hl.trans hb, fun ν => ?_⟩
  · rw [assembleVectorFE, if_pos (allReturn_of h hc fun e he => by rw [hV e he]; rfl)]
    exact e1
  · unfold dotList
    rw [hl]
    simp only [hE, mul_add, Finset.sum_add_distrib]
    congr 1
    simp only [← List.sum_map_mul_left]
    rw [list_sum_comm]
    refine map_filter_sum _ active _ _ (fun e he ha => ?_) fun e he ha => ?_
    · have hnum := hn e (List.mem_filter.2 ⟨he, ha⟩)
      have hlt := (h.range e (hent e he)).1
      simp only [vecContribution, heval e he ha, toMap_dofs h (hent e he), show prov.isActive e = true from ha, if_true]
      simp only [Finset.mul_sum, mul_ite, mul_zero]
      rw [Finset.sum_comm, hnum]
      rw [dotProduct, ← Fin.sum_univ_eq_sum_range (fun i => ∑ r ∈ range b.length, _)]
      refine Finset.sum_congr rfl fun i _ => ?_
      rw [sum_pick _ _ (by rw [hb]; exact hlt) _ (i.isLt.trans_eq hnum.symm) fun r => ν.getD r 0 * (List.ofFn (V e)).getD i 0]
      simp [FeSpace.loc]
    · simp [vecContribution, hprov, ha]

/-- Values in terms of the local coefficients. -/
theorem evalFE_loc (h : S.DofsOk) {e : Ent} (he : S.mesh.IsEnt e) {fe : RefFE ℝ} (hl : S.layout e = some fe)
    (hn : (S.dofh.all e).length = fe.num) {u : List ℝ} (hu : u.length = S.dofh.numDofs) {x : List ℝ}
    (hx : ∃ v, fe.eval x = some v ∧ v.length = fe.num) : S.evalFE u e x = some (fe.combine (S.loc u e fe.num) x) := by
  obtain ⟨v, hv, hvl⟩ := hx
  rw [FeSpace.evalFE, hl, Option.bind_some, hv, Option.bind_some, hvl,
    localDofs_eq (h.answers e he).2.1 hn fun d hd => by rw [hu]; exact (h.range e he).1 d hd, Option.map_some]
  congr 1
  rw [← dotRow_eq_sum (n := fe.num) (by simp [hn]) hvl, RefFE.combine,
    ← Fin.sum_univ_eq_sum_range (fun i => ((S.dofh.all e).map fun d => u.getD d 0).getD i 0 * v.getD i 0)]
  refine Finset.sum_congr rfl fun i _ => ?_
  have hi : i.val < (S.dofh.all e).length := i.isLt.trans_eq hn.symm
  rw [RefFE.shape, hv, FeSpace.loc]
  congr 1
  simp [hi]

/-- Gradients in terms of the local coefficients. -/
theorem gradFE_loc (h : S.DofsOk) {geo : Ent → Option (Geo ℝ w)} {e : Ent} (he : S.mesh.IsEnt e) {g : Geo ℝ w}
    {fe : RefFE ℝ} {q : QuadRule ℝ} {detJ : List ℝ → ℝ}
    (hg : geo e = some g) (hk : S.mesh.refEl e = some g.kind) (hl : S.layout e = some fe)
    (hn : (S.dofh.all e).length = fe.num) {u : List ℝ} (hu : u.length = S.dofh.numDofs)
    (hc : ComputableGrad g fe q detJ) {x : List ℝ} (hx : x ∈ q.points) :
    S.gradFE geo u e x = some (g.pushGrad x (fe.combineGrad (S.loc u e fe.num) x)) := by
  obtain ⟨sf, hsf, hsl, hrow⟩ := hc.grads x hx
  obtain ⟨C, hC, hCl, hp⟩ := hc.gramian hx
  have hγ : ∀ k < 2, dotRow ((S.dofh.all e).map fun d => u.getD d 0) (sf.map fun r => r.getD k 0) =
      ∑ i, S.loc u e fe.num i * (fe.gradAt i.val x).getD k 0 := by
    intro k hk
    rw [← dotRow_eq_sum (n := fe.num) (by simp [hn]) (by simp [hsl]), ← Fin.sum_univ_eq_sum_range
      (fun i => ((S.dofh.all e).map fun d => u.getD d 0).getD i 0 * (sf.map fun r => r.getD k 0).getD i 0)]
    refine Finset.sum_congr rfl fun i _ => ?_
    have hi : i.val < (S.dofh.all e).length := i.isLt.trans_eq hn.symm
    have hi' : i.val < sf.length := i.isLt.trans_eq hsl.symm
    rw [FeSpace.loc, RefFE.gradAt, hsf]
    congr 1
    · simp [hi]
    · simp [hi']
  have hgrad : ((List.range 2).mapM fun k => (sf.mapM fun row => row[k]?).map fun col =>
      dotRow ((S.dofh.all e).map fun d => u.getD d 0) col) = some (fe.combineGrad (S.loc u e fe.num) x) := by
    rw [mapM_eq_map _ (fun k => ∑ i, S.loc u e fe.num i * (fe.gradAt i.val x).getD k 0)]
    · rfl
    · intro k hk
      rw [List.mem_range] at hk
      rw [mapM_getElem?_eq sf k fun r hr => by rw [hrow r hr]; exact hk, Option.map_some, hγ k hk]
  rw [FeSpace.gradFE, hl, Option.bind_some, hsf, Option.bind_some, hsl,
    localDofs_eq (h.answers e he).2.1 hn fun d hd => by rw [hu]; exact (h.range e he).1 d hd, Option.bind_some, hk,
    Option.bind_some, hc.dim, hgrad, Option.bind_some, hg, Option.bind_some, hC, Option.bind_some, if_pos hCl, hp]
  congr 1
  obtain ⟨a, b, rfl⟩ : ∃ a b, C = [a, b] := List.length_eq_two.1 hCl
  simp [RefFE.combineGrad]

/-- Assembling a matrix, with the bilinear forms of the element matrices given. -/
theorem assembleMatrixFE_rep (h : S.DofsOk) (codim : ℕ) (hc : codim ≤ 2) (active : Ent → Bool)
    (eval : Ent → Option ElemMat) (F : Ent → RefFE ℝ)
    (hn : ∀ e ∈ (S.entities codim).filter active, (S.dofh.all e).length = (F e).num)
    (B : ∀ e, (Fin (F e).num → ℝ) → (Fin (F e).num → ℝ) → ℝ)
    (hM : ∀ e ∈ (S.entities codim).filter active, ∃ M : Matrix (Fin (F e).num) (Fin (F e).num) ℝ,
      eval e = some ⟨(F e).num, M⟩ ∧ ∀ c d, c ⬝ᵥ M.mulVec d = B e c d)
    (A : Coo ℝ) (D : Dense ℝ) (hA : A.makeDense = some D) (hr : D.rows = S.dofh.numDofs) (hcs : D.cols = S.dofh.numDofs) :
    ∃ A' D', assembleMatrixFE S codim active eval A = some A' ∧ A'.makeDense = some D' ∧ D'.rows = S.dofh.numDofs ∧
      D'.cols = S.dofh.numDofs ∧ ∀ ν μ : List ℝ, D'.form ν μ = D.form ν μ +
        (((S.entities codim).filter active).map fun e => B e (S.loc ν e (F e).num) (S.loc μ e (F e).num)).sum := by
  have : ∀ e, ∃ M : Matrix (Fin (F e).num) (Fin (F e).num) ℝ, e ∈ (S.entities codim).filter active →
      eval e = some ⟨(F e).num, M⟩ ∧ ∀ c d, c ⬝ᵥ M.mulVec d = B e c d := by
    intro e
    by_cases he : e ∈ (S.entities codim).filter active
    · obtain ⟨M, hM⟩ := hM e he
      exact ⟨M, fun _ => hM⟩
    · exact ⟨0, fun h => absurd h he⟩
  choose M hM using this
  obtain ⟨A', D', h1, h2, h3, h4, h5⟩ := assembleMatrixFE_form h codim hc active eval F hn M (fun e he => (hM e he).1) A D hA
    hr hcs
  refine ⟨A', D', h1, h2, h3, h4, fun ν μ => ?_⟩
  rw [h5]
  congr 2
  exact List.map_congr_left fun e he => (hM e he).2 _ _

theorem assembleVectorFE_rep (h : S.DofsOk) (codim : ℕ) (hc : codim ≤ 2) (active : Ent → Bool)
    (eval : Ent → Option ElemVec) (F : Ent → RefFE ℝ)
    (hn : ∀ e ∈ (S.entities codim).filter active, (S.dofh.all e).length = (F e).num)
    (B : ∀ e, (Fin (F e).num → ℝ) → ℝ)
    (hV : ∀ e ∈ (S.entities codim).filter active, ∃ V : Fin (F e).num → ℝ,
      eval e = some ⟨(F e).num, V⟩ ∧ ∀ c, c ⬝ᵥ V = B e c)
    (b : List ℝ) (hb : b.length = S.dofh.numDofs) :
    ∃ b', assembleVectorFE S codim active eval b = some b' ∧ b'.length = S.dofh.numDofs ∧
      ∀ ν : List ℝ, dotList ν b' = dotList ν b +
        (((S.entities codim).filter active).map fun e => B e (S.loc ν e (F e).num)).sum := by
  have : ∀ e, ∃ V : Fin (F e).num → ℝ, e ∈ (S.entities codim).filter active →
      eval e = some ⟨(F e).num, V⟩ ∧ ∀ c, c ⬝ᵥ V = B e c := by
    intro e
    by_cases he : e ∈ (S.entities codim).filter active
    · obtain ⟨M, hM⟩ := hV e he
      exact ⟨M, fun _ => hM⟩
    · exact ⟨0, fun h => absurd h he⟩
  choose V hV using this
  obtain ⟨b', h1, h2, h3⟩ := assembleVectorFE_form h codim hc active eval F hn V (fun e he => (hV e he).1) b hb
  refine ⟨b', h1, h2, fun ν => ?_⟩
  rw [h3]
  congr 2
  exact List.map_congr_left fun e he => (hV e he).2 _

/-- Coefficients of the `r`-th basis function. -/
def unitList (N r : ℕ) : List ℝ := (List.range N).map fun i => if i = r then 1 else 0

theorem unitList_length (N r : ℕ) : (unitList N r).length = N := by simp [unitList]

theorem unitList_getD {N r i : ℕ} (hi : i < N) : (unitList N r).getD i 0 = if i = r then 1 else 0 := by
  simp [unitList, hi]

theorem form_unit {D : Dense ℝ} {N : ℕ} (hr : D.rows = N) (hc : D.cols = N) {r c : ℕ} (h1 : r < N) (h2 : c < N) :
    D.form (unitList N r) (unitList N c) = D.entry r c := by
  unfold Dense.form
  rw [hr, hc, Finset.sum_eq_single_of_mem r (Finset.mem_range.2 h1), Finset.sum_eq_single_of_mem c (Finset.mem_range.2 h2),
    unitList_getD h1, unitList_getD h2]
  · simp
  · intro i hi hne
    rw [unitList_getD (Finset.mem_range.1 hi), if_neg hne, mul_zero, mul_zero]
  · intro i hi hne
    rw [unitList_getD (Finset.mem_range.1 hi), if_neg hne]
    simp

end Verif
