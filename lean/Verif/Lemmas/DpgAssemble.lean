import Verif.Spec.DpgProvider
import Verif.Lemmas.Galerkin

/-!
# The forms represented by assembled matrices and vectors
-/

namespace Verif.Dpg
open Verif Finset

theorem mem_cells {T : Topo} {e : Ent} (he : e ∈ T.entities 0) : T.IsEnt e := by
  obtain ⟨i, hi, rfl⟩ := List.mem_map.1 he
  exact ⟨by simp, List.mem_range.1 hi⟩

theorem dofsOk_toMap {T : Topo} {h : DofHandler} (hh : DofsOk T h) {e : Ent} (he : e ∈ T.entities 0) : h.toMap.dofs e = h.all e := by
  simp [DofHandler.toMap, hh.answers e he]

theorem assembleMat_form (T : Topo) (trial test : DofHandler) (h1 : DofsOk T trial) (h2 : DofsOk T test) (P : MatProv)
    (M : Ent → Dense ℝ)
    (hM : ∀ e ∈ T.entities 0, P.isActive e = true → P.eval e = some (M e) ∧ (M e).rows = (test.all e).length ∧
      (M e).cols = (trial.all e).length) :
    ∃ A D, assembleMat T trial test P = some A ∧ A.makeDense = some D ∧ D.rows = test.numDofs ∧ D.cols = trial.numDofs ∧
      ∀ ν μ, D.form ν μ = (((T.entities 0).filter P.isActive).map fun e =>
        (M e).form (localPart test ν e) (localPart trial μ e)).sum := by
  have hok : MatAssemblyOk (T.entities 0) trial.toMap test.toMap
      ⟨P.isActive, fun e => (P.eval e).getD ⟨0, 0, fun _ _ => 0⟩⟩ test.numDofs trial.numDofs := by
    refine ⟨fun e he ha => ?_, fun e he ha d hd => ?_, fun e he ha d hd => ?_, h2.fits, h1.fits⟩
    · obtain ⟨a, b, c⟩ := hM e he ha
      simp only [a, Option.getD_some]
      rw [dofsOk_toMap h1 he, dofsOk_toMap h2 he]
      exact ⟨b.ge, c.ge⟩
    · rw [dofsOk_toMap h2 he] at hd
      exact (h2.range e he) d hd
    · rw [dofsOk_toMap h1 he] at hd
      exact (h1.range e he) d hd
  obtain ⟨A, D, e1, e2, hr, hc, hE⟩ := C07_assembleMatrixLocallyNew (T.entities 0) trial.toMap test.toMap _ hok
  refine ⟨A, D, ?_, e2, hr, hc, ?_⟩
  · rw [assembleMat, if_pos, e1]
    rw [List.all_eq_true]
    intro e he
    cases ha : P.isActive e with
    | false => rfl
    | true =>
      obtain ⟨a, -, -⟩ := hM e he ha
      simp [a, (h1.answers e he), (h2.answers e he)]
  · intro ν μ
    unfold Dense.form
    have hr' : D.rows = test.numDofs := hr
    have hc' : D.cols = trial.numDofs := hc
    rw [hr', hc']
    simp only [hE]
    have step : ∀ r ∈ range test.numDofs, ∑ c ∈ range trial.numDofs, ν.getD r 0 *
        (((T.entities 0).map fun e => matContribution trial.toMap test.toMap
          ⟨P.isActive, fun e => (P.eval e).getD ⟨0, 0, fun _ _ => 0⟩⟩ e r c).sum * μ.getD c 0) =
        ((T.entities 0).map fun e => ∑ c ∈ range trial.numDofs, ν.getD r 0 * (matContribution trial.toMap test.toMap
          ⟨P.isActive, fun e => (P.eval e).getD ⟨0, 0, fun _ _ => 0⟩⟩ e r c * μ.getD c 0)).sum := by
      intro r _
      rw [← list_sum_comm]
      refine Finset.sum_congr rfl fun c _ => ?_
      rw [← List.sum_map_mul_right, ← List.sum_map_mul_left]
    rw [Finset.sum_congr rfl step, list_sum_comm]
    refine map_filter_sum _ _ _ _ ?_ ?_
    · intro e he ha
      obtain ⟨a, b, c⟩ := hM e he ha
      have hE := he
      have hmc : ∀ r c, matContribution trial.toMap test.toMap
          ⟨P.isActive, fun e => (P.eval e).getD ⟨0, 0, fun _ _ => 0⟩⟩ e r c =
          ∑ i ∈ range (test.all e).length, ∑ j ∈ range (trial.all e).length,
            if (test.all e)[i]? = some r ∧ (trial.all e)[j]? = some c then (M e).entry i j else 0 := by
        intro r c
        rw [matContribution]
        simp only [ha, if_true, a, Option.getD_some]
        rw [dofsOk_toMap h1 hE, dofsOk_toMap h2 hE]
      simp only [hmc]
      rw [b, c]
      have hl : ∀ (hh : DofHandler) (u : List ℝ) (i : ℕ), i < (hh.all e).length →
          (localPart hh u e).getD i 0 = u.getD ((hh.all e).getD i 0) 0 := by
        intro hh u i hi
        simp [localPart, hi]
      have : ∀ r c, ν.getD r 0 * ((∑ i ∈ range (test.all e).length, ∑ j ∈ range (trial.all e).length,
            if (test.all e)[i]? = some r ∧ (trial.all e)[j]? = some c then (M e).entry i j else 0) * μ.getD c 0) =
          ∑ i ∈ range (test.all e).length, ∑ j ∈ range (trial.all e).length,
            if (test.all e)[i]? = some r then (if (trial.all e)[j]? = some c then
              ν.getD r 0 * ((M e).entry i j * μ.getD c 0) else 0) else 0 := by
        intro r c
        rw [Finset.sum_mul, Finset.mul_sum]
        refine Finset.sum_congr rfl fun i _ => ?_
        rw [Finset.sum_mul, Finset.mul_sum]
        refine Finset.sum_congr rfl fun j _ => ?_
        by_cases p1 : (test.all e)[i]? = some r <;> by_cases p2 : (trial.all e)[j]? = some c <;> simp [p1, p2]
      simp only [this]
      have swap : ∀ r, ∑ c ∈ range trial.numDofs, ∑ i ∈ range (test.all e).length, ∑ j ∈ range (trial.all e).length,
            (if (test.all e)[i]? = some r then (if (trial.all e)[j]? = some c then
              ν.getD r 0 * ((M e).entry i j * μ.getD c 0) else 0) else 0) =
          ∑ i ∈ range (test.all e).length, if (test.all e)[i]? = some r then ν.getD r 0 * ∑ j ∈ range (trial.all e).length,
              ((M e).entry i j * μ.getD ((trial.all e).getD j 0) 0) else 0 := by
        intro r
        rw [Finset.sum_comm]
        refine Finset.sum_congr rfl fun i _ => ?_
        by_cases p1 : (test.all e)[i]? = some r
        · simp only [p1, if_true]
          rw [Finset.sum_comm, Finset.mul_sum]
          refine Finset.sum_congr rfl fun j hj => ?_
          rw [sum_pick (trial.all e) trial.numDofs (h1.range e hE) j (Finset.mem_range.1 hj)
            fun c => ν.getD r 0 * ((M e).entry i j * μ.getD c 0)]
        · simp [p1]
      rw [Finset.sum_congr rfl fun r _ => swap r, Finset.sum_comm]
      refine Finset.sum_congr rfl fun i hi => ?_
      rw [sum_pick (test.all e) test.numDofs (h2.range e hE) i (Finset.mem_range.1 hi)
        fun r => ν.getD r 0 * ∑ j ∈ range (trial.all e).length, ((M e).entry i j * μ.getD ((trial.all e).getD j 0) 0)]
      rw [Finset.mul_sum]
      refine Finset.sum_congr rfl fun j hj => ?_
      rw [hl test ν i (Finset.mem_range.1 hi), hl trial μ j (Finset.mem_range.1 hj)]
    · intro e he ha
      have : ∀ r c, matContribution trial.toMap test.toMap
          ⟨P.isActive, fun e => (P.eval e).getD ⟨0, 0, fun _ _ => 0⟩⟩ e r c = 0 := by
        intro r c
        rw [matContribution]
        simp [ha]
      simp [this]

theorem assembleVec_form (T : Topo) (dofh : DofHandler) (h1 : DofsOk T dofh) (P : VecProv) (v : Ent → List ℝ)
    (hv : ∀ e ∈ T.entities 0, P.isActive e = true → P.eval e = some (v e) ∧ (v e).length = (dofh.all e).length) :
    ∃ b, assembleVec T dofh P = some b ∧ b.length = dofh.numDofs ∧
      ∀ ν, dotList ν b = (((T.entities 0).filter P.isActive).map fun e => dotList (localPart dofh ν e) (v e)).sum := by
  have hok : VecAssemblyOk (T.entities 0) dofh.toMap ⟨P.isActive, fun e => (P.eval e).getD []⟩ dofh.toMap.numDofs := by
    refine ⟨fun e he ha => ?_, fun e he ha d hd => ?_⟩
    · obtain ⟨a, b⟩ := hv e he ha
      simp only [a, Option.getD_some]
      rw [dofsOk_toMap h1 he]
      exact b.ge
    · rw [dofsOk_toMap h1 he] at hd
      exact (h1.range e he) d hd
  obtain ⟨b, e1, e2, hE⟩ := C08_assembleVectorLocallyNew (T.entities 0) dofh.toMap _ hok
  refine ⟨b, ?_, e2, ?_⟩
  · rw [assembleVec, if_pos, e1]
    rw [List.all_eq_true]
    intro e he
    cases ha : P.isActive e with
    | false => rfl
    | true =>
      obtain ⟨a, -⟩ := hv e he ha
      simp [a, (h1.answers e he)]
  · intro ν
    unfold dotList
    have e2' : b.length = dofh.numDofs := e2
    rw [e2']
    simp only [hE]
    have step : ∀ r ∈ range dofh.numDofs, ν.getD r 0 * ((T.entities 0).map fun e => vecContribution dofh.toMap
          ⟨P.isActive, fun e => (P.eval e).getD []⟩ e r).sum =
        ((T.entities 0).map fun e => ν.getD r 0 * vecContribution dofh.toMap
          ⟨P.isActive, fun e => (P.eval e).getD []⟩ e r).sum := by
      intro r _
      rw [← List.sum_map_mul_left]
    rw [Finset.sum_congr rfl step, list_sum_comm]
    refine map_filter_sum _ _ _ _ ?_ ?_
    · intro e he ha
      obtain ⟨a, b⟩ := hv e he ha
      have hE := he
      have hmc : ∀ r, vecContribution dofh.toMap ⟨P.isActive, fun e => (P.eval e).getD []⟩ e r =
          ∑ i ∈ range (dofh.all e).length, if (dofh.all e)[i]? = some r then (v e).getD i 0 else 0 := by
        intro r
        rw [vecContribution]
        simp only [ha, if_true, a, Option.getD_some]
        rw [dofsOk_toMap h1 hE]
      simp only [hmc]
      rw [b]
      have : ∀ r, ν.getD r 0 * (∑ i ∈ range (dofh.all e).length, if (dofh.all e)[i]? = some r then (v e).getD i 0 else 0) =
          ∑ i ∈ range (dofh.all e).length, if (dofh.all e)[i]? = some r then ν.getD r 0 * (v e).getD i 0 else 0 := by
        intro r
        rw [Finset.mul_sum]
        refine Finset.sum_congr rfl fun i _ => ?_
        by_cases p1 : (dofh.all e)[i]? = some r <;> simp [p1]
      simp only [this]
      rw [Finset.sum_comm]
      refine Finset.sum_congr rfl fun i hi => ?_
      rw [sum_pick (dofh.all e) dofh.numDofs (h1.range e hE) i (Finset.mem_range.1 hi)
        fun r => ν.getD r 0 * (v e).getD i 0]
      have hi' := Finset.mem_range.1 hi
      simp [localPart, hi']
    · intro e he ha
      have : ∀ r, vecContribution dofh.toMap ⟨P.isActive, fun e => (P.eval e).getD []⟩ e r = 0 := by
        intro r
        rw [vecContribution]
        simp [ha]
      simp [this]

end Verif.Dpg
