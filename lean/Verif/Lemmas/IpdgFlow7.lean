import Verif.Lemmas.IpdgFlow6
import Verif.Props.IpdgSystem

/-!
# Lemmas: the linear system with in- and outflow
-/

namespace Verif.Ipdg
open Verif Geo Dpg Finset

variable {m : MeshObj} {geo : Ent → Option (Geo ℝ 2)} {pos : ℕ → Vec ℝ 2}

/-- The product with a potential. -/
theorem form_potential {D : Dense ℝ} {n E : ℕ} (a4 : D.cols = n + E) (ν o : List ℝ) :
    D.form ν (pack n (n + E) (fun v => o.getD v 0) fun _ => 0) = ∑ i ∈ range D.rows, ν.getD i 0 * ∑ j ∈ range n, D.entry i j * o.getD j 0 := by
  unfold Dense.form
  refine Finset.sum_congr rfl fun i _ => ?_
  rw [← Finset.mul_sum, a4, Finset.sum_range_add, Finset.sum_eq_zero (s := range E), add_zero]
  · congr 1
    exact Finset.sum_congr rfl fun j hj => by rw [pack_node _ _ (by omega) (Finset.mem_range.1 hj)]
  · intro e he
    rw [pack_edge _ _ (by have := Finset.mem_range.1 he; omega), mul_zero]

section
variable (hM : TriaMesh m.topo geo pos) {h : DofHandler} {chk : Bool} (hh : uniformDofHandler m.topo ⟨1, 1, 0, 0⟩ chk = some h)
  (hfit : h.numDofs < 2 ^ 31) (hman : Manifold m.topo) {sigma : ℝ} (hσ : sigma ≠ 0) (modified : Bool)
  {qr : QuadRule ℝ} (hq : qr.WellFormed) (hr : qr.ref = .tria) (f : Vec ℝ 2 → Vec ℝ 2) (g : ℕ → Vec ℝ 2)
include hM hh hfit hman hσ hq hr

theorem flow_system (hopp : OppositeSides m.topo pos) (hc : ClosedCurve m.topo) :
    ∃ A b D o, buildSystemMatrixInOutFlow m geo h f g sigma qr modified = some (A, b, o) ∧ A.makeDense = some D ∧
    D.rows = m.topo.numNodes + m.topo.numEdges ∧ D.cols = m.topo.numNodes + m.topo.numEdges ∧ b.length = m.topo.numNodes + m.topo.numEdges ∧
    o.length = m.topo.numNodes + m.topo.numEdges ∧
    (∀ v < m.topo.numNodes, v ∉ bdNodes m.topo → o.getD v 0 = 0) ∧ ∑ v ∈ bdNodes m.topo, o.getD v 0 = 0 ∧
    (∀ e ∈ bdEdges m.topo, outflow m.topo pos (fun v => o.getD v 0) e =
        outflowData m.topo pos g e - netFlow m.topo pos (outflowData m.topo pos g) / perimeter m.topo pos) ∧
    (∀ e < m.topo.numEdges, o.getD (m.topo.numNodes + e) 0 = jump m.topo pos (fun v => o.getD v 0) e) ∧
    (∀ x : List ℝ, Solves D b (fun i => x.getD i 0) ↔
      FlowStokes m.topo pos sigma modified qr f g (fun v => x.getD v 0 + o.getD v 0) fun e => x.getD (m.topo.numNodes + e) 0) ∧
    ∃ b0, buildSystemMatrixNoFlow m geo h f g sigma qr modified = some (A, b0) := by
  have hD := nodeEdgeDofs hM.wf (Or.inr rfl) hh
  have hN : h.numDofs = m.topo.numNodes + m.topo.numEdges := by rw [hD.numDofs, one_mul]
  obtain ⟨d, bd, bn, f1, f2, f3⟩ := boundary_flags m hM.wf
  have hF := flagsOk f2 f3
  obtain ⟨A, D, a1, a2, a3, a4, a5⟩ := matrix_form hM hh hfit hman hσ (modified := modified) f2
  obtain ⟨b, b1, b2, b3⟩ := vector_form hM hh hfit f2 hq hr f g
  obtain ⟨sel, s1, s2⟩ := noFlow_spec hM hh f3
  obtain ⟨o, o1, o2, o3, o4, o5, o6⟩ := offset_spec hM hman hopp hc hF hD hfit g D a3 a4
  have l3 : 0 < (bdEdges m.topo).card := Finset.card_pos.2 hc.nonempty
  obtain ⟨e0, he0⟩ := hc.nonempty
  have hE := (mem_bdEdges.1 he0).1
  have hasp : A.makeSparse = some D := by
    unfold Coo.makeSparse
    have := makeDense_some A D a2
    have r1 : A.rows = h.numDofs := by rw [← a3, this]
    have r2 : A.cols = h.numDofs := by rw [← a4, this]
    rw [if_pos ⟨by omega, by omega⟩, a2]
  have hform : ∀ ν : List ℝ, ∑ i ∈ range h.numDofs, ν.getD i 0 * ∑ j ∈ range m.topo.numNodes, D.entry i j * o.getD j 0 =
      ∑ e ∈ range m.topo.numEdges, ν.getD (m.topo.numNodes + e) 0 * jump m.topo pos (fun v => o.getD v 0) e := by
    intro ν
    rw [← a3, ← form_potential (a4.trans hN) ν o, a5]
    refine Finset.sum_congr rfl fun e he => ?_
    rw [pack_edge _ _ (by have := Finset.mem_range.1 he; omega), jump_congr hM (ψ := fun v => o.getD v 0) fun v hv => pack_node _ _ (by omega) hv]
    ring
  have o6' : ∀ e < m.topo.numEdges, o.getD (m.topo.numNodes + e) 0 = jump m.topo pos (fun v => o.getD v 0) e := by
    intro e he
    have := hform (unitList h.numDofs (m.topo.numNodes + e))
    rw [Finset.sum_eq_single_of_mem (m.topo.numNodes + e) (Finset.mem_range.2 (by omega)),
      Finset.sum_eq_single_of_mem e (Finset.mem_range.2 he), unitList_getD (by omega), if_pos rfl, one_mul, one_mul] at this
    · rw [o6 e he, this]
    · intro i hi hne
      rw [unitList_getD (by have := Finset.mem_range.1 hi; omega), if_neg (by omega), zero_mul]
    · intro i hi hne
      rw [unitList_getD (Finset.mem_range.1 hi), if_neg hne, zero_mul]
  let shift : List ℝ := (List.range h.numDofs).map fun i =>
    ((List.range m.topo.numNodes).map fun j => D.entry (0 + i) j * (o.take m.topo.numNodes).getD j 0).sum
  have hshift : blockMul D 0 h.numDofs m.topo.numNodes (o.take m.topo.numNodes) = some shift := by
    unfold blockMul
    rw [if_pos ⟨by omega, by omega, by rw [List.length_take]; omega⟩]
  have hsl : shift.length = h.numDofs := by simp [shift]
  have hsg : ∀ i < h.numDofs, shift.getD i 0 = ∑ j ∈ range m.topo.numNodes, D.entry i j * o.getD j 0 := by
    intro i hi
    simp only [shift]
    rw [List.getD_eq_getElem _ _ (by simpa using hi), List.getElem_map, List.getElem_range, Finset.sum_range, ← List.sum_ofFn]
    congr 1
    apply List.ext_getElem
    · simp
    · intro k h1 h2
      have hk : k < m.topo.numNodes := by simpa using h1
      simp [hk]
  have hzl : (List.zipWith (· - ·) b shift).length = h.numDofs := by simp [b2, hsl]
  have b3' : ∀ ν : List ℝ, dotList ν (List.zipWith (· - ·) b shift) = load m.topo pos qr f (velocity m.topo pos fun v => ν.getD v 0) +
        ∑ e ∈ range m.topo.numEdges, ν.getD (m.topo.numNodes + e) 0 * (prescribed m.topo pos g e - jump m.topo pos (fun v => o.getD v 0) e) := by
    intro ν
    have e1 : dotList ν (List.zipWith (· - ·) b shift) = dotList ν b - ∑ i ∈ range h.numDofs, ν.getD i 0 * shift.getD i 0 := by
      unfold dotList
      rw [hzl, b2, ← Finset.sum_sub_distrib]
      refine Finset.sum_congr rfl fun i hi => ?_
      have hi := Finset.mem_range.1 hi
      rw [List.getD_eq_getElem (List.zipWith (· - ·) b shift) _ (by rw [hzl]; exact hi), List.getElem_zipWith, List.getD_eq_getElem b _ (by omega),
        List.getD_eq_getElem shift _ (by omega)]
      ring
    have e2 : ∑ i ∈ range h.numDofs, ν.getD i 0 * shift.getD i 0 =
        ∑ i ∈ range h.numDofs, ν.getD i 0 * ∑ j ∈ range m.topo.numNodes, D.entry i j * o.getD j 0 :=
      Finset.sum_congr rfl fun i hi => by rw [hsg i (Finset.mem_range.1 hi)]
    rw [e1, b3, e2, hform]
    simp only [mul_sub, Finset.sum_sub_distrib]
    ring
  obtain ⟨A', b', D', c1, c2, c3, c4, c5, c6⟩ := fixed_spec hM hh hfit hman hσ (qr := qr) (f := f) (modified := modified) a2 a3 a4 a5 hzl b3' s2
  obtain ⟨A0, b0, D0, k1, -⟩ := fixed_spec hM hh hfit hman hσ (qr := qr) (f := f) (modified := modified) a2 a3 a4 a5 b2 b3 s2
  refine ⟨A', b', D', o, ?_, c2, c3.trans hN, c4.trans hN, c5.trans hN, o2.trans hN, o3, o4, o5, o6', fun x => ?_, b0, ?_⟩
  · rw [buildSystemMatrixInOutFlow, f1, Option.bind_some, assembleSystem, a1, Option.bind_some, b1, Option.bind_some, Option.bind_some]
    change A.makeSparse.bind _ = _
    rw [hasp, Option.bind_some, o1, Option.bind_some, hshift, Option.bind_some, s1, Option.bind_some, c1]
    rfl
  · rw [c6]
    have hjump : ∀ e, jump m.topo pos (fun v => x.getD v 0 + o.getD v 0) e = jump m.topo pos (fun v => x.getD v 0) e + jump m.topo pos (fun v => o.getD v 0) e :=
      fun e => jump_add _ _ e
    constructor
    · rintro ⟨h1, h2, h3⟩
      have hx : ∀ v ∈ bdNodes m.topo, x.getD v 0 + o.getD v 0 = o.getD v 0 := fun v hv => by
        rw [h1 v (mem_bdNodes.1 hv).1 (mem_bdNodes.1 hv).2, zero_add]
      refine ⟨fun e he => ?_, ?_, fun e he => ?_, h3⟩
      · rw [outflow_congr hM he hx, o5 e he]
      · rw [Finset.sum_congr rfl hx, o4]
      · rw [h2 e he, hjump]
        ring
    · rintro ⟨h1, h2, h3, h4⟩
      have hz : ∀ v ∈ bdNodes m.topo, x.getD v 0 = 0 := by
        refine (bd_zero hM hman hopp hc.nonempty hc.connected (ψ := fun v => x.getD v 0) (lam := 0) (fun e he => ?_) ?_).2
        · have e1 := outflow_sub (pos := pos) (T := m.topo) (fun v => x.getD v 0 + o.getD v 0) (fun v => o.getD v 0) e
          simp only [add_sub_cancel_right] at e1
          rw [e1, h1 e he, o5 e he, sub_self]
        · rw [Finset.sum_add_distrib, o4, add_zero] at h2
          exact h2
      refine ⟨fun v hv hb => hz v (mem_bdNodes.2 ⟨hv, hb⟩), fun e he => ?_, h4⟩
      rw [h3 e he, hjump]
      ring
  · rw [buildSystemMatrixNoFlow, f1, Option.bind_some, assembleSystem, a1, Option.bind_some, b1, Option.bind_some, Option.bind_some]
    change ((List.range h.numDofs).mapM (noFlowSelector m h d)).bind _ = _
    rw [s1, Option.bind_some, k1, fix_matrix c1, fix_matrix k1]

/-- If the boundary is not connected, there is no system. -/
theorem flow_none {a b : ℕ} (ha : a ∈ bdNodes m.topo) (hb : b ∈ bdNodes m.topo) (hab : ¬Relation.ReflTransGen (BdNeighbour m.topo) a b) :
    buildSystemMatrixInOutFlow m geo h f g sigma qr modified = none := by
  have hD := nodeEdgeDofs hM.wf (Or.inr rfl) hh
  obtain ⟨d, bd, bn, f1, f2, f3⟩ := boundary_flags m hM.wf
  have hF := flagsOk f2 f3
  obtain ⟨A, D, a1, a2, a3, a4, a5⟩ := matrix_form hM hh hfit hman hσ (modified := modified) f2
  obtain ⟨r, b1, b2, b3⟩ := vector_form hM hh hfit f2 hq hr f g
  rw [buildSystemMatrixInOutFlow, f1, Option.bind_some, assembleSystem, a1, Option.bind_some, b1, Option.bind_some, Option.bind_some]
  change A.makeSparse.bind _ = _
  rcases A.makeSparse with _ | As
  · rfl
  · rw [Option.bind_some, offset_none hM hF hD hfit g As ha hb hab, Option.bind_none]

end

end Verif.Ipdg
