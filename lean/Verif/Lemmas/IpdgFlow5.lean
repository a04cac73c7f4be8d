import Verif.Lemmas.IpdgFlow4

/-!
# Lemmas: the offset function and the linear system with in- and outflow
-/

namespace Verif.Ipdg
open Verif Geo Dpg Finset

variable {m : MeshObj} {geo : Ent → Option (Geo ℝ 2)} {pos : ℕ → Vec ℝ 2}

/-! ## The system for arbitrary jumps -/

section
variable (hM : TriaMesh m.topo geo pos) {h : DofHandler} {chk : Bool} (hh : uniformDofHandler m.topo ⟨1, 1, 0, 0⟩ chk = some h)
  (hfit : h.numDofs < 2 ^ 31) (hman : Manifold m.topo) {sigma : ℝ} (hσ : sigma ≠ 0) {modified : Bool}
  {qr : QuadRule ℝ} {f : Vec ℝ 2 → Vec ℝ 2}
include hM hh hfit hman hσ

theorem fixed_spec {A : Coo ℝ} {D : Dense ℝ} {b : List ℝ} {P : ℕ → ℝ} {sel : List (Bool × ℝ)}
    (a2 : A.makeDense = some D) (a3 : D.rows = h.numDofs) (a4 : D.cols = h.numDofs)
    (a5 : ∀ ν μ : List ℝ, D.form ν μ =
        ∑ e ∈ range m.topo.numEdges, (ν.getD (m.topo.numNodes + e) 0 * jump m.topo pos (fun v => μ.getD v 0) e +
          jump m.topo pos (fun v => ν.getD v 0) e * μ.getD (m.topo.numNodes + e) 0 -
          ν.getD (m.topo.numNodes + e) 0 * μ.getD (m.topo.numNodes + e) 0 / penalty m.topo pos sigma modified e))
    (b2 : b.length = h.numDofs)
    (b3 : ∀ ν : List ℝ, dotList ν b = load m.topo pos qr f (velocity m.topo pos fun v => ν.getD v 0) +
        ∑ e ∈ range m.topo.numEdges, ν.getD (m.topo.numNodes + e) 0 * P e)
    (s2 : ∀ i < h.numDofs, (sel.getD i (false, 0)).2 = 0 ∧
        ((sel.getD i (false, 0)).1 = true ↔ i < m.topo.numNodes ∧ BoundaryNode m.topo i)) :
    ∃ A' b' D', fixFlaggedSolutionComponents (fun i => sel.getD i (false, 0)) A b = some (A', b') ∧ A'.makeDense = some D' ∧
      D'.rows = h.numDofs ∧ D'.cols = h.numDofs ∧ b'.length = h.numDofs ∧
      ∀ x : List ℝ, (Solves D' b' (fun i => x.getD i 0) ↔
        (∀ v < m.topo.numNodes, BoundaryNode m.topo v → x.getD v 0 = 0) ∧
        (∀ e < m.topo.numEdges, x.getD (m.topo.numNodes + e) 0 =
          penalty m.topo pos sigma modified e * (jump m.topo pos (fun v => x.getD v 0) e - P e)) ∧
        ∀ φ : ℕ → ℝ, (∀ v < m.topo.numNodes, BoundaryNode m.topo v → φ v = 0) →
          ∑ e ∈ range m.topo.numEdges, x.getD (m.topo.numNodes + e) 0 * jump m.topo pos φ e = load m.topo pos qr f (velocity m.topo pos φ)) := by
  have hD := nodeEdgeDofs hM.wf (Or.inr rfl) hh
  have hN : h.numDofs = m.topo.numNodes + m.topo.numEdges := by rw [hD.numDofs, one_mul]
  have hg : GoodSystem A D b := ⟨a2, a3.trans a4.symm, b2.trans a4.symm, a4 ▸ hfit⟩
  obtain ⟨A', b', D', c1, c2, c3, c4, c5⟩ := C03_fixFlaggedSolutionComponents (fun i => sel.getD i (false, 0)) A D b hg
  obtain ⟨A3, b3', D3, g1, -, -, -, g5, -⟩ := fixFlagged_result (fun i => sel.getD i (false, 0)) A D b hg
  rw [c1] at g1
  cases g1
  refine ⟨A', b', D', c1, c2, c3.trans a3, c4.trans a4, g5.trans b2, fun x => ?_⟩
  · rw [c5, constrained_iff hg, a4]
    have hc : (∀ k < h.numDofs, (sel.getD k (false, 0)).1 = true → x.getD k 0 = (sel.getD k (false, 0)).2) ↔
        ∀ v < m.topo.numNodes, BoundaryNode m.topo v → x.getD v 0 = 0 := by
      constructor
      · intro h' v hv hb
        have hv' : v < h.numDofs := by omega
        rw [h' v hv' ((s2 v hv').2.2 ⟨hv, hb⟩), (s2 v hv').1]
      · intro h' k hk hs
        obtain ⟨hv, hb⟩ := (s2 k hk).2.1 hs
        rw [h' k hv hb, (s2 k hk).1]
    have hc0 : ∀ ν : List ℝ, (∀ k < h.numDofs, (sel.getD k (false, 0)).1 = true → ν.getD k 0 = 0) ↔
        ∀ v < m.topo.numNodes, BoundaryNode m.topo v → ν.getD v 0 = 0 := by
      intro ν
      constructor
      · intro h' v hv hb
        exact h' v (by omega) ((s2 v (by omega)).2.2 ⟨hv, hb⟩)
      · intro h' k hk hs
        obtain ⟨hv, hb⟩ := (s2 k hk).2.1 hs
        exact h' k hv hb
    simp only [hc, hc0, a5, b3]
    -- coefficient vectors of pairs
    have hle : m.topo.numNodes ≤ h.numDofs := by omega
    have pl : ∀ φ z, (pack m.topo.numNodes h.numDofs φ z).length = h.numDofs := pack_length _ _
    have pn : ∀ φ z, ∀ v < m.topo.numNodes, (pack m.topo.numNodes h.numDofs φ z).getD v 0 = φ v := fun φ z v hv => pack_node φ z hle hv
    have pe : ∀ φ z, ∀ e < m.topo.numEdges, (pack m.topo.numNodes h.numDofs φ z).getD (m.topo.numNodes + e) 0 = z e :=
      fun φ z e he => pack_edge φ z (by omega)
    constructor
    · rintro ⟨h1, h2⟩
      refine ⟨h1, fun e he => ?_, fun φ hφ => ?_⟩
      · have := h2 (pack m.topo.numNodes h.numDofs (fun _ => 0) fun i => if i = e then 1 else 0) (pl _ _) fun v hv _ => pn (fun _ => 0) _ v hv
        have j0 : ∀ e', jump m.topo pos (fun v => (pack m.topo.numNodes h.numDofs (fun _ => 0) fun i => if i = e then 1 else 0).getD v 0) e' = 0 := fun e' => by
          rw [jump_congr hM (ψ := fun _ => 0) fun v hv => pn (fun _ => 0) _ v hv]
          unfold jump velocity
          exact Finset.sum_eq_zero fun s _ => by rw [curl_zero _ _ fun _ => rfl, dot2]; simp
        have l0 : load m.topo pos qr f (velocity m.topo pos fun v => (pack m.topo.numNodes h.numDofs (fun _ => 0) fun i => if i = e then 1 else 0).getD v 0) = 0 := by
          rw [load_congr (w := fun _ => 0) fun c hc => by
            rw [velocity_congr hM (ψ := fun _ => 0) (fun v hv => pn (fun _ => 0) _ v hv) hc]; exact curl_zero _ _ fun _ => rfl]
          unfold load
          refine Finset.sum_eq_zero fun c _ => ?_
          simp [dot2]
        rw [l0, zero_add, Finset.sum_eq_single_of_mem e (Finset.mem_range.2 he), Finset.sum_eq_single_of_mem e (Finset.mem_range.2 he)] at this
        · rw [pe _ _ e he, j0, if_pos rfl] at this
          have hp := penalty_ne hM hman hσ modified he
          field_simp at this
          linarith
        · intro e' he' hne
          rw [pe _ _ e' (Finset.mem_range.1 he'), if_neg hne, zero_mul]
        · intro e' he' hne
          rw [pe _ _ e' (Finset.mem_range.1 he'), if_neg hne, j0]
          ring
      · have := h2 (pack m.topo.numNodes h.numDofs φ fun _ => 0) (pl _ _) fun v hv hb => by rw [pn _ _ v hv]; exact hφ v hv hb
        rw [load_congr fun c hc => velocity_congr hM (fun v hv => pn φ _ v hv) hc,
          Finset.sum_eq_zero (s := range m.topo.numEdges) (f := fun e => (pack m.topo.numNodes h.numDofs φ fun _ => 0).getD (m.topo.numNodes + e) 0 * _) (fun e he => by
            rw [pe _ _ e (Finset.mem_range.1 he), zero_mul]), add_zero] at this
        rw [← this]
        refine Finset.sum_congr rfl fun e he => ?_
        rw [pe _ _ e (Finset.mem_range.1 he), jump_congr hM (fun v hv => pn φ _ v hv)]
        ring
    · rintro ⟨h1, h2, h3⟩
      refine ⟨h1, fun ν hν hz => ?_⟩
      rw [← h3 (fun v => ν.getD v 0) hz, ← Finset.sum_add_distrib]
      refine Finset.sum_congr rfl fun e he => ?_
      have hp := penalty_ne hM hman hσ modified (Finset.mem_range.1 he)
      beta_reduce
      rw [h2 e (Finset.mem_range.1 he)]
      field_simp
      ring

end

end Verif.Ipdg
