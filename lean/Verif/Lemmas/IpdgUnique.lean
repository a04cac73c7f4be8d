import Verif.Lemmas.IpdgSystem

/-!
# Lemmas: solutions of the linear system of the interior penalty method for the Stokes system
-/

namespace Verif.Ipdg
open Verif Geo Dpg Finset

variable {m : MeshObj} {geo : Ent → Option (Geo ℝ 2)} {pos : ℕ → Vec ℝ 2}

/-! ## Linearity -/

theorem curl_sub (p : Fin 3 → Vec ℝ 2) (v w : Fin 3 → ℝ) : curl p (fun i => v i - w i) = curl p v - curl p w := by
  unfold curl
  rw [← smul_sub, ← Finset.sum_sub_distrib]
  congr 1
  exact Finset.sum_congr rfl fun i _ => sub_smul _ _ _

theorem curl_zero (p : Fin 3 → Vec ℝ 2) (v : Fin 3 → ℝ) (h : ∀ i, v i = 0) : curl p v = 0 := by
  unfold curl
  rw [Finset.sum_eq_zero fun i _ => by rw [h i, zero_smul], smul_zero]

theorem dot_sub2 (a b c : Vec ℝ 2) : dot (a - b) c = dot a c - dot b c := by
  rw [dot2, dot2, dot2]
  simp only [Pi.sub_apply]
  ring

variable (T : Topo) (pos)

theorem velocity_sub (φ ψ : ℕ → ℝ) (c : ℕ) : velocity T pos (fun v => φ v - ψ v) c = velocity T pos φ c - velocity T pos ψ c :=
  curl_sub _ _ _

theorem jump_sub (φ ψ : ℕ → ℝ) (e : ℕ) : jump T pos (fun v => φ v - ψ v) e = jump T pos φ e - jump T pos ψ e := by
  unfold jump
  rw [← Finset.sum_sub_distrib]
  exact Finset.sum_congr rfl fun s _ => by rw [velocity_sub, dot_sub2]

theorem load_sub (qr : QuadRule ℝ) (f : Vec ℝ 2 → Vec ℝ 2) (u w : ℕ → Vec ℝ 2) :
    load T pos qr f (fun c => u c - w c) = load T pos qr f u - load T pos qr f w := by
  unfold load
  rw [← Finset.sum_sub_distrib]
  refine Finset.sum_congr rfl fun c _ => ?_
  rw [← mul_sub]
  congr 1
  induction List.zip qr.points qr.weights with
  | nil => simp
  | cons q l ih =>
    simp only [List.map_cons, List.sum_cons, ih]
    rw [dot_comm2 _ (u c - w c), dot_sub2, dot_comm2 (u c), dot_comm2 (w c)]
    ring

variable {T} {pos}

/-- Only the values at the nodes of the mesh matter. -/
theorem velocity_congr (hM : TriaMesh T geo pos) {φ ψ : ℕ → ℝ} (h : ∀ v < T.numNodes, φ v = ψ v) {c : ℕ} (hc : c < T.numCells) :
    velocity T pos φ c = velocity T pos ψ c := by
  unfold velocity
  congr 1
  funext k
  exact h _ (hM.corner_lt hc k)

theorem jump_congr (hM : TriaMesh T geo pos) {φ ψ : ℕ → ℝ} (h : ∀ v < T.numNodes, φ v = ψ v) (e : ℕ) :
    jump T pos φ e = jump T pos ψ e := by
  unfold jump
  refine Finset.sum_congr rfl fun s hs => ?_
  rw [velocity_congr hM h (mem_sidesAt.1 (show (s.1, s.2) ∈ _ from hs)).1]

theorem load_congr {qr : QuadRule ℝ} {f : Vec ℝ 2 → Vec ℝ 2} {u w : ℕ → Vec ℝ 2} (h : ∀ c < T.numCells, u c = w c) :
    load T pos qr f u = load T pos qr f w := by
  unfold load
  refine Finset.sum_congr rfl fun c hc => ?_
  rw [h c (Finset.mem_range.1 hc)]

/-! ## Solutions of the linear system -/

/-- Constrained solutions and test vectors. -/
theorem constrained_iff {A : Coo ℝ} {D : Dense ℝ} {b : List ℝ} (hg : GoodSystem A D b) (sel : ℕ → Bool × ℝ)
    (x : List ℝ) : ConstrainedSolution sel D b (fun i => x.getD i 0) ↔
      (∀ k < D.cols, (sel k).1 = true → x.getD k 0 = (sel k).2) ∧
      ∀ ν : List ℝ, ν.length = D.cols → (∀ k < D.cols, (sel k).1 = true → ν.getD k 0 = 0) → D.form ν x = dotList ν b := by
  refine and_congr Iff.rfl ⟨fun h ν hν hz => ?_, fun h i hi hs => ?_⟩
  · rw [form_rows, dotList, hg.rhs, hg.square]
    refine Finset.sum_congr rfl fun i hi => ?_
    have hi' := Finset.mem_range.1 hi
    rcases hs : (sel i).1 with _ | _
    · have := h i (hg.square ▸ hi') hs
      unfold RowHolds at this
      rw [this]
    · rw [hz i hi' hs, zero_mul, zero_mul]
  · rw [hg.square] at hi
    have := h (unitList D.cols i) (unitList_length _ _) fun k hk hk' => by
      rw [unitList_getD hk, if_neg]
      rintro rfl
      rw [hs] at hk'
      cases hk'
    rw [form_unit_row hg.square hi, dotList_unit hi b hg.rhs] at this
    exact this

theorem noFlow_spec (hM : TriaMesh m.topo geo pos) {h : DofHandler} {chk : Bool} (hh : uniformDofHandler m.topo ⟨1, 1, 0, 0⟩ chk = some h)
    {boundary : AllDS Bool} {bn : ℕ → Bool}
    (hbn : ∀ v < m.topo.numNodes, boundary.read ⟨m.id, (2, v)⟩ = some (bn v) ∧ (bn v = true ↔ BoundaryNode m.topo v)) :
    ∃ sel : List (Bool × ℝ), (List.range h.numDofs).mapM (noFlowSelector m h boundary) = some sel ∧
      ∀ i < h.numDofs, (sel.getD i (false, 0)).2 = 0 ∧
        ((sel.getD i (false, 0)).1 = true ↔ i < m.topo.numNodes ∧ BoundaryNode m.topo i) := by
  have hD := nodeEdgeDofs hM.wf (Or.inr rfl) hh
  let s : ℕ → Bool × ℝ := fun i => if i < m.topo.numNodes then (bn i, 0) else (false, 0)
  refine ⟨(List.range h.numDofs).map s, ?_, fun i hi => ?_⟩
  · rw [mapM_congr_mem (g := fun i => some (s i))]
    · exact List.mapM_pure (m := Option)
    · intro i hi
      rw [List.mem_range, hD.numDofs] at hi
      unfold noFlowSelector
      by_cases hv : i < m.topo.numNodes
      · rw [hD.entNode i hv, Option.bind_some, refEl_node _ hv, Option.bind_some, if_pos rfl, (hbn i hv).1]
        simp [s, hv]
      · obtain ⟨e, rfl⟩ := Nat.exists_eq_add_of_le (Nat.le_of_not_lt hv)
        rw [hD.entEdge rfl e (by omega), Option.bind_some, refEl_edge _ (by omega), Option.bind_some, if_neg (by simp)]
        simp [s]
  · have : ((List.range h.numDofs).map s).getD i (false, 0) = s i := by simp [hi]
    rw [this]
    by_cases hv : i < m.topo.numNodes
    · simp [s, hv, (hbn i hv).2]
    · simp [s, hv]

theorem penalty_ne {T : Topo} (hM : TriaMesh T geo pos) (hman : Manifold T) {sigma : ℝ} (hσ : sigma ≠ 0) (modified : Bool)
    {e : ℕ} (he : e < T.numEdges) : penalty T pos sigma modified e ≠ 0 := by
  unfold penalty
  split
  · obtain ⟨s, hs⟩ := Finset.card_pos.1 (lt_of_lt_of_le one_pos (hman e he).1)
    obtain ⟨h1, h2⟩ := mem_sidesAt.1 (show (s.1, s.2) ∈ _ from hs)
    rw [← h2]
    exact mul_ne_zero hσ (edgeLength_pos hM h1 s.2).ne'
  · exact hσ

/-- Coefficient vectors from values at nodes and edges. -/
noncomputable def pack (n N : ℕ) (φ z : ℕ → ℝ) : List ℝ := (List.range N).map fun i => if i < n then φ i else z (i - n)

theorem pack_length (n N : ℕ) (φ z : ℕ → ℝ) : (pack n N φ z).length = N := by simp [pack]

theorem pack_node {n N : ℕ} (φ z : ℕ → ℝ) (h : n ≤ N) {v : ℕ} (hv : v < n) : (pack n N φ z).getD v 0 = φ v := by
  have : v < N := by omega
  simp [pack, this, hv]

theorem pack_edge {n N : ℕ} (φ z : ℕ → ℝ) {e : ℕ} (he : n + e < N) : (pack n N φ z).getD (n + e) 0 = z e := by
  simp [pack, he]

variable (hM : TriaMesh m.topo geo pos) {h : DofHandler} {chk : Bool} (hh : uniformDofHandler m.topo ⟨1, 1, 0, 0⟩ chk = some h)
  (hfit : h.numDofs < 2 ^ 31) (hman : Manifold m.topo) {sigma : ℝ} (hσ : sigma ≠ 0) (modified : Bool)
  {qr : QuadRule ℝ} (hq : qr.WellFormed) (hr : qr.ref = .tria) (f : Vec ℝ 2 → Vec ℝ 2) (g : ℕ → Vec ℝ 2)
include hM hh hfit hman hσ hq hr

theorem system_spec : ∃ A b D, buildSystemMatrixNoFlow m geo h f g sigma qr modified = some (A, b) ∧ A.makeDense = some D ∧
    D.rows = m.topo.numNodes + m.topo.numEdges ∧ D.cols = m.topo.numNodes + m.topo.numEdges ∧ b.length = m.topo.numNodes + m.topo.numEdges ∧
    (∀ x : List ℝ, (Solves D b (fun i => x.getD i 0) ↔
      DiscreteStokes m.topo pos sigma modified qr f g (fun v => x.getD v 0) fun e => x.getD (m.topo.numNodes + e) 0)) ∧
    (∀ i < D.rows, ∀ j < D.rows, D.entry i j = D.entry j i) := by
  have hD := nodeEdgeDofs hM.wf (Or.inr rfl) hh
  have hN : h.numDofs = m.topo.numNodes + m.topo.numEdges := by rw [hD.numDofs, one_mul]
  obtain ⟨d, bd, bn, f1, f2, f3⟩ := boundary_flags m hM.wf
  obtain ⟨A, D, a1, a2, a3, a4, a5⟩ := matrix_form hM hh hfit hman hσ (modified := modified) f2
  obtain ⟨b, b1, b2, b3⟩ := vector_form hM hh hfit f2 hq hr f g
  obtain ⟨sel, s1, s2⟩ := noFlow_spec hM hh f3
  have hg : GoodSystem A D b := ⟨a2, a3.trans a4.symm, b2.trans a4.symm, a4 ▸ hfit⟩
  obtain ⟨A', b', D', c1, c2, c3, c4, c5⟩ := C03_fixFlaggedSolutionComponents (fun i => sel.getD i (false, 0)) A D b hg
  obtain ⟨A3, b3', D3, g1, -, -, -, g5, -⟩ := fixFlagged_result (fun i => sel.getD i (false, 0)) A D b hg
  rw [c1] at g1
  cases g1
  refine ⟨A', b', D', ?_, c2, c3.trans (a3.trans hN), c4.trans (a4.trans hN), g5.trans (b2.trans hN), fun x => ?_, ?_⟩
  · rw [buildSystemMatrixNoFlow, f1, Option.bind_some, assembleSystem, a1, Option.bind_some, b1, Option.bind_some, Option.bind_some]
    change ((List.range h.numDofs).mapM (noFlowSelector m h d)).bind _ = _
    rw [s1, Option.bind_some, c1]
  · rw [c5, constrained_iff hg, a4]
    have hc : (∀ k < h.numDofs, (sel.getD k (false, 0)).1 = true → x.getD k 0 = (sel.getD k (false, 0)).2) ↔
        ∀ v < m.topo.numNodes, BoundaryNode m.topo v → x.getD v 0 = 0 := by
      constructor
      · intro h' v hv hb
        have hv' : v < h.numDofs := by omega
        rw [h' v hv' ((s2 v hv').2.2 ⟨hv, hb⟩), (s2 v hv').1]
      · intro h' k hk hs
        obtain ⟨hv, hb⟩ := (s2 k hk).2.1 hs
        rw [h' k hv hb, (s2 k hk).1]
    have hc0 : ∀ ν : List ℝ, (∀ k < h.numDofs, (sel.getD k (false, 0)).1 = true → ν.getD k 0 = 0) ↔
        ∀ v < m.topo.numNodes, BoundaryNode m.topo v → ν.getD v 0 = 0 := by
      intro ν
      constructor
      · intro h' v hv hb
        exact h' v (by omega) ((s2 v (by omega)).2.2 ⟨hv, hb⟩)
      · intro h' k hk hs
        obtain ⟨hv, hb⟩ := (s2 k hk).2.1 hs
        exact h' k hv hb
    simp only [hc, hc0, a5, b3]
    -- coefficient vectors of pairs
    have hle : m.topo.numNodes ≤ h.numDofs := by omega
    have pl : ∀ φ z, (pack m.topo.numNodes h.numDofs φ z).length = h.numDofs := pack_length _ _
    have pn : ∀ φ z, ∀ v < m.topo.numNodes, (pack m.topo.numNodes h.numDofs φ z).getD v 0 = φ v := fun φ z v hv => pack_node φ z hle hv
    have pe : ∀ φ z, ∀ e < m.topo.numEdges, (pack m.topo.numNodes h.numDofs φ z).getD (m.topo.numNodes + e) 0 = z e :=
      fun φ z e he => pack_edge φ z (by omega)
    constructor
    · rintro ⟨h1, h2⟩
      refine ⟨h1, fun e he => ?_, fun φ hφ => ?_⟩
      · have := h2 (pack m.topo.numNodes h.numDofs (fun _ => 0) fun i => if i = e then 1 else 0) (pl _ _) fun v hv _ => pn (fun _ => 0) _ v hv
        have j0 : ∀ e', jump m.topo pos (fun v => (pack m.topo.numNodes h.numDofs (fun _ => 0) fun i => if i = e then 1 else 0).getD v 0) e' = 0 := fun e' => by
          rw [jump_congr hM (ψ := fun _ => 0) fun v hv => pn (fun _ => 0) _ v hv]
          unfold jump velocity
          exact Finset.sum_eq_zero fun s _ => by rw [curl_zero _ _ fun _ => rfl, dot2]; simp
        have l0 : load m.topo pos qr f (velocity m.topo pos fun v => (pack m.topo.numNodes h.numDofs (fun _ => 0) fun i => if i = e then 1 else 0).getD v 0) = 0 := by
          rw [load_congr (w := fun _ => 0) fun c hc => by
            rw [velocity_congr hM (ψ := fun _ => 0) (fun v hv => pn (fun _ => 0) _ v hv) hc]; exact curl_zero _ _ fun _ => rfl]
          unfold load
          refine Finset.sum_eq_zero fun c _ => ?_
          simp [dot2]
        rw [l0, zero_add, Finset.sum_eq_single_of_mem e (Finset.mem_range.2 he), Finset.sum_eq_single_of_mem e (Finset.mem_range.2 he)] at this
        · rw [pe _ _ e he, j0, if_pos rfl] at this
          have hp := penalty_ne hM hman hσ modified he
          field_simp at this
          linarith
        · intro e' he' hne
          rw [pe _ _ e' (Finset.mem_range.1 he'), if_neg hne, zero_mul]
        · intro e' he' hne
          rw [pe _ _ e' (Finset.mem_range.1 he'), if_neg hne, j0]
          ring
      · have := h2 (pack m.topo.numNodes h.numDofs φ fun _ => 0) (pl _ _) fun v hv hb => by rw [pn _ _ v hv]; exact hφ v hv hb
        rw [load_congr fun c hc => velocity_congr hM (fun v hv => pn φ _ v hv) hc,
          Finset.sum_eq_zero (s := range m.topo.numEdges) (f := fun e => (pack m.topo.numNodes h.numDofs φ fun _ => 0).getD (m.topo.numNodes + e) 0 * _) (fun e he => by
            rw [pe _ _ e (Finset.mem_range.1 he), zero_mul]), add_zero] at this
        rw [← this]
        refine Finset.sum_congr rfl fun e he => ?_
        rw [pe _ _ e (Finset.mem_range.1 he), jump_congr hM (fun v hv => pn φ _ v hv)]
        ring
    · rintro ⟨h1, h2, h3⟩
      refine ⟨h1, fun ν hν hz => ?_⟩
      rw [← h3 (fun v => ν.getD v 0) hz, ← Finset.sum_add_distrib]
      refine Finset.sum_congr rfl fun e he => ?_
      have hp := penalty_ne hM hman hσ modified (Finset.mem_range.1 he)
      beta_reduce
      rw [h2 e (Finset.mem_range.1 he)]
      field_simp
      ring
  · have hs : ∀ i < D.rows, ∀ j < D.rows, D.entry i j = D.entry j i := by
      intro i hi j hj
      rw [a3] at hi hj
      rw [← form_unit a3 a4 hi hj, ← form_unit a3 a4 hj hi, a5, a5]
      exact Finset.sum_congr rfl fun e _ => by ring
    obtain ⟨A2, b2', D2, e1, e2, e3⟩ := C05_symmetric (fun d => sel.getD d (false, 0)) A D b hg hs
    rw [c1] at e1
    cases e1
    rw [c2] at e2
    cases e2
    rw [c3]
    exact e3

end Verif.Ipdg
