import Verif.Lemmas.IpdgUnique
import Verif.Props.Ipdg
import Mathlib.LinearAlgebra.Matrix.ToLin
import Mathlib.LinearAlgebra.FiniteDimensional.Basic

/-!
# C98: the linear system of the interior penalty method for the Stokes system
-/

namespace Verif
open Geo Dpg Ipdg Finset

/-! ## Uniqueness of discrete solutions -/

namespace Ipdg
variable {T : Topo} {geo : Ent → Option (Geo ℝ 2)} {pos : ℕ → Vec ℝ 2}

theorem penalty_pos (hM : TriaMesh T geo pos) (hman : Manifold T) {sigma : ℝ} (hσ : 0 < sigma) (modified : Bool)
    {e : ℕ} (he : e < T.numEdges) : 0 < penalty T pos sigma modified e := by
  unfold penalty
  split
  · obtain ⟨s, hs⟩ := Finset.card_pos.1 (lt_of_lt_of_le one_pos (hman e he).1)
    obtain ⟨h1, h2⟩ := mem_sidesAt.1 (show (s.1, s.2) ∈ _ from hs)
    rw [← h2]
    exact mul_pos hσ (edgeLength_pos hM h1 s.2)
  · exact hσ

/-- If the potential is zero at the ends of a side and the tangential velocity is zero there, the potential is zero at the opposite corner. -/
theorem opposite_zero {p : Fin 3 → Vec ℝ 2} (h : area2 p ≠ 0) {v : Fin 3 → ℝ} {k : Fin 3} (h0 : v k = 0) (h1 : v (k + 1) = 0)
    (hd : dot (curl p v) (tangent p k) = 0) (i : Fin 3) : v i = 0 := by
  have h2 : v (k + 2) = 0 := by
    have hs : Real.sqrt (dot (p (k + 1) - p k) (p (k + 1) - p k)) ≠ 0 := (Real.sqrt_pos.2 (side_pos h k)).ne'
    have hcurl : curl p v = (v (k + 2) * (area2 p)⁻¹) • (p (k + 1) - p k) := by
      unfold curl
      rw [Fin.sum_univ_three]
      fin_cases k
      · simp only [Fin.zero_eta, zero_add] at h0 h1 ⊢
        rw [h0, h1, zero_smul, zero_smul, zero_add, zero_add, show (2 : Fin 3) + 2 = 1 from rfl, show (2 : Fin 3) + 1 = 0 from rfl, smul_smul, mul_comm]
      · simp only [Fin.mk_one, show (1 : Fin 3) + 1 = 2 from rfl, show (1 : Fin 3) + 2 = 0 from rfl] at h0 h1 ⊢
        rw [h0, h1, zero_smul, zero_smul, add_zero, add_zero, zero_add, zero_add, smul_smul, mul_comm]
      · simp only [Fin.reduceFinMk, show (2 : Fin 3) + 1 = 0 from rfl, show (2 : Fin 3) + 2 = 1 from rfl] at h0 h1 ⊢
        rw [h0, h1, zero_smul, zero_smul, add_zero, zero_add, smul_smul, mul_comm]
        rfl
    rw [hcurl, tangent, dot_smul2, dot_comm2, dot_smul2] at hd
    have hsg : Real.sign (area2 p) ≠ 0 := by rw [Ne, Real.sign_eq_zero_iff]; exact h
    have : v (k + 2) * (area2 p)⁻¹ = 0 := by
      rcases mul_eq_zero.1 hd with h' | h'
      · exact h'
      · rcases mul_eq_zero.1 h' with h' | h'
        · exact absurd h' (div_ne_zero hsg hs)
        · exact absurd h' (side_pos h k).ne'
    rcases mul_eq_zero.1 this with h' | h'
    · exact h'
    · exact absurd h' (inv_ne_zero h)
  have : i = k ∨ i = k + 1 ∨ i = k + 2 := by
    have : ∀ i k : Fin 3, i = k ∨ i = k + 1 ∨ i = k + 2 := by decide
    exact this i k
  rcases this with rfl | rfl | rfl <;> assumption

/-- Without jumps the potential is zero. -/
theorem zero_of_jump (hM : TriaMesh T geo pos) (hman : Manifold T) {φ : ℕ → ℝ} (hφ : ∀ v < T.numNodes, BoundaryNode T v → φ v = 0)
    (hj : ∀ e < T.numEdges, jump T pos φ e = 0) {c : ℕ} (hc : Reached T c) : c < T.numCells ∧ ∀ k, φ (corner T c k) = 0 := by
  induction hc with
  | start c k hc hb =>
    refine ⟨hc, fun i => ?_⟩
    have he := hM.side_lt hc k
    have hends : φ (corner T c k) = 0 ∧ φ (corner T c (k + 1)) = 0 := by
      refine ⟨hφ _ (hM.corner_lt hc k) ⟨_, he, hb, ?_⟩, hφ _ (hM.corner_lt hc (k + 1)) ⟨_, he, hb, ?_⟩⟩
      · rcases hM.side_ends hc k with h | h <;> rw [h] <;> simp
      · rcases hM.side_ends hc k with h | h <;> rw [h] <;> simp
    have h1 := (onBoundary_iff hM _).1 hb
    obtain ⟨s, hs⟩ := Finset.card_eq_one.1 h1
    have hm : (c, k) ∈ sidesAt T (sideOf T c k) := mem_sidesAt.2 ⟨hc, rfl⟩
    rw [hs, Finset.mem_singleton] at hm
    have := hj _ he
    unfold jump at this
    rw [hs, Finset.sum_singleton, ← hm] at this
    exact opposite_zero (v := fun k => φ (corner T c k)) (hM.regular c hc) hends.1 hends.2 this i
  | step c c' k k' hc hc' he ih =>
    obtain ⟨hc0, ih⟩ := ih
    by_cases hsame : (c, k) = (c', k')
    · rw [Prod.mk.injEq] at hsame
      rw [← hsame.1]
      exact ⟨hc0, ih⟩
    refine ⟨hc', fun i => ?_⟩
    have hlt := hM.side_lt hc' k'
    have hsub : ({(c, k), (c', k')} : Finset (ℕ × Fin 3)) ⊆ sidesAt T (sideOf T c' k') := by
      intro s hs
      rw [Finset.mem_insert, Finset.mem_singleton] at hs
      rcases hs with rfl | rfl
      · exact mem_sidesAt.2 ⟨hc0, he⟩
      · exact mem_sidesAt.2 ⟨hc', rfl⟩
    have heq := Finset.eq_of_subset_of_card_le hsub (by rw [Finset.card_pair hsame]; exact (hman _ hlt).2)
    have := hj _ hlt
    unfold jump at this
    rw [← heq, Finset.sum_pair hsame] at this
    have hv : velocity T pos φ c = 0 := curl_zero _ _ ih
    rw [hv] at this
    have h0 : dot (velocity T pos φ c') (tangent (tri T pos c') k') = 0 := by
      rw [← this, dot2 (0 : Vec ℝ 2)]; simp
    have hends : φ (corner T c' k') = 0 ∧ φ (corner T c' (k' + 1)) = 0 := by
      have s1 := hM.side_ends hc0 k
      have s2 := hM.side_ends hc' k'
      rw [he] at s1
      have a := ih k
      have b := ih (k + 1)
      unfold SamePair at s1 s2
      rcases s1 with s1 | s1 <;> rcases s2 with s2 | s2 <;> simp_all [Prod.ext_iff]
    exact opposite_zero (v := fun k => φ (corner T c' k)) (hM.regular c' hc') hends.1 hends.2 h0 i

theorem fix_matrix {sel : ℕ → Bool × ℝ} {A A' : Coo ℝ} {b b' : List ℝ} (h : fixFlaggedSolutionComponents sel A b = some (A', b')) :
    A' = addUnitDiag sel A.cols (A.setZeroIf fun i j => (sel i).1 || (sel j).1) := by
  unfold fixFlaggedSolutionComponents at h
  simp only at h
  split at h
  · obtain ⟨b1, -, h⟩ := Option.bind_eq_some_iff.1 h
    rw [Option.some.injEq, Prod.mk.injEq] at h
    exact h.1.symm
  · cases h

/-- The matrix does not depend on the data. -/
theorem build_matrix {m : MeshObj} {geo : Ent → Option (Geo ℝ 2)} {h : DofHandler} {f f' : Vec ℝ 2 → Vec ℝ 2} {g g' : ℕ → Vec ℝ 2} {sigma : ℝ}
    {qr : QuadRule ℝ} {modified : Bool} {A A' : Coo ℝ} {b b' : List ℝ}
    (h1 : buildSystemMatrixNoFlow m geo h f g sigma qr modified = some (A, b))
    (h2 : buildSystemMatrixNoFlow m geo h f' g' sigma qr modified = some (A', b')) : A = A' := by
  unfold buildSystemMatrixNoFlow at h1 h2
  obtain ⟨d, d1, h1⟩ := Option.bind_eq_some_iff.1 h1
  rw [d1, Option.bind_some] at h2
  obtain ⟨⟨A1, r1⟩, e1, h1⟩ := Option.bind_eq_some_iff.1 h1
  obtain ⟨⟨A2, r2⟩, e2, h2⟩ := Option.bind_eq_some_iff.1 h2
  obtain ⟨s1, t1, h1⟩ := Option.bind_eq_some_iff.1 h1
  obtain ⟨s2, t2, h2⟩ := Option.bind_eq_some_iff.1 h2
  rw [t1] at t2
  obtain rfl := Option.some.inj t2
  unfold assembleSystem at e1 e2
  obtain ⟨B1, u1, e1⟩ := Option.bind_eq_some_iff.1 e1
  obtain ⟨B2, u2, e2⟩ := Option.bind_eq_some_iff.1 e2
  rw [u1] at u2
  obtain rfl := Option.some.inj u2
  obtain ⟨c1, -, e1⟩ := Option.bind_eq_some_iff.1 e1
  obtain ⟨c2, -, e2⟩ := Option.bind_eq_some_iff.1 e2
  rw [Option.some.injEq, Prod.mk.injEq] at e1 e2
  rw [fix_matrix h1, fix_matrix h2, ← e1.1, ← e2.1]

end Ipdg

variable (m : MeshObj) (geo : Ent → Option (Geo ℝ 2)) (pos : ℕ → Vec ℝ 2) (hM : TriaMesh m.topo geo pos) (hman : Manifold m.topo)
  (h : DofHandler) (chk : Bool) (hh : uniformDofHandler m.topo ⟨1, 1, 0, 0⟩ chk = some h) (hfit : h.numDofs < 2 ^ 31)
  (sigma : ℝ) (modified : Bool) (qr : QuadRule ℝ) (hq : qr.WellFormed) (hr : qr.ref = .tria)
  (f : Vec ℝ 2 → Vec ℝ 2) (g : ℕ → Vec ℝ 2)
include hM hman hh hfit hq hr

/-- **C98**: for every mesh of non-degenerate triangles in which edges belong to one or two cells, every volume force, all Dirichlet data, every quadrature
rule for triangles and every penalty parameter different from zero (with and without the scaling by the edge length), `buildSystemMatrixNoFlow` succeeds,
the matrix is symmetric, and the solutions of the linear system are exactly the solutions of the discrete Stokes problem: its first components, one per
node, are a potential vanishing on the boundary, the others, one per edge, the weighted jumps of the tangential velocity. -/
theorem C98_system (hσ : sigma ≠ 0) : ∃ A b D, buildSystemMatrixNoFlow m geo h f g sigma qr modified = some (A, b) ∧ A.makeDense = some D ∧
    D.rows = m.topo.numNodes + m.topo.numEdges ∧ D.cols = m.topo.numNodes + m.topo.numEdges ∧
    (∀ x : List ℝ, Solves D b (fun i => x.getD i 0) ↔
      DiscreteStokes m.topo pos sigma modified qr f g (fun v => x.getD v 0) fun e => x.getD (m.topo.numNodes + e) 0) ∧
    ∀ i < D.rows, ∀ j < D.rows, D.entry i j = D.entry j i := by
  obtain ⟨A, b, D, h1, h2, h3, h4, -, h6, h7⟩ := system_spec hM hh hfit hman hσ modified hq hr f g
  exact ⟨A, b, D, h1, h2, h3, h4, h6, h7⟩

omit hh hfit hq hr in
/-- **C98**, uniqueness of the solution of the discrete problem: if every node belongs to a cell and from every cell one can get to the boundary through
edges, and the penalty parameter is positive, then two solutions agree at all nodes and edges. -/
theorem C98_unique (hcov : Covered m.topo) (hreach : ∀ c < m.topo.numCells, Reached m.topo c) (hσ : 0 < sigma) (ψ y ψ' y' : ℕ → ℝ)
    (h1 : DiscreteStokes m.topo pos sigma modified qr f g ψ y) (h2 : DiscreteStokes m.topo pos sigma modified qr f g ψ' y') :
    (∀ v < m.topo.numNodes, ψ v = ψ' v) ∧ ∀ e < m.topo.numEdges, y e = y' e := by
  set φ : ℕ → ℝ := fun v => ψ v - ψ' v with hφdef
  have hφ : ∀ v < m.topo.numNodes, BoundaryNode m.topo v → φ v = 0 := fun v hv hb => by
    rw [hφdef]; simp only; rw [h1.noFlow v hv hb, h2.noFlow v hv hb, sub_zero]
  have hy : ∀ e < m.topo.numEdges, y e - y' e = penalty m.topo pos sigma modified e * jump m.topo pos φ e := fun e he => by
    rw [h1.jumps e he, h2.jumps e he, hφdef, jump_sub]; ring
  have hsum : ∑ e ∈ range m.topo.numEdges, penalty m.topo pos sigma modified e * (jump m.topo pos φ e * jump m.topo pos φ e) = 0 := by
    have a := h1.balance φ hφ
    have b := h2.balance φ hφ
    rw [← sub_eq_zero.2 (a.trans b.symm), ← Finset.sum_sub_distrib]
    refine Finset.sum_congr rfl fun e he => ?_
    rw [← sub_mul, hy e (Finset.mem_range.1 he)]
    ring
  have hj : ∀ e < m.topo.numEdges, jump m.topo pos φ e = 0 := fun e he => by
    have := (Finset.sum_eq_zero_iff_of_nonneg fun e he => mul_nonneg (penalty_pos hM hman hσ modified (Finset.mem_range.1 he)).le
      (mul_self_nonneg _)).1 hsum e (Finset.mem_range.2 he)
    rcases mul_eq_zero.1 this with h' | h'
    · exact absurd h' (penalty_pos hM hman hσ modified he).ne'
    · exact mul_self_eq_zero.1 h'
  refine ⟨fun v hv => ?_, fun e he => ?_⟩
  · obtain ⟨c, hc, k, rfl⟩ := hcov v hv
    have := (zero_of_jump hM hman hφ hj (hreach c hc)).2 k
    exact sub_eq_zero.1 this
  · have := hy e he
    rw [hj e he, mul_zero] at this
    exact sub_eq_zero.1 this

/-- **C98**, unique solvability: under these conditions the linear system has exactly one solution. -/
theorem C98_solvable (hcov : Covered m.topo) (hreach : ∀ c < m.topo.numCells, Reached m.topo c) (hσ : 0 < sigma) :
    ∃ A b D, buildSystemMatrixNoFlow m geo h f g sigma qr modified = some (A, b) ∧ A.makeDense = some D ∧
      ∃! x : List ℝ, x.length = m.topo.numNodes + m.topo.numEdges ∧ Solves D b (fun i => x.getD i 0) := by
  obtain ⟨A, b, D, h1, h2, h3, h4, h5, h6, -⟩ := system_spec hM hh hfit hman hσ.ne' modified hq hr f g
  refine ⟨A, b, D, h1, h2, ?_⟩
  set N := m.topo.numNodes + m.topo.numEdges with hN
  -- two solutions for the same data agree
  have huniq : ∀ (f : Vec ℝ 2 → Vec ℝ 2) (g : ℕ → Vec ℝ 2) (x x' : List ℝ), x.length = N → x'.length = N →
      DiscreteStokes m.topo pos sigma modified qr f g (fun v => x.getD v 0) (fun e => x.getD (m.topo.numNodes + e) 0) →
      DiscreteStokes m.topo pos sigma modified qr f g (fun v => x'.getD v 0) (fun e => x'.getD (m.topo.numNodes + e) 0) → x = x' := by
    intro f g x x' hx hx' s s'
    obtain ⟨u1, u2⟩ := C98_unique m geo pos hM hman sigma modified qr f g hcov hreach hσ _ _ _ _ s s'
    apply List.ext_getElem (hx.trans hx'.symm)
    intro i hi hi'
    have : x.getD i 0 = x'.getD i 0 := by
      by_cases hv : i < m.topo.numNodes
      · exact u1 i hv
      · obtain ⟨e, rfl⟩ := Nat.exists_eq_add_of_le (Nat.le_of_not_lt hv)
        exact u2 e (by omega)
    rwa [List.getD_eq_getElem _ _ hi, List.getD_eq_getElem _ _ hi'] at this
  -- the problem with zero data
  obtain ⟨A0, b0, D0, k1, k2, -, -, -, k6, -⟩ := system_spec hM hh hfit hman hσ.ne' modified hq hr (fun _ => 0) (fun _ => 0)
  obtain rfl := build_matrix h1 k1
  rw [h2] at k2
  obtain rfl := Option.some.inj k2
  let M : Matrix (Fin N) (Fin N) ℝ := fun i j => D.entry i j
  have hsol : ∀ (b x : List ℝ), (Solves D b (fun i => x.getD i 0) ↔
      M.mulVec (fun j : Fin N => x.getD j.val 0) = fun i : Fin N => b.getD i.val 0) := by
    intro b x
    unfold Solves
    rw [h3, h4]
    constructor
    · intro hs
      funext i
      rw [← hs i.val i.2, Matrix.mulVec, dotProduct, Finset.sum_range]
    · intro hs i hi
      have := congrFun hs (⟨i, hi⟩ : Fin N)
      rw [Matrix.mulVec, dotProduct] at this
      rw [Finset.sum_range]
      exact this
  have hzero : DiscreteStokes m.topo pos sigma modified qr (fun _ => 0) (fun _ => 0) (fun v => (List.replicate N (0 : ℝ)).getD v 0)
      (fun e => (List.replicate N (0 : ℝ)).getD (m.topo.numNodes + e) 0) := by
    have z : ∀ i, (List.replicate N (0 : ℝ)).getD i 0 = 0 := fun i => by simp [List.getD_replicate]
    simp only [z]
    refine ⟨fun _ _ _ => rfl, fun e _ => ?_, fun φ _ => ?_⟩
    · have j0 : jump m.topo pos (fun _ => 0) e = 0 :=
        Finset.sum_eq_zero fun s _ => by rw [velocity, curl_zero _ _ fun _ => rfl, dot2]; simp
      have p0 : prescribed m.topo pos (fun _ => 0) e = 0 := by
        unfold prescribed
        split
        · exact Finset.sum_eq_zero fun s _ => by rw [dot2]; simp
        · rfl
      rw [j0, p0]
      ring
    · unfold load
      rw [Finset.sum_eq_zero fun e _ => zero_mul _, Finset.sum_eq_zero fun c _ => ?_]
      simp [dot2]
  have hb0 : (fun i : Fin N => b0.getD i.val 0) = 0 := by
    rw [← (hsol b0 _).1 ((k6 _).2 hzero)]
    have : (fun j : Fin N => (List.replicate N (0 : ℝ)).getD j.val 0) = 0 := by funext j; simp
    rw [this, Matrix.mulVec_zero]
  have hget : ∀ v : Fin N → ℝ, (fun j : Fin N => (List.ofFn v).getD j.val 0) = v := fun v => by funext j; simp
  have hinj : Function.Injective M.mulVec := by
    intro v w hvw
    have hd : M.mulVec (v - w) = 0 := by rw [Matrix.mulVec_sub, hvw, sub_self]
    have hs : Solves D b0 (fun i => (List.ofFn (v - w)).getD i 0) := by rw [hsol, hget, hd, hb0]
    have := huniq _ _ _ _ (by simp) (by simp) ((k6 _).1 hs) hzero
    have h0 : v - w = 0 := by
      rw [← hget (v - w), this]
      funext j; simp
    exact sub_eq_zero.1 h0
  have hsurj : Function.Surjective M.mulVec := by
    have : Function.Surjective M.mulVecLin := LinearMap.surjective_of_injective (by exact hinj)
    exact this
  obtain ⟨v, hv⟩ := hsurj fun i : Fin N => b.getD i.val 0
  refine ⟨List.ofFn v, ⟨by simp, by rw [hsol, hget, hv]⟩, fun x hx => ?_⟩
  exact huniq f g x _ hx.1 (by simp) ((h6 x).1 hx.2) ((h6 _).1 (by rw [hsol, hget, hv]))

omit hh hfit hq hr in
/-- **C98**: the discrete problem is a minimisation problem.  A potential vanishing on the boundary, with the weighted jumps of its velocity, is a solution if and
only if it minimises, among all potentials vanishing on the boundary, the dissipation (the weighted squares of the jumps of the tangential velocity) minus the
work of the force. -/
theorem C98_minimiser (hσ : 0 < sigma) (ψ : ℕ → ℝ) (hψ : ∀ v < m.topo.numNodes, BoundaryNode m.topo v → ψ v = 0) :
    DiscreteStokes m.topo pos sigma modified qr f g ψ
        (fun e => penalty m.topo pos sigma modified e * (jump m.topo pos ψ e - prescribed m.topo pos g e)) ↔
      ∀ φ : ℕ → ℝ, (∀ v < m.topo.numNodes, BoundaryNode m.topo v → φ v = 0) →
        1 / 2 * ∑ e ∈ range m.topo.numEdges, penalty m.topo pos sigma modified e * (jump m.topo pos ψ e - prescribed m.topo pos g e) ^ 2 -
            load m.topo pos qr f (velocity m.topo pos ψ) ≤
          1 / 2 * ∑ e ∈ range m.topo.numEdges, penalty m.topo pos sigma modified e * (jump m.topo pos φ e - prescribed m.topo pos g e) ^ 2 -
            load m.topo pos qr f (velocity m.topo pos φ) := by
  -- the difference of the values
  set P : ℕ → ℝ := penalty m.topo pos sigma modified
  set G : ℕ → ℝ := prescribed m.topo pos g
  have hP : ∀ e < m.topo.numEdges, 0 < P e := fun e he => penalty_pos hM hman hσ modified he
  have hexp : ∀ φ η : ℕ → ℝ, (∀ e, jump m.topo pos η e = jump m.topo pos φ e - jump m.topo pos ψ e) →
      load m.topo pos qr f (velocity m.topo pos η) = load m.topo pos qr f (velocity m.topo pos φ) - load m.topo pos qr f (velocity m.topo pos ψ) →
      (1 / 2 * ∑ e ∈ range m.topo.numEdges, P e * (jump m.topo pos φ e - G e) ^ 2 - load m.topo pos qr f (velocity m.topo pos φ)) -
      (1 / 2 * ∑ e ∈ range m.topo.numEdges, P e * (jump m.topo pos ψ e - G e) ^ 2 - load m.topo pos qr f (velocity m.topo pos ψ)) =
      (∑ e ∈ range m.topo.numEdges, P e * (jump m.topo pos ψ e - G e) * jump m.topo pos η e - load m.topo pos qr f (velocity m.topo pos η)) +
      1 / 2 * ∑ e ∈ range m.topo.numEdges, P e * jump m.topo pos η e ^ 2 := by
    intro φ η hj hl
    rw [hl]
    have : ∑ e ∈ range m.topo.numEdges, P e * (jump m.topo pos φ e - G e) ^ 2 = ∑ e ∈ range m.topo.numEdges, P e * (jump m.topo pos ψ e - G e) ^ 2 +
        2 * ∑ e ∈ range m.topo.numEdges, P e * (jump m.topo pos ψ e - G e) * jump m.topo pos η e +
        ∑ e ∈ range m.topo.numEdges, P e * jump m.topo pos η e ^ 2 := by
      rw [Finset.mul_sum, ← Finset.sum_add_distrib, ← Finset.sum_add_distrib]
      refine Finset.sum_congr rfl fun e _ => ?_
      rw [hj e]
      ring
    rw [this]
    ring
  constructor
  · intro h φ hφ
    have hl : load m.topo pos qr f (velocity m.topo pos fun v => φ v - ψ v) = load m.topo pos qr f (velocity m.topo pos φ) -
        load m.topo pos qr f (velocity m.topo pos ψ) := by
      rw [← load_sub]
      exact load_congr fun c _ => velocity_sub _ _ _ _ _
    have := hexp φ (fun v => φ v - ψ v) (fun e => jump_sub _ _ _ _ _) hl
    have hb := h.balance (fun v => φ v - ψ v) fun v hv hb => by rw [hφ v hv hb, hψ v hv hb, sub_zero]
    have hb' : ∑ e ∈ range m.topo.numEdges, P e * (jump m.topo pos ψ e - G e) * jump m.topo pos (fun v => φ v - ψ v) e =
        load m.topo pos qr f (velocity m.topo pos fun v => φ v - ψ v) := hb
    rw [hb', sub_self, zero_add] at this
    have hn : 0 ≤ ∑ e ∈ range m.topo.numEdges, P e * jump m.topo pos (fun v => φ v - ψ v) e ^ 2 :=
      Finset.sum_nonneg fun e he => mul_nonneg (hP e (Finset.mem_range.1 he)).le (sq_nonneg _)
    linarith
  · intro h
    refine ⟨hψ, fun _ _ => rfl, fun η hη => ?_⟩
    -- a quadratic polynomial without negative values
    set L := ∑ e ∈ range m.topo.numEdges, P e * (jump m.topo pos ψ e - G e) * jump m.topo pos η e - load m.topo pos qr f (velocity m.topo pos η) with hL
    set Q := ∑ e ∈ range m.topo.numEdges, P e * jump m.topo pos η e ^ 2 with hQ
    have hlin : ∀ t : ℝ, (∀ e, jump m.topo pos (fun v => t * η v) e = t * jump m.topo pos η e) ∧
        load m.topo pos qr f (velocity m.topo pos fun v => t * η v) = t * load m.topo pos qr f (velocity m.topo pos η) := by
      intro t
      have hv : ∀ c, velocity m.topo pos (fun v => t * η v) c = t • velocity m.topo pos η c := fun c => by
        unfold velocity curl
        rw [smul_comm t]
        simp only [mul_smul, Finset.smul_sum]
      refine ⟨fun e => ?_, ?_⟩
      · unfold jump
        rw [Finset.mul_sum]
        exact Finset.sum_congr rfl fun s _ => by rw [hv, dot_smul2]
      · unfold load
        rw [Finset.mul_sum]
        refine Finset.sum_congr rfl fun c _ => ?_
        rw [hv]
        generalize List.zip qr.points qr.weights = l
        have : (l.map fun q => q.2 * dot (f (triPoint (tri m.topo pos c) q.1)) (t • velocity m.topo pos η c)).sum =
            t * (l.map fun q => q.2 * dot (f (triPoint (tri m.topo pos c) q.1)) (velocity m.topo pos η c)).sum := by
          induction l with
          | nil => simp
          | cons q l ih =>
            simp only [List.map_cons, List.sum_cons, ih]
            rw [dot_comm2 _ (t • _), dot_smul2, dot_comm2 (velocity m.topo pos η c)]
            ring
        rw [this]
        ring
    have hpoly : ∀ t : ℝ, 0 ≤ t * L + t ^ 2 * (1 / 2 * Q) := by
      intro t
      have hs : ∀ v, (fun v => ψ v + t * η v) v - ψ v = t * η v := fun v => by simp
      have h1 := hexp (fun v => ψ v + t * η v) (fun v => t * η v) (fun e => by
        rw [← jump_sub]; simp only [hs]) (by
        rw [← load_sub]
        refine load_congr fun c _ => ?_
        rw [← velocity_sub]
        simp only [hs])
      have h2 := h (fun v => ψ v + t * η v) fun v hv hb => by rw [hψ v hv hb, hη v hv hb]; ring
      have h3 : t * L + t ^ 2 * (1 / 2 * Q) =
          (∑ e ∈ range m.topo.numEdges, P e * (jump m.topo pos ψ e - G e) * jump m.topo pos (fun v => t * η v) e -
            load m.topo pos qr f (velocity m.topo pos fun v => t * η v)) +
          1 / 2 * ∑ e ∈ range m.topo.numEdges, P e * jump m.topo pos (fun v => t * η v) e ^ 2 := by
        rw [(hlin t).2, hL, hQ, mul_sub, Finset.mul_sum, Finset.mul_sum, Finset.mul_sum, Finset.mul_sum]
        congr 1
        · congr 1
          exact Finset.sum_congr rfl fun e _ => by rw [(hlin t).1]; ring
        · exact Finset.sum_congr rfl fun e _ => by rw [(hlin t).1]; ring
      rw [h3, ← h1]
      linarith
    have hL0 : L = 0 := by
      by_contra hne
      have hQ0 : 0 ≤ Q := Finset.sum_nonneg fun e he => mul_nonneg (hP e (Finset.mem_range.1 he)).le (sq_nonneg _)
      have := hpoly (-L / (Q + 1))
      have hq1 : 0 < Q + 1 := by linarith
      have e1 : -L / (Q + 1) * L + (-L / (Q + 1)) ^ 2 * (1 / 2 * Q) = -(L ^ 2 * (1 / 2 * Q + 1)) / (Q + 1) ^ 2 := by
        field_simp
        ring
      rw [e1] at this
      have hpos : 0 < L ^ 2 * (1 / 2 * Q + 1) := mul_pos (by positivity) (by linarith)
      have : -(L ^ 2 * (1 / 2 * Q + 1)) / (Q + 1) ^ 2 < 0 := div_neg_of_neg_of_pos (by linarith) (by positivity)
      linarith
    rw [hL] at hL0
    exact sub_eq_zero.1 hL0

/-- The conditions hold for the square with its centre, three quadrature points and the penalty parameter ten: all four cells have a side on the boundary; the
linear system has thirteen unknowns and exactly one solution for every force and all Dirichlet data. -/
example : ∃ h, TriaMesh stokesTopo stokesGeo stokesPos ∧ Manifold stokesTopo ∧ Covered stokesTopo ∧
    (∀ c < stokesTopo.numCells, Reached stokesTopo c) ∧ ¬ BoundaryNode stokesTopo 4 ∧
    uniformDofHandler stokesTopo ⟨1, 1, 0, 0⟩ false = some h ∧ h.numDofs = 13 ∧
    ∀ f g, ∃ A b D, buildSystemMatrixNoFlow ⟨0, stokesTopo⟩ stokesGeo h f g 10
        ⟨.tria, 2, [[1 / 2, 0], [1 / 2, 1 / 2], [0, 1 / 2]], [1 / 6, 1 / 6, 1 / 6]⟩ true = some (A, b) ∧ A.makeDense = some D ∧
      ∃! x : List ℝ, x.length = 13 ∧ Solves D b (fun i => x.getD i 0) := by
  obtain ⟨h, hh, -⟩ := C09_uniform stokesTopo stokesTopo_WF ⟨1, 1, 0, 0⟩ false
  have hn : h.numDofs = 13 := (nodeEdgeDofs stokesTopo_WF (Or.inr rfl) hh).numDofs
  have hman : Manifold stokesTopo := by unfold Manifold; decide
  have hcov : Covered stokesTopo := by unfold Covered; decide
  have hreach : ∀ c < stokesTopo.numCells, Reached stokesTopo c := by
    intro c hc
    have : ∃ k : Fin 3, (sidesAt stokesTopo (sideOf stokesTopo c k)).card = 1 := by
      revert c
      decide
    obtain ⟨k, hk⟩ := this
    exact .start c k hc ((onBoundary_iff stokesMesh _).2 hk)
  refine ⟨h, stokesMesh, hman, hcov, hreach, ?_, hh, hn, fun f g => ?_⟩
  · rintro ⟨e, he, hb, hv⟩
    rw [onBoundary_iff stokesMesh] at hb
    revert e
    decide
  · exact C98_solvable ⟨0, stokesTopo⟩ stokesGeo stokesPos stokesMesh hman h false hh (by rw [hn]; norm_num) 10 true _
      (by constructor <;> simp [RefEl.dimension]) rfl f g hcov hreach (by norm_num)

end Verif
