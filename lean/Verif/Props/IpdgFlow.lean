import Verif.Lemmas.IpdgFlow7

/-!
# C110: in- and outflow for the interior penalty method for the Stokes system
-/

namespace Verif
open Geo Dpg Ipdg Finset

namespace Ipdg

/-- If a quadratic system has exactly one solution, then it has exactly one for every right hand side. -/
theorem solves_unique {D : Dense ℝ} {N : ℕ} (h1 : D.rows = N) (h2 : D.cols = N) {b0 : List ℝ}
    (h0 : ∃! x : List ℝ, x.length = N ∧ Solves D b0 (fun i => x.getD i 0)) (b : List ℝ) :
    ∃! x : List ℝ, x.length = N ∧ Solves D b (fun i => x.getD i 0) := by
  let M : Matrix (Fin N) (Fin N) ℝ := fun i j => D.entry i j
  have hsol : ∀ (b x : List ℝ), (Solves D b (fun i => x.getD i 0) ↔
      M.mulVec (fun j : Fin N => x.getD j.val 0) = fun i : Fin N => b.getD i.val 0) := by
    intro b x
    unfold Solves
    rw [h1, h2]
    constructor
    · intro hs
      funext i
      rw [← hs i.val i.2, Matrix.mulVec, dotProduct, Finset.sum_range]
    · intro hs i hi
      have := congrFun hs (⟨i, hi⟩ : Fin N)
      rw [Matrix.mulVec, dotProduct] at this
      rw [Finset.sum_range]
      exact this
  have hget : ∀ v : Fin N → ℝ, (fun j : Fin N => (List.ofFn v).getD j.val 0) = v := fun v => by funext j; simp
  have hlist : ∀ x y : List ℝ, x.length = N → y.length = N → (fun j : Fin N => x.getD j.val 0) = (fun j : Fin N => y.getD j.val 0) → x = y := by
    intro x y hx hy hxy
    apply List.ext_getElem (hx.trans hy.symm)
    intro i hi hi'
    have := congrFun hxy ⟨i, by omega⟩
    simp only at this
    rwa [List.getD_eq_getElem _ _ hi, List.getD_eq_getElem _ _ hi'] at this
  obtain ⟨x0, ⟨l0, s0⟩, u0⟩ := h0
  have hinj : Function.Injective M.mulVec := by
    intro v w hvw
    have hd : M.mulVec (v - w) = 0 := by rw [Matrix.mulVec_sub, hvw, sub_self]
    have hs : Solves D b0 (fun i => (List.ofFn ((fun j : Fin N => x0.getD j.val 0) + (v - w))).getD i 0) := by
      rw [hsol, hget, Matrix.mulVec_add, hd, add_zero]
      exact (hsol b0 x0).1 s0
    have := u0 _ ⟨by simp, hs⟩
    have h3 := hget ((fun j : Fin N => x0.getD j.val 0) + (v - w))
    rw [this] at h3
    have h4 : v - w = 0 := add_eq_left.1 h3.symm
    exact sub_eq_zero.1 h4
  have hsurj : Function.Surjective M.mulVec := by
    have : Function.Surjective M.mulVecLin := LinearMap.surjective_of_injective (by exact hinj)
    exact this
  obtain ⟨v, hv⟩ := hsurj fun i : Fin N => b.getD i.val 0
  refine ⟨List.ofFn v, ⟨by simp, by rw [hsol, hget, hv]⟩, fun x hx => hlist _ _ hx.1 (by simp) (hinj ?_)⟩
  rw [hget, hv, (hsol b x).1 hx.2]

end Ipdg

/-! ## The discrete problem -/

/-- The vectors used in the definition of the outflow are the outward unit normals. -/
theorem C110_normal (p : Fin 3 → Vec ℝ 2) (h : area2 p ≠ 0) (k : Fin 3) : IsOutwardNormal p k (outward p k) :=
  outward_normalAt p k ▸ isOutward_normalAt h k

section
variable (m : MeshObj) (geo : Ent → Option (Geo ℝ 2)) (pos : ℕ → Vec ℝ 2) (hM : TriaMesh m.topo geo pos) (hman : Manifold m.topo)
  (hopp : OppositeSides m.topo pos)
include hM hman hopp

/-- **C110**: as much fluid enters as leaves, whatever the potential is. -/
theorem C110_divergence (ψ : ℕ → ℝ) : netFlow m.topo pos (outflow m.topo pos ψ) = 0 := netFlow_outflow hM hman hopp ψ

/-- **C110**: Dirichlet data for which the amounts of fluid entering and leaving are different are not the velocities at the boundary of any potential. -/
theorem C110_net (g : ℕ → Vec ℝ 2) (hg : netFlow m.topo pos (outflowData m.topo pos g) ≠ 0) (ψ : ℕ → ℝ) :
    ∃ e ∈ bdEdges m.topo, outflow m.topo pos ψ e ≠ outflowData m.topo pos g e := by
  by_contra hcon
  push Not at hcon
  exact hg ((netFlow_congr fun e he => (hcon e he).symm).trans (netFlow_outflow hM hman hopp ψ))

variable (h : DofHandler) (chk : Bool) (hh : uniformDofHandler m.topo ⟨1, 1, 0, 0⟩ chk = some h) (hfit : h.numDofs < 2 ^ 31)
  (sigma : ℝ) (modified : Bool) (qr : QuadRule ℝ) (hq : qr.WellFormed) (hr : qr.ref = .tria) (hc : ClosedCurve m.topo)
  (f : Vec ℝ 2 → Vec ℝ 2) (g : ℕ → Vec ℝ 2)
include hh hfit hq hr hc

/-- **C110**, the offset function: its values at the nodes vanish away from the boundary and have mean value zero on the boundary, its velocity leaves the domain as
prescribed up to the correction which makes the net flow zero, and these conditions determine its values at the nodes.  Its components for the edges are the jumps of
its tangential velocity. -/
theorem C110_offset (hσ : sigma ≠ 0) : ∃ A b o, buildSystemMatrixInOutFlow m geo h f g sigma qr modified = some (A, b, o) ∧
    o.length = m.topo.numNodes + m.topo.numEdges ∧
    (∀ ψ : ℕ → ℝ, ((∀ v < m.topo.numNodes, v ∉ bdNodes m.topo → ψ v = 0) ∧ ∑ v ∈ bdNodes m.topo, ψ v = 0 ∧
        ∀ e ∈ bdEdges m.topo, outflow m.topo pos ψ e =
          outflowData m.topo pos g e - netFlow m.topo pos (outflowData m.topo pos g) / perimeter m.topo pos) ↔
      ∀ v < m.topo.numNodes, ψ v = o.getD v 0) ∧
    ∀ e < m.topo.numEdges, o.getD (m.topo.numNodes + e) 0 = jump m.topo pos (fun v => o.getD v 0) e := by
  obtain ⟨A, b, D, o, h1, -, -, -, -, h6, h7, h8, h9, h10, -⟩ := flow_system hM hh hfit hman hσ modified hq hr f g hopp hc
  refine ⟨A, b, o, h1, h6, fun ψ => ⟨fun ⟨p1, p2, p3⟩ => ?_, fun hψ => ?_⟩, h10⟩
  · have hz := (bd_zero hM hman hopp hc.nonempty hc.connected (ψ := fun v => ψ v - o.getD v 0) (lam := 0)
      (fun e he => by rw [outflow_sub, p3 e he, h9 e he, sub_self]) (by rw [Finset.sum_sub_distrib, p2, h8, sub_self])).2
    intro v hv
    by_cases hb : v ∈ bdNodes m.topo
    · exact sub_eq_zero.1 (hz v hb)
    · rw [p1 v hv hb, h7 v hv hb]
  · have hb : ∀ v ∈ bdNodes m.topo, ψ v = o.getD v 0 := fun v hv => hψ v (mem_bdNodes.1 hv).1
    exact ⟨fun v hv hn => (hψ v hv).trans (h7 v hv hn), (Finset.sum_congr rfl hb).trans h8, fun e he => by rw [outflow_congr hM he hb, h9 e he]⟩

/-- **C110**: for every mesh of non-degenerate triangles whose boundary is one closed curve and in which neighbouring triangles lie on different sides of the common
edge, for every volume force, all Dirichlet data, every quadrature rule for triangles and every penalty parameter different from zero, `buildSystemMatrixInOutFlow`
succeeds, and the solutions of the linear system are exactly the solutions of the discrete Stokes problem with in- and outflow: the potential is the sum of the
components for the nodes and of the offset function, the components for the edges are the weighted jumps of the tangential velocity. -/
theorem C110_system (hσ : sigma ≠ 0) : ∃ A b D o, buildSystemMatrixInOutFlow m geo h f g sigma qr modified = some (A, b, o) ∧ A.makeDense = some D ∧
    D.rows = m.topo.numNodes + m.topo.numEdges ∧ D.cols = m.topo.numNodes + m.topo.numEdges ∧
    ∀ x : List ℝ, Solves D b (fun i => x.getD i 0) ↔
      FlowStokes m.topo pos sigma modified qr f g (fun v => x.getD v 0 + o.getD v 0) fun e => x.getD (m.topo.numNodes + e) 0 := by
  obtain ⟨A, b, D, o, h1, h2, h3, h4, -, -, -, -, -, -, h11, -⟩ := flow_system hM hh hfit hman hσ modified hq hr f g hopp hc
  exact ⟨A, b, D, o, h1, h2, h3, h4, h11⟩

/-- **C110**: if moreover every node belongs to a cell, every cell can be reached from the boundary and the penalty parameter is positive, then the linear system has
exactly one solution. -/
theorem C110_solvable (hcov : Covered m.topo) (hreach : ∀ c < m.topo.numCells, Reached m.topo c) (hσ : 0 < sigma) :
    ∃ A b D o, buildSystemMatrixInOutFlow m geo h f g sigma qr modified = some (A, b, o) ∧ A.makeDense = some D ∧
      ∃! x : List ℝ, x.length = m.topo.numNodes + m.topo.numEdges ∧ Solves D b (fun i => x.getD i 0) := by
  obtain ⟨A, b, D, o, h1, h2, h3, h4, -, -, -, -, -, -, -, b0, h12⟩ := flow_system hM hh hfit hman hσ.ne' modified hq hr f g hopp hc
  obtain ⟨A', b', D', k1, k2, k3⟩ := C98_solvable m geo pos hM hman h chk hh hfit sigma modified qr hq hr f g hcov hreach hσ
  rw [h12] at k1
  cases k1
  rw [h2] at k2
  cases k2
  exact ⟨A, b, D, o, h1, h2, solves_unique h3 h4 k3 b⟩

/-- **C110**, for data with zero net flow: at every edge on the boundary the fluid leaves the domain with exactly the prescribed velocity. -/
theorem C110_flow (hσ : sigma ≠ 0) (hg : netFlow m.topo pos (outflowData m.topo pos g) = 0) :
    ∃ A b D o, buildSystemMatrixInOutFlow m geo h f g sigma qr modified = some (A, b, o) ∧ A.makeDense = some D ∧
      ∀ x : List ℝ, Solves D b (fun i => x.getD i 0) → ∀ e ∈ bdEdges m.topo,
        outflow m.topo pos (fun v => x.getD v 0 + o.getD v 0) e = outflowData m.topo pos g e := by
  obtain ⟨A, b, D, o, h1, h2, -, -, h5⟩ := C110_system m geo pos hM hman hopp h chk hh hfit sigma modified qr hq hr hc f g hσ
  refine ⟨A, b, D, o, h1, h2, fun x hx e he => ?_⟩
  rw [((h5 x).1 hx).flow e he, hg, zero_div, sub_zero]

/-- **C110**, what the programs of the project do with the result: they add the whole offset function to the solution.  For the nodes this gives the potential.  The
components for the edges of the sum are not the weighted jumps: the jump of the offset function, without weight, is added once more. -/
theorem C110_edges (hσ : sigma ≠ 0) : ∃ A b D o, buildSystemMatrixInOutFlow m geo h f g sigma qr modified = some (A, b, o) ∧ A.makeDense = some D ∧
    ∀ x : List ℝ, x.length = m.topo.numNodes + m.topo.numEdges → Solves D b (fun i => x.getD i 0) →
      FlowStokes m.topo pos sigma modified qr f g (fun v => (List.zipWith (· + ·) x o).getD v 0) (fun e => x.getD (m.topo.numNodes + e) 0) ∧
      ∀ e < m.topo.numEdges, (List.zipWith (· + ·) x o).getD (m.topo.numNodes + e) 0 =
        penalty m.topo pos sigma modified e * (jump m.topo pos (fun v => (List.zipWith (· + ·) x o).getD v 0) e - prescribed m.topo pos g e) +
        jump m.topo pos (fun v => o.getD v 0) e := by
  obtain ⟨A, b, D, o, h1, h2, -, -, -, h6, -, -, -, h10, h11, -⟩ := flow_system hM hh hfit hman hσ modified hq hr f g hopp hc
  refine ⟨A, b, D, o, h1, h2, fun x hl hx => ?_⟩
  have hz : ∀ v, (List.zipWith (· + ·) x o).getD v 0 = x.getD v 0 + o.getD v 0 := by
    intro v
    by_cases hv : v < m.topo.numNodes + m.topo.numEdges
    · rw [List.getD_eq_getElem (List.zipWith (· + ·) x o) _ (by rw [List.length_zipWith]; omega), List.getElem_zipWith,
        List.getD_eq_getElem x _ (by omega), List.getD_eq_getElem o _ (by omega)]
    · rw [List.getD_eq_default _ _ (by rw [List.length_zipWith]; omega), List.getD_eq_default _ _ (by omega), List.getD_eq_default _ _ (by omega), zero_add]
  have hS := (h11 x).1 hx
  simp only [hz]
  refine ⟨hS, fun e he => ?_⟩
  rw [← h10 e he, ← hS.jumps e he]

omit hman hopp hc in
include hman in
/-- **C110**, the restriction to one closed curve is necessary: if there are two nodes on the boundary which are not joined by edges on the boundary, as it is the case
for domains with holes, then the linear system for the offset function is singular, whatever the data are. -/
theorem C110_holes_not (hσ : sigma ≠ 0) (v w : ℕ) (hv : v ∈ bdNodes m.topo) (hw : w ∈ bdNodes m.topo)
    (hvw : ¬Relation.ReflTransGen (BdNeighbour m.topo) v w) : buildSystemMatrixInOutFlow m geo h f g sigma qr modified = none :=
  flow_none hM hh hfit hman hσ modified hq hr f g hv hw hvw

end

/-! ## Examples -/

theorem stokes_bdEdges : bdEdges stokesTopo = {0, 1, 2, 3} := by
  ext e
  rw [mem_bdEdges, onBoundary_iff stokesMesh]
  constructor
  · rintro ⟨he, h⟩
    revert h
    revert e
    decide
  · intro h
    simp only [Finset.mem_insert, Finset.mem_singleton] at h
    rcases h with rfl | rfl | rfl | rfl <;> decide

theorem stokes_bdNodes : bdNodes stokesTopo = {0, 1, 2, 3} := by
  ext v
  rw [mem_bdNodes]
  constructor
  · rintro ⟨hv, e, he, hb, h⟩
    rw [onBoundary_iff stokesMesh] at hb
    revert e v
    decide
  · intro h
    simp only [Finset.mem_insert, Finset.mem_singleton] at h
    have key : ∀ e : ℕ, e < 8 → (sidesAt stokesTopo e).card = 1 → ∀ v, ((stokesTopo.edge e).1 = v ∨ (stokesTopo.edge e).2 = v) → BoundaryNode stokesTopo v :=
      fun e he h1 v hv => ⟨e, he, (onBoundary_iff stokesMesh e).2 h1, hv⟩
    rcases h with rfl | rfl | rfl | rfl
    · exact ⟨by decide, key 0 (by decide) (by decide) _ (by decide)⟩
    · exact ⟨by decide, key 0 (by decide) (by decide) _ (by decide)⟩
    · exact ⟨by decide, key 2 (by decide) (by decide) _ (by decide)⟩
    · exact ⟨by decide, key 2 (by decide) (by decide) _ (by decide)⟩

theorem stokes_opposite : OppositeSides stokesTopo stokesPos := by
  have hs : ∀ e ∈ Finset.range 8, ∀ s ∈ sidesAt stokesTopo e, ∀ s' ∈ sidesAt stokesTopo e, s ≠ s' →
      (e, s, s') ∈ ([(4, (0, 2), (3, 1)), (4, (3, 1), (0, 2)), (5, (0, 1), (1, 2)), (5, (1, 2), (0, 1)), (6, (1, 1), (2, 2)), (6, (2, 2), (1, 1)),
        (7, (2, 1), (3, 0)), (7, (3, 0), (2, 1))] : List (ℕ × (ℕ × Fin 3) × (ℕ × Fin 3))) := by decide
  intro e he s h1 s' h2 h3
  have := hs e (Finset.mem_range.2 he) s h1 s' h2 h3
  simp only [List.mem_cons, List.not_mem_nil, or_false, Prod.mk.injEq] at this
  rcases this with ⟨rfl, rfl, rfl⟩ | ⟨rfl, rfl, rfl⟩ | ⟨rfl, rfl, rfl⟩ | ⟨rfl, rfl, rfl⟩ | ⟨rfl, rfl, rfl⟩ | ⟨rfl, rfl, rfl⟩ | ⟨rfl, rfl, rfl⟩ | ⟨rfl, rfl, rfl⟩ <;>
    simp [sideSign, stokesTopo, stokesPos, corner, det2_eq] <;> norm_num

theorem stokes_closed : ClosedCurve stokesTopo := by
  refine ⟨⟨0, by rw [stokes_bdEdges]; simp⟩, ?_, ?_⟩
  · rw [stokes_bdEdges, stokes_bdNodes]
    decide
  · have hnb : ∀ e v w, e ∈ bdEdges stokesTopo → stokesTopo.edge e = (v, w) → BdNeighbour stokesTopo v w ∧ BdNeighbour stokesTopo w v := by
      intro e v w he h
      refine ⟨⟨e, he, Or.inl h⟩, ⟨e, he, Or.inr ?_⟩⟩
      rw [h]; rfl
    have h0 := hnb 0 0 1 (by rw [stokes_bdEdges]; simp) rfl
    have h1 := hnb 1 1 2 (by rw [stokes_bdEdges]; simp) rfl
    have h2 := hnb 2 2 3 (by rw [stokes_bdEdges]; simp) rfl
    have to0 : ∀ v ∈ bdNodes stokesTopo, Relation.ReflTransGen (BdNeighbour stokesTopo) v 0 ∧ Relation.ReflTransGen (BdNeighbour stokesTopo) 0 v := by
      intro v hv
      rw [stokes_bdNodes] at hv
      simp only [Finset.mem_insert, Finset.mem_singleton] at hv
      have r1 := Relation.ReflTransGen.single h0.1
      have l1 := Relation.ReflTransGen.single h0.2
      have r2 := r1.tail h1.1
      have l2 := Relation.ReflTransGen.head h1.2 l1
      have r3 := r2.tail h2.1
      have l3 := Relation.ReflTransGen.head h2.2 l2
      rcases hv with rfl | rfl | rfl | rfl
      · exact ⟨.refl, .refl⟩
      · exact ⟨l1, r1⟩
      · exact ⟨l2, r2⟩
      · exact ⟨l3, r3⟩
    exact fun v hv w hw => (to0 v hv).1.trans (to0 w hw).2

theorem stokes_manifold : Manifold stokesTopo := by unfold Manifold; decide

theorem stokes_reached : ∀ c < stokesTopo.numCells, Reached stokesTopo c := by
  intro c hc
  have : ∃ k : Fin 3, (sidesAt stokesTopo (sideOf stokesTopo c k)).card = 1 := by
    revert c
    decide
  obtain ⟨k, hk⟩ := this
  exact .start c k hc ((onBoundary_iff stokesMesh _).2 hk)

/-- Flow through the square from left to right. -/
def stokesThrough (_ : ℕ) : Vec ℝ 2 := ![1, 0]

theorem stokes_normals : outward (tri stokesTopo stokesPos 0) 0 = ![0, -1] ∧ outward (tri stokesTopo stokesPos 1) 0 = ![1, 0] ∧
    outward (tri stokesTopo stokesPos 2) 0 = ![0, 1] ∧ outward (tri stokesTopo stokesPos 3) 2 = ![-1, 0] := by
  have h4 : Real.sqrt 4 = 2 := by rw [show (4 : ℝ) = 2 ^ 2 by norm_num]; exact Real.sqrt_sq (by norm_num)
  obtain ⟨a0, a1, a2, a3⟩ := stokes_area
  have s2 : Real.sign 2 = 1 := Real.sign_of_pos (by norm_num)
  have s2' : Real.sign (-2) = -1 := Real.sign_of_neg (by norm_num)
  refine ⟨?_, ?_, ?_, ?_⟩
  · rw [outward, tangent, a0, s2]
    ext i
    fin_cases i <;> simp [tri, corner, stokesTopo, stokesPos, dot2] <;> norm_num [h4]
  · rw [outward, tangent, a1, s2]
    ext i
    fin_cases i <;> simp [tri, corner, stokesTopo, stokesPos, dot2] <;> norm_num [h4]
  · rw [outward, tangent, a2, s2]
    ext i
    fin_cases i <;> simp [tri, corner, stokesTopo, stokesPos, dot2] <;> norm_num [h4]
  · rw [outward, tangent, a3, s2']
    ext i
    fin_cases i <;> simp [tri, corner, stokesTopo, stokesPos, dot2] <;> norm_num [h4]

theorem stokes_sides : sidesAt stokesTopo 0 = {(0, 0)} ∧ sidesAt stokesTopo 1 = {(1, 0)} ∧ sidesAt stokesTopo 2 = {(2, 0)} ∧
    sidesAt stokesTopo 3 = {(3, 2)} := by decide

theorem stokes_data : outflowData stokesTopo stokesPos stokesThrough 0 = 0 ∧ outflowData stokesTopo stokesPos stokesThrough 1 = 1 ∧
    outflowData stokesTopo stokesPos stokesThrough 2 = 0 ∧ outflowData stokesTopo stokesPos stokesThrough 3 = -1 := by
  obtain ⟨s0, s1, s2, s3⟩ := stokes_sides
  obtain ⟨n0, n1, n2, n3⟩ := stokes_normals
  unfold outflowData stokesThrough
  rw [s0, s1, s2, s3]
  simp [n0, n1, n2, n3, dot2]

theorem stokes_net : netFlow stokesTopo stokesPos (outflowData stokesTopo stokesPos stokesThrough) = 0 := by
  obtain ⟨d0, d1, d2, d3⟩ := stokes_data
  unfold netFlow
  rw [stokes_bdEdges]
  simp only [Finset.sum_insert (show (0 : ℕ) ∉ ({1, 2, 3} : Finset ℕ) by decide), Finset.sum_insert (show (1 : ℕ) ∉ ({2, 3} : Finset ℕ) by decide),
    Finset.sum_insert (show (2 : ℕ) ∉ ({3} : Finset ℕ) by decide), Finset.sum_singleton, d0, d1, d2, d3]
  simp [edgeLength, stokesTopo, stokesPos, dot2]

theorem stokes_outflow (ψ : ℕ → ℝ) : outflow stokesTopo stokesPos ψ 0 = (ψ 1 - ψ 0) / 2 ∧ outflow stokesTopo stokesPos ψ 1 = (ψ 2 - ψ 1) / 2 ∧
    outflow stokesTopo stokesPos ψ 2 = (ψ 3 - ψ 2) / 2 ∧ jump stokesTopo stokesPos ψ 0 = ψ 4 - (ψ 0 + ψ 1) / 2 := by
  obtain ⟨s0, s1, s2, s3⟩ := stokes_sides
  obtain ⟨n0, n1, n2, n3⟩ := stokes_normals
  obtain ⟨a0, a1, a2, a3⟩ := stokes_area
  have t0 : tangent (tri stokesTopo stokesPos 0) 0 = ![1, 0] := by
    have h0 := congrFun n0 0
    have h1 := congrFun n0 1
    simp [outward] at h0 h1
    ext i
    fin_cases i
    · exact h1
    · exact h0
  unfold outflow jump velocity curl
  rw [s0, s1, s2]
  simp only [Finset.sum_singleton, n0, n1, n2, a0, a1, a2, t0, Fin.sum_univ_three]
  simp [dot2, tri, corner, stokesTopo, stokesPos]
  refine ⟨?_, ?_, ?_, ?_⟩ <;> ring

/-- The conditions hold for the square with its centre: the boundary is one closed curve with four edges.  With fluid entering from the left and leaving on the right, the
net flow is zero, the linear system has exactly one solution, and the fluid leaves through the right hand side with velocity one. -/
example : ∃ h, ClosedCurve stokesTopo ∧ OppositeSides stokesTopo stokesPos ∧ uniformDofHandler stokesTopo ⟨1, 1, 0, 0⟩ false = some h ∧
    ∀ f, ∃ A b D o, buildSystemMatrixInOutFlow ⟨0, stokesTopo⟩ stokesGeo h f stokesThrough 10
        ⟨.tria, 2, [[1 / 2, 0], [1 / 2, 1 / 2], [0, 1 / 2]], [1 / 6, 1 / 6, 1 / 6]⟩ true = some (A, b, o) ∧ A.makeDense = some D ∧
      (∃! x : List ℝ, x.length = 13 ∧ Solves D b (fun i => x.getD i 0)) ∧
      ∀ x : List ℝ, Solves D b (fun i => x.getD i 0) → outflow stokesTopo stokesPos (fun v => x.getD v 0 + o.getD v 0) 1 = 1 := by
  obtain ⟨h, hh, -⟩ := C09_uniform stokesTopo stokesTopo_WF ⟨1, 1, 0, 0⟩ false
  have hn : h.numDofs = 13 := (nodeEdgeDofs stokesTopo_WF (Or.inr rfl) hh).numDofs
  have hq : (⟨.tria, 2, [[1 / 2, 0], [1 / 2, 1 / 2], [0, 1 / 2]], [1 / 6, 1 / 6, 1 / 6]⟩ : QuadRule ℝ).WellFormed := by
    constructor <;> simp [RefEl.dimension]
  have hcov : Covered stokesTopo := by unfold Covered; decide
  refine ⟨h, stokes_closed, stokes_opposite, hh, fun f => ?_⟩
  obtain ⟨A, b, D, o, h1, h2, h3⟩ := C110_solvable ⟨0, stokesTopo⟩ stokesGeo stokesPos stokesMesh stokes_manifold stokes_opposite h false hh
    (by rw [hn]; norm_num) 10 true _ hq rfl stokes_closed f stokesThrough hcov stokes_reached (by norm_num)
  obtain ⟨A', b', D', o', k1, k2, k3⟩ := C110_flow ⟨0, stokesTopo⟩ stokesGeo stokesPos stokesMesh stokes_manifold stokes_opposite h false hh
    (by rw [hn]; norm_num) 10 true _ hq rfl stokes_closed f stokesThrough (by norm_num) stokes_net
  rw [h1] at k1
  cases k1
  rw [h2] at k2
  cases k2
  exact ⟨A, b, D, o, h1, h2, h3, fun x hx => (k3 x hx 1 (by rw [stokes_bdEdges]; simp)).trans stokes_data.2.1⟩

/-- **C110**: the components for the edges of the sum of the solution and the offset function are wrong for the flow through the square: at the lower side, the sum
differs from the weighted jump. -/
theorem C110_edges_not (h : DofHandler) (chk : Bool) (hh : uniformDofHandler stokesTopo ⟨1, 1, 0, 0⟩ chk = some h)
    (sigma : ℝ) (hσ : sigma ≠ 0) (modified : Bool) (qr : QuadRule ℝ) (hq : qr.WellFormed) (hr : qr.ref = .tria) (f : Vec ℝ 2 → Vec ℝ 2) :
    ∃ A b D o, buildSystemMatrixInOutFlow ⟨0, stokesTopo⟩ stokesGeo h f stokesThrough sigma qr modified = some (A, b, o) ∧ A.makeDense = some D ∧
      ∀ x : List ℝ, x.length = 13 → Solves D b (fun i => x.getD i 0) → (List.zipWith (· + ·) x o).getD 5 0 ≠
        penalty stokesTopo stokesPos sigma modified 0 *
          (jump stokesTopo stokesPos (fun v => (List.zipWith (· + ·) x o).getD v 0) 0 - prescribed stokesTopo stokesPos stokesThrough 0) := by
  have hn : h.numDofs = 13 := (nodeEdgeDofs stokesTopo_WF (Or.inr rfl) hh).numDofs
  have hfit : h.numDofs < 2 ^ 31 := by rw [hn]; norm_num
  obtain ⟨A, b, D, o, h1, h2, h3⟩ := C110_edges ⟨0, stokesTopo⟩ stokesGeo stokesPos stokesMesh stokes_manifold stokes_opposite h chk hh
    hfit sigma modified qr hq hr stokes_closed f stokesThrough hσ
  obtain ⟨A', b', o', k1, k2, k3, k4⟩ := C110_offset ⟨0, stokesTopo⟩ stokesGeo stokesPos stokesMesh stokes_manifold stokes_opposite h chk hh
    hfit sigma modified qr hq hr stokes_closed f stokesThrough hσ
  rw [h1] at k1
  cases k1
  refine ⟨A, b, D, o, h1, h2, fun x hl hx hcon => ?_⟩
  have key := (h3 x hl hx).2 0 (by decide)
  change (List.zipWith (· + ·) x o).getD 5 0 = _ at key
  rw [hcon, left_eq_add] at key
  obtain ⟨p1, p2, p3⟩ := (k3 fun v => o.getD v 0).2 fun v _ => rfl
  simp only [stokes_net, zero_div, sub_zero] at p3
  obtain ⟨q0, q1, q2, q3⟩ := stokes_outflow fun v => o.getD v 0
  obtain ⟨d0, d1, d2, d3⟩ := stokes_data
  have e0 := p3 0 (by rw [stokes_bdEdges]; simp)
  have e1 := p3 1 (by rw [stokes_bdEdges]; simp)
  have e2 := p3 2 (by rw [stokes_bdEdges]; simp)
  have e4 := p1 4 (by decide) (by rw [stokes_bdNodes]; simp)
  change ∑ v ∈ bdNodes stokesTopo, _ = _ at p2
  rw [stokes_bdNodes] at p2
  simp at p2
  rw [q0, d0] at e0
  rw [q1, d1] at e1
  rw [q2, d2] at e2
  rw [q3] at key
  simp only [List.getD_eq_getElem?_getD] at *
  linarith

/-! A square with a square hole. -/

def annulusTopo : Topo where
  numNodes := 8
  numEdges := 16
  numCells := 8
  edge e := ([(0, 1), (1, 2), (2, 3), (3, 0), (4, 5), (5, 6), (6, 7), (7, 4), (0, 4), (1, 5), (2, 6), (3, 7), (0, 5), (1, 6), (2, 7), (3, 4)] :
    List (ℕ × ℕ)).getD e (0, 0)
  cell c := ([⟨[0, 1, 5], [0, 9, 12], [true, true, false]⟩, ⟨[0, 5, 4], [12, 4, 8], [true, false, false]⟩,
    ⟨[1, 2, 6], [1, 10, 13], [true, true, false]⟩, ⟨[1, 6, 5], [13, 5, 9], [true, false, false]⟩,
    ⟨[2, 3, 7], [2, 11, 14], [true, true, false]⟩, ⟨[2, 7, 6], [14, 6, 10], [true, false, false]⟩,
    ⟨[3, 0, 4], [3, 8, 15], [true, true, false]⟩, ⟨[3, 4, 7], [15, 7, 11], [true, false, false]⟩] : List TCell).getD c ⟨[], [], []⟩

def annulusPos (v : ℕ) : Vec ℝ 2 :=
  ([![0, 0], ![3, 0], ![3, 3], ![0, 3], ![1, 1], ![2, 1], ![2, 2], ![1, 2]] : List (Vec ℝ 2)).getD v 0

noncomputable def annulusGeo (e : Ent) : Option (Geo ℝ 2) :=
  if e.1 = 0 then
    some (.triaO1 (annulusPos (corner annulusTopo e.2 0)) (annulusPos (corner annulusTopo e.2 1)) (annulusPos (corner annulusTopo e.2 2)))
  else some (.segO1 (annulusPos (annulusTopo.edge e.2).1) (annulusPos (annulusTopo.edge e.2).2))

theorem annulusTopo_WF : annulusTopo.WF := by
  constructor <;> decide

theorem annulusMesh : TriaMesh annulusTopo annulusGeo annulusPos := by
  refine ⟨annulusTopo_WF, by decide, fun c _ => rfl, fun e _ => rfl, fun c hc => ?_⟩
  change c < 8 at hc
  interval_cases c <;> simp [area2, corner, annulusTopo, annulusPos, det2_eq] <;> norm_num

/-- On a square with a hole, the system without flow has exactly one solution for all data, while the system with in- and outflow cannot be built for any data. -/
example : ∃ h, uniformDofHandler annulusTopo ⟨1, 1, 0, 0⟩ false = some h ∧ ∀ f g,
    (∃ A b D, buildSystemMatrixNoFlow ⟨0, annulusTopo⟩ annulusGeo h f g 10
        ⟨.tria, 2, [[1 / 2, 0], [1 / 2, 1 / 2], [0, 1 / 2]], [1 / 6, 1 / 6, 1 / 6]⟩ true = some (A, b) ∧ A.makeDense = some D ∧
      ∃! x : List ℝ, x.length = 24 ∧ Solves D b (fun i => x.getD i 0)) ∧
    buildSystemMatrixInOutFlow ⟨0, annulusTopo⟩ annulusGeo h f g 10
        ⟨.tria, 2, [[1 / 2, 0], [1 / 2, 1 / 2], [0, 1 / 2]], [1 / 6, 1 / 6, 1 / 6]⟩ true = none := by
  obtain ⟨h, hh, -⟩ := C09_uniform annulusTopo annulusTopo_WF ⟨1, 1, 0, 0⟩ false
  have hn : h.numDofs = 24 := (nodeEdgeDofs annulusTopo_WF (Or.inr rfl) hh).numDofs
  have hq : (⟨.tria, 2, [[1 / 2, 0], [1 / 2, 1 / 2], [0, 1 / 2]], [1 / 6, 1 / 6, 1 / 6]⟩ : QuadRule ℝ).WellFormed := by
    constructor <;> simp [RefEl.dimension]
  have hcov : Covered annulusTopo := by unfold Covered; decide
  have hman : Manifold annulusTopo := by unfold Manifold; decide
  have hreach : ∀ c < annulusTopo.numCells, Reached annulusTopo c := by
    intro c hc
    have : ∃ k : Fin 3, (sidesAt annulusTopo (sideOf annulusTopo c k)).card = 1 := by
      revert c
      decide
    obtain ⟨k, hk⟩ := this
    exact .start c k hc ((onBoundary_iff annulusMesh _).2 hk)
  have hb : ∀ e < 16, (sidesAt annulusTopo e).card = 1 → ((annulusTopo.edge e).1 < 4 ↔ (annulusTopo.edge e).2 < 4) := by decide
  have key : ∀ e : ℕ, e < 16 → (sidesAt annulusTopo e).card = 1 → (annulusTopo.edge e).1 < 8 → (annulusTopo.edge e).1 ∈ bdNodes annulusTopo :=
    fun e he h1 h2 => mem_bdNodes.2 ⟨h2, e, he, (onBoundary_iff annulusMesh e).2 h1, Or.inl rfl⟩
  refine ⟨h, hh, fun f g => ⟨?_, ?_⟩⟩
  · exact C98_solvable ⟨0, annulusTopo⟩ annulusGeo annulusPos annulusMesh hman h false hh (by rw [hn]; norm_num) 10 true _
      hq rfl f g hcov hreach (by norm_num)
  · refine C110_holes_not ⟨0, annulusTopo⟩ annulusGeo annulusPos annulusMesh hman h false hh (by rw [hn]; norm_num) 10 true _
      hq rfl f g (by norm_num) 0 4 (key 0 (by decide) (by decide) (by decide)) (key 4 (by decide) (by decide) (by decide)) fun hcon => ?_
    have inv : ∀ w, Relation.ReflTransGen (BdNeighbour annulusTopo) 0 w → w < 4 := by
      intro w hw
      induction hw with
      | refl => decide
      | tail _ h ih =>
        obtain ⟨e, he, hp⟩ := h
        obtain ⟨he, hbd⟩ := mem_bdEdges.1 he
        have := hb e he ((onBoundary_iff annulusMesh e).1 hbd)
        rcases hp with hp | hp <;> rw [hp] at this
        · exact this.1 ih
        · exact this.2 ih
    exact absurd (inv 4 hcon) (by decide)

end Verif
