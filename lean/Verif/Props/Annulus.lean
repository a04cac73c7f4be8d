import Verif.Lemmas.Annulus
import Mathlib.Tactic.Linarith
import Mathlib.Tactic.LinearCombination
import Mathlib.Tactic.FieldSimp
import Mathlib.Tactic.Positivity

/-!
# C99: meshes of annuli
-/

namespace Verif
open Builder Annulus Finset

/-- Signed area of a triangle in the plane; positive if the corners are numbered counterclockwise. -/
noncomputable def signedArea (a b c : ℝ × ℝ) : ℝ := ((b.1 - a.1) * (c.2 - a.2) - (b.2 - a.2) * (c.1 - a.1)) / 2

/-- Point with the given polar coordinates about a centre. -/
noncomputable def polar (center : ℝ × ℝ) (r φ : ℝ) : ℝ × ℝ := (center.1 + r * Real.cos φ, center.2 + r * Real.sin φ)

variable {G : Type} (ops : GeoOps G) (chk : Bool) (geo : BuilderGeo (ℝ × ℝ) G) (p : Annulus)

/-- **C99**, topology: with at least three cells in the angular and one in the radial direction `Build` succeeds.  The mesh has `n (m + 1)` nodes, `2 n m`
triangles with three different corners and `n (3 m + 1)` edges, so that the Euler characteristic is zero; every edge belongs to one or two cells, and `2 n` of
them, those on the two circles, to one. -/
theorem C99_topology (hn : 3 ≤ p.numAngular) (hm : 1 ≤ p.numRadial) : ∃ M : Mesh G, p.build ops chk geo {} = some M ∧ M.topo.WF ∧
    M.topo.numNodes = p.numAngular * (p.numRadial + 1) ∧ M.topo.numCells = 2 * (p.numAngular * p.numRadial) ∧
    M.topo.numEdges = p.numAngular * (3 * p.numRadial + 1) ∧ M.topo.numNodes + M.topo.numCells = M.topo.numEdges ∧
    (∀ c < M.topo.numCells, (M.topo.cell c).nodes.length = 3 ∧ (M.topo.cell c).nodes.Nodup) ∧
    (∀ e < M.topo.numEdges, M.topo.incidence e = 1 ∨ M.topo.incidence e = 2) ∧
    M.topo.numBoundaryEdges = 2 * p.numAngular := by
  have hvalid := valid p geo (by omega)
  rcases buildMesh_spec ops (nodesIn p geo) [] (cellsIn p geo) chk (nodesIn_some p geo) with ⟨_, M, hM, hB⟩ | ⟨h, _⟩
  swap
  · exact absurd ⟨hvalid, fun _ => Annulus.complete p geo (by omega) hm⟩ h
  refine ⟨M, by rw [build_run, hM], ?_⟩
  have hW := hB.topo_WF hvalid
  set n := p.numAngular with hn'
  set m := p.numRadial with hm'
  have hd : M.topo.dsides = sidesD m n := (dsides_built hB).trans (cells_sides p geo)
  have hnodes : M.topo.numNodes = n * (m + 1) := by
    rw [Nat.mul_comm]
    exact hB.points_length.trans (nodesIn_length p geo)
  have hcl : (cellsIn p geo).length = 2 * (n * m) := by
    unfold cellsIn
    rw [two_length, pairs_length, Nat.mul_comm m]
  have hnc : M.topo.numCells = 2 * (n * m) := by rw [hB.numCells', hcl]
  have hside : ∀ e < M.topo.numEdges, ∃ x ∈ sidesD m n, SamePair (M.topo.edge e) x := by
    intro e he
    rcases edge_cases hB e he with ⟨i, hi, h⟩ | h
    · simp at hi
    · rw [hd] at h; exact h
  have hinc : ∀ e < M.topo.numEdges, M.topo.incidence e = 1 ∨ M.topo.incidence e = 2 := by
    intro e he
    have h1 := incidence_pos M.topo hW e he (by rw [hd]; exact hside e he)
    have h2 := incidence_le_two M.topo hW (by rw [hd]; exact sidesD_nodup hn) e he
    omega
  have hne : M.topo.numEdges = (edgesL m n).length := by
    apply numEdges_list M.topo hW _ (edges_pairwise hn)
    · intro e he
      obtain ⟨x, hx, hs⟩ := hside e he
      rcases sides_edges x hx with h | h
      · exact ⟨_, h, hs⟩
      · exact ⟨_, h, samePair_trans hs (Or.inr rfl)⟩
    · intro x hx
      rcases edges_sides hm x hx with h | h
      · rw [← hd] at h
        exact edge_of_side M.topo hW x h
      · rw [← hd] at h
        obtain ⟨e, he, hs⟩ := edge_of_side M.topo hW _ h
        exact ⟨e, he, samePair_trans hs (Or.inr rfl)⟩
  have hnE : M.topo.numEdges = n * (3 * m + 1) := by
    rw [hne]
    simp only [edgesL, List.length_append, List.length_map, pairs_length]
    ring
  have hcp : ∀ c < M.topo.numCells, (M.topo.cell c).nodes.length = 3 ∧ (M.topo.cell c).nodes.Nodup := by
    intro c hc
    have hc' : c < (cellsIn p geo).length := by rw [← hB.numCells']; exact hc
    rw [(hB.cell_eq c hc').1]
    exact cells_nodup p geo (by omega) _ (List.getElem_mem hc')
  have hsum : ((List.range M.topo.numCells).map fun c => (M.topo.cell c).nodes.length).sum = 3 * (2 * (n * m)) := by
    have : ∀ k ≤ M.topo.numCells, ((List.range k).map fun c => (M.topo.cell c).nodes.length).sum = 3 * k := by
      intro k hk
      induction k with
      | zero => rfl
      | succ k ih =>
        rw [List.range_succ, List.map_append, List.sum_append, ih (by omega)]
        simp only [List.map_cons, List.map_nil, List.sum_cons, List.sum_nil, (hcp k (by omega)).1]
        omega
    rw [← hnc]; exact this _ (Nat.le_refl _)
  refine ⟨hW, hnodes, hnc, hnE, ?_, hcp, hinc, ?_⟩
  · rw [hnodes, hnc, hnE]; ring
  · have h := numBoundary_eq M.topo hW hinc
    rw [hsum, hnE] at h
    have e1 : n * (3 * m + 1) = 3 * (n * m) + n := by ring
    omega

/-- **C99**, corners: node `i n + j` has the geometry object of the point with the radius `r + i (R - r) / m` and the angle `2 π j / n`; the cells with the numbers
`2 (i n + j)` and `2 (i n + j) + 1` are the triangles into which the patch between the circles `i` and `i + 1` and the angles `j` and `j + 1` (modulo `n`) is
divided.  The geometry of a triangle is that with the positions of its corners.  Missing for the property in the documentation: the position of the centre,
which is the origin whatever has been set, see `C99_center_ignored`. -/
theorem C99_corners_partial (hn : 2 ≤ p.numAngular) (hm : 1 ≤ p.numRadial) : ∃ (M : Mesh G) (P : ℕ → ℝ × ℝ), p.build ops chk geo {} = some M ∧
    (∀ v < M.topo.numNodes, M.points[v]? = some (geo.point (P v))) ∧
    (∀ i ≤ p.numRadial, ∀ j < p.numAngular, P (i * p.numAngular + j) =
      polar (0, 0) (p.inner + i * ((p.outer - p.inner) / p.numRadial)) (2 * Real.pi * j / p.numAngular)) ∧
    (∀ i < p.numRadial, ∀ j < p.numAngular,
      (M.topo.cell (2 * (i * p.numAngular + j))).nodes =
        [i * p.numAngular + j, (i + 1) * p.numAngular + j, i * p.numAngular + (j + 1) % p.numAngular] ∧
      (M.topo.cell (2 * (i * p.numAngular + j) + 1)).nodes =
        [(i + 1) * p.numAngular + j, (i + 1) * p.numAngular + (j + 1) % p.numAngular, i * p.numAngular + (j + 1) % p.numAngular]) ∧
    M.quads = [] ∧ ∀ t ∈ M.trias, t.geo = geo.tria (P (t.nodes.getD 0 0)) (P (t.nodes.getD 1 0)) (P (t.nodes.getD 2 0)) := by
  have hvalid := valid p geo (by omega)
  rcases buildMesh_spec ops (nodesIn p geo) [] (cellsIn p geo) chk (nodesIn_some p geo) with ⟨_, M, hM, hB⟩ | ⟨h, _⟩
  swap
  · exact absurd ⟨hvalid, fun _ => Annulus.complete p geo (by omega) hm⟩ h
  set n := p.numAngular with hn'
  set m := p.numRadial with hm'
  have hP : ∀ i j, j < n → (fun v => p.pos (v / n) (v % n)) (j + i * n) = p.pos i j := by
    intro i j hj
    simp only
    rw [Nat.add_mul_div_right _ _ (by omega), Nat.div_eq_of_lt hj, Nat.zero_add, Nat.add_mul_mod_self_right, Nat.mod_eq_of_lt hj]
  refine ⟨M, fun v => p.pos (v / n) (v % n), by rw [build_run, hM], ?_, ?_, ?_, ?_, ?_⟩
  · intro v hv
    have hv' : v < (m + 1) * n := by
      have : M.topo.numNodes = (m + 1) * n := hB.points_length.trans (nodesIn_length p geo)
      omega
    have h1 : (nodesIn p geo)[v]? = some (some (geo.point (p.pos (v / n) (v % n)))) := by
      unfold nodesIn
      rw [List.getElem?_map, pairs_eq, List.getElem?_map, List.getElem?_range hv']
      rfl
    rw [← hB.points, List.getElem?_map] at h1
    cases h2 : M.points[v]? with
    | none => rw [h2] at h1; simp at h1
    | some g => rw [h2] at h1; simpa using h1
  · intro i hi j hj
    rw [Nat.add_comm, hP i j hj]
    unfold pos polar
    simp only [zero_add]
    rw [show (j : ℝ) * (2 * Real.pi / p.numAngular) = 2 * Real.pi * j / p.numAngular by ring]
  · intro i hi j hj
    have hg := pairs_get hi hj
    obtain ⟨h1, h2⟩ := two_get (pairs m n) (cellA n (geoA p geo)) (cellB n (geoB p geo)) (i * n + j)
    rw [hg] at h1 h2
    obtain ⟨l1, e1⟩ := List.getElem?_eq_some_iff.1 h1
    obtain ⟨l2, e2⟩ := List.getElem?_eq_some_iff.1 h2
    have c : ∀ a b : ℕ, a * n + b = b + a * n := fun a b => Nat.add_comm _ _
    refine ⟨?_, ?_⟩
    · rw [(hB.cell_eq _ l1).1]
      refine (congrArg CellIn.nodes e1).trans ?_
      simp only [cellA, c]
    · rw [(hB.cell_eq _ l2).1]
      refine (congrArg CellIn.nodes e2).trans ?_
      simp only [cellB, c]
  · rw [List.eq_nil_iff_length_eq_zero]
    by_contra h0
    obtain ⟨c, hc, hb, -⟩ := hB.quads 0 (by omega)
    have h3 := (cells_nodup p geo (by omega) c (List.mem_of_getElem? hc)).1
    have := hb.numNodes
    rw [h3] at this
    exact absurd this (by decide)
  · intro t ht
    obtain ⟨k, hk, rfl⟩ := List.getElem_of_mem ht
    obtain ⟨c, hc, hb, -⟩ := hB.trias k hk
    have hg := hb.geo
    rw [hb.nodes]
    obtain ⟨i, j, hi, hj, rfl | rfl⟩ := mem_cellsIn p geo (List.mem_of_getElem? hc)
    all_goals
      have hj' := (succMod hj).1
      simp only [cellGeo, cellA, cellB] at hg
      simp only [cellA, cellB, List.getD_cons_zero, List.getD_cons_succ]
      rw [← hn'] at hj hj' ⊢
      have e1 := hP i j hj
      have e2 := hP (i + 1) j hj
      have e3 := hP i _ hj'
      have e4 := hP (i + 1) _ hj'
      simp only at e1 e2 e3 e4
      first
        | rw [e1, e2, e3]; exact hg
        | rw [e2, e4, e3]; exact hg

/-! ## Areas -/

/-- The signed area of a cell when the nodes have the positions `P`. -/
noncomputable def cellArea (T : Topo) (P : ℕ → ℝ × ℝ) (c : ℕ) : ℝ :=
  signedArea (P ((T.cell c).nodes.getD 0 0)) (P ((T.cell c).nodes.getD 1 0)) (P ((T.cell c).nodes.getD 2 0))

namespace Annulus

theorem areaA (ρ ρ' φ φ' : ℝ) : signedArea (polar (0, 0) ρ φ) (polar (0, 0) ρ' φ) (polar (0, 0) ρ φ') = (ρ' - ρ) * ρ * Real.sin (φ' - φ) / 2 := by
  unfold signedArea polar
  rw [Real.sin_sub]
  ring

theorem areaB (ρ ρ' φ φ' : ℝ) : signedArea (polar (0, 0) ρ' φ) (polar (0, 0) ρ' φ') (polar (0, 0) ρ φ') = (ρ' - ρ) * ρ' * Real.sin (φ' - φ) / 2 := by
  unfold signedArea polar
  rw [Real.sin_sub]
  ring

theorem polar_wrap {n j : ℕ} (hj : j < n) (ρ : ℝ) :
    polar (0, 0) ρ (2 * Real.pi * ((j + 1) % n : ℕ) / n) = polar (0, 0) ρ (2 * Real.pi * j / n + 2 * Real.pi / n) := by
  have hn : (n : ℝ) ≠ 0 := by
    have : n ≠ 0 := by omega
    exact_mod_cast this
  rcases (succMod hj).2 with ⟨-, h⟩ | ⟨h1, h⟩ <;> rw [h]
  · rw [show 2 * Real.pi * ((j + 1 : ℕ) : ℝ) / n = 2 * Real.pi * j / n + 2 * Real.pi / n by push_cast; ring]
  · have : 2 * Real.pi * (j : ℝ) / n + 2 * Real.pi / n = 2 * Real.pi := by
      rw [← h1]
      push_cast
      have : (j : ℝ) + 1 ≠ 0 := by positivity
      field_simp
    rw [this]
    unfold polar
    simp

theorem sum_two (N : ℕ) (f : ℕ → ℝ) : ∑ c ∈ range (2 * N), f c = ∑ k ∈ range N, (f (2 * k) + f (2 * k + 1)) := by
  induction N with
  | zero => simp
  | succ N ih => rw [Nat.mul_succ, Finset.sum_range_succ, Finset.sum_range_succ, ih, Finset.sum_range_succ]; ring

theorem sum_block (m n : ℕ) (f : ℕ → ℝ) : ∑ k ∈ range (m * n), f k = ∑ i ∈ range m, ∑ j ∈ range n, f (i * n + j) := by
  induction m with
  | zero => simp
  | succ m ih => rw [Nat.succ_mul, Finset.sum_range_add, ih, Finset.sum_range_succ]

end Annulus

/-- **C99**, areas of the cells: twice the areas are the products of the width of the ring, the inner (outer) radius of the ring and the sine of the angle. -/
theorem C99_cell_area (hn : 2 ≤ p.numAngular) (hm : 1 ≤ p.numRadial) : ∃ (M : Mesh G) (P : ℕ → ℝ × ℝ), p.build ops chk geo {} = some M ∧
    (∀ v < M.topo.numNodes, M.points[v]? = some (geo.point (P v))) ∧ M.topo.numCells = 2 * (p.numRadial * p.numAngular) ∧
    ∀ i < p.numRadial, ∀ j < p.numAngular,
      cellArea M.topo P (2 * (i * p.numAngular + j)) = (p.outer - p.inner) / p.numRadial * (p.inner + i * ((p.outer - p.inner) / p.numRadial)) *
        Real.sin (2 * Real.pi / p.numAngular) / 2 ∧
      cellArea M.topo P (2 * (i * p.numAngular + j) + 1) =
        (p.outer - p.inner) / p.numRadial * (p.inner + (i + 1) * ((p.outer - p.inner) / p.numRadial)) *
        Real.sin (2 * Real.pi / p.numAngular) / 2 := by
  obtain ⟨M, P, h1, h2, h3, h4, -, -⟩ := C99_corners_partial ops chk geo p hn hm
  refine ⟨M, P, h1, h2, ?_, fun i hi j hj => ?_⟩
  · rcases buildMesh_spec ops (nodesIn p geo) [] (cellsIn p geo) chk (nodesIn_some p geo) with ⟨_, M', hM, hB⟩ | ⟨-, h⟩
    · rw [build_run, hM] at h1
      obtain rfl := Option.some.inj h1
      rw [hB.numCells', cellsIn, two_length, pairs_length]
    · rw [build_run, h] at h1
      cases h1
  · have hj' := (succMod hj).1
    obtain ⟨c1, c2⟩ := h4 i hi j hj
    have e1 := h3 i (by omega) j hj
    have e2 := h3 (i + 1) (by omega) j hj
    have e3 := h3 i (by omega) _ hj'
    have e4 := h3 (i + 1) (by omega) _ hj'
    rw [polar_wrap hj] at e3 e4
    constructor
    · unfold cellArea
      rw [c1]
      simp only [List.getD_cons_zero, List.getD_cons_succ]
      rw [e1, e2, e3, areaA, add_sub_cancel_left]
      push_cast
      ring
    · unfold cellArea
      rw [c2]
      simp only [List.getD_cons_zero, List.getD_cons_succ]
      rw [e2, e4, e3, areaB, add_sub_cancel_left]
      push_cast
      ring

/-- **C99**, area: for radii `0 < r < R` all cells have their corners numbered counterclockwise and a positive area; together they have the area
`n / 2 sin(2 π / n) (R² - r²)` of the region between two regular polygons with `n` corners. -/
theorem C99_area (hn : 3 ≤ p.numAngular) (hm : 1 ≤ p.numRadial) (hr : 0 < p.inner) (hR : p.inner < p.outer) :
    ∃ (M : Mesh G) (P : ℕ → ℝ × ℝ), p.build ops chk geo {} = some M ∧
    (∀ v < M.topo.numNodes, M.points[v]? = some (geo.point (P v))) ∧
    (∀ c < M.topo.numCells, 0 < cellArea M.topo P c) ∧
    ∑ c ∈ range M.topo.numCells, cellArea M.topo P c =
      p.numAngular / 2 * Real.sin (2 * Real.pi / p.numAngular) * (p.outer ^ 2 - p.inner ^ 2) := by
  obtain ⟨M, P, h1, h2, h3, h4⟩ := C99_cell_area ops chk geo p (by omega) hm
  set n := p.numAngular with hn'
  set m := p.numRadial with hm'
  have hn0 : (3 : ℝ) ≤ n := by exact_mod_cast hn
  have hm0 : (0 : ℝ) < m := by exact_mod_cast hm
  have hs : 0 < Real.sin (2 * Real.pi / n) := by
    apply Real.sin_pos_of_pos_of_lt_pi
    · have := Real.pi_pos
      positivity
    · rw [div_lt_iff₀ (by linarith)]
      nlinarith [Real.pi_pos]
  have hd : 0 < (p.outer - p.inner) / m := div_pos (by linarith) hm0
  refine ⟨M, P, h1, h2, fun c hc => ?_, ?_⟩
  · rw [h3] at hc
    have hk : c / 2 < m * n := by omega
    have hn1 : 0 < n := by omega
    have hi : c / 2 / n < m := by rw [Nat.div_lt_iff_lt_mul hn1]; exact hk
    have hj : c / 2 % n < n := Nat.mod_lt _ hn1
    obtain ⟨a, b⟩ := h4 _ hi _ hj
    rw [Nat.div_add_mod'] at a b
    generalize c / 2 / n = i at *
    rcases Nat.mod_two_eq_zero_or_one c with h0 | h0
    · rw [show c = 2 * (c / 2) by omega, a]
      positivity
    · rw [show c = 2 * (c / 2) + 1 by omega, b]
      positivity
  · rw [h3, sum_two, sum_block]
    set d := (p.outer - p.inner) / m with hd'
    have hring : ∀ k ≤ m, ∑ i ∈ range k, ∑ j ∈ range n, (cellArea M.topo P (2 * (i * n + j)) + cellArea M.topo P (2 * (i * n + j) + 1)) =
        n / 2 * Real.sin (2 * Real.pi / n) * ((p.inner + k * d) ^ 2 - p.inner ^ 2) := by
      intro k hk
      induction k with
      | zero => simp
      | succ k ih =>
        rw [Finset.sum_range_succ, ih (by omega), Finset.sum_congr rfl fun j hj => by
          rw [(h4 k (by omega) j (Finset.mem_range.1 hj)).1, (h4 k (by omega) j (Finset.mem_range.1 hj)).2],
          Finset.sum_const, Finset.card_range, nsmul_eq_mul]
        push_cast
        ring
    rw [hring m le_rfl, show p.inner + m * d = p.outer by rw [hd']; field_simp; ring]

/-- With two cells in the angular direction `Build` succeeds, but all cells are degenerate. -/
theorem C99_two (hn : p.numAngular = 2) (hm : 1 ≤ p.numRadial) : ∃ (M : Mesh G) (P : ℕ → ℝ × ℝ), p.build ops chk geo {} = some M ∧
    (∀ v < M.topo.numNodes, M.points[v]? = some (geo.point (P v))) ∧ 0 < M.topo.numCells ∧ ∀ c < M.topo.numCells, cellArea M.topo P c = 0 := by
  obtain ⟨M, P, h1, h2, h3, h4⟩ := C99_cell_area ops chk geo p (by omega) hm
  rw [hn] at h3 h4
  have hs : Real.sin (2 * Real.pi / (2 : ℕ)) = 0 := by
    rw [show 2 * Real.pi / ((2 : ℕ) : ℝ) = Real.pi by push_cast; ring, Real.sin_pi]
  refine ⟨M, P, h1, h2, by omega, fun c hc => ?_⟩
  obtain ⟨a, b⟩ := h4 (c / 4) (by omega) (c / 2 % 2) (by omega)
  rw [hs, mul_zero, zero_div] at a b
  have : c = 2 * (c / 4 * 2 + c / 2 % 2) ∨ c = 2 * (c / 4 * 2 + c / 2 % 2) + 1 := by omega
  rcases this with h | h
  · rw [h]; exact a
  · rw [h]; exact b

/-- With a single cell in the angular direction `Build` fails. -/
theorem C99_one (hn : p.numAngular = 1) (hm : 1 ≤ p.numRadial) : p.build ops chk geo {} = none := by
  rw [build_run]
  rcases buildMesh_spec ops _ [] (cellsIn p geo) chk (nodesIn_some p geo) with ⟨⟨hv, _⟩, _⟩ | ⟨_, h⟩
  · exfalso
    have := hv.cell_ne (cellA p.numAngular (geoA p geo) (0, 0)) (List.mem_flatMap.2 ⟨(0, 0), mem_pairs.2 ⟨by simp only; omega, by simp only; omega⟩, by simp⟩)
    exact this 2 (by simp [cellA]) (by simp [cellA, side, hn])
  · exact h

/-! ## The centre -/

/-- `setCenterPoint` has no effect on the mesh. -/
theorem C99_center_ignored (x y : ℝ) (f : Factory G) : (p.setCenterPoint x y).build ops chk geo f = p.build ops chk geo f := rfl

/-- Refutation of the documented property: if a centre different from the origin has been set, then no node is where the documentation says. -/
theorem C99_fails_center (hinj : Function.Injective geo.point) (hc : p.center ≠ (0, 0)) (hn : 3 ≤ p.numAngular) (hm : 1 ≤ p.numRadial) :
    ∃ M : Mesh G, p.build ops chk geo {} = some M ∧ ∀ i ≤ p.numRadial, ∀ j < p.numAngular,
      M.points[i * p.numAngular + j]? ≠ some (geo.point
        (polar p.center (p.inner + i * ((p.outer - p.inner) / p.numRadial)) (2 * Real.pi * j / p.numAngular))) := by
  obtain ⟨M, P, h1, h2, h3, -⟩ := C99_corners_partial ops chk geo p (by omega) hm
  obtain ⟨M', k1, -, k2, -⟩ := C99_topology ops chk geo p hn hm
  rw [h1] at k1
  obtain rfl := Option.some.inj k1
  refine ⟨M, h1, fun i hi j hj h => hc ?_⟩
  rw [h2 _ (by rw [k2, Nat.add_comm, Nat.mul_comm p.numAngular]; exact vlt hj (by omega)), h3 i hi j hj, Option.some.injEq] at h
  have := hinj h
  unfold polar at this
  rw [Prod.mk.injEq] at this
  exact Prod.ext (by linarith [this.1]) (by linarith [this.2])

/-! ## Concrete cases -/

/-- The annulus with the default parameters: eight nodes, eight triangles, sixteen edges, and the area `15/8`. -/
example : ∃ (M : Mesh ((ℝ × ℝ) ⊕ Unit)) (P : ℕ → ℝ × ℝ), init.build ⟨fun _ _ _ => .inr (), fun _ _ => .inr (), fun _ _ _ => .inr (), fun _ _ _ _ => .inr ()⟩ true
      ⟨.inl, fun _ _ => .inr (), fun _ _ _ => .inr (), fun _ _ _ _ => .inr ()⟩ {} = some M ∧
    M.topo.numNodes = 8 ∧ M.topo.numCells = 8 ∧ M.topo.numEdges = 16 ∧ (∀ c < M.topo.numCells, 0 < cellArea M.topo P c) ∧
    ∑ c ∈ range M.topo.numCells, cellArea M.topo P c = 15 / 8 := by
  obtain ⟨M, P, h1, -, h3, h4⟩ := C99_area (⟨fun _ _ _ => .inr (), fun _ _ => .inr (), fun _ _ _ => .inr (), fun _ _ _ _ => .inr ()⟩ : GeoOps ((ℝ × ℝ) ⊕ Unit)) true
    ⟨.inl, fun _ _ => .inr (), fun _ _ _ => .inr (), fun _ _ _ _ => .inr ()⟩ init (by decide) (by decide) (by norm_num [init]) (by norm_num [init])
  obtain ⟨M', k1, -, k2, k3, k4, -⟩ := C99_topology (⟨fun _ _ _ => .inr (), fun _ _ => .inr (), fun _ _ _ => .inr (), fun _ _ _ _ => .inr ()⟩ : GeoOps ((ℝ × ℝ) ⊕ Unit)) true
    ⟨.inl, fun _ _ => .inr (), fun _ _ _ => .inr (), fun _ _ _ _ => .inr ()⟩ init (by decide) (by decide)
  rw [h1] at k1
  obtain rfl := Option.some.inj k1
  refine ⟨M, P, h1, k2, k3, k4, h3, h4.trans ?_⟩
  simp only [init]
  rw [show 2 * Real.pi / ((4 : ℕ) : ℝ) = Real.pi / 2 by push_cast; ring, Real.sin_pi_div_two]
  norm_num

/-- Setting the centre `(3, 4)` leaves the nodes where they were. -/
example : (init.setCenterPoint 3 4).center ≠ (0, 0) ∧ Function.Injective (Sum.inl : ℝ × ℝ → (ℝ × ℝ) ⊕ Unit) ∧
    3 ≤ (init.setCenterPoint 3 4).numAngular ∧ 1 ≤ (init.setCenterPoint 3 4).numRadial :=
  ⟨fun h => by simp [setCenterPoint] at h, Sum.inl_injective, by decide, by decide⟩

end Verif
