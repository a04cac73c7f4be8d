import Verif.Lemmas.Builders
import Mathlib.Algebra.Order.Field.Basic
import Mathlib.Algebra.Order.Field.Rat
import Mathlib.Tactic.NormNum

/-!
# C23-C25: structured mesh builders
-/

namespace Verif
open Builder

variable {G K : Type} [Field K] [LinearOrder K]

/-! ### C24 -/

private def qcell (n : ℕ) (geo : ℕ × ℕ → G) (p : ℕ × ℕ) : CellIn G :=
  ⟨[p.1 + p.2 * n, (p.1 + 1) + p.2 * n, (p.1 + 1) + (p.2 + 1) * n, p.1 + (p.2 + 1) * n], some (geo p)⟩

/-- `TPQuadMeshBuilder`: for `nx, ny ≥ 1` and a non-empty rectangle the builder succeeds and yields
`(nx+1)(ny+1)` nodes at the grid points, `nx ny` quadrilaterals with four distinct nodes, and
`(nx+1) ny + nx (ny+1)` edges, each of them a side of one or two cells, `2(nx+ny)` of them of exactly
one; `V - E + F = 1`. -/
theorem C24_tpQuad (ops : GeoOps G) (chk : Bool) (geo : BuilderGeo (K × K) G) (p : Params K)
    (hx : 1 ≤ p.nx) (hy : 1 ≤ p.ny) (hbx : ¬ p.tr.1 - p.bl.1 ≤ 0) (hby : ¬ p.tr.2 - p.bl.2 ≤ 0) :
    ∃ M : Mesh G, tpQuad ops chk geo p {} = some (some M) ∧ M.topo.WF ∧
      M.topo.numNodes = (p.nx + 1) * (p.ny + 1) ∧
      M.topo.numCells = p.nx * p.ny ∧
      M.topo.numEdges = (p.nx + 1) * p.ny + p.nx * (p.ny + 1) ∧
      M.topo.numNodes + M.topo.numCells = M.topo.numEdges + 1 ∧
      (∀ c < M.topo.numCells, (M.topo.cell c).nodes.length = 4 ∧ (M.topo.cell c).nodes.Nodup) ∧
      (∀ e < M.topo.numEdges, M.topo.incidence e = 1 ∨ M.topo.incidence e = 2) ∧
      M.topo.numBoundaryEdges = 2 * (p.nx + p.ny) ∧
      (∀ i ≤ p.nx, ∀ j ≤ p.ny, M.points[i + j * (p.nx + 1)]? = some (geo.point
        (p.bl.1 + i * ((p.tr.1 - p.bl.1) / p.nx), p.bl.2 + j * ((p.tr.2 - p.bl.2) / p.ny)))) ∧
      (∀ i < p.nx, ∀ j < p.ny, (M.topo.cell (i * p.ny + j)).nodes =
        [i + j * (p.nx + 1), (i + 1) + j * (p.nx + 1), (i + 1) + (j + 1) * (p.nx + 1),
          i + (j + 1) * (p.nx + 1)]) := by
  obtain ⟨bl, tr, nx, ny⟩ := p
  simp only at hx hy hbx hby ⊢
  set p : Params K := ⟨bl, tr, nx, ny⟩ with hp
  set N := (ny + 1) * (nx + 1) with hN
  let nodes : List (Option G) := (pairs (ny + 1) (nx + 1)).map fun q => some (geo.point (p.pos q.2 q.1))
  have hnl : nodes.length = N := by simp [nodes, pairs_length, hN]
  let cg : ℕ × ℕ → G := fun q => geo.quad (p.pos q.1 q.2) (p.pos (q.1 + 1) q.2)
    (p.pos (q.1 + 1) (q.2 + 1)) (p.pos q.1 (q.2 + 1))
  let cells : List (CellIn G) := (pairs nx ny).map (qcell (nx + 1) cg)
  have hcells : (pairs nx ny).flatMap (fun q => [qcell (nx + 1) cg q]) = cells := by
    simp only [cells]
    induction pairs nx ny with
    | nil => rfl
    | cons a l ih => rw [List.flatMap_cons, ih]; rfl
  -- the factory before `Build`
  have hrun : tpQuad ops chk geo p {} = (buildMesh ops nodes [] cells chk).map some := by
    unfold tpQuad
    rw [if_neg (by simp [hp]; omega), if_neg (by simp only [hp]; tauto)]
    unfold addNodes
    rw [points_loop]
    simp only [Option.bind_some]
    rw [entity_loop nx ny _ _ (fun _ _ => []) (fun a b => [qcell (nx + 1) cg (a, b)]) (by
      intro f' hf' a ha b hb
      have hl : f'.nodes.length = N := by rw [hf']; exact hnl
      have hpn : p.nx = nx := rfl
      exact entityStep_quad N f' _ _ _ _ _ hl (vlt (by omega) (by omega)) (vlt (by omega) (by omega))
        (vlt (by omega) (by omega)) (vlt (by omega) (by omega)))]
    simp only [Option.bind_some, Factory.build, List.nil_append]
    rw [show (pairs nx ny).flatMap (fun p => [qcell (nx + 1) cg (p.1, p.2)]) = cells from hcells]
    rw [show (pairs nx ny).flatMap (fun _ => ([] : List (EdgeIn G))) = [] by simp]
    show ((buildMesh ops nodes [] cells chk).bind _).bind _ = _
    cases buildMesh ops nodes [] cells chk <;> rfl
  have hsome : ∀ x ∈ nodes, x.isSome = true := by
    intro x hx
    obtain ⟨q, _, rfl⟩ := List.mem_map.1 hx
    rfl
  -- distinctness of nodes in a cell
  have hvi := @vinj (nx + 1)
  have hnd : ∀ q ∈ pairs nx ny, (qcell (nx + 1) cg q).nodes.Nodup := by
    rintro ⟨a, b⟩ hq
    obtain ⟨ha, hb⟩ := mem_pairs.1 hq
    simp only at ha hb
    have g : ∀ i j i' j', i < nx + 1 → i' < nx + 1 → (i ≠ i' ∨ j ≠ j') →
        i + j * (nx + 1) ≠ i' + j' * (nx + 1) := by
      intro i j i' j' h1 h2 h3 h4
      have := hvi h1 h2 h4
      omega
    simp only [qcell, List.nodup_cons, List.mem_cons, List.not_mem_nil, or_false, not_or, not_false_eq_true,
      List.nodup_nil, and_true]
    refine ⟨⟨g _ _ _ _ ?_ ?_ ?_, g _ _ _ _ ?_ ?_ ?_, g _ _ _ _ ?_ ?_ ?_⟩,
      ⟨g _ _ _ _ ?_ ?_ ?_, g _ _ _ _ ?_ ?_ ?_⟩, g _ _ _ _ ?_ ?_ ?_⟩ <;> omega
  have hvalid : ValidInput nodes [] cells := by
    refine ⟨hsome, by simp, by simp, by simp, by simp, ?_, ?_, ?_⟩
    · intro c hc
      obtain ⟨q, _, rfl⟩ := List.mem_map.1 hc
      right; rfl
    · intro c hc v hv
      obtain ⟨⟨a, b⟩, hq, rfl⟩ := List.mem_map.1 hc
      obtain ⟨ha, hb⟩ := mem_pairs.1 hq
      simp only at ha hb
      rw [hnl]
      simp only [qcell, List.mem_cons, List.not_mem_nil, or_false] at hv
      rcases hv with rfl | rfl | rfl | rfl <;> exact vlt (by omega) (by omega)
    · intro c hc j hj
      obtain ⟨⟨a, b⟩, hq, rfl⟩ := List.mem_map.1 hc
      have h := hnd _ hq
      simp only [qcell, List.nodup_cons, List.mem_cons, List.not_mem_nil, or_false, not_or] at h
      obtain ⟨⟨h1, h2, h3⟩, ⟨h4, h5⟩, h6, _⟩ := h
      have hj' : j < 4 := hj
      have hj4 : j = 0 ∨ j = 1 ∨ j = 2 ∨ j = 3 := by omega
      rcases hj4 with rfl | rfl | rfl | rfl
      · simp [side, qcell]
      · simp [side, qcell]
      · simp [side, qcell]
      · simp [side, qcell]
  have hcomplete : CompleteInput nodes.length [] cells := by
    refine ⟨by simp, ?_⟩
    intro v hv
    rw [hnl, hN] at hv
    have hmod : v % (nx + 1) < nx + 1 := Nat.mod_lt _ (by omega)
    have hdiv : v / (nx + 1) < ny + 1 := by
      rw [Nat.div_lt_iff_lt_mul (by omega)]; exact hv
    have hveq : v = v % (nx + 1) + v / (nx + 1) * (nx + 1) := by
      rw [Nat.mul_comm]; exact (Nat.mod_add_div v (nx + 1)).symm
    generalize v % (nx + 1) = i at *
    generalize v / (nx + 1) = j at *
    subst hveq
    by_cases h1 : i < nx <;> by_cases h2 : j < ny
    · exact ⟨_, List.mem_map.2 ⟨(i, j), mem_pairs.2 ⟨h1, h2⟩, rfl⟩, by simp [qcell]⟩
    · have : j = (ny - 1) + 1 := by omega
      exact ⟨_, List.mem_map.2 ⟨(i, ny - 1), mem_pairs.2 ⟨h1, by omega⟩, rfl⟩, by rw [this]; simp [qcell]⟩
    · have : i = (nx - 1) + 1 := by omega
      exact ⟨_, List.mem_map.2 ⟨(nx - 1, j), mem_pairs.2 ⟨by omega, h2⟩, rfl⟩, by rw [this]; simp [qcell]⟩
    · have h3 : i = (nx - 1) + 1 := by omega
      have h4 : j = (ny - 1) + 1 := by omega
      exact ⟨_, List.mem_map.2 ⟨(nx - 1, ny - 1), mem_pairs.2 ⟨by omega, by omega⟩, rfl⟩, by
        rw [h3, h4]; simp [qcell]⟩
  rcases buildMesh_spec ops nodes [] cells chk hsome with ⟨_, M, hM, hB⟩ | ⟨h, _⟩
  swap
  · exact absurd ⟨hvalid, fun _ => hcomplete⟩ h
  refine ⟨M, by rw [hrun, hM]; rfl, ?_⟩
  have hW := hB.topo_WF hvalid
  have hd := dsides_built hB
  have hd' : M.topo.dsides = (pairs nx ny).flatMap fun q =>
      [(q.1 + q.2 * (nx + 1), (q.1 + 1) + q.2 * (nx + 1)),
       ((q.1 + 1) + q.2 * (nx + 1), (q.1 + 1) + (q.2 + 1) * (nx + 1)),
       ((q.1 + 1) + (q.2 + 1) * (nx + 1), q.1 + (q.2 + 1) * (nx + 1)),
       (q.1 + (q.2 + 1) * (nx + 1), q.1 + q.2 * (nx + 1))] := by
    rw [hd]
    simp only [cells, List.flatMap_map, qcell, sides4]
  have hnodes : M.topo.numNodes = (nx + 1) * (ny + 1) := by
    rw [Nat.mul_comm]
    exact hB.points_length.trans hnl
  have hcl : cells.length = nx * ny := by simp [cells, pairs_length]
  have hnc : M.topo.numCells = nx * ny := by rw [hB.numCells', hcl]
  have hcell : ∀ i < nx, ∀ j < ny, (M.topo.cell (i * ny + j)).nodes = (qcell (nx + 1) cg (i, j)).nodes := by
    intro i hi j hj
    have hg := pairs_get hi hj
    have hlt : i * ny + j < cells.length := by
      have := (List.getElem?_eq_some_iff.1 hg).1
      rwa [pairs_length, ← hcl] at this
    rw [(hB.cell_eq _ hlt).1]
    have : cells[i * ny + j] = qcell (nx + 1) cg (i, j) := by
      have h2 := List.getElem_map (qcell (nx + 1) cg) (l := pairs nx ny) (i := i * ny + j) (h := hlt)
      rw [h2, (List.getElem?_eq_some_iff.1 hg).2]
    rw [this]
  have hdn : M.topo.dsides.Nodup := by
    rw [hd']
    apply nodup_pairs_flatMap
    · rintro ⟨a, b⟩ hq
      have h := hnd _ hq
      simp only [qcell, List.nodup_cons, List.mem_cons, List.not_mem_nil, or_false, not_or] at h
      obtain ⟨⟨h1, h2, h3⟩, ⟨h4, h5⟩, h6, _⟩ := h
      simp only [List.nodup_cons, List.mem_cons, List.not_mem_nil, or_false, not_or, not_false_eq_true,
        List.nodup_nil, and_true, Prod.mk.injEq, not_and]
      refine ⟨⟨fun h => absurd h h1, fun h => absurd h h2, fun h => absurd h h3⟩,
        ⟨fun h => absurd h h4, fun h => absurd h h5⟩, fun h => absurd h h6⟩
    · rintro ⟨a, b⟩ hq ⟨a', b'⟩ hq' x hx hx'
      obtain ⟨ha, hb⟩ := mem_pairs.1 hq
      obtain ⟨ha', hb'⟩ := mem_pairs.1 hq'
      simp only at ha hb ha' hb'
      simp only [List.mem_cons, List.not_mem_nil, or_false] at hx hx'
      have fin : (a = a' ∧ b = b') → (a, b) = (a', b') := by rintro ⟨rfl, rfl⟩; rfl
      apply fin
      rcases hx with rfl | rfl | rfl | rfl <;> rcases hx' with h | h | h | h <;>
        (obtain ⟨h1, h2⟩ := Prod.mk.inj h
         have h3 := hvi (by omega) (by omega) h1
         have h4 := hvi (by omega) (by omega) h2
         omega)
  have hside : ∀ e < M.topo.numEdges, ∃ x ∈ M.topo.dsides, SamePair (M.topo.edge e) x := by
    intro e he
    rcases edge_cases hB e he with ⟨i, hi, _⟩ | h
    · simp at hi
    · exact h
  have hinc : ∀ e < M.topo.numEdges, M.topo.incidence e = 1 ∨ M.topo.incidence e = 2 := by
    intro e he
    have h1 := incidence_pos M.topo hW e he (hside e he)
    have h2 := incidence_le_two M.topo hW hdn e he
    omega
  -- counting edges
  let L : List (ℕ × ℕ) :=
    (pairs nx (ny + 1)).map (fun q => (q.1 + q.2 * (nx + 1), (q.1 + 1) + q.2 * (nx + 1))) ++
    (pairs (nx + 1) ny).map (fun q => (q.1 + q.2 * (nx + 1), q.1 + (q.2 + 1) * (nx + 1)))
  have hfwd : ∀ q : ℕ × ℕ, q.1 + q.2 * (nx + 1) < q.1 + (q.2 + 1) * (nx + 1) := by
    intro q
    have : (q.2 + 1) * (nx + 1) = q.2 * (nx + 1) + (nx + 1) := by ring
    omega
  have hne : M.topo.numEdges = L.length := by
    apply numEdges_eq M.topo hW L
    · rw [List.nodup_append]
      refine ⟨?_, ?_, ?_⟩
      · refine List.Nodup.map_on ?_ (pairs_nodup' _ _)
        rintro ⟨a, b⟩ hq ⟨a', b'⟩ hq' h
        have h1 := mem_pairs.1 hq
        have h2 := mem_pairs.1 hq'
        simp only at h1 h2
        obtain ⟨e1, e2⟩ := hvi (by omega) (by omega) (Prod.mk.inj h).1
        simp only at e1 e2
        rw [e1, e2]
      · refine List.Nodup.map_on ?_ (pairs_nodup' _ _)
        rintro ⟨a, b⟩ hq ⟨a', b'⟩ hq' h
        have h1 := mem_pairs.1 hq
        have h2 := mem_pairs.1 hq'
        simp only at h1 h2
        obtain ⟨e1, e2⟩ := hvi (by omega) (by omega) (Prod.mk.inj h).1
        simp only at e1 e2
        rw [e1, e2]
      · intro x hx y hy hxy
        obtain ⟨⟨a, b⟩, hq, rfl⟩ := List.mem_map.1 hx
        obtain ⟨⟨a', b'⟩, hq', rfl⟩ := List.mem_map.1 hy
        have h1 := mem_pairs.1 hq
        have h2 := mem_pairs.1 hq'
        simp only at h1 h2
        have e1 := hvi (by omega) (by omega) (Prod.mk.inj hxy).1
        have e2 := hvi (by omega) (by omega) (Prod.mk.inj hxy).2
        omega
    · intro q hq
      rcases List.mem_append.1 hq with hq | hq
      · obtain ⟨r, _, rfl⟩ := List.mem_map.1 hq
        simp only; omega
      · obtain ⟨r, _, rfl⟩ := List.mem_map.1 hq
        exact hfwd r
    · intro e he
      obtain ⟨x, hx, hs⟩ := hside e he
      rw [hd'] at hx
      obtain ⟨⟨a, b⟩, hq, hx⟩ := List.mem_flatMap.1 hx
      obtain ⟨ha, hb⟩ := mem_pairs.1 hq
      simp only at ha hb
      simp only [List.mem_cons, List.not_mem_nil, or_false] at hx
      rcases hx with rfl | rfl | rfl | rfl
      · exact ⟨_, List.mem_append_left _ (List.mem_map.2 ⟨(a, b), mem_pairs.2 ⟨ha, by simp only; omega⟩, rfl⟩), hs⟩
      · exact ⟨_, List.mem_append_right _ (List.mem_map.2 ⟨(a + 1, b), mem_pairs.2 ⟨by simp only; omega, hb⟩, rfl⟩), hs⟩
      · refine ⟨_, List.mem_append_left _ (List.mem_map.2 ⟨(a, b + 1), mem_pairs.2 ⟨ha, by simp only; omega⟩, rfl⟩), ?_⟩
        exact samePair_trans hs (Or.inr rfl)
      · refine ⟨_, List.mem_append_right _ (List.mem_map.2 ⟨(a, b), mem_pairs.2 ⟨by simp only; omega, hb⟩, rfl⟩), ?_⟩
        exact samePair_trans hs (Or.inr rfl)
    · have hin : ∀ x, x ∈ M.topo.dsides ∨ x.swap ∈ M.topo.dsides →
          ∃ e < M.topo.numEdges, SamePair (M.topo.edge e) x := by
        rintro x (h | h)
        · exact edge_of_side M.topo hW x h
        · obtain ⟨e, he, hs⟩ := edge_of_side M.topo hW _ h
          exact ⟨e, he, samePair_trans hs (Or.inr rfl)⟩
      intro q hq
      apply hin
      rw [hd']
      rcases List.mem_append.1 hq with hq | hq
      · obtain ⟨⟨a, b⟩, hq', rfl⟩ := List.mem_map.1 hq
        obtain ⟨ha, hb⟩ := mem_pairs.1 hq'
        simp only at ha hb
        by_cases h : b < ny
        · left
          exact List.mem_flatMap.2 ⟨(a, b), mem_pairs.2 ⟨ha, h⟩, by simp⟩
        · right
          have hb1 : b = (ny - 1) + 1 := by omega
          exact List.mem_flatMap.2 ⟨(a, ny - 1), mem_pairs.2 ⟨ha, by simp only; omega⟩, by
            rw [hb1]; simp⟩
      · obtain ⟨⟨a, b⟩, hq', rfl⟩ := List.mem_map.1 hq
        obtain ⟨ha, hb⟩ := mem_pairs.1 hq'
        simp only at ha hb
        by_cases h : a < nx
        · right
          exact List.mem_flatMap.2 ⟨(a, b), mem_pairs.2 ⟨h, hb⟩, by simp⟩
        · left
          have ha1 : a = (nx - 1) + 1 := by omega
          exact List.mem_flatMap.2 ⟨(nx - 1, b), mem_pairs.2 ⟨by simp only; omega, hb⟩, by
            rw [ha1]; simp⟩
  have hnE : M.topo.numEdges = (nx + 1) * ny + nx * (ny + 1) := by
    rw [hne]
    simp only [L, List.length_append, List.length_map, pairs_length]
    omega
  have hcp : ∀ c < M.topo.numCells, ∃ q ∈ pairs nx ny, (M.topo.cell c).nodes = (qcell (nx + 1) cg q).nodes := by
    intro c hc
    have hc' : c < cells.length := by rw [← hB.numCells']; exact hc
    rw [(hB.cell_eq c hc').1]
    obtain ⟨q, hq, he⟩ := List.mem_map.1 (List.getElem_mem hc')
    exact ⟨q, hq, by rw [he]⟩
  have hsum : ((List.range M.topo.numCells).map fun c => (M.topo.cell c).nodes.length).sum = 4 * (nx * ny) := by
    have : ∀ n ≤ M.topo.numCells, ((List.range n).map fun c => (M.topo.cell c).nodes.length).sum = 4 * n := by
      intro n hn
      induction n with
      | zero => rfl
      | succ n ih =>
        rw [List.range_succ, List.map_append, List.sum_append, ih (by omega)]
        obtain ⟨q, _, hq⟩ := hcp n (by omega)
        simp only [List.map_cons, List.map_nil, List.sum_cons, List.sum_nil, hq, qcell, List.length_cons,
          List.length_nil]
        omega
    rw [← hnc]; exact this _ (Nat.le_refl _)
  refine ⟨hW, hnodes, hnc, hnE, ?_, ?_, hinc, ?_, ?_, ?_⟩
  · rw [hnodes, hnc, hnE]; ring
  · intro c hc
    obtain ⟨q, hq, he⟩ := hcp c hc
    rw [he]
    exact ⟨rfl, hnd q hq⟩
  · have h := numBoundary_eq M.topo hW hinc
    rw [hsum, hnE] at h
    have e1 : (nx + 1) * ny = nx * ny + ny := by ring
    have e2 : nx * (ny + 1) = nx * ny + nx := by ring
    rw [e1, e2] at h
    omega
  · intro i hi j hj
    show M.points[i + j * (nx + 1)]? = some (geo.point (p.pos i j))
    have hg := pairs_get (n := ny + 1) (m := nx + 1) (a := j) (b := i) (by omega) (by omega)
    have h1 : nodes[i + j * (nx + 1)]? = some (some (geo.point (p.pos i j))) := by
      simp only [nodes, List.getElem?_map]
      rw [show i + j * (nx + 1) = j * (nx + 1) + i by omega, hg]
      rfl
    rw [← hB.points, List.getElem?_map] at h1
    cases h2 : M.points[i + j * (nx + 1)]? with
    | none => rw [h2] at h1; simp at h1
    | some g => rw [h2] at h1; simpa using h1
  · intro i hi j hj
    exact hcell i hi j hj

/-- No mesh for an empty grid or an empty rectangle. -/
theorem C24_tpQuad_null (ops : GeoOps G) (chk : Bool) (geo : BuilderGeo (K × K) G) (p : Params K) (f : Factory G)
    (h : p.nx = 0 ∨ p.ny = 0 ∨ p.tr.1 - p.bl.1 ≤ 0 ∨ p.tr.2 - p.bl.2 ≤ 0) :
    tpQuad ops chk geo p f = some none := by
  unfold tpQuad
  split_ifs with h1 h2
  · rfl
  · rfl
  · exfalso
    rw [Nat.mul_eq_zero] at h1
    tauto

/-! ### C23 -/

private def upcell (n : ℕ) (geo : ℕ × ℕ → G) (p : ℕ × ℕ) : CellIn G :=
  ⟨[p.1 + p.2 * n, (p.1 + 1) + (p.2 + 1) * n, p.1 + (p.2 + 1) * n], some (geo p)⟩

private def lowcell (n : ℕ) (geo : ℕ × ℕ → G) (p : ℕ × ℕ) : CellIn G :=
  ⟨[p.1 + p.2 * n, (p.1 + 1) + p.2 * n, (p.1 + 1) + (p.2 + 1) * n], some (geo p)⟩

private theorem flatMap_two {α β : Type} (l : List α) (f g : α → β) (k : ℕ) :
    (l.flatMap fun x => [f x, g x])[2 * k]? = l[k]?.map f ∧
    (l.flatMap fun x => [f x, g x])[2 * k + 1]? = l[k]?.map g := by
  induction l generalizing k with
  | nil => simp
  | cons a l ih =>
    cases k with
    | zero => simp
    | succ k =>
      have := ih k
      simpa [Nat.mul_add] using this

private theorem flatMap_two_length {α β : Type} (l : List α) (f g : α → β) :
    (l.flatMap fun x => [f x, g x]).length = 2 * l.length := by
  induction l with
  | nil => rfl
  | cons a l ih => rw [List.flatMap_cons, List.length_append, ih]; simp; omega

private theorem flatMap_one {α β : Type} (l : List α) (f : α → β) :
    (l.flatMap fun x => [f x]) = l.map f := by
  induction l with
  | nil => rfl
  | cons a l ih => rw [List.flatMap_cons, ih]; rfl

/-- `TPTriagMeshBuilder`: for `nx, ny ≥ 1` and a non-empty rectangle the builder succeeds and yields
`(nx+1)(ny+1)` nodes at the grid points, `2 nx ny` triangles with three distinct nodes, and
`nx ny + (nx+1) ny + nx (ny+1)` edges, each of them a side of one or two cells, `2(nx+ny)` of them of
exactly one; `V - E + F = 1`. -/
theorem C23_tpTriag (ops : GeoOps G) (chk : Bool) (geo : BuilderGeo (K × K) G) (p : Params K)
    (hx : 1 ≤ p.nx) (hy : 1 ≤ p.ny) (hbx : ¬ p.tr.1 - p.bl.1 ≤ 0) (hby : ¬ p.tr.2 - p.bl.2 ≤ 0) :
    ∃ M : Mesh G, tpTriag ops chk geo p {} = some (some M) ∧ M.topo.WF ∧
      M.topo.numNodes = (p.nx + 1) * (p.ny + 1) ∧
      M.topo.numCells = 2 * p.nx * p.ny ∧
      M.topo.numEdges = p.nx * p.ny + (p.nx + 1) * p.ny + p.nx * (p.ny + 1) ∧
      M.topo.numNodes + M.topo.numCells = M.topo.numEdges + 1 ∧
      (∀ c < M.topo.numCells, (M.topo.cell c).nodes.length = 3 ∧ (M.topo.cell c).nodes.Nodup) ∧
      (∀ e < M.topo.numEdges, M.topo.incidence e = 1 ∨ M.topo.incidence e = 2) ∧
      M.topo.numBoundaryEdges = 2 * (p.nx + p.ny) ∧
      (∀ i ≤ p.nx, ∀ j ≤ p.ny, M.points[i + j * (p.nx + 1)]? = some (geo.point
        (p.bl.1 + i * ((p.tr.1 - p.bl.1) / p.nx), p.bl.2 + j * ((p.tr.2 - p.bl.2) / p.ny)))) ∧
      (∀ i < p.nx, ∀ j < p.ny,
        (M.topo.cell (2 * (i * p.ny + j))).nodes =
          [i + j * (p.nx + 1), (i + 1) + (j + 1) * (p.nx + 1), i + (j + 1) * (p.nx + 1)] ∧
        (M.topo.cell (2 * (i * p.ny + j) + 1)).nodes =
          [i + j * (p.nx + 1), (i + 1) + j * (p.nx + 1), (i + 1) + (j + 1) * (p.nx + 1)]) := by
  obtain ⟨bl, tr, nx, ny⟩ := p
  simp only at hx hy hbx hby ⊢
  set p : Params K := ⟨bl, tr, nx, ny⟩ with hp
  set N := (ny + 1) * (nx + 1) with hN
  let nodes : List (Option G) := (pairs (ny + 1) (nx + 1)).map fun q => some (geo.point (p.pos q.2 q.1))
  have hnl : nodes.length = N := by simp [nodes, pairs_length, hN]
  let cu : ℕ × ℕ → G := fun q => geo.tria (p.pos q.1 q.2) (p.pos (q.1 + 1) (q.2 + 1)) (p.pos q.1 (q.2 + 1))
  let cl : ℕ × ℕ → G := fun q => geo.tria (p.pos q.1 q.2) (p.pos (q.1 + 1) q.2) (p.pos (q.1 + 1) (q.2 + 1))
  let cells : List (CellIn G) := (pairs nx ny).flatMap fun q => [upcell (nx + 1) cu q, lowcell (nx + 1) cl q]
  let eh : ℕ × ℕ → EdgeIn G := fun q => ⟨q.1 + q.2 * (nx + 1), (q.1 + 1) + q.2 * (nx + 1),
    some (geo.line (p.pos q.1 q.2) (p.pos (q.1 + 1) q.2))⟩
  let ev : ℕ × ℕ → EdgeIn G := fun q => ⟨q.1 + q.2 * (nx + 1), q.1 + (q.2 + 1) * (nx + 1),
    some (geo.line (p.pos q.1 q.2) (p.pos q.1 (q.2 + 1)))⟩
  let ed : ℕ × ℕ → EdgeIn G := fun q => ⟨q.1 + q.2 * (nx + 1), (q.1 + 1) + (q.2 + 1) * (nx + 1),
    some (geo.line (p.pos q.1 q.2) (p.pos (q.1 + 1) (q.2 + 1)))⟩
  let edges : List (EdgeIn G) := (pairs nx (ny + 1)).map eh ++ (pairs (nx + 1) ny).map ev ++ (pairs nx ny).map ed
  -- the factory before `Build`
  have hrun : tpTriag ops chk geo p {} = (buildMesh ops nodes edges cells chk).map some := by
    unfold tpTriag
    have hpn : p.nx = nx := rfl
    rw [if_neg (by
      simp only [hp]
      intro h
      rw [Nat.mul_eq_zero, Nat.mul_eq_zero] at h
      omega), if_neg (by simp only [hp]; tauto)]
    unfold addNodes
    rw [points_loop]
    simp only [Option.bind_some]
    rw [entity_loop nx (ny + 1) _ _ (fun a b => [eh (a, b)]) (fun _ _ => []) (by
      intro f' hf' a ha b hb
      have hl : f'.nodes.length = N := by rw [hf']; exact hnl
      exact entityStep_edge N f' _ _ _ hl (vlt (by omega) (by omega)) (vlt (by omega) (by omega)))]
    simp only [Option.bind_some]
    rw [entity_loop (nx + 1) ny _ _ (fun a b => [ev (a, b)]) (fun _ _ => []) (by
      intro f' hf' a ha b hb
      have hl : f'.nodes.length = N := by rw [hf']; exact hnl
      exact entityStep_edge N f' _ _ _ hl (vlt (by omega) (by omega)) (vlt (by omega) (by omega)))]
    simp only [Option.bind_some]
    rw [entity_loop nx ny _ _ (fun a b => [ed (a, b)]) (fun _ _ => []) (by
      intro f' hf' a ha b hb
      have hl : f'.nodes.length = N := by rw [hf']; exact hnl
      exact entityStep_edge N f' _ _ _ hl (vlt (by omega) (by omega)) (vlt (by omega) (by omega)))]
    simp only [Option.bind_some]
    rw [entity_loop nx ny _ _ (fun _ _ => [])
      (fun a b => [upcell (nx + 1) cu (a, b), lowcell (nx + 1) cl (a, b)]) (by
      intro f' hf' a ha b hb
      have hl : f'.nodes.length = N := by rw [hf']; exact hnl
      have h1 := entityStep_tria N f' (p.vtx a b) (p.vtx (a + 1) (b + 1)) (p.vtx a (b + 1)) (cu (a, b)) hl
        (vlt (by omega) (by omega)) (vlt (by omega) (by omega)) (vlt (by omega) (by omega))
      have h2 := entityStep_tria N ⟨f'.nodes, f'.edges ++ [], f'.elements ++ [⟨[p.vtx a b, p.vtx (a + 1) (b + 1), p.vtx a (b + 1)], some (cu (a, b))⟩]⟩
        (p.vtx a b) (p.vtx (a + 1) b) (p.vtx (a + 1) (b + 1)) (cl (a, b)) hl
        (vlt (by omega) (by omega)) (vlt (by omega) (by omega)) (vlt (by omega) (by omega))
      refine (congrArg (fun o => Option.bind o _) h1).trans ?_
      refine h2.trans ?_
      simp [upcell, lowcell, Params.vtx, hpn])]
    simp only [Option.bind_some, Factory.build, List.nil_append]
    have e1 : (pairs nx (ny + 1)).flatMap (fun p => [eh (p.1, p.2)]) = (pairs nx (ny + 1)).map eh := flatMap_one _ eh
    have e2 : (pairs (nx + 1) ny).flatMap (fun p => [ev (p.1, p.2)]) = (pairs (nx + 1) ny).map ev := flatMap_one _ ev
    have e3 : (pairs nx ny).flatMap (fun p => [ed (p.1, p.2)]) = (pairs nx ny).map ed := flatMap_one _ ed
    rw [e1, e2, e3]
    have e0 : ∀ l : List (ℕ × ℕ), l.flatMap (fun _ => ([] : List (EdgeIn G))) = [] := by intro l; simp
    have e0' : ∀ l : List (ℕ × ℕ), l.flatMap (fun _ => ([] : List (CellIn G))) = [] := by intro l; simp
    rw [e0, e0', e0', e0', List.append_nil, List.append_nil, List.append_nil, List.nil_append]
    show ((buildMesh ops nodes edges cells chk).bind _).bind _ = _
    cases buildMesh ops nodes edges cells chk <;> rfl
  have hsome : ∀ x ∈ nodes, x.isSome = true := by
    intro x hx
    obtain ⟨q, _, rfl⟩ := List.mem_map.1 hx
    rfl
  have hvi := @vinj (nx + 1)
  have g : ∀ i j i' j', i < nx + 1 → i' < nx + 1 → (i ≠ i' ∨ j ≠ j') →
      i + j * (nx + 1) ≠ i' + j' * (nx + 1) := by
    intro i j i' j' h1 h2 h3 h4
    have := hvi h1 h2 h4
    omega
  have hcm : ∀ c ∈ cells, ∃ a b, a < nx ∧ b < ny ∧
      (c.nodes = [a + b * (nx + 1), (a + 1) + (b + 1) * (nx + 1), a + (b + 1) * (nx + 1)] ∨
       c.nodes = [a + b * (nx + 1), (a + 1) + b * (nx + 1), (a + 1) + (b + 1) * (nx + 1)]) := by
    intro c hc
    obtain ⟨⟨a, b⟩, hq, hc⟩ := List.mem_flatMap.1 hc
    obtain ⟨ha, hb⟩ := mem_pairs.1 hq
    simp only [List.mem_cons, List.not_mem_nil, or_false] at hc
    rcases hc with rfl | rfl
    · exact ⟨a, b, ha, hb, Or.inl rfl⟩
    · exact ⟨a, b, ha, hb, Or.inr rfl⟩
  have hnd : ∀ c ∈ cells, c.nodes.length = 3 ∧ c.nodes.Nodup := by
    intro c hc
    obtain ⟨a, b, ha, hb, h | h⟩ := hcm c hc <;> rw [h] <;> refine ⟨rfl, ?_⟩ <;>
    simp only [List.nodup_cons, List.mem_cons, List.not_mem_nil, or_false, not_or, not_false_eq_true,
      List.nodup_nil, and_true] <;>
    refine ⟨⟨g _ _ _ _ ?_ ?_ ?_, g _ _ _ _ ?_ ?_ ?_⟩, g _ _ _ _ ?_ ?_ ?_⟩ <;> omega
  -- the supplied edges
  let L : List (ℕ × ℕ) :=
    (pairs nx (ny + 1)).map (fun q => (q.1 + q.2 * (nx + 1), (q.1 + 1) + q.2 * (nx + 1))) ++
    (pairs (nx + 1) ny).map (fun q => (q.1 + q.2 * (nx + 1), q.1 + (q.2 + 1) * (nx + 1))) ++
    (pairs nx ny).map (fun q => (q.1 + q.2 * (nx + 1), (q.1 + 1) + (q.2 + 1) * (nx + 1)))
  have hLe : edges.map (fun e => (e.p0, e.p1)) = L := by
    simp only [edges, L, List.map_append, List.map_map]
    rfl
  have hfw : ∀ b : ℕ, (b + 1) * (nx + 1) = b * (nx + 1) + (nx + 1) := by intro b; ring
  have hLm : ∀ x ∈ L, ∃ a b, (a < nx ∧ b < ny + 1 ∧ x = (a + b * (nx + 1), (a + 1) + b * (nx + 1))) ∨
      (a < nx + 1 ∧ b < ny ∧ x = (a + b * (nx + 1), a + (b + 1) * (nx + 1))) ∨
      (a < nx ∧ b < ny ∧ x = (a + b * (nx + 1), (a + 1) + (b + 1) * (nx + 1))) := by
    intro x hx
    rcases List.mem_append.1 hx with hx | hx
    · rcases List.mem_append.1 hx with hx | hx
      · obtain ⟨⟨a, b⟩, hq, rfl⟩ := List.mem_map.1 hx
        obtain ⟨ha, hb⟩ := mem_pairs.1 hq
        exact ⟨a, b, Or.inl ⟨ha, hb, rfl⟩⟩
      · obtain ⟨⟨a, b⟩, hq, rfl⟩ := List.mem_map.1 hx
        obtain ⟨ha, hb⟩ := mem_pairs.1 hq
        exact ⟨a, b, Or.inr (Or.inl ⟨ha, hb, rfl⟩)⟩
    · obtain ⟨⟨a, b⟩, hq, rfl⟩ := List.mem_map.1 hx
      obtain ⟨ha, hb⟩ := mem_pairs.1 hq
      exact ⟨a, b, Or.inr (Or.inr ⟨ha, hb, rfl⟩)⟩
  have hLf : ∀ x ∈ L, x.1 < x.2 := by
    intro x hx
    obtain ⟨a, b, ⟨ha, hb, rfl⟩ | ⟨ha, hb, rfl⟩ | ⟨ha, hb, rfl⟩⟩ := hLm x hx
    · simp only; omega
    · have := hfw b; simp only; omega
    · have := hfw b; simp only; omega
  have hLt : ∀ x ∈ L, x.1 < N ∧ x.2 < N := by
    intro x hx
    obtain ⟨a, b, ⟨ha, hb, rfl⟩ | ⟨ha, hb, rfl⟩ | ⟨ha, hb, rfl⟩⟩ := hLm x hx
    · exact ⟨vlt (by omega) (by omega), vlt (by omega) (by omega)⟩
    · exact ⟨vlt (by omega) (by omega), vlt (by omega) (by omega)⟩
    · exact ⟨vlt (by omega) (by omega), vlt (by omega) (by omega)⟩
  have hLn : L.Nodup := by
    have hinj : ∀ (n m : ℕ) (f : ℕ × ℕ → ℕ), n ≤ nx + 1 →
        ((pairs n m).map (fun q => (q.1 + q.2 * (nx + 1), f q))).Nodup := by
      intro n m f hn
      refine List.Nodup.map_on ?_ (pairs_nodup' _ _)
      rintro ⟨a, b⟩ hq ⟨a', b'⟩ hq' h
      have h1 := mem_pairs.1 hq
      have h2 := mem_pairs.1 hq'
      simp only at h1 h2
      obtain ⟨e1, e2⟩ := hvi (by omega) (by omega) (Prod.mk.inj h).1
      simp only at e1 e2
      rw [e1, e2]
    rw [List.nodup_append, List.nodup_append]
    refine ⟨⟨hinj _ _ _ (by omega), hinj _ _ _ (by omega), ?_⟩, hinj _ _ _ (by omega), ?_⟩
    · intro x hx y hy hxy
      obtain ⟨⟨a, b⟩, hq, rfl⟩ := List.mem_map.1 hx
      obtain ⟨⟨a', b'⟩, hq', rfl⟩ := List.mem_map.1 hy
      have h1 := mem_pairs.1 hq
      have h2 := mem_pairs.1 hq'
      simp only at h1 h2
      have e1 := hvi (by omega) (by omega) (Prod.mk.inj hxy).1
      have e2 := hvi (by omega) (by omega) (Prod.mk.inj hxy).2
      omega
    · intro x hx y hy hxy
      obtain ⟨⟨a', b'⟩, hq', rfl⟩ := List.mem_map.1 hy
      have h2 := mem_pairs.1 hq'
      rcases List.mem_append.1 hx with hx | hx
      · obtain ⟨⟨a, b⟩, hq, rfl⟩ := List.mem_map.1 hx
        have h1 := mem_pairs.1 hq
        simp only at h1 h2
        have e1 := hvi (by omega) (by omega) (Prod.mk.inj hxy).1
        have e2 := hvi (by omega) (by omega) (Prod.mk.inj hxy).2
        omega
      · obtain ⟨⟨a, b⟩, hq, rfl⟩ := List.mem_map.1 hx
        have h1 := mem_pairs.1 hq
        simp only at h1 h2
        have e1 := hvi (by omega) (by omega) (Prod.mk.inj hxy).1
        have e2 := hvi (by omega) (by omega) (Prod.mk.inj hxy).2
        omega
  have hem : ∀ e ∈ edges, (e.p0, e.p1) ∈ L := by
    intro e he
    rw [← hLe]
    exact List.mem_map.2 ⟨e, he, rfl⟩
  -- the sides of all cells
  let D : List (ℕ × ℕ) := (pairs nx ny).flatMap fun q =>
      [(q.1 + q.2 * (nx + 1), (q.1 + 1) + (q.2 + 1) * (nx + 1)),
       ((q.1 + 1) + (q.2 + 1) * (nx + 1), q.1 + (q.2 + 1) * (nx + 1)),
       (q.1 + (q.2 + 1) * (nx + 1), q.1 + q.2 * (nx + 1)),
       (q.1 + q.2 * (nx + 1), (q.1 + 1) + q.2 * (nx + 1)),
       ((q.1 + 1) + q.2 * (nx + 1), (q.1 + 1) + (q.2 + 1) * (nx + 1)),
       ((q.1 + 1) + (q.2 + 1) * (nx + 1), q.1 + q.2 * (nx + 1))]
  have hD : (cells.flatMap fun c => (List.range c.nodes.length).map (side c.nodes)) = D := by
    simp only [cells, D, List.flatMap_assoc]
    congr 1
    funext q
    simp only [List.flatMap_cons, List.flatMap_nil, upcell, lowcell, sides3, List.append_nil]
    rfl
  have hLD : ∀ x ∈ L, x ∈ D ∨ x.swap ∈ D := by
    intro x hx
    obtain ⟨a, b, ⟨ha, hb, rfl⟩ | ⟨ha, hb, rfl⟩ | ⟨ha, hb, rfl⟩⟩ := hLm x hx
    · by_cases h : b < ny
      · left
        exact List.mem_flatMap.2 ⟨(a, b), mem_pairs.2 ⟨ha, h⟩, by simp⟩
      · right
        have hb1 : b = (ny - 1) + 1 := by omega
        exact List.mem_flatMap.2 ⟨(a, ny - 1), mem_pairs.2 ⟨ha, by simp only; omega⟩, by rw [hb1]; simp⟩
    · by_cases h : a < nx
      · right
        exact List.mem_flatMap.2 ⟨(a, b), mem_pairs.2 ⟨h, hb⟩, by simp⟩
      · left
        have ha1 : a = (nx - 1) + 1 := by omega
        exact List.mem_flatMap.2 ⟨(nx - 1, b), mem_pairs.2 ⟨by simp only; omega, hb⟩, by rw [ha1]; simp⟩
    · left
      exact List.mem_flatMap.2 ⟨(a, b), mem_pairs.2 ⟨ha, hb⟩, by simp⟩
  have hDL : ∀ x ∈ D, x ∈ L ∨ x.swap ∈ L := by
    intro x hx
    obtain ⟨⟨a, b⟩, hq, hx⟩ := List.mem_flatMap.1 hx
    obtain ⟨ha, hb⟩ := mem_pairs.1 hq
    simp only at ha hb
    have mh : ∀ a b, a < nx → b < ny + 1 → (a + b * (nx + 1), (a + 1) + b * (nx + 1)) ∈ L := fun a b ha hb =>
      List.mem_append_left _ (List.mem_append_left _ (List.mem_map.2 ⟨(a, b), mem_pairs.2 ⟨ha, hb⟩, rfl⟩))
    have mv : ∀ a b, a < nx + 1 → b < ny → (a + b * (nx + 1), a + (b + 1) * (nx + 1)) ∈ L := fun a b ha hb =>
      List.mem_append_left _ (List.mem_append_right _ (List.mem_map.2 ⟨(a, b), mem_pairs.2 ⟨ha, hb⟩, rfl⟩))
    have md : ∀ a b, a < nx → b < ny → (a + b * (nx + 1), (a + 1) + (b + 1) * (nx + 1)) ∈ L := fun a b ha hb =>
      List.mem_append_right _ (List.mem_map.2 ⟨(a, b), mem_pairs.2 ⟨ha, hb⟩, rfl⟩)
    simp only [List.mem_cons, List.not_mem_nil, or_false] at hx
    rcases hx with rfl | rfl | rfl | rfl | rfl | rfl
    · exact Or.inl (md a b ha hb)
    · exact Or.inr (mh a (b + 1) ha (by omega))
    · exact Or.inr (mv a b (by omega) hb)
    · exact Or.inl (mh a b ha (by omega))
    · exact Or.inl (mv (a + 1) b (by omega) hb)
    · exact Or.inr (md a b ha hb)
  have hDn : D.Nodup := by
    apply nodup_pairs_flatMap
    · rintro ⟨a, b⟩ hq
      obtain ⟨ha, hb⟩ := mem_pairs.1 hq
      simp only at ha hb
      have n1 := g a b (a + 1) (b + 1) (by omega) (by omega) (by omega)
      have n2 := g a b a (b + 1) (by omega) (by omega) (by omega)
      have n3 := g a b (a + 1) b (by omega) (by omega) (by omega)
      have n4 := g (a + 1) b (a + 1) (b + 1) (by omega) (by omega) (by omega)
      have n5 := g (a + 1) b a (b + 1) (by omega) (by omega) (by omega)
      have n6 := g (a + 1) (b + 1) a (b + 1) (by omega) (by omega) (by omega)
      simp only [List.nodup_cons, List.mem_cons, List.not_mem_nil, or_false, not_or, not_false_eq_true,
        List.nodup_nil, and_true, Prod.mk.injEq, not_and]
      generalize a + b * (nx + 1) = v00 at *
      generalize a + 1 + b * (nx + 1) = v10 at *
      generalize a + (b + 1) * (nx + 1) = v01 at *
      generalize a + 1 + (b + 1) * (nx + 1) = v11 at *
      omega
    · rintro ⟨a, b⟩ hq ⟨a', b'⟩ hq' x hx hx'
      obtain ⟨ha, hb⟩ := mem_pairs.1 hq
      obtain ⟨ha', hb'⟩ := mem_pairs.1 hq'
      simp only at ha hb ha' hb'
      simp only [List.mem_cons, List.not_mem_nil, or_false] at hx hx'
      have fin : (a = a' ∧ b = b') → (a, b) = (a', b') := by rintro ⟨rfl, rfl⟩; rfl
      apply fin
      rcases hx with rfl | rfl | rfl | rfl | rfl | rfl <;> rcases hx' with h | h | h | h | h | h <;>
        (obtain ⟨h1, h2⟩ := Prod.mk.inj h
         have h3 := hvi (by omega) (by omega) h1
         have h4 := hvi (by omega) (by omega) h2
         omega)
  have hvalid : ValidInput nodes edges cells := by
    refine ⟨hsome, ?_, ?_, ?_, ?_, ?_, ?_, ?_⟩
    · intro e he
      have := hLf _ (hem e he)
      simp only at this
      omega
    · intro e he
      rw [hnl]
      exact hLt _ (hem e he)
    · intro e he
      simp only [edges, List.mem_append, List.mem_map] at he
      rcases he with (⟨q, _, rfl⟩ | ⟨q, _, rfl⟩) | ⟨q, _, rfl⟩ <;> rfl
    · have hpw : (edges.map (fun e => (e.p0, e.p1))).Pairwise (fun x y => x ≠ y) := by rw [hLe]; exact hLn
      rw [List.pairwise_map] at hpw
      refine List.Pairwise.imp_of_mem ?_ hpw
      intro e f he hf hne hs
      rcases hs with h | h
      · exact hne h
      · have h1 := hLf _ (hem e he)
        have h2 := hLf _ (hem f hf)
        have h3 := congrArg Prod.fst h
        have h4 := congrArg Prod.snd h
        simp only [Prod.fst_swap, Prod.snd_swap] at h1 h2 h3 h4
        omega
    · intro c hc
      exact Or.inl (hnd c hc).1
    · intro c hc v hv
      rw [hnl]
      obtain ⟨a, b, ha, hb, h | h⟩ := hcm c hc <;> rw [h] at hv <;>
        simp only [List.mem_cons, List.not_mem_nil, or_false] at hv <;>
        rcases hv with rfl | rfl | rfl <;> exact vlt (by omega) (by omega)
    · intro c hc j hj
      obtain ⟨h3, h4⟩ := hnd c hc
      obtain ⟨x, y, z, hxyz⟩ : ∃ x y z, c.nodes = [x, y, z] := List.length_eq_three.1 h3
      rw [hxyz] at h4 hj ⊢
      simp only [List.nodup_cons, List.mem_cons, List.not_mem_nil, or_false, not_or] at h4
      obtain ⟨⟨k1, k2⟩, k3, _⟩ := h4
      have hj' : j < 3 := hj
      have hj3 : j = 0 ∨ j = 1 ∨ j = 2 := by omega
      rcases hj3 with rfl | rfl | rfl
      · simpa [side] using k1
      · simpa [side] using k3
      · simpa [side] using fun h => k2 h.symm
  have hcomplete : CompleteInput nodes.length edges cells := by
    constructor
    · intro e he
      have hx : ∃ x ∈ D, SamePair (e.p0, e.p1) x := by
        rcases hLD _ (hem e he) with h | h
        · exact ⟨_, h, Or.inl rfl⟩
        · exact ⟨_, h, Or.inr rfl⟩
      obtain ⟨x, hx, hs⟩ := hx
      rw [← hD] at hx
      obtain ⟨c, hc, hx⟩ := List.mem_flatMap.1 hx
      obtain ⟨j, hj, rfl⟩ := List.mem_map.1 hx
      exact ⟨c, hc, j, List.mem_range.1 hj, hs⟩
    · intro v hv
      rw [hnl, hN] at hv
      have hmod : v % (nx + 1) < nx + 1 := Nat.mod_lt _ (by omega)
      have hdiv : v / (nx + 1) < ny + 1 := by
        rw [Nat.div_lt_iff_lt_mul (by omega)]; exact hv
      have hveq : v = v % (nx + 1) + v / (nx + 1) * (nx + 1) := by
        rw [Nat.mul_comm]; exact (Nat.mod_add_div v (nx + 1)).symm
      generalize v % (nx + 1) = i at *
      generalize v / (nx + 1) = j at *
      subst hveq
      have inup : ∀ a b, a < nx → b < ny → upcell (nx + 1) cu (a, b) ∈ cells := fun a b ha hb =>
        List.mem_flatMap.2 ⟨(a, b), mem_pairs.2 ⟨ha, hb⟩, by simp⟩
      have inlow : ∀ a b, a < nx → b < ny → lowcell (nx + 1) cl (a, b) ∈ cells := fun a b ha hb =>
        List.mem_flatMap.2 ⟨(a, b), mem_pairs.2 ⟨ha, hb⟩, by simp⟩
      by_cases h1 : i < nx <;> by_cases h2 : j < ny
      · exact ⟨_, inup i j h1 h2, by simp [upcell]⟩
      · have : j = (ny - 1) + 1 := by omega
        exact ⟨_, inup i (ny - 1) h1 (by omega), by rw [this]; simp [upcell]⟩
      · have : i = (nx - 1) + 1 := by omega
        exact ⟨_, inlow (nx - 1) j (by omega) h2, by rw [this]; simp [lowcell]⟩
      · have h3 : i = (nx - 1) + 1 := by omega
        have h4 : j = (ny - 1) + 1 := by omega
        exact ⟨_, inup (nx - 1) (ny - 1) (by omega) (by omega), by rw [h3, h4]; simp [upcell]⟩
  rcases buildMesh_spec ops nodes edges cells chk hsome with ⟨_, M, hM, hB⟩ | ⟨h, _⟩
  swap
  · exact absurd ⟨hvalid, fun _ => hcomplete⟩ h
  refine ⟨M, by rw [hrun, hM]; rfl, ?_⟩
  have hW := hB.topo_WF hvalid
  have hd : M.topo.dsides = D := (dsides_built hB).trans hD
  have hnodes : M.topo.numNodes = (nx + 1) * (ny + 1) := by
    rw [Nat.mul_comm]
    exact hB.points_length.trans hnl
  have hcl : cells.length = 2 * nx * ny := by
    simp only [cells]
    rw [flatMap_two_length, pairs_length, Nat.mul_assoc]
  have hnc : M.topo.numCells = 2 * nx * ny := by rw [hB.numCells', hcl]
  have hside : ∀ e < M.topo.numEdges, ∃ x ∈ D, SamePair (M.topo.edge e) x := by
    intro e he
    rcases edge_cases hB e he with ⟨i, hi, h⟩ | h
    · rw [h]
      rcases hLD _ (hem i hi) with h | h
      · exact ⟨_, h, Or.inl rfl⟩
      · exact ⟨_, h, Or.inr rfl⟩
    · rw [hd] at h; exact h
  have hinc : ∀ e < M.topo.numEdges, M.topo.incidence e = 1 ∨ M.topo.incidence e = 2 := by
    intro e he
    have h1 := incidence_pos M.topo hW e he (by rw [hd]; exact hside e he)
    have h2 := incidence_le_two M.topo hW (by rw [hd]; exact hDn) e he
    omega
  have hne : M.topo.numEdges = L.length := by
    apply numEdges_eq M.topo hW L hLn hLf
    · intro e he
      obtain ⟨x, hx, hs⟩ := hside e he
      rcases hDL x hx with h | h
      · exact ⟨_, h, hs⟩
      · exact ⟨_, h, samePair_trans hs (Or.inr rfl)⟩
    · intro x hx
      rcases hLD x hx with h | h
      · rw [← hd] at h
        exact edge_of_side M.topo hW x h
      · rw [← hd] at h
        obtain ⟨e, he, hs⟩ := edge_of_side M.topo hW _ h
        exact ⟨e, he, samePair_trans hs (Or.inr rfl)⟩
  have hnE : M.topo.numEdges = nx * ny + (nx + 1) * ny + nx * (ny + 1) := by
    rw [hne]
    simp only [L, List.length_append, List.length_map, pairs_length]
    omega
  have hcp : ∀ c < M.topo.numCells, (M.topo.cell c).nodes.length = 3 ∧ (M.topo.cell c).nodes.Nodup := by
    intro c hc
    have hc' : c < cells.length := by rw [← hB.numCells']; exact hc
    rw [(hB.cell_eq c hc').1]
    exact hnd _ (List.getElem_mem hc')
  have hsum : ((List.range M.topo.numCells).map fun c => (M.topo.cell c).nodes.length).sum = 3 * (2 * nx * ny) := by
    have : ∀ n ≤ M.topo.numCells, ((List.range n).map fun c => (M.topo.cell c).nodes.length).sum = 3 * n := by
      intro n hn
      induction n with
      | zero => rfl
      | succ n ih =>
        rw [List.range_succ, List.map_append, List.sum_append, ih (by omega)]
        simp only [List.map_cons, List.map_nil, List.sum_cons, List.sum_nil, (hcp n (by omega)).1]
        omega
    rw [← hnc]; exact this _ (Nat.le_refl _)
  refine ⟨hW, hnodes, hnc, hnE, ?_, hcp, hinc, ?_, ?_, ?_⟩
  · rw [hnodes, hnc, hnE]; ring
  · have h := numBoundary_eq M.topo hW hinc
    rw [hsum, hnE] at h
    have e1 : (nx + 1) * ny = nx * ny + ny := by ring
    have e2 : nx * (ny + 1) = nx * ny + nx := by ring
    have e3 : 2 * nx * ny = 2 * (nx * ny) := by ring
    rw [e1, e2, e3] at h
    omega
  · intro i hi j hj
    show M.points[i + j * (nx + 1)]? = some (geo.point (p.pos i j))
    have hg := pairs_get (n := ny + 1) (m := nx + 1) (a := j) (b := i) (by omega) (by omega)
    have h1 : nodes[i + j * (nx + 1)]? = some (some (geo.point (p.pos i j))) := by
      simp only [nodes, List.getElem?_map]
      rw [show i + j * (nx + 1) = j * (nx + 1) + i by omega, hg]
      rfl
    rw [← hB.points, List.getElem?_map] at h1
    cases h2 : M.points[i + j * (nx + 1)]? with
    | none => rw [h2] at h1; simp at h1
    | some g => rw [h2] at h1; simpa using h1
  · intro i hi j hj
    have hg := pairs_get hi hj
    obtain ⟨h1, h2⟩ := flatMap_two (pairs nx ny) (upcell (nx + 1) cu) (lowcell (nx + 1) cl) (i * ny + j)
    rw [hg] at h1 h2
    obtain ⟨l1, e1⟩ := List.getElem?_eq_some_iff.1 h1
    obtain ⟨l2, e2⟩ := List.getElem?_eq_some_iff.1 h2
    refine ⟨?_, ?_⟩
    · rw [(hB.cell_eq _ l1).1]
      exact congrArg CellIn.nodes e1
    · rw [(hB.cell_eq _ l2).1]
      exact congrArg CellIn.nodes e2

/-- No mesh for an empty grid or an empty rectangle. -/
theorem C23_tpTriag_null (ops : GeoOps G) (chk : Bool) (geo : BuilderGeo (K × K) G) (p : Params K) (f : Factory G)
    (h : p.nx = 0 ∨ p.ny = 0 ∨ p.tr.1 - p.bl.1 ≤ 0 ∨ p.tr.2 - p.bl.2 ≤ 0) :
    tpTriag ops chk geo p f = some none := by
  unfold tpTriag
  split_ifs with h1 h2
  · rfl
  · rfl
  · exfalso
    rw [Nat.mul_eq_zero, Nat.mul_eq_zero] at h1
    have : ¬ p.nx = 0 := fun h => h1 (Or.inl (Or.inr h))
    tauto

/-! ### C25 -/

private def tcell (nx ny : ℕ) (geo : ℕ × ℕ → G) (p : ℕ × ℕ) : CellIn G :=
  ⟨[p.1 + p.2 * nx, (p.1 + 1) % nx + p.2 * nx, (p.1 + 1) % nx + ((p.2 + 1) % ny) * nx,
    p.1 + ((p.2 + 1) % ny) * nx], some (geo p)⟩

private theorem succ_mod {n a : ℕ} (h : a < n) :
    (a + 1) % n < n ∧ ((a + 1 < n ∧ (a + 1) % n = a + 1) ∨ (a + 1 = n ∧ (a + 1) % n = 0)) := by
  refine ⟨Nat.mod_lt _ (by omega), ?_⟩
  by_cases h1 : a + 1 < n
  · exact Or.inl ⟨h1, Nat.mod_eq_of_lt h1⟩
  · right
    have : a + 1 = n := by omega
    exact ⟨this, by rw [this, Nat.mod_self]⟩

/-- The factory contents when `TorusMeshBuilder` calls `Build`. -/
private theorem torus_run {P : Type} (ops : GeoOps G) (chk : Bool) (geo : BuilderGeo P G) (pos : ℕ → ℕ → P)
    (p : Params K) (hx : 1 ≤ p.nx) (hy : 1 ≤ p.ny) (hbx : ¬ p.tr.1 - p.bl.1 ≤ 0)
    (hby : ¬ p.tr.2 - p.bl.2 ≤ 0) :
    torus ops chk geo pos p {} = (buildMesh ops
      ((pairs p.ny p.nx).map fun q => some (geo.point (pos q.2 q.1))) []
      ((pairs p.nx p.ny).map (tcell p.nx p.ny fun q => geo.quad (pos q.1 q.2) (pos (q.1 + 1) q.2)
        (pos (q.1 + 1) (q.2 + 1)) (pos q.1 (q.2 + 1)))) chk).map some := by
  obtain ⟨bl, tr, nx, ny⟩ := p
  simp only at hx hy hbx hby ⊢
  set p : Params K := ⟨bl, tr, nx, ny⟩ with hp
  let cg : ℕ × ℕ → G := fun q => geo.quad (pos q.1 q.2) (pos (q.1 + 1) q.2)
        (pos (q.1 + 1) (q.2 + 1)) (pos q.1 (q.2 + 1))
  unfold torus
  have hpn : p.nx = nx := rfl
  have hpm : p.ny = ny := rfl
  rw [if_neg (by
      simp only [hp]
      intro h
      rw [Nat.mul_eq_zero] at h
      omega), if_neg (by simp only [hp]; tauto)]
  rw [points_loop]
  simp only [Option.bind_some]
  rw [entity_loop nx ny _ _ (fun _ _ => []) (fun a b => [tcell nx ny cg (a, b)]) (by
    intro f' hf' a ha b hb
    have hl : f'.nodes.length = ny * nx := by rw [hf']; simp [pairs_length, hpn, hpm]
    have h1 := (succ_mod ha).1
    have h2 := (succ_mod hb).1
    exact entityStep_quad (ny * nx) f' _ _ _ _ _ hl (vlt ha hb) (vlt h1 hb) (vlt h1 h2) (vlt ha h2))]
  simp only [Option.bind_some, Factory.build, List.nil_append]
  have e1 : (pairs nx ny).flatMap (fun p => [tcell nx ny cg (p.1, p.2)]) = (pairs nx ny).map (tcell nx ny cg) :=
    flatMap_one _ _
  rw [e1]
  rw [show (pairs nx ny).flatMap (fun _ => ([] : List (EdgeIn G))) = [] by simp]
  show ((buildMesh ops _ [] _ chk).bind _).bind _ = _
  cases buildMesh ops _ [] _ chk <;> rfl

/-- `TorusMeshBuilder`: for `nx, ny ≥ 3` and a non-empty rectangle the builder succeeds and yields `nx ny`
nodes, `2 nx ny` edges and `nx ny` quadrilaterals with four distinct nodes; every edge is a side of exactly
two cells; `V - E + F = 0`.  Missing for the full property: `nx` or `ny` equal to 1 or 2, for which it does
not hold, see `C25_fails_one` and `C25_fails_two`. -/
theorem C25_torus_partial {P : Type} (ops : GeoOps G) (chk : Bool) (geo : BuilderGeo P G) (pos : ℕ → ℕ → P)
    (p : Params K) (hx : 3 ≤ p.nx) (hy : 3 ≤ p.ny) (hbx : ¬ p.tr.1 - p.bl.1 ≤ 0)
    (hby : ¬ p.tr.2 - p.bl.2 ≤ 0) :
    ∃ M : Mesh G, torus ops chk geo pos p {} = some (some M) ∧ M.topo.WF ∧
      M.topo.numNodes = p.nx * p.ny ∧
      M.topo.numCells = p.nx * p.ny ∧
      M.topo.numEdges = 2 * p.nx * p.ny ∧
      M.topo.numNodes + M.topo.numCells = M.topo.numEdges ∧
      (∀ c < M.topo.numCells, (M.topo.cell c).nodes.length = 4 ∧ (M.topo.cell c).nodes.Nodup) ∧
      (∀ e < M.topo.numEdges, M.topo.incidence e = 2) ∧
      (∀ i < p.nx, ∀ j < p.ny, M.points[i + j * p.nx]? = some (geo.point (pos i j))) ∧
      (∀ i < p.nx, ∀ j < p.ny, (M.topo.cell (i * p.ny + j)).nodes =
        [i + j * p.nx, (i + 1) % p.nx + j * p.nx, (i + 1) % p.nx + ((j + 1) % p.ny) * p.nx,
          i + ((j + 1) % p.ny) * p.nx]) := by
  have hrun := torus_run ops chk geo pos p (by omega) (by omega) hbx hby
  obtain ⟨bl, tr, nx, ny⟩ := p
  simp only at hx hy hbx hby hrun ⊢
  set p : Params K := ⟨bl, tr, nx, ny⟩ with hp
  let nodes : List (Option G) := (pairs ny nx).map fun q => some (geo.point (pos q.2 q.1))
  have hnl : nodes.length = ny * nx := by simp [nodes, pairs_length]
  let cg : ℕ × ℕ → G := fun q => geo.quad (pos q.1 q.2) (pos (q.1 + 1) q.2)
        (pos (q.1 + 1) (q.2 + 1)) (pos q.1 (q.2 + 1))
  let cells : List (CellIn G) := (pairs nx ny).map (tcell nx ny cg)
  have hsome : ∀ x ∈ nodes, x.isSome = true := by
    intro x hx
    obtain ⟨q, _, rfl⟩ := List.mem_map.1 hx
    rfl
  have hvi := @vinj nx
  have g : ∀ i j i' j', i < nx → i' < nx → (i ≠ i' ∨ j ≠ j') →
      i + j * nx ≠ i' + j' * nx := by
    intro i j i' j' h1 h2 h3 h4
    have := hvi h1 h2 h4
    omega
  have hnd : ∀ q ∈ pairs nx ny, (tcell nx ny cg q).nodes.Nodup := by
    rintro ⟨a, b⟩ hq
    obtain ⟨ha, hb⟩ := mem_pairs.1 hq
    simp only at ha hb
    obtain ⟨a1, a2⟩ := succ_mod ha
    obtain ⟨b1, b2⟩ := succ_mod hb
    simp only [tcell]
    generalize (a + 1) % nx = a' at *
    generalize (b + 1) % ny = b' at *
    simp only [List.nodup_cons, List.mem_cons, List.not_mem_nil, or_false, not_or, not_false_eq_true,
      List.nodup_nil, and_true]
    refine ⟨⟨g _ _ _ _ ?_ ?_ ?_, g _ _ _ _ ?_ ?_ ?_, g _ _ _ _ ?_ ?_ ?_⟩,
      ⟨g _ _ _ _ ?_ ?_ ?_, g _ _ _ _ ?_ ?_ ?_⟩, g _ _ _ _ ?_ ?_ ?_⟩ <;> omega
  have hvalid : ValidInput nodes [] cells := by
    refine ⟨hsome, by simp, by simp, by simp, by simp, ?_, ?_, ?_⟩
    · intro c hc
      obtain ⟨q, _, rfl⟩ := List.mem_map.1 hc
      right; rfl
    · intro c hc v hv
      obtain ⟨⟨a, b⟩, hq, rfl⟩ := List.mem_map.1 hc
      obtain ⟨ha, hb⟩ := mem_pairs.1 hq
      simp only at ha hb
      have h1 := (succ_mod ha).1
      have h2 := (succ_mod hb).1
      rw [hnl]
      simp only [tcell, List.mem_cons, List.not_mem_nil, or_false] at hv
      rcases hv with rfl | rfl | rfl | rfl
      · exact vlt ha hb
      · exact vlt h1 hb
      · exact vlt h1 h2
      · exact vlt ha h2
    · intro c hc j hj
      obtain ⟨⟨a, b⟩, hq, rfl⟩ := List.mem_map.1 hc
      have h := hnd _ hq
      simp only [tcell] at h hj ⊢
      generalize a + b * nx = x1 at *
      generalize (a + 1) % nx + b * nx = x2 at *
      generalize (a + 1) % nx + (b + 1) % ny * nx = x3 at *
      generalize a + (b + 1) % ny * nx = x4 at *
      simp only [List.nodup_cons, List.mem_cons, List.not_mem_nil, or_false, not_or] at h
      obtain ⟨⟨h1, h2, h3⟩, ⟨h4, h5⟩, h6, _⟩ := h
      have hj' : j < 4 := hj
      have hj4 : j = 0 ∨ j = 1 ∨ j = 2 ∨ j = 3 := by omega
      rcases hj4 with rfl | rfl | rfl | rfl
      · simpa [side] using h1
      · simpa [side] using h4
      · simpa [side] using h6
      · simpa [side] using fun h => h3 h.symm
  have hcomplete : CompleteInput nodes.length [] cells := by
    refine ⟨by simp, ?_⟩
    intro v hv
    rw [hnl] at hv
    have hmod : v % nx < nx := Nat.mod_lt _ (by omega)
    have hdiv : v / nx < ny := by
      rw [Nat.div_lt_iff_lt_mul (by omega)]; exact hv
    have hveq : v = v % nx + v / nx * nx := by
      rw [Nat.mul_comm]; exact (Nat.mod_add_div v nx).symm
    generalize v % nx = i at *
    generalize v / nx = j at *
    subst hveq
    exact ⟨_, List.mem_map.2 ⟨(i, j), mem_pairs.2 ⟨hmod, hdiv⟩, rfl⟩, by simp [tcell]⟩
  rcases buildMesh_spec ops nodes [] cells chk hsome with ⟨_, M, hM, hB⟩ | ⟨h, _⟩
  swap
  · exact absurd ⟨hvalid, fun _ => hcomplete⟩ h
  refine ⟨M, by rw [hrun]; exact congrArg (Option.map some) hM, ?_⟩
  have hW := hB.topo_WF hvalid
  have hd' : M.topo.dsides = (pairs nx ny).flatMap fun q =>
      [(q.1 + q.2 * nx, (q.1 + 1) % nx + q.2 * nx),
       ((q.1 + 1) % nx + q.2 * nx, (q.1 + 1) % nx + ((q.2 + 1) % ny) * nx),
       ((q.1 + 1) % nx + ((q.2 + 1) % ny) * nx, q.1 + ((q.2 + 1) % ny) * nx),
       (q.1 + ((q.2 + 1) % ny) * nx, q.1 + q.2 * nx)] := by
    rw [dsides_built hB]
    simp only [cells, List.flatMap_map, tcell, sides4]
  have hnodes : M.topo.numNodes = nx * ny := by
    rw [Nat.mul_comm]
    exact hB.points_length.trans hnl
  have hcl : cells.length = nx * ny := by simp [cells, pairs_length]
  have hnc : M.topo.numCells = nx * ny := by rw [hB.numCells', hcl]
  have hdn : M.topo.dsides.Nodup := by
    rw [hd']
    apply nodup_pairs_flatMap
    · rintro ⟨a, b⟩ hq
      have h := hnd _ hq
      simp only [tcell] at h ⊢
      generalize a + b * nx = x1 at *
      generalize (a + 1) % nx + b * nx = x2 at *
      generalize (a + 1) % nx + (b + 1) % ny * nx = x3 at *
      generalize a + (b + 1) % ny * nx = x4 at *
      simp only [List.nodup_cons, List.mem_cons, List.not_mem_nil, or_false, not_or] at h
      obtain ⟨⟨h1, h2, h3⟩, ⟨h4, h5⟩, h6, _⟩ := h
      simp only [List.nodup_cons, List.mem_cons, List.not_mem_nil, or_false, not_or, not_false_eq_true,
        List.nodup_nil, and_true, Prod.mk.injEq, not_and]
      refine ⟨⟨fun h => absurd h h1, fun h => absurd h h2, fun h => absurd h h3⟩,
        ⟨fun h => absurd h h4, fun h => absurd h h5⟩, fun h => absurd h h6⟩
    · rintro ⟨a, b⟩ hq ⟨a', b'⟩ hq' x hx hx'
      obtain ⟨ha, hb⟩ := mem_pairs.1 hq
      obtain ⟨ha', hb'⟩ := mem_pairs.1 hq'
      simp only at ha hb ha' hb'
      simp only [List.mem_cons, List.not_mem_nil, or_false] at hx hx'
      have fin : (a = a' ∧ b = b') → (a, b) = (a', b') := by rintro ⟨rfl, rfl⟩; rfl
      apply fin
      obtain ⟨a1, a2⟩ := succ_mod ha
      obtain ⟨b1, b2⟩ := succ_mod hb
      obtain ⟨a3, a4⟩ := succ_mod ha'
      obtain ⟨b3, b4⟩ := succ_mod hb'
      clear hq hq' fin
      generalize (a + 1) % nx = as at *
      generalize (b + 1) % ny = bs at *
      generalize (a' + 1) % nx = as' at *
      generalize (b' + 1) % ny = bs' at *
      rcases hx with rfl | rfl | rfl | rfl <;> rcases hx' with h | h | h | h <;>
        (obtain ⟨h1, h2⟩ := Prod.mk.inj h
         have h3 := hvi (by assumption) (by assumption) h1
         have h4 := hvi (by assumption) (by assumption) h2
         clear h h1 h2
         omega)
  have hpred : ∀ n a : ℕ, a < n → ∃ a' < n, (a' + 1) % n = a := by
    intro n a h
    by_cases h0 : a = 0
    · exact ⟨n - 1, by omega, by rw [show n - 1 + 1 = n by omega, Nat.mod_self, h0]⟩
    · exact ⟨a - 1, by omega, by rw [show a - 1 + 1 = a by omega, Nat.mod_eq_of_lt h]⟩
  have hswap : ∀ x ∈ M.topo.dsides, x.swap ∈ M.topo.dsides := by
    intro x hx
    rw [hd'] at hx ⊢
    obtain ⟨⟨a, b⟩, hq, hx⟩ := List.mem_flatMap.1 hx
    obtain ⟨ha, hb⟩ := mem_pairs.1 hq
    simp only at ha hb
    simp only [List.mem_cons, List.not_mem_nil, or_false] at hx
    rcases hx with rfl | rfl | rfl | rfl
    · obtain ⟨b', hb', e⟩ := hpred ny b hb
      exact List.mem_flatMap.2 ⟨(a, b'), mem_pairs.2 ⟨ha, hb'⟩, by simp [e]⟩
    · exact List.mem_flatMap.2 ⟨((a + 1) % nx, b), mem_pairs.2 ⟨(succ_mod ha).1, hb⟩, by simp⟩
    · exact List.mem_flatMap.2 ⟨(a, (b + 1) % ny), mem_pairs.2 ⟨ha, (succ_mod hb).1⟩, by simp⟩
    · obtain ⟨a', ha', e⟩ := hpred nx a ha
      exact List.mem_flatMap.2 ⟨(a', b), mem_pairs.2 ⟨ha', hb⟩, by simp [e]⟩
  have hinc : ∀ e < M.topo.numEdges, M.topo.incidence e = 2 := by
    intro e he
    rcases edge_cases hB e he with ⟨i, hi, _⟩ | ⟨x, hx, hs⟩
    · simp at hi
    · rcases hs with h | h
      · exact incidence_two M.topo hW hdn e he (by rw [h]; exact hx) (by rw [h]; exact hswap x hx)
      · exact incidence_two M.topo hW hdn e he (by rw [h]; exact hswap x hx) (by rw [h]; simpa using hx)
  have hcp : ∀ c < M.topo.numCells, (M.topo.cell c).nodes.length = 4 ∧ (M.topo.cell c).nodes.Nodup := by
    intro c hc
    have hc' : c < cells.length := by rw [← hB.numCells']; exact hc
    rw [(hB.cell_eq c hc').1]
    obtain ⟨q, hq, he⟩ := List.mem_map.1 (List.getElem_mem hc')
    rw [← he]
    exact ⟨rfl, hnd q hq⟩
  have hnE : M.topo.numEdges = 2 * nx * ny := by
    have h1 := sum_incidence M.topo hW
    have h2 : ∀ n ≤ M.topo.numEdges, ((List.range n).map M.topo.incidence).sum = 2 * n := by
      intro n hn
      induction n with
      | zero => rfl
      | succ n ih =>
        rw [List.range_succ, List.map_append, List.sum_append, ih (by omega)]
        simp only [List.map_cons, List.map_nil, List.sum_cons, List.sum_nil, hinc n (by omega)]
        omega
    have h3 : ∀ n ≤ M.topo.numCells, ((List.range n).map fun c => (M.topo.cell c).nodes.length).sum = 4 * n := by
      intro n hn
      induction n with
      | zero => rfl
      | succ n ih =>
        rw [List.range_succ, List.map_append, List.sum_append, ih (by omega)]
        simp only [List.map_cons, List.map_nil, List.sum_cons, List.sum_nil, (hcp n (by omega)).1]
        omega
    rw [h2 _ (Nat.le_refl _), h3 _ (Nat.le_refl _), hnc] at h1
    rw [Nat.mul_assoc]
    omega
  refine ⟨hW, hnodes, hnc, hnE, ?_, hcp, hinc, ?_, ?_⟩
  · rw [hnodes, hnc, hnE]; ring
  · intro i hi j hj
    have hg := pairs_get (n := ny) (m := nx) (a := j) (b := i) hj hi
    have h1 : nodes[i + j * nx]? = some (some (geo.point (pos i j))) := by
      simp only [nodes, List.getElem?_map]
      rw [show i + j * nx = j * nx + i by omega, hg]
      rfl
    rw [← hB.points, List.getElem?_map] at h1
    cases h2 : M.points[i + j * nx]? with
    | none => rw [h2] at h1; simp at h1
    | some g => rw [h2] at h1; simpa using h1
  · intro i hi j hj
    have hg := pairs_get hi hj
    have hlt : i * ny + j < cells.length := by
      have := (List.getElem?_eq_some_iff.1 hg).1
      rwa [pairs_length, ← hcl] at this
    rw [(hB.cell_eq _ hlt).1]
    have : cells[i * ny + j] = tcell nx ny cg (i, j) := by
      have h2 := List.getElem_map (tcell nx ny cg) (l := pairs nx ny) (i := i * ny + j) (h := hlt)
      rw [h2, (List.getElem?_eq_some_iff.1 hg).2]
    rw [this]
    rfl

/-- With a single cell in one direction the builder fails (an edge would connect a node with itself). -/
theorem C25_fails_one {P : Type} (ops : GeoOps G) (chk : Bool) (geo : BuilderGeo P G) (pos : ℕ → ℕ → P)
    (p : Params K) (hx : 1 ≤ p.nx) (hy : 1 ≤ p.ny) (h1 : p.nx = 1 ∨ p.ny = 1)
    (hbx : ¬ p.tr.1 - p.bl.1 ≤ 0) (hby : ¬ p.tr.2 - p.bl.2 ≤ 0) :
    torus ops chk geo pos p {} = none := by
  rw [torus_run ops chk geo pos p hx hy hbx hby]
  have hsome : ∀ x ∈ ((pairs p.ny p.nx).map fun q => some (geo.point (pos q.2 q.1))), x.isSome = true := by
    intro x hx
    obtain ⟨q, _, rfl⟩ := List.mem_map.1 hx
    rfl
  rcases buildMesh_spec ops _ [] ((pairs p.nx p.ny).map (tcell p.nx p.ny fun q => geo.quad (pos q.1 q.2)
      (pos (q.1 + 1) q.2) (pos (q.1 + 1) (q.2 + 1)) (pos q.1 (q.2 + 1)))) chk hsome with ⟨⟨hv, _⟩, _⟩ | ⟨_, h⟩
  · exfalso
    have := hv.cell_ne _ (List.mem_map.2 ⟨(0, 0), mem_pairs.2 ⟨by simp only; omega, by simp only; omega⟩, rfl⟩)
    rcases h1 with h | h
    · exact this 0 (by simp [tcell]) (by simp [tcell, side, h])
    · exact this 1 (by simp [tcell]) (by simp [tcell, side, h])
  · rw [h]; rfl

/-- With two cells in one direction edges get identified: for `nx = 2`, `ny = 3` the builder succeeds with
9 instead of 12 edges. -/
theorem C25_fails_two : ∃ (ops : GeoOps Unit) (geo : BuilderGeo Unit Unit) (pos : ℕ → ℕ → Unit)
    (p : Params ℚ) (M : Mesh Unit), p.nx = 2 ∧ p.ny = 3 ∧ torus ops true geo pos p {} = some (some M) ∧
      M.topo.numEdges = 9 ∧ ∃ e < M.topo.numEdges, M.topo.incidence e = 4 := by
  have h : ∃ M, buildMesh (⟨fun _ _ _ => (), fun _ _ => (), fun _ _ _ => (), fun _ _ _ _ => ()⟩ : GeoOps Unit)
      ((pairs 3 2).map fun _ => some ()) []
      ((pairs 2 3).map (tcell 2 3 fun _ => ())) true = some M ∧
      M.topo.numEdges = 9 ∧ ∃ e < M.topo.numEdges, M.topo.incidence e = 4 := by
    refine ⟨_, rfl, by decide, 0, by decide, by decide⟩
  obtain ⟨M, h1, h2, h3⟩ := h
  refine ⟨⟨fun _ _ _ => (), fun _ _ => (), fun _ _ _ => (), fun _ _ _ _ => ()⟩,
    ⟨fun _ => (), fun _ _ => (), fun _ _ _ => (), fun _ _ _ _ => ()⟩, fun _ _ => (),
    ⟨(0, 0), (1, 1), 2, 3⟩, M, rfl, rfl, ?_, h2, h3⟩
  rw [torus_run _ _ _ _ _ (by decide) (by decide) (by norm_num) (by norm_num)]
  exact congrArg (Option.map some) h1

/-- No mesh for an empty grid or an empty rectangle. -/
theorem C25_torus_null {P : Type} (ops : GeoOps G) (chk : Bool) (geo : BuilderGeo P G) (pos : ℕ → ℕ → P)
    (p : Params K) (f : Factory G)
    (h : p.nx = 0 ∨ p.ny = 0 ∨ p.tr.1 - p.bl.1 ≤ 0 ∨ p.tr.2 - p.bl.2 ≤ 0) :
    torus ops chk geo pos p f = some none := by
  unfold torus
  split_ifs with h1 h2
  · rfl
  · rfl
  · exfalso
    rw [Nat.mul_eq_zero] at h1
    tauto

/-! ### Concrete cases -/

section Examples
private def uops : GeoOps Unit := ⟨fun _ _ _ => (), fun _ _ => (), fun _ _ _ => (), fun _ _ _ _ => ()⟩
private def ugeo (P : Type) : BuilderGeo P Unit := ⟨fun _ => (), fun _ _ => (), fun _ _ _ => (), fun _ _ _ _ => ()⟩

example := C23_tpTriag (K := ℚ) uops true (ugeo _) ⟨(0, 0), (1, 1), 3, 2⟩ (by decide) (by decide)
  (by norm_num) (by norm_num)
example := C24_tpQuad (K := ℚ) uops true (ugeo _) ⟨(0, 0), (1, 1), 3, 2⟩ (by decide) (by decide)
  (by norm_num) (by norm_num)
example := C25_torus_partial (K := ℚ) uops true (ugeo Unit) (fun _ _ => ()) ⟨(0, 0), (1, 1), 3, 4⟩
  (by decide) (by decide) (by norm_num) (by norm_num)
end Examples

end Verif
