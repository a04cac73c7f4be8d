import Verif.Lemmas.IpdgPost
import Verif.Lemmas.LagrConform

/-!
# C96, C97: normals, tangents and velocities of the interior penalty method for the Stokes system
-/

namespace Verif
open Geo Dpg Ipdg

/-! ## A mesh for the examples

The unit square with its centre; three of the triangles are numbered counterclockwise, the last one clockwise. -/

def stokesTopo : Topo where
  numNodes := 5
  numEdges := 8
  numCells := 4
  edge e := ([(0, 1), (1, 2), (2, 3), (3, 0), (0, 4), (1, 4), (2, 4), (3, 4)] : List (ℕ × ℕ)).getD e (0, 0)
  cell c := ([⟨[0, 1, 4], [0, 5, 4], [true, true, false]⟩, ⟨[1, 2, 4], [1, 6, 5], [true, true, false]⟩,
    ⟨[2, 3, 4], [2, 7, 6], [true, true, false]⟩, ⟨[3, 4, 0], [7, 4, 3], [true, false, false]⟩] : List TCell).getD c ⟨[], [], []⟩

def stokesPos (v : ℕ) : Vec ℝ 2 := ([![0, 0], ![2, 0], ![2, 2], ![0, 2], ![1, 1]] : List (Vec ℝ 2)).getD v 0

noncomputable def stokesGeo (e : Ent) : Option (Geo ℝ 2) :=
  if e.1 = 0 then
    some (.triaO1 (stokesPos (corner stokesTopo e.2 0)) (stokesPos (corner stokesTopo e.2 1)) (stokesPos (corner stokesTopo e.2 2)))
  else some (.segO1 (stokesPos (stokesTopo.edge e.2).1) (stokesPos (stokesTopo.edge e.2).2))

theorem stokesTopo_WF : stokesTopo.WF := by
  constructor <;> decide

theorem stokes_area : area2 (tri stokesTopo stokesPos 0) = 2 ∧ area2 (tri stokesTopo stokesPos 1) = 2 ∧
    area2 (tri stokesTopo stokesPos 2) = 2 ∧ area2 (tri stokesTopo stokesPos 3) = -2 := by
  refine ⟨?_, ?_, ?_, ?_⟩ <;> simp [area2, tri, corner, stokesTopo, stokesPos, det2_eq] <;> norm_num

theorem stokesMesh : TriaMesh stokesTopo stokesGeo stokesPos := by
  refine ⟨stokesTopo_WF, by decide, fun c _ => rfl, fun e _ => rfl, fun c hc => ?_⟩
  change area2 (tri stokesTopo stokesPos c) ≠ 0
  obtain ⟨h0, h1, h2, h3⟩ := stokes_area
  change c < 4 at hc
  interval_cases c
  · rw [h0]; norm_num
  · rw [h1]; norm_num
  · rw [h2]; norm_num
  · rw [h3]; norm_num

/-! ## C96 -/

/-- **C96**: for every triangle with three corners not on a line, whatever the orientation of its corners is, `computeOutwardNormals` returns the
outward unit normals of its three sides. -/
theorem C96_normals (p : Fin 3 → Vec ℝ 2) (h : area2 p ≠ 0) :
    ∃ n, computeOutwardNormals (.triaO1 (p 0) (p 1) (p 2)) = some n ∧ ∀ k, IsOutwardNormal p k (n k) :=
  ⟨_, normals_eq p h, fun k => isOutward_normalAt h k⟩

/-- **C96**: `computeTangentials` returns the unit tangents which lead around the triangle counterclockwise. -/
theorem C96_tangents (p : Fin 3 → Vec ℝ 2) (h : area2 p ≠ 0) :
    ∃ t, computeTangentials (.triaO1 (p 0) (p 1) (p 2)) = some t ∧ ∀ k, IsTangent p k (t k) := by
  refine ⟨fun k => turn (normalAt p k), ?_, fun k => isTangent_of_outward (isOutward_normalAt h k)⟩
  rw [computeTangentials, normals_eq p h]
  rfl

/-- There is exactly one outward unit normal and exactly one such tangent for each side, so that `C96_normals` and `C96_tangents` determine the
results. -/
theorem C96_unique (p : Fin 3 → Vec ℝ 2) (h : area2 p ≠ 0) (k : Fin 3) :
    (∀ t, IsTangent p k t ↔ t = tangent p k) ∧ ∃! n, IsOutwardNormal p k n := by
  refine ⟨fun t => ⟨fun ht => isTangent_unique h ht (isTangent_tangent h k), fun ht => ht ▸ isTangent_tangent h k⟩,
    normalAt p k, isOutward_normalAt h k, fun n hn => ?_⟩
  exact turn_inj (isTangent_unique h (isTangent_of_outward hn) (isTangent_of_outward (isOutward_normalAt h k)))

/-- If the corners are on a line, there is a division by zero. -/
theorem C96_degenerate (p : Fin 3 → Vec ℝ 2) (h : area2 p = 0) :
    computeOutwardNormals (.triaO1 (p 0) (p 1) (p 2)) = none ∧ computeTangentials (.triaO1 (p 0) (p 1) (p 2)) = none := by
  have : computeOutwardNormals (.triaO1 (p 0) (p 1) (p 2)) = none := by
    rw [computeOutwardNormals, corners_tria, Option.bind_some]
    have : orientedNormal (p 0) (p 1) (p 2 - p 0) = none := by
      have h0 : dot (![p 1 1 - p 0 1, p 0 0 - p 1 0] : Vec ℝ 2) (p 2 - p 0) = 0 := by
        rw [area2, det2_eq] at h
        rw [dot2]
        simp only [Pi.sub_apply, Matrix.cons_val_zero, Matrix.cons_val_one] at h ⊢
        linarith
      simp [orientedNormal, h0, unitVec, dot2]
    change (orientedNormal (p 0) (p 1) (p 2 - p 0)).bind _ = none
    rw [this]
    rfl
  exact ⟨this, by rw [computeTangentials, this]; rfl⟩

/-- The functions are for triangles only. -/
theorem C96_rejects (g : Geo ℝ 2) (h : g.kind ≠ .tria) : computeOutwardNormals g = none ∧ computeTangentials g = none := by
  have hc : corners g = none := by
    unfold corners
    have hl : ∀ l, (refNodeCoords g.kind).mapM g.global = some l → l.length ≠ 3 := by
      intro l hl
      rw [(mapM_get _ _ _ hl).1]
      cases hk : g.kind <;> simp_all [refNodeCoords]
    rcases hm : (refNodeCoords g.kind).mapM g.global with _ | l
    · rfl
    · have := hl l hm
      match l, this with
      | [], _ => rfl
      | [_], _ => rfl
      | [_, _], _ => rfl
      | [_, _, _], h => exact absurd rfl h
      | _ :: _ :: _ :: _ :: _, _ => rfl
  have : computeOutwardNormals g = none := by rw [computeOutwardNormals, hc]; rfl
  exact ⟨this, by rw [computeTangentials, this]; rfl⟩

/-- **C96**: two triangles with a common side, on different sides of it, get opposite normals and opposite tangents there.  This is what makes sums over the
two sides of an edge jumps. -/
theorem C96_opposite (p q : Fin 3 → Vec ℝ 2) (k j : Fin 3)
    (hc : (p k = q j ∧ p (k + 1) = q (j + 1)) ∨ (p k = q (j + 1) ∧ p (k + 1) = q j))
    (ha : det2 (p (k + 1) - p k) (p (k + 2) - p k) * det2 (p (k + 1) - p k) (q (j + 2) - p k) < 0) :
    ∃ n n' t t', computeOutwardNormals (.triaO1 (p 0) (p 1) (p 2)) = some n ∧
      computeOutwardNormals (.triaO1 (q 0) (q 1) (q 2)) = some n' ∧
      computeTangentials (.triaO1 (p 0) (p 1) (p 2)) = some t ∧ computeTangentials (.triaO1 (q 0) (q 1) (q 2)) = some t' ∧
      n k = -n' j ∧ t k = -t' j := by
  have hp : area2 p ≠ 0 := by
    rw [← area2_shift p k]
    intro h
    rw [h, zero_mul] at ha
    exact lt_irrefl _ ha
  have hq : area2 q ≠ 0 := by
    rw [← area2_shift q j]
    intro h
    have : det2 (p (k + 1) - p k) (q (j + 2) - p k) = 0 := by
      rcases hc with ⟨h1, h2⟩ | ⟨h1, h2⟩
      · rw [h1, h2, h]
      · rw [h1, h2]
        rw [det2_eq] at h ⊢
        simp only [Pi.sub_apply] at h ⊢
        linarith
    rw [this, mul_zero] at ha
    exact lt_irrefl _ ha
  refine ⟨normalAt p, normalAt q, fun k => turn (normalAt p k), fun k => turn (normalAt q k), normals_eq p hp, normals_eq q hq, ?_, ?_,
    normal_neighbours ⟨hc, ha⟩, ?_⟩
  · rw [computeTangentials, normals_eq p hp]; rfl
  · rw [computeTangentials, normals_eq q hq]; rfl
  · change turn (normalAt p k) = -turn (normalAt q j)
    rw [turn_normalAt, turn_normalAt]
    exact tangent_neighbours ⟨hc, ha⟩

/-- A triangle numbered clockwise; and the cells 2 and 3 of the example, of which one is numbered counterclockwise, on different sides of edge 7. -/
example : area2 (![![0, 0], ![0, 2], ![3, 0]] : Fin 3 → Vec ℝ 2) = -6 ∧
    IsOutwardNormal (![![0, 0], ![0, 2], ![3, 0]] : Fin 3 → Vec ℝ 2) 0 ![-1, 0] ∧
    IsTangent (![![0, 0], ![0, 2], ![3, 0]] : Fin 3 → Vec ℝ 2) 0 ![0, -1] ∧
    area2 (![![0, 0], ![1, 2], ![2, 4]] : Fin 3 → Vec ℝ 2) = 0 ∧
    tri stokesTopo stokesPos 2 1 = tri stokesTopo stokesPos 3 0 ∧ tri stokesTopo stokesPos 2 2 = tri stokesTopo stokesPos 3 1 ∧
    det2 (tri stokesTopo stokesPos 2 2 - tri stokesTopo stokesPos 2 1) (tri stokesTopo stokesPos 2 0 - tri stokesTopo stokesPos 2 1) *
      det2 (tri stokesTopo stokesPos 2 2 - tri stokesTopo stokesPos 2 1) (tri stokesTopo stokesPos 3 2 - tri stokesTopo stokesPos 2 1) < 0 := by
  refine ⟨?_, ⟨?_, ?_, ?_⟩, ⟨?_, ?_, ?_⟩, ?_, rfl, rfl, ?_⟩
  · simp [area2, det2_eq]; norm_num
  · simp [dot2]
  · simp [dot2]
  · simp [dot2]
  · simp [dot2]
  · simp [det2_eq]
  · simp [det2_eq]
  · simp [area2, det2_eq]; norm_num
  · simp [tri, corner, stokesTopo, stokesPos, det2_eq]; norm_num

/-! ## C97 -/

/-- The explicit formula `curl` of the specification is the curl `(∂ψ/∂y, -∂ψ/∂x)` of the affine interpolant. -/
theorem C97_curl (p : Fin 3 → Vec ℝ 2) (h : area2 p ≠ 0) (v : Fin 3 → ℝ) (u : Vec ℝ 2) : IsCurl p v u ↔ u = curl p v :=
  ⟨fun hu => isCurl_unique h hu (isCurl_curl h v), fun hu => hu ▸ isCurl_curl h v⟩

variable (m : MeshObj) (geo : Ent → Option (Geo ℝ 2)) (pos : ℕ → Vec ℝ 2) (hM : TriaMesh m.topo geo pos)
  (h : DofHandler) (chk : Bool) (hh : uniformDofHandler m.topo ⟨1, 1, 0, 0⟩ chk = some h)
  (sol : List ℝ) (hs : sol.length = h.numDofs)

include hM hh hs

/-- **C97**: on every mesh of non-degenerate triangles, for every coefficient vector, `extractVelocity` returns a data set which contains for every cell the
curl of the affine function on the cell whose values at the corners are the coefficients of the corners. -/
theorem C97_velocity : ∃ d, extractVelocity m geo h sol = some d ∧ ∀ c < m.topo.numCells, ∃ u, d.read ⟨m.id, (0, c)⟩ = some u ∧
    IsCurl (fun k => pos (corner m.topo c k)) (fun k => sol.getD (corner m.topo c k) 0) u := by
  have hD := nodeEdgeDofs hM.wf (Or.inr rfl) hh
  obtain ⟨d, h1, h2⟩ := fill_spec m 0 (by norm_num) (0 : Vec ℝ 2) (cellVelocity geo h sol)
    (velocity m.topo pos fun v => sol.getD v 0) fun c hc => cellVelocity_eq hM hD hs hc
  exact ⟨d, h1, fun c hc => ⟨_, h2 c hc, isCurl_curl (hM.regular c hc) _⟩⟩

/-- **C97**: `extractBasisFunctionCoefficients` returns the coefficients of the nodes, which are the first entries of the coefficient vector. -/
theorem C97_coefficients : ∃ d, extractBasisFunctionCoefficients m h sol = some d ∧ ∀ v < m.topo.numNodes,
    d.read ⟨m.id, (2, v)⟩ = sol[v]? ∧ v < sol.length := by
  have hD := nodeEdgeDofs hM.wf (Or.inr rfl) hh
  have hlt : ∀ v < m.topo.numNodes, v < sol.length := fun v hv => by rw [hs, hD.numDofs]; omega
  obtain ⟨d, h1, h2⟩ := fill_spec m 2 (by norm_num) (0 : ℝ)
    (fun node => (h.globalDofIndices node).bind fun idx => (idx[0]?).bind fun i => sol[i]?) (fun v => sol.getD v 0) fun v hv => by
      rw [hD.node v hv]
      simp [hlt v hv]
  refine ⟨d, ?_, fun v hv => ⟨?_, hlt v hv⟩⟩
  · rw [← h1, extractBasisFunctionCoefficients]
    congr 1
    funext d0
    congr 1
    funext d e
    rw [Option.bind_assoc]
    congr 1
    funext idx
    rw [Option.bind_assoc]
  · rw [h2 v hv]
    simp [hlt v hv]

/-- **C97**: the flux of the velocity through side `k` of cell `c` in outward
direction is the difference of the coefficients at the ends of the side, in counterclockwise direction; the fluxes through the three sides add up to zero, so
that no mass is created in a cell. -/
theorem C97_flux (c : ℕ) (hc : c < m.topo.numCells) : ∃ d u, extractVelocity m geo h sol = some d ∧ d.read ⟨m.id, (0, c)⟩ = some u ∧
    ∀ n : Fin 3 → Vec ℝ 2, (∀ k, IsOutwardNormal (fun k => pos (corner m.topo c k)) k (n k)) →
      (∀ k : Fin 3, Real.sqrt (dot (pos (corner m.topo c (k + 1)) - pos (corner m.topo c k))
          (pos (corner m.topo c (k + 1)) - pos (corner m.topo c k))) * dot u (n k) =
        Real.sign (area2 fun k => pos (corner m.topo c k)) * (sol.getD (corner m.topo c (k + 1)) 0 - sol.getD (corner m.topo c k) 0)) ∧
      ∑ k : Fin 3, Real.sqrt (dot (pos (corner m.topo c (k + 1)) - pos (corner m.topo c k))
          (pos (corner m.topo c (k + 1)) - pos (corner m.topo c k))) * dot u (n k) = 0 := by
  obtain ⟨d, h1, h2⟩ := C97_velocity m geo pos hM h chk hh sol hs
  obtain ⟨u, h3, h4⟩ := h2 c hc
  refine ⟨d, u, h1, h3, fun n hn => ?_⟩
  have hA := hM.regular c hc
  have key : ∀ k : Fin 3, Real.sqrt (dot (pos (corner m.topo c (k + 1)) - pos (corner m.topo c k))
          (pos (corner m.topo c (k + 1)) - pos (corner m.topo c k))) * dot u (n k) =
        Real.sign (area2 fun k => pos (corner m.topo c k)) * (sol.getD (corner m.topo c (k + 1)) 0 - sol.getD (corner m.topo c k) 0) := by
    intro k
    obtain ⟨n0, -, hu⟩ := (C96_unique _ hA k).2
    rw [hu _ (hn k), ← hu _ (isOutward_normalAt hA k)]
    exact flux_eq hA h4 k
  refine ⟨key, ?_⟩
  rw [Finset.sum_congr rfl fun k _ => key k, Fin.sum_univ_three]
  simp only [show (0 : Fin 3) + 1 = 1 from rfl, show (1 : Fin 3) + 1 = 2 from rfl, show (2 : Fin 3) + 1 = 0 from rfl]
  ring

/-- **C97**: velocities are conforming in `H(div)`: on an edge shared by two cells, the component normal to the edge is the same on both sides. -/
theorem C97_continuous (c c' : ℕ) (hc : c < m.topo.numCells) (hc' : c' < m.topo.numCells) (k k' : Fin 3)
    (he : sideOf m.topo c k = sideOf m.topo c' k') (n : Vec ℝ 2)
    (hn : dot n (pos (corner m.topo c (k + 1)) - pos (corner m.topo c k)) = 0) :
    ∃ d u u', extractVelocity m geo h sol = some d ∧ d.read ⟨m.id, (0, c)⟩ = some u ∧ d.read ⟨m.id, (0, c')⟩ = some u' ∧
      dot u n = dot u' n := by
  obtain ⟨d, h1, h2⟩ := C97_velocity m geo pos hM h chk hh sol hs
  obtain ⟨u, h3, α, g, hi, rfl⟩ := h2 c hc
  obtain ⟨u', h3', α', g', hi', rfl⟩ := h2 c' hc'
  refine ⟨d, _, _, h1, h3, h3', ?_⟩
  set a := corner m.topo c k with ha
  set b := corner m.topo c (k + 1) with hb
  -- both potentials have the same difference along the edge
  have e1 : dot g (pos b - pos a) = sol.getD b 0 - sol.getD a 0 := by
    have := hi k; have := hi (k + 1)
    simp only [← ha, ← hb, dot2, Pi.sub_apply] at *
    linarith
  have e2 : dot g' (pos b - pos a) = sol.getD b 0 - sol.getD a 0 := by
    have s1 := hM.side_ends hc k
    have s2 := hM.side_ends hc' k'
    rw [← he] at s2
    rw [← ha, ← hb] at s1
    have i1 := hi' k'; have i2 := hi' (k' + 1)
    have : (corner m.topo c' k' = a ∧ corner m.topo c' (k' + 1) = b) ∨ (corner m.topo c' k' = b ∧ corner m.topo c' (k' + 1) = a) := by
      unfold SamePair at s1 s2
      rcases s1 with s1 | s1 <;> rcases s2 with s2 | s2 <;> simp_all [Prod.ext_iff]
    rcases this with ⟨x, y⟩ | ⟨x, y⟩ <;>
    · simp only [x, y, dot2, Pi.sub_apply] at *
      linarith
  have hpos : 0 < dot (pos b - pos a) (pos b - pos a) := side_pos (hM.regular c hc) k
  set w := pos b - pos a
  have hdiff : dot g w = dot g' w := by rw [e1, e2]
  rw [dot2] at hn hdiff hpos ⊢
  rw [dot2] at hdiff ⊢
  simp only [Matrix.cons_val_zero, Matrix.cons_val_one]
  have hm : (w 0 * w 0 + w 1 * w 1) * ((g 1 * n 0 + -g 0 * n 1) - (g' 1 * n 0 + -g' 0 * n 1)) = 0 := by
    linear_combination (w 0 * (g 1 - g' 1) - w 1 * (g 0 - g' 0)) * hn + (w 1 * n 0 - w 0 * n 1) * hdiff
  rcases mul_eq_zero.1 hm with h' | h'
  · exact absurd h' hpos.ne'
  · linarith

omit hh hs in
/-- **C97**: `MeshFunctionVelocity` for the linear Lagrangian finite element space and `extractVelocity` agree: at every point of the reference triangle the
mesh function has the value which `extractVelocity` stores for the cell. -/
theorem C97_agrees (U : UniformFESpace ℝ) (hU : lagrangeSpace m.topo 1 = some U) (μ : List ℝ) (hμ : μ.length = U.dofh.numDofs)
    (c : ℕ) (hc : c < m.topo.numCells) (x : List ℝ) (hx : x.length = 2) :
    ∃ u, meshFunctionVelocity (U.space m.topo) geo μ (0, c) x = some u ∧
      IsCurl (fun k => pos (corner m.topo c k)) (fun k => μ.getD (corner m.topo c k) 0) u := by
  have href : m.topo.refEl (0, c) = some .tria := by simp [Topo.refEl, Topo.num, hc, hM.tria c hc]
  have hlay : (U.space m.topo).layout (0, c) = some (lagrO1Tria : RefFE ℝ) ∧ NodeEdgeDofs m.topo U.dofh 0 := by
    rw [lagrangeSpace_eq m.topo 1 (by norm_num)] at hU
    obtain ⟨dh, hdh, rfl⟩ := Option.map_eq_some_iff.mp hU
    refine ⟨?_, nodeEdgeDofs hM.wf (Or.inl rfl) hdh⟩
    change (m.topo.refEl (0, c)).bind _ = _
    rw [href]
    rfl
  obtain ⟨hlay, hD⟩ := hlay
  have hA : area2 (tri m.topo pos c) ≠ 0 := hM.regular c hc
  refine ⟨curl (tri m.topo pos c) fun k => μ.getD (corner m.topo c k) 0, ?_, isCurl_curl hA _⟩
  have hget : ∀ k : Fin 3, μ[corner m.topo c k]? = some (μ.getD (corner m.topo c k) 0) := fun k => by
    have : corner m.topo c k < μ.length := by rw [hμ, hD.numDofs]; have := hM.corner_lt hc k; omega
    simp [this]
  have hloc : (U.space m.topo).localDofs μ (0, c) 3 =
      some [μ.getD (corner m.topo c 0) 0, μ.getD (corner m.topo c 1) 0, μ.getD (corner m.topo c 2) 0] := by
    have hcell := hD.cell c hc
    rw [corner_eq (hM.tria c hc), if_pos rfl, List.append_nil] at hcell
    unfold FeSpace.localDofs
    change (U.dofh.globalDofIndices (0, c)).bind _ = _
    rw [hcell]
    have h0 := hget 0
    have h1 := hget 1
    have h2 := hget 2
    generalize corner m.topo c 0 = i0 at *
    generalize corner m.topo c 1 = i1 at *
    generalize corner m.topo c 2 = i2 at *
    rw [Option.bind_some, show List.range 3 = [0, 1, 2] from rfl]
    simp only [List.mapM_cons, List.mapM_nil, List.getElem?_cons_zero, List.getElem?_cons_succ, Option.bind_some, h0, h1, h2]
    rfl
  match x, hx with
  | [a, b], _ =>
  unfold meshFunctionVelocity FeSpace.gradFE
  rw [hlay, Option.bind_some]
  have hgr : (lagrO1Tria : RefFE ℝ).grad [a, b] = some [[-1, -1], [1, 0], [0, 1]] := rfl
  obtain ⟨A, B, hJ, hA0, hB0⟩ : ∃ A B : Vec ℝ 2, (Geo.triaO1 (pos (corner m.topo c 0)) (pos (corner m.topo c 1))
      (pos (corner m.topo c 2))).jacobianInverseGramian [a, b] = some [A, B] ∧
      curl (tri m.topo pos c) (fun k => μ.getD (corner m.topo c k) 0) =
        (μ.getD (corner m.topo c 1) 0 - μ.getD (corner m.topo c 0) 0) • ![A 1, -A 0] +
        (μ.getD (corner m.topo c 2) 0 - μ.getD (corner m.topo c 0) 0) • ![B 1, -B 0] ∧ True := by
    have hAB : det2 (pos (corner m.topo c 1) - pos (corner m.topo c 0)) (pos (corner m.topo c 2) - pos (corner m.topo c 0)) =
      area2 (tri m.topo pos c) := rfl
    refine ⟨_, _, by simp only [jacobianInverseGramian, Geo.jacobian, if_true, invTranspose2, hAB, if_neg hA]; rfl, ?_, trivial⟩
    ext i
    fin_cases i <;> simp [vec2, entry, curl, Fin.sum_univ_three, tri] <;> ring
  rw [hgr, Option.bind_some]
  change Option.map _ (((U.space m.topo).localDofs μ (0, c) 3).bind _) = _
  rw [hloc, Option.bind_some]
  change Option.map _ ((m.topo.refEl (0, c)).bind _) = _
  rw [href, Option.bind_some, hM.cell c hc]
  simp only [Option.bind_some, hJ]
  generalize μ.getD (corner m.topo c 0) 0 = x0 at *
  generalize μ.getD (corner m.topo c 1) 0 = x1 at *
  generalize μ.getD (corner m.topo c 2) 0 = x2 at *
  rw [hA0]
  simp only [RefEl.dimension, show List.range 2 = [0, 1] from rfl, List.mapM_cons, List.mapM_nil]
  simp [dotRow]
  constructor <;> ring

omit hM hh hs
/-- All hypotheses are met by the mesh of the example and the potential which is 1 in the centre: the velocity on the lower triangle is `(1, 0)`, on the triangle
at the right `(0, 1)`; edge 5 is shared by both. -/
example : TriaMesh stokesTopo stokesGeo stokesPos ∧
    (∃ h, uniformDofHandler stokesTopo ⟨1, 1, 0, 0⟩ false = some h ∧ h.numDofs = 13) ∧
    ([0, 0, 0, 0, 1, 0, 0, 0, 0, 0, 0, 0, 0] : List ℝ).length = 13 ∧
    sideOf stokesTopo 0 1 = sideOf stokesTopo 1 2 ∧
    IsCurl (tri stokesTopo stokesPos 0) ![0, 0, 1] ![1, 0] ∧ IsCurl (tri stokesTopo stokesPos 1) ![0, 0, 1] ![0, 1] ∧
    (lagrangeSpace stokesTopo 1 : Option (UniformFESpace ℝ)).isSome := by
  refine ⟨stokesMesh, ?_, rfl, rfl, ⟨0, ![0, 1], fun i => ?_, ?_⟩, ⟨2, ![-1, 0], fun i => ?_, ?_⟩, by decide +kernel⟩
  · obtain ⟨h, hh, -⟩ := C09_uniform stokesTopo stokesTopo_WF ⟨1, 1, 0, 0⟩ false
    exact ⟨h, hh, (nodeEdgeDofs stokesTopo_WF (Or.inr rfl) hh).numDofs⟩
  · fin_cases i <;> simp [dot2, tri, corner, stokesTopo, stokesPos]
  · ext i; fin_cases i <;> simp
  · fin_cases i <;> simp [dot2, tri, corner, stokesTopo, stokesPos] <;> norm_num
  · ext i; fin_cases i <;> simp

end Verif
