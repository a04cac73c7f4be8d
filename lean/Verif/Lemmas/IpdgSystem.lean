import Verif.Lemmas.IpdgPost

/-!
# Lemmas: the linear system of the interior penalty method for the Stokes system
-/

namespace Verif.Ipdg
open Verif Geo Dpg Finset

/-! ## Element matrices and vectors -/

def lo (k : Fin 3) : Fin 6 := ⟨k.val, by omega⟩
def hi (k : Fin 3) : Fin 6 := ⟨3 + k.val, by omega⟩

theorem dot_curl (p : Fin 3 → Vec ℝ 2) (v : Fin 3 → ℝ) (t : Vec ℝ 2) :
    dot (curl p v) t = ∑ i, v i * dot ((area2 p)⁻¹ • (p (i + 2) - p (i + 1))) t := by
  unfold curl
  rw [Fin.sum_univ_three, Fin.sum_univ_three]
  simp only [dot2, Pi.smul_apply, Pi.add_apply, smul_eq_mul]
  ring

variable {m : MeshObj} {geo : Ent → Option (Geo ℝ 2)} {pos : ℕ → Vec ℝ 2}

theorem edgeLength_side {T : Topo} (hM : TriaMesh T geo pos) {c : ℕ} (hc : c < T.numCells) (k : Fin 3) :
    edgeLength T pos (sideOf T c k) =
      Real.sqrt (dot (tri T pos c (k + 1) - tri T pos c k) (tri T pos c (k + 1) - tri T pos c k)) := by
  unfold edgeLength
  congr 1
  rcases hM.side_ends hc k with h | h <;> rw [h, dot2, dot2] <;> simp only [tri, Pi.sub_apply, Prod.fst_swap, Prod.snd_swap] <;> ring

theorem edgeLength_pos {T : Topo} (hM : TriaMesh T geo pos) {c : ℕ} (hc : c < T.numCells) (k : Fin 3) :
    0 < edgeLength T pos (sideOf T c k) := by
  rw [edgeLength_side hM hc k]
  exact Real.sqrt_pos.2 (side_pos (hM.regular c hc) k)

/-- The diagonal entry for an edge, as seen from one cell. -/
noncomputable def penEntry (T : Topo) (pos : ℕ → Vec ℝ 2) (sigma : ℝ) (modified : Bool) (bd : ℕ → Bool) (e : ℕ) : ℝ :=
  -(1 / penalty T pos sigma modified e) * (if bd e then 1 else 1 / 2)

theorem penaltyEntry_eq (hM : TriaMesh m.topo geo pos) {sigma : ℝ} (hσ : sigma ≠ 0) {boundary : AllDS Bool} {modified : Bool} {bd : ℕ → Bool}
    (hbd : ∀ e < m.topo.numEdges, boundary.read ⟨m.id, (1, e)⟩ = some (bd e)) {c : ℕ} (hc : c < m.topo.numCells) (k : Fin 3) :
    penaltyEntry m geo sigma boundary modified (1, sideOf m.topo c k) =
      some (penEntry m.topo pos sigma modified bd (sideOf m.topo c k)) := by
  have he := hM.side_lt hc k
  have hl := (edgeLength_pos hM hc k).ne'
  unfold penaltyEntry penEntry penalty
  rw [if_neg hσ, hbd _ he]
  cases modified with
  | false =>
    simp only [Bool.false_eq_true, if_false, Option.bind_some, Option.map_some]
    congr 1
    split <;> ring
  | true =>
    have hv : (Geo.segO1 (pos (m.topo.edge (sideOf m.topo c k)).1) (pos (m.topo.edge (sideOf m.topo c k)).2)).volume =
        some (edgeLength m.topo pos (sideOf m.topo c k)) := by
      simp [volume, Geo.kind, integrationElement, edgeLength]
    simp only [if_true, hM.edge _ he, Option.bind_some, hv, if_neg hl, Option.map_some]
    congr 1
    split <;> field_simp

/-- The bilinear form of one cell. -/
noncomputable def localForm (T : Topo) (pos : ℕ → Vec ℝ 2) (pen : ℕ → ℝ) (c : ℕ) (a b : Fin 6 → ℝ) : ℝ :=
  ∑ k : Fin 3, (a (hi k) * dot (curl (tri T pos c) fun i => b (lo i)) (tangent (tri T pos c) k) +
    dot (curl (tri T pos c) fun i => a (lo i)) (tangent (tri T pos c) k) * b (hi k) + a (hi k) * pen (sideOf T c k) * b (hi k))

theorem subEntities_cell {T : Topo} (hM : TriaMesh T geo pos) {c : ℕ} (hc : c < T.numCells) :
    T.subEntities (0, c) 1 = some [(1, sideOf T c 0), (1, sideOf T c 1), (1, sideOf T c 2)] := by
  simp only [Topo.subEntities]
  conv_lhs => rw [sideOf_eq (hM.edges_len hc)]
  rfl

theorem elementMatrix_eq (hM : TriaMesh m.topo geo pos) {sigma : ℝ} (hσ : sigma ≠ 0) {boundary : AllDS Bool} {modified : Bool} {bd : ℕ → Bool}
    (hbd : ∀ e < m.topo.numEdges, boundary.read ⟨m.id, (1, e)⟩ = some (bd e)) {c : ℕ} (hc : c < m.topo.numCells) :
    ∃ M : Matrix (Fin 6) (Fin 6) ℝ, elementMatrix m geo sigma boundary modified (0, c) = some ⟨6, M⟩ ∧
      ∀ a b, a ⬝ᵥ M.mulVec b = localForm m.topo pos (penEntry m.topo pos sigma modified bd) c a b := by
  unfold elementMatrix
  rw [hM.cell c hc, Option.bind_some]
  have hA : area2 (tri m.topo pos c) ≠ 0 := hM.regular c hc
  have hn := normals_eq (tri m.topo pos c) hA
  have hb := basis_eq (tri m.topo pos c) hA
  unfold tri at hn hb
  rw [hn, Option.bind_some, hb, Option.bind_some, subEntities_cell hM hc, Option.bind_some]
  simp only [List.getElem?_cons_zero, List.getElem?_cons_succ, Option.bind_some, penaltyEntry_eq hM hσ hbd hc, turn_normalAt]
  refine ⟨_, rfl, fun a b => ?_⟩
  simp only [localForm, dot_curl]
  change _ = ∑ k : Fin 3, (a (hi k) * (∑ i, b (lo i) * dot ((area2 (fun k => pos (corner m.topo c k)))⁻¹ • (pos (corner m.topo c (i + 2)) -
    pos (corner m.topo c (i + 1)))) (tangent (fun k => pos (corner m.topo c k)) k)) + (∑ i, a (lo i) * dot ((area2 (fun k => pos (corner m.topo c k)))⁻¹ •
    (pos (corner m.topo c (i + 2)) - pos (corner m.topo c (i + 1)))) (tangent (fun k => pos (corner m.topo c k)) k)) * b (hi k) +
    a (hi k) * penEntry m.topo pos sigma modified bd (sideOf m.topo c k) * b (hi k))
  generalize hW : (fun (edge func : Fin 3) => dot ((area2 (fun k => pos (corner m.topo c k)))⁻¹ • (pos (corner m.topo c (func + 2)) -
    pos (corner m.topo c (func + 1)))) (tangent (fun k => pos (corner m.topo c k)) edge)) = W
  have hW' : ∀ k i, dot ((area2 (fun k => pos (corner m.topo c k)))⁻¹ • (pos (corner m.topo c (i + 2)) -
    pos (corner m.topo c (i + 1)))) (tangent (fun k => pos (corner m.topo c k)) k) = W k i := fun k i => by rw [← hW]
  simp only [hW']
  generalize penEntry m.topo pos sigma modified bd = P
  simp only [dotProduct, Matrix.mulVec, Fin.sum_univ_three, Fin.sum_univ_six, lo, hi]
  simp
  ring

/-- The load on one cell for a constant field. -/
noncomputable def cellLoad (qr : QuadRule ℝ) (f : Vec ℝ 2 → Vec ℝ 2) (p : Fin 3 → Vec ℝ 2) (u : Vec ℝ 2) : ℝ :=
  |area2 p| * ((List.zip qr.points qr.weights).map fun q => q.2 * dot (f (triPoint p q.1)) u).sum

theorem loadSum_aux (f : Vec ℝ 2 → Vec ℝ 2) (p : Fin 3 → Vec ℝ 2) (u : Vec ℝ 2) (J : ℝ) : ∀ (pts : List (List ℝ)) (ws : List ℝ),
    pts.length = ws.length →
    ((List.zip (pts.map (triPoint p)) (List.zipWith (· * ·) (pts.map fun _ => J) ws)).map fun q => dot u (f q.1) * q.2).sum =
      J * ((List.zip pts ws).map fun q => q.2 * dot (f (triPoint p q.1)) u).sum
  | [], [], _ => by simp
  | x :: pts, w :: ws, h => by
    have := loadSum_aux f p u J pts ws (by simpa using h)
    simp only [List.map_cons, List.zipWith_cons_cons, List.zip_cons_cons, List.sum_cons, this, mul_add]
    rw [dot_comm2 u (f (triPoint p x))]
    ring

theorem loadHead_eq (p : Fin 3 → Vec ℝ 2) (basis : Fin 3 → Vec ℝ 2) (f : Vec ℝ 2 → Vec ℝ 2) (qr : QuadRule ℝ)
    (hq : qr.WellFormed) (hr : qr.ref = .tria) :
    loadHead (.triaO1 (p 0) (p 1) (p 2)) basis f qr = some fun k => cellLoad qr f p (basis k) := by
  have hpt : ∀ x ∈ qr.points, ∃ a b, x = [a, b] := fun x hx => by
    have := hq.1 x hx
    rw [hr] at this
    match x, this with
    | [a, b], _ => exact ⟨a, b, rfl⟩
  have h1 : qr.points.mapM (Geo.triaO1 (p 0) (p 1) (p 2)).global = some (qr.points.map (triPoint p)) := by
    rw [mapM_congr_mem (g := fun x => some (triPoint p x))]
    · exact List.mapM_pure (m := Option)
    · intro x hx
      obtain ⟨a, b, rfl⟩ := hpt x hx
      simp only [Geo.global, triPoint]
      congr 1
      ext i
      simp
      ring
  have h2 : qr.points.mapM (Geo.triaO1 (p 0) (p 1) (p 2)).integrationElement = some (qr.points.map fun _ => |area2 p|) := by
    rw [mapM_congr_mem (g := fun _ => some |area2 p|)]
    · exact List.mapM_pure (m := Option)
    · intro x hx
      obtain ⟨a, b, rfl⟩ := hpt x hx
      rfl
  unfold loadHead
  rw [h1, Option.bind_some, h2, Option.bind_some, if_pos (by simp [hq.2])]
  refine congrArg some (funext fun k => ?_)
  exact loadSum_aux f p (basis k) |area2 p| qr.points qr.weights hq.2.symm

theorem cellLoad_curl (qr : QuadRule ℝ) (f : Vec ℝ 2 → Vec ℝ 2) (p : Fin 3 → Vec ℝ 2) (v : Fin 3 → ℝ) :
    cellLoad qr f p (curl p v) = ∑ i, v i * cellLoad qr f p ((area2 p)⁻¹ • (p (i + 2) - p (i + 1))) := by
  unfold cellLoad
  generalize |area2 p| = J
  simp only [dot_comm2 (f _), dot_curl]
  induction List.zip qr.points qr.weights with
  | nil => simp
  | cons q l ih =>
    simp only [List.map_cons, List.sum_cons, mul_add, ih, Finset.sum_add_distrib]
    congr 1
    rw [Finset.mul_sum, Finset.mul_sum]
    exact Finset.sum_congr rfl fun i _ => by ring

/-- The linear form of one cell. -/
noncomputable def localLoad (T : Topo) (pos : ℕ → Vec ℝ 2) (qr : QuadRule ℝ) (f : Vec ℝ 2 → Vec ℝ 2) (g : ℕ → Vec ℝ 2) (bd : ℕ → Bool)
    (c : ℕ) (a : Fin 6 → ℝ) : ℝ :=
  cellLoad qr f (tri T pos c) (curl (tri T pos c) fun i => a (lo i)) +
    ∑ k : Fin 3, a (hi k) * (if bd (sideOf T c k) then dot (g (sideOf T c k)) (tangent (tri T pos c) k) else 0)

theorem elementVector_eq (hM : TriaMesh m.topo geo pos) {boundary : AllDS Bool} {bd : ℕ → Bool}
    (hbd : ∀ e < m.topo.numEdges, boundary.read ⟨m.id, (1, e)⟩ = some (bd e)) {qr : QuadRule ℝ} (hq : qr.WellFormed) (hr : qr.ref = .tria)
    (f : Vec ℝ 2 → Vec ℝ 2) (g : ℕ → Vec ℝ 2) {c : ℕ} (hc : c < m.topo.numCells) :
    ∃ V : Fin 6 → ℝ, elementVector m geo f qr boundary g (0, c) = some ⟨6, V⟩ ∧
      ∀ a, a ⬝ᵥ V = localLoad m.topo pos qr f g bd c a := by
  have hA : area2 (tri m.topo pos c) ≠ 0 := hM.regular c hc
  have hg : geo (0, c) = some (.triaO1 (tri m.topo pos c 0) (tri m.topo pos c 1) (tri m.topo pos c 2)) := hM.cell c hc
  have hle : ∀ k : Fin 3, loadEdge m boundary g (normalAt (tri m.topo pos c) k) (1, sideOf m.topo c k) =
      some (if bd (sideOf m.topo c k) then dot (g (sideOf m.topo c k)) (tangent (tri m.topo pos c) k) else 0) := fun k => by
    rw [loadEdge, hbd _ (hM.side_lt hc k), turn_normalAt]
    rfl
  unfold elementVector
  rw [hg, Option.bind_some, basis_eq _ hA, Option.bind_some, loadHead_eq _ _ f qr hq hr, Option.bind_some, normals_eq _ hA, Option.bind_some,
    subEntities_cell hM hc, Option.bind_some]
  simp only [List.getElem?_cons_zero, List.getElem?_cons_succ, Option.bind_some, hle]
  refine ⟨_, rfl, fun a => ?_⟩
  unfold localLoad
  rw [cellLoad_curl]
  generalize (fun i : Fin 3 => cellLoad qr f (tri m.topo pos c) ((area2 (tri m.topo pos c))⁻¹ • (tri m.topo pos c (i + 2) - tri m.topo pos c (i + 1)))) = L
  simp only [dotProduct, Fin.sum_univ_three, Fin.sum_univ_six, lo, hi]
  simp
  ring

/-! ## Sums over sides -/

/-- Sums over the sides of all cells, edge by edge. -/
theorem sum_sides {T : Topo} (hM : TriaMesh T geo pos) (F : ℕ → Fin 3 → ℝ) :
    ∑ c ∈ range T.numCells, ∑ k, F c k = ∑ e ∈ range T.numEdges, ∑ s ∈ sidesAt T e, F s.1 s.2 := by
  rw [← Finset.sum_product', ← Finset.sum_fiberwise_of_maps_to (t := range T.numEdges) (g := fun s : ℕ × Fin 3 => sideOf T s.1 s.2)]
  · rfl
  · rintro ⟨c, k⟩ h
    rw [Finset.mem_product, Finset.mem_range] at h
    exact Finset.mem_range.2 (hM.side_lt h.1 k)

theorem mem_sidesAt {T : Topo} {e c : ℕ} {k : Fin 3} : (c, k) ∈ sidesAt T e ↔ c < T.numCells ∧ sideOf T c k = e := by
  simp [sidesAt]

theorem onBoundary_iff {T : Topo} (hM : TriaMesh T geo pos) (e : ℕ) : T.OnBoundary e ↔ (sidesAt T e).card = 1 := by
  have key : ∀ c < T.numCells, ∀ j, (T.cell c).edges[j]? = some e ↔ ∃ k : Fin 3, k.val = j ∧ sideOf T c k = e := by
    intro c hc j
    have hl := hM.edges_len hc
    constructor
    · intro h
      have hj : j < 3 := by
        rw [← hl]
        exact (List.getElem?_eq_some_iff.1 h).1
      exact ⟨⟨j, hj⟩, rfl, by simp [sideOf, h]⟩
    · rintro ⟨k, rfl, h⟩
      have hk : k.val < (T.cell c).edges.length := by rw [hl]; exact k.2
      rw [List.getElem?_eq_getElem hk, ← h, sideOf, List.getD_eq_getElem _ _ hk]
  rw [Finset.card_eq_one]
  constructor
  · rintro ⟨⟨c, j⟩, ⟨h1, h2⟩, h3⟩
    obtain ⟨k, rfl, h4⟩ := (key c h1 j).1 h2
    refine ⟨(c, k), Finset.ext fun ⟨c', k'⟩ => ?_⟩
    rw [mem_sidesAt, Finset.mem_singleton]
    constructor
    · rintro ⟨a, b⟩
      have := h3 (c', k'.val) ⟨a, (key c' a _).2 ⟨k', rfl, b⟩⟩
      simp only [Prod.mk.injEq] at this
      rw [Prod.mk.injEq]
      exact ⟨this.1, Fin.ext this.2⟩
    · rintro h
      rw [Prod.mk.injEq] at h
      obtain ⟨rfl, rfl⟩ := h
      exact ⟨h1, h4⟩
  · rintro ⟨⟨c, k⟩, h⟩
    have hm : (c, k) ∈ sidesAt T e := by rw [h]; simp
    rw [mem_sidesAt] at hm
    refine ⟨(c, k.val), ⟨hm.1, (key c hm.1 _).2 ⟨k, rfl, hm.2⟩⟩, ?_⟩
    rintro ⟨c', j⟩ ⟨a, b⟩
    obtain ⟨k', rfl, h4⟩ := (key c' a j).1 b
    have : (c', k') ∈ sidesAt T e := mem_sidesAt.2 ⟨a, h4⟩
    rw [h, Finset.mem_singleton, Prod.mk.injEq] at this
    rw [this.1, this.2]

/-- What the functions of the project see of boundary flags. -/
theorem boundary_flags (m : MeshObj) (hT : m.topo.WF) : ∃ d, ∃ bd bn : ℕ → Bool, flagAllEntitiesOnBoundary m = some d ∧
    (∀ e < m.topo.numEdges, d.read ⟨m.id, (1, e)⟩ = some (bd e) ∧ (bd e = true ↔ m.topo.OnBoundary e)) ∧
    (∀ v < m.topo.numNodes, d.read ⟨m.id, (2, v)⟩ = some (bn v) ∧ (bn v = true ↔ BoundaryNode m.topo v)) := by
  obtain ⟨d, h1, -, h2, h3⟩ := C21_all m hT
  refine ⟨d, fun e => (d.read ⟨m.id, (1, e)⟩).getD false, fun v => (d.read ⟨m.id, (2, v)⟩).getD false, h1, fun e he => ?_, fun v hv => ?_⟩
  · obtain ⟨b, h4, h5⟩ := h2 e he
    simp [h4, h5]
  · obtain ⟨b, h4, h5⟩ := h3 v hv
    simp only [h4, Option.getD_some, true_and]
    exact h5

/-! ## The assembled system -/

section
variable (hM : TriaMesh m.topo geo pos) {h : DofHandler} {chk : Bool} (hh : uniformDofHandler m.topo ⟨1, 1, 0, 0⟩ chk = some h)
  (hfit : h.numDofs < 2 ^ 31)
include hM hh

theorem dofSpace_ok (hfit : h.numDofs < 2 ^ 31) : (dofSpace m.topo h).DofsOk := by
  cases chk with
  | false =>
    obtain ⟨h1, -, h3⟩ := C11_uniform_unoriented _ hM.wf _ h hh
    exact ⟨h1, h3, hfit⟩
  | true =>
    obtain ⟨h1, -, h3⟩ := C11_uniform _ hM.wf _ h hh
    exact ⟨h1, h3, hfit⟩

theorem all_cell (hfit : h.numDofs < 2 ^ 31) {c : ℕ} (hc : c < m.topo.numCells) : (dofSpace m.topo h).dofh.all (0, c) =
    [corner m.topo c 0, corner m.topo c 1, corner m.topo c 2, m.topo.numNodes + sideOf m.topo c 0,
      m.topo.numNodes + sideOf m.topo c 1, m.topo.numNodes + sideOf m.topo c 2] := by
  have h1 := ((dofSpace_ok hM hh hfit).answers (0, c) ⟨by simp, hc⟩).2.1
  have h2 := (nodeEdgeDofs hM.wf (Or.inr rfl) hh).cell c hc
  have h3 : some (h.all (0, c)) = some _ := h1.symm.trans h2
  have h4 := Option.some.inj h3
  change h.all (0, c) = _
  rw [h4, if_neg one_ne_zero, corner_eq (hM.tria c hc), sideOf_eq (hM.edges_len hc)]
  rfl

theorem loc_lo (hfit : h.numDofs < 2 ^ 31) {c : ℕ} (hc : c < m.topo.numCells) (u : List ℝ) (k : Fin 3) :
    (dofSpace m.topo h).loc u (0, c) 6 (lo k) = u.getD (corner m.topo c k) 0 := by
  unfold FeSpace.loc
  rw [all_cell hM hh hfit hc]
  fin_cases k <;> rfl

theorem loc_hi (hfit : h.numDofs < 2 ^ 31) {c : ℕ} (hc : c < m.topo.numCells) (u : List ℝ) (k : Fin 3) :
    (dofSpace m.topo h).loc u (0, c) 6 (hi k) = u.getD (m.topo.numNodes + sideOf m.topo c k) 0 := by
  unfold FeSpace.loc
  rw [all_cell hM hh hfit hc]
  fin_cases k <;> rfl

theorem entities_cells {c : Ent} (hc : c ∈ ((dofSpace m.topo h).entities 0).filter fun _ => true) : ∃ i < m.topo.numCells, c = (0, i) := by
  obtain ⟨i, hi, rfl⟩ := List.mem_map.1 (List.mem_filter.1 hc).1
  exact ⟨i, List.mem_range.1 hi, rfl⟩

theorem sum_entities (F : Ent → ℝ) : ((((dofSpace m.topo h).entities 0).filter fun _ => true).map F).sum =
    ∑ c ∈ range m.topo.numCells, F (0, c) := by
  rw [List.filter_true, FeSpace.entities, List.map_map, Finset.sum_range, ← List.sum_ofFn]
  congr 1
  apply List.ext_getElem
  · simp [dofSpace, Topo.num]
  · intro i h1 h2
    simp

/-- The bilinear form of the matrix before boundary conditions are imposed. -/
theorem matrix_form (hfit : h.numDofs < 2 ^ 31) (hman : Manifold m.topo) {sigma : ℝ} (hσ : sigma ≠ 0) {boundary : AllDS Bool} {modified : Bool}
    {bd : ℕ → Bool} (hbd : ∀ e < m.topo.numEdges, boundary.read ⟨m.id, (1, e)⟩ = some (bd e) ∧ (bd e = true ↔ m.topo.OnBoundary e)) :
    ∃ A D, assembleMatrixFE (dofSpace m.topo h) 0 (fun _ => true) (elementMatrix m geo sigma boundary modified) (Coo.mk' h.numDofs h.numDofs) =
      some A ∧ A.makeDense = some D ∧ D.rows = h.numDofs ∧ D.cols = h.numDofs ∧ ∀ ν μ : List ℝ, D.form ν μ =
        ∑ e ∈ range m.topo.numEdges, (ν.getD (m.topo.numNodes + e) 0 * jump m.topo pos (fun v => μ.getD v 0) e +
          jump m.topo pos (fun v => ν.getD v 0) e * μ.getD (m.topo.numNodes + e) 0 -
          ν.getD (m.topo.numNodes + e) 0 * μ.getD (m.topo.numNodes + e) 0 / penalty m.topo pos sigma modified e) := by
  obtain ⟨D0, d1, d2, d3, d4⟩ := empty_dense h.numDofs
  obtain ⟨A, D, h1, h2, h3, h4, h5⟩ := assembleMatrixFE_rep (dofSpace_ok hM hh hfit) 0 (by omega) (fun _ => true)
    (elementMatrix m geo sigma boundary modified) (fun _ => lagrO2Tria)
    (fun e he => by
      obtain ⟨c, hc, rfl⟩ := entities_cells hM hh he
      rw [all_cell hM hh hfit hc]
      rfl)
    (fun e a b => localForm m.topo pos (penEntry m.topo pos sigma modified bd) e.2 a b)
    (fun e he => by
      obtain ⟨c, hc, rfl⟩ := entities_cells hM hh he
      exact elementMatrix_eq hM hσ (fun e he => (hbd e he).1) hc) _ D0 d1 d2 d3
  refine ⟨A, D, h1, h2, h3, h4, fun ν μ => ?_⟩
  rw [h5, d4, zero_add, sum_entities hM hh]
  have key : ∀ c ∈ range m.topo.numCells, localForm m.topo pos (penEntry m.topo pos sigma modified bd) c
      ((dofSpace m.topo h).loc ν (0, c) 6) ((dofSpace m.topo h).loc μ (0, c) 6) = ∑ k : Fin 3,
        (ν.getD (m.topo.numNodes + sideOf m.topo c k) 0 * dot (velocity m.topo pos (fun v => μ.getD v 0) c) (tangent (tri m.topo pos c) k) +
        dot (velocity m.topo pos (fun v => ν.getD v 0) c) (tangent (tri m.topo pos c) k) * μ.getD (m.topo.numNodes + sideOf m.topo c k) 0 +
        ν.getD (m.topo.numNodes + sideOf m.topo c k) 0 * penEntry m.topo pos sigma modified bd (sideOf m.topo c k) *
          μ.getD (m.topo.numNodes + sideOf m.topo c k) 0) := by
    intro c hc
    rw [Finset.mem_range] at hc
    unfold localForm
    simp only [loc_lo hM hh hfit hc, loc_hi hM hh hfit hc]
    rfl
  refine (Finset.sum_congr rfl key).trans ?_
  rw [sum_sides hM]
  refine Finset.sum_congr rfl fun e he => ?_
  rw [Finset.mem_range] at he
  have hs : ∀ s ∈ sidesAt m.topo e, sideOf m.topo s.1 s.2 = e := fun s hs => (mem_sidesAt.1 (show (s.1, s.2) ∈ _ from hs)).2
  rw [Finset.sum_congr rfl fun s h => by rw [hs s h]]
  rw [Finset.sum_add_distrib, Finset.sum_add_distrib, ← Finset.mul_sum, ← Finset.sum_mul, Finset.sum_const, nsmul_eq_mul]
  have hpen : ((sidesAt m.topo e).card : ℝ) * penEntry m.topo pos sigma modified bd e = -(1 / penalty m.topo pos sigma modified e) := by
    unfold penEntry
    obtain ⟨c1, c2⟩ := hman e he
    have : (sidesAt m.topo e).card = 1 ∨ (sidesAt m.topo e).card = 2 := by omega
    rcases this with hc | hc
    · rw [if_pos ((hbd e he).2.2 ((onBoundary_iff hM e).2 hc)), hc]
      norm_num
    · rw [if_neg (fun hb => by have := (onBoundary_iff hM e).1 ((hbd e he).2.1 hb); omega), hc]
      push_cast
      ring
  unfold jump
  linear_combination (ν.getD (m.topo.numNodes + e) 0 * μ.getD (m.topo.numNodes + e) 0) * hpen

/-- The linear form of the right-hand side before boundary conditions are imposed. -/
theorem vector_form (hfit : h.numDofs < 2 ^ 31) {boundary : AllDS Bool}
    {bd : ℕ → Bool} (hbd : ∀ e < m.topo.numEdges, boundary.read ⟨m.id, (1, e)⟩ = some (bd e) ∧ (bd e = true ↔ m.topo.OnBoundary e))
    {qr : QuadRule ℝ} (hq : qr.WellFormed) (hr : qr.ref = .tria) (f : Vec ℝ 2 → Vec ℝ 2) (g : ℕ → Vec ℝ 2) :
    ∃ b, assembleVectorFE (dofSpace m.topo h) 0 (fun _ => true) (elementVector m geo f qr boundary g) (List.replicate h.numDofs 0) =
      some b ∧ b.length = h.numDofs ∧ ∀ ν : List ℝ, dotList ν b = load m.topo pos qr f (velocity m.topo pos fun v => ν.getD v 0) +
        ∑ e ∈ range m.topo.numEdges, ν.getD (m.topo.numNodes + e) 0 * prescribed m.topo pos g e := by
  obtain ⟨b, h1, h2, h3⟩ := assembleVectorFE_rep (dofSpace_ok hM hh hfit) 0 (by omega) (fun _ => true)
    (elementVector m geo f qr boundary g) (fun _ => lagrO2Tria)
    (fun e he => by
      obtain ⟨c, hc, rfl⟩ := entities_cells hM hh he
      rw [all_cell hM hh hfit hc]
      rfl)
    (fun e a => localLoad m.topo pos qr f g bd e.2 a)
    (fun e he => by
      obtain ⟨c, hc, rfl⟩ := entities_cells hM hh he
      exact elementVector_eq hM (fun e he => (hbd e he).1) hq hr f g hc) (List.replicate h.numDofs 0) (by simp [dofSpace])
  refine ⟨b, h1, h2, fun ν => ?_⟩
  have hz : dotList ν (List.replicate h.numDofs 0) = 0 := by
    unfold dotList
    exact Finset.sum_eq_zero fun i hi => by simp
  rw [h3, hz, zero_add, sum_entities hM hh]
  have key : ∀ c ∈ range m.topo.numCells, localLoad m.topo pos qr f g bd c ((dofSpace m.topo h).loc ν (0, c) 6) =
      cellLoad qr f (tri m.topo pos c) (velocity m.topo pos (fun v => ν.getD v 0) c) +
        ∑ k : Fin 3, ν.getD (m.topo.numNodes + sideOf m.topo c k) 0 *
          (if bd (sideOf m.topo c k) then dot (g (sideOf m.topo c k)) (tangent (tri m.topo pos c) k) else 0) := by
    intro c hc
    rw [Finset.mem_range] at hc
    unfold localLoad
    simp only [loc_lo hM hh hfit hc, loc_hi hM hh hfit hc]
    rfl
  refine (Finset.sum_congr rfl key).trans ?_
  rw [Finset.sum_add_distrib, sum_sides hM]
  congr 1
  refine Finset.sum_congr rfl fun e he => ?_
  rw [Finset.mem_range] at he
  have hs : ∀ s ∈ sidesAt m.topo e, sideOf m.topo s.1 s.2 = e := fun s hs => (mem_sidesAt.1 (show (s.1, s.2) ∈ _ from hs)).2
  rw [Finset.sum_congr rfl fun s h => by rw [hs s h]]
  rw [← Finset.mul_sum]
  congr 1
  unfold prescribed
  by_cases hb : m.topo.OnBoundary e
  · simp only [(hbd e he).2.2 hb, if_true, if_pos hb]
  · have : bd e = false := by
      rw [← Bool.not_eq_true]
      exact fun h' => hb ((hbd e he).2.1 h')
    simp [this, hb]

end

end Verif.Ipdg
