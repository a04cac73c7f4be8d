import Verif.Lemmas.MeshChecks5
import Verif.Lemmas.GeoCheck2

/-!
# Meshes of points and cells, for the test meshes
-/

namespace Verif
namespace MC
open Geo

/-! ### Non-degenerate cells in the plane -/

theorem lengthSq_smul (s : ℝ) (a b : Vec ℝ 2) : lengthSq (s • a) (s • b) = s ^ 2 * lengthSq a b := by
  simp only [lengthSq, Fin.sum_univ_two, Pi.smul_apply, smul_eq_mul]
  ring

theorem tria_scaled {s : ℝ} (hs : s ≠ 0) {a b c : Vec ℝ 2} (h : WellShapedTria (1 / 10 ^ 8) a b c) :
    WellShapedTria (1 / 10 ^ 8) (s • a) (s • b) (s • c) :=
  (wellShaped_similar (by positivity) (lengthSq_smul s a b) (lengthSq_smul s b c) (lengthSq_smul s c a)).2 h

theorem area_smul (s : ℝ) (a b c : Vec ℝ 2) :
    spannedArea (s • b - s • a) (s • c - s • a) = s ^ 2 * spannedArea (b - a) (c - a) := by
  have h : s ^ 2 * |(b - a) 0 * (c - a) 1 - (b - a) 1 * (c - a) 0| =
      |s ^ 2 * ((b - a) 0 * (c - a) 1 - (b - a) 1 * (c - a) 0)| := by rw [abs_mul, abs_of_nonneg (sq_nonneg s)]
  rw [spannedArea_eq, spannedArea_eq, ← abs_det_eq, ← abs_det_eq, h]
  congr 1
  simp only [Pi.sub_apply, Pi.smul_apply, smul_eq_mul]
  ring

theorem quad_scaled {s : ℝ} (hs : s ≠ 0) {a b c d : Vec ℝ 2} (h : WellShapedQuad (1 / 10 ^ 8) a b c d) :
    WellShapedQuad (1 / 10 ^ 8) (s • a) (s • b) (s • c) (s • d) := by
  unfold WellShapedQuad at h ⊢
  simp only [lengthSq_smul, area_smul]
  have hp : 0 < s ^ 2 := by positivity
  obtain ⟨h1, h2, h3, h4, h5⟩ := h
  refine ⟨?_, ?_, ?_, ?_, ?_⟩
  · have := mul_lt_mul_of_pos_left h1 hp; linarith
  · have := mul_lt_mul_of_pos_left h2 hp; linarith
  · have := mul_lt_mul_of_pos_left h3 hp; linarith
  · have := mul_lt_mul_of_pos_left h4 hp; linarith
  · have := mul_lt_mul_of_pos_left h5 hp; linarith

theorem tria_shape {a b c d e f : ℝ}
    (h : ∀ s, s = 1 / 10 ^ 8 * (((a - c) ^ 2 + (b - d) ^ 2) + ((c - e) ^ 2 + (d - f) ^ 2) + ((e - a) ^ 2 + (f - b) ^ 2)) →
      s < (a - c) ^ 2 + (b - d) ^ 2 ∧ s < (c - e) ^ 2 + (d - f) ^ 2 ∧ s < (e - a) ^ 2 + (f - b) ^ 2 ∧
      (s < (c - a) * (f - b) - (d - b) * (e - a) ∨ s < -((c - a) * (f - b) - (d - b) * (e - a)))) :
    WellShapedTria (1 / 10 ^ 8) ![a, b] ![c, d] ![e, f] := by
  unfold WellShapedTria
  rw [spannedArea_eq, ← abs_det_eq]
  simp only [lengthSq, Fin.sum_univ_two, lt_abs]
  exact h _ rfl

theorem quad_shape {a b c d e f g h : ℝ}
    (H : ∀ s, s = 1 / 10 ^ 8 * (((a - c) ^ 2 + (b - d) ^ 2) + ((c - e) ^ 2 + (d - f) ^ 2) + ((e - g) ^ 2 + (f - h) ^ 2) +
        ((g - a) ^ 2 + (h - b) ^ 2)) →
      s < (a - c) ^ 2 + (b - d) ^ 2 ∧ s < (c - e) ^ 2 + (d - f) ^ 2 ∧ s < (e - g) ^ 2 + (f - h) ^ 2 ∧
      s < (g - a) ^ 2 + (h - b) ^ 2 ∧
      (s < (c - a) * (f - b) - (d - b) * (e - a) ∨ s < -((c - a) * (f - b) - (d - b) * (e - a)))) :
    WellShapedQuad (1 / 10 ^ 8) ![a, b] ![c, d] ![e, f] ![g, h] := by
  obtain ⟨h1, h2, h3, h4, h5⟩ := H _ rfl
  unfold WellShapedQuad
  simp only [lengthSq, Fin.sum_univ_two]
  refine ⟨h1, h2, h3, h4, ?_⟩
  have h6 := lt_abs.2 h5
  have e1 : spannedArea (![c, d] - ![a, b] : Vec ℝ 2) (![e, f] - ![a, b]) =
      |(c - a) * (f - b) - (d - b) * (e - a)| := by
    rw [spannedArea_eq, ← abs_det_eq]
    rfl
  have e2 : 0 ≤ spannedArea (![g, h] - ![a, b] : Vec ℝ 2) (![e, f] - ![a, b]) := Real.sqrt_nonneg _
  rw [e1]
  exact lt_of_lt_of_le h6 (by linarith)

theorem parallelogram_scaled {s : ℝ} (hs : s ≠ 0) {a b c d : Vec ℝ 2} (h : WellShapedQuad (1 / 10 ^ 8) a b c d)
    (hp : d + b = c + a) (hc : 0 < lengthSq c a) :
    newParallelogram [s • a, s • b, s • c, s • d] = some (parallelogram (s • a) (s • b) (s • c) (s • d)) := by
  refine (newParallelogram_iff _ _ _ _ _).2 ⟨Or.inl rfl, quad_scaled hs h, ?_, rfl⟩
  have e0 : lengthSq (s • d + s • b) (s • c + s • a) = 0 := by
    rw [← smul_add, ← smul_add, hp]
    simp [lengthSq]
  rw [e0, Real.sqrt_zero, lengthSq_smul]
  have : 0 < Real.sqrt (s ^ 2 * lengthSq c a) := Real.sqrt_pos.2 (by positivity)
  positivity

/-! ### Points and cells -/

/-- A cell: its nodes, and its geometry if there is one. -/
abbrev CellSpec := List ℕ × Option (Geo ℝ 2)

/-- The call of the factory for a cell. -/
def callOf (c : CellSpec) : FactoryCall (Geo ℝ 2) := .entity (if c.1.length = 3 then .tria else .quad) c.1 c.2

/-- A table of cells is accepted by the factory, and complete. -/
def topoOk (n : ℕ) (cells : List (List ℕ)) : Bool :=
  cells.all (fun c => (decide (c.length = 3) || decide (c.length = 4)) && c.all (fun v => decide (v < n)) &&
    decide c.Nodup && (List.range c.length).all fun j => decide ((side c j).1 ≠ (side c j).2)) &&
  (List.range n).all fun v => cells.any fun c => decide (v ∈ c)

/-- A node of a table. -/
noncomputable def pt (l : List (ℝ × ℝ)) (v : ℕ) : Vec ℝ 2 := ![(l.getD v 0).1, (l.getD v 0).2]

/-- The geometry of a cell is not degenerate. -/
def GeoOk (l : List (ℝ × ℝ)) (c : CellSpec) : Prop :=
  match c.2 with
  | some g => g.kind = (if c.1.length = 3 then .tria else .quad) ∧ g.Proper ∧ g.construct.isSome = true
  | none =>
    match c.1 with
    | [i, j, k] => WellShapedTria (1 / 10 ^ 8) (pt l i) (pt l j) (pt l k)
    | [i, j, k, m] => WellShapedQuad (1 / 10 ^ 8) (pt l i) (pt l j) (pt l k) (pt l m)
    | _ => False

theorem run_points (l : List (Geo ℝ 2)) (rest : List (FactoryCall (Geo ℝ 2))) (f f' : Factory (Geo ℝ 2)) (r : List ℕ)
    (h : Factory.run { f with nodes := f.nodes ++ l.map some } rest = some (f', r)) :
    ∃ r', f.run (l.map .point ++ rest) = some (f', r') := by
  induction l generalizing f with
  | nil => simp at h; exact ⟨r, h⟩
  | cons g l ih =>
    obtain ⟨r', hr⟩ := ih (f.addPoint g).1 (by simpa [Factory.addPoint] using h)
    refine ⟨(f.addPoint g).2 :: r', ?_⟩
    simp only [List.map_cons, List.cons_append, Factory.run, hr, Option.bind_some]

theorem run_cells (cells : List CellSpec) (f : Factory (Geo ℝ 2))
    (h : ∀ c ∈ cells, (c.1.length = 3 ∨ c.1.length = 4) ∧ ∀ v ∈ c.1, v < f.nodes.length) :
    ∃ r, f.run (cells.map callOf) = some ({ f with elements := f.elements ++ cells.map fun c => ⟨c.1, c.2⟩ }, r) := by
  induction cells generalizing f with
  | nil => exact ⟨[], by simp [Factory.run]⟩
  | cons c cells ih =>
    obtain ⟨h1, h2⟩ := h c (by simp)
    have ha : f.addEntity (if c.1.length = 3 then .tria else .quad) c.1 c.2 =
        some ({ f with elements := f.elements ++ [⟨c.1, c.2⟩] }, f.elements.length) := by
      unfold Factory.addEntity
      have hall : c.1.all (fun v => decide (v < f.nodes.length)) = true := by simpa using h2
      rcases h1 with h1 | h1 <;> simp [h1, RefEl.dimension, hall, RefEl.numNodes]
    obtain ⟨r, hr⟩ := ih { f with elements := f.elements ++ [⟨c.1, c.2⟩] } fun c hc => h c (by simp [hc])
    refine ⟨f.elements.length :: r, ?_⟩
    simp only [List.map_cons, callOf, Factory.run, ha, Option.bind_some]
    rw [hr]
    simp

theorem mem_points {scale : ℝ} {l : List (ℝ × ℝ)} {c : FactoryCall (Geo ℝ 2)} (h : c ∈ TestMesh.points scale l) :
    ∃ x, c = .point (.point x) := by
  obtain ⟨p, -, rfl⟩ := List.mem_map.1 h
  exact ⟨_, rfl⟩

theorem pt_smul (scale : ℝ) (p : ℝ × ℝ) : (![p.1 * scale, p.2 * scale] : Vec ℝ 2) = scale • ![p.1, p.2] := by
  ext i
  fin_cases i <;> simp [mul_comm]

theorem positions_test (scale : ℝ) (l : List (ℝ × ℝ)) (cells : List CellSpec) :
    positions (TestMesh.points scale l ++ cells.map callOf) = l.map fun p => scale • ![p.1, p.2] := by
  have h0 : ∀ a b : List (FactoryCall (Geo ℝ 2)), positions (a ++ b) = positions a ++ positions b := fun a b =>
    List.filterMap_append ..
  have h1 : ∀ cells : List CellSpec, positions (cells.map callOf) = [] := by
    intro cells
    induction cells with
    | nil => rfl
    | cons c cells ih => simpa [positions, callOf] using ih
  have h2 : ∀ l : List (ℝ × ℝ), positions (TestMesh.points scale l) = l.map fun p => scale • (![p.1, p.2] : Vec ℝ 2) := by
    intro l
    induction l with
    | nil => rfl
    | cons a l ih =>
      have : positions (TestMesh.points scale (a :: l)) = ![a.1 * scale, a.2 * scale] :: positions (TestMesh.points scale l) :=
        rfl
      rw [this, ih, pt_smul]
      rfl
  rw [h0, h1, h2, List.append_nil]

theorem wellTyped_test (scale : ℝ) (l : List (ℝ × ℝ)) (cells : List CellSpec) (hg : ∀ c ∈ cells, GeoOk l c) :
    WellTyped (TestMesh.points scale l ++ cells.map callOf) := by
  constructor
  · intro g h
    rcases List.mem_append.1 h with h | h
    · obtain ⟨x, hx⟩ := mem_points h
      cases hx
      exact ⟨x, rfl⟩
    · obtain ⟨c, -, hc⟩ := List.mem_map.1 h
      cases hc
  · intro ref nodes g h
    rcases List.mem_append.1 h with h | h
    · obtain ⟨x, hx⟩ := mem_points h
      cases hx
    · obtain ⟨c, hc, hcc⟩ := List.mem_map.1 h
      have := hg c hc
      unfold callOf at hcc
      cases c with
      | mk n o =>
        simp only [FactoryCall.entity.injEq] at hcc
        obtain ⟨rfl, rfl, rfl⟩ := hcc
        exact ⟨this.1, this.2.1⟩

/-- The mesh built from a table of points and a table of cells. -/
theorem test_build (scale : ℝ) (hs : scale ≠ 0) (l : List (ℝ × ℝ)) (cells : List CellSpec)
    (ht : topoOk l.length (cells.map (·.1)) = true) (hg : ∀ c ∈ cells, GeoOk l c) :
    ∃ f r M f', Factory.run {} (TestMesh.points scale l ++ cells.map callOf) = some (f, r) ∧
      f.build geoBuild true = some (M, f') ∧ TestMesh.checked M = some M ∧
      M.topo.numNodes = l.length ∧ (∀ v < l.length, M.nodePos v = some (scale • pt l v)) ∧
      M.topo.numCells = cells.length ∧ ∀ c (h : c < cells.length), (M.topo.cell c).nodes = cells[c].1 := by
  simp only [topoOk, Bool.and_eq_true, Bool.or_eq_true, List.all_eq_true, List.any_eq_true, decide_eq_true_eq,
    List.mem_range, List.forall_mem_map] at ht
  obtain ⟨ht1, ht2⟩ := ht
  have hpl : TestMesh.points scale l = (l.map fun p => (Geo.point ![p.1 * scale, p.2 * scale] : Geo ℝ 2)).map .point := by
    simp [TestMesh.points]
  obtain ⟨r0, hr0⟩ := run_cells cells
    { ({} : Factory (Geo ℝ 2)) with
      nodes := ({} : Factory (Geo ℝ 2)).nodes ++ (l.map fun p => (Geo.point ![p.1 * scale, p.2 * scale] : Geo ℝ 2)).map some }
    (fun c hc => ⟨(ht1 c hc).1.1.1, by simpa using (ht1 c hc).1.1.2⟩)
  obtain ⟨r, hr⟩ := run_points _ _ {} _ _ hr0
  rw [← hpl] at hr
  set f : Factory (Geo ℝ 2) := ⟨(l.map fun p => (Geo.point ![p.1 * scale, p.2 * scale] : Geo ℝ 2)).map some, [],
    cells.map fun c => ⟨c.1, c.2⟩⟩ with hf
  have hr' : Factory.run {} (TestMesh.points scale l ++ cells.map callOf) = some (f, r) := by
    rw [hr]; rfl
  have hlen : f.nodes.length = l.length := by simp [hf]
  have hvalid : ValidInput f.nodes f.edges f.elements := by
    refine ⟨?_, by simp [hf], by simp [hf], by simp [hf], by simp [hf], ?_, ?_, ?_⟩
    · intro g h
      obtain ⟨x, -, rfl⟩ := List.mem_map.1 h
      rfl
    · intro c hc
      obtain ⟨x, hx, rfl⟩ := List.mem_map.1 hc
      exact (ht1 x hx).1.1.1
    · intro c hc
      obtain ⟨x, hx, rfl⟩ := List.mem_map.1 hc
      rw [hlen]
      exact (ht1 x hx).1.1.2
    · intro c hc
      obtain ⟨x, hx, rfl⟩ := List.mem_map.1 hc
      exact (ht1 x hx).2
  have hcompl : CompleteInput f.nodes.length f.edges f.elements := by
    refine ⟨by simp [hf], fun v hv => ?_⟩
    obtain ⟨_, hm, hvc⟩ := ht2 v (by omega)
    obtain ⟨c, hc, rfl⟩ := List.mem_map.1 hm
    exact ⟨⟨c.1, c.2⟩, List.mem_map.2 ⟨c, hc, rfl⟩, hvc⟩
  have hb := (C16_build_succeeds_iff geoBuild true _ f r hr').2 ⟨hvalid, fun _ => hcompl⟩
  obtain ⟨⟨M, f'⟩, hb⟩ := Option.isSome_iff_exists.1 hb
  have hF : M.FromFactory geoBuild true (TestMesh.points scale l ++ cells.map callOf) := ⟨f, r, f', hr', hb⟩
  have hw := wellTyped_test scale l cells hg
  obtain ⟨f2, r2, h1, -, hB, -⟩ := built_of hF
  rw [hr'] at h1
  cases h1
  have hpos : ∀ v < l.length, M.nodePos v = some (scale • pt l v) := by
    intro v hv
    rw [nodePos_eq hF hw, positions_test, List.getElem?_map, List.getElem?_eq_getElem hv]
    simp [pt, hv]
  have hnum : M.topo.numCells = cells.length := by rw [hB.numCells']; simp [hf]
  have hcon : ∀ c ∈ f.elements, ∀ g, cellGeo geoBuild M.points c g → g.construct.isSome = true := by
    intro c hc g hcg
    obtain ⟨x, hx, rfl⟩ := List.mem_map.1 hc
    have hgx := hg x hx
    obtain ⟨n, o⟩ := x
    unfold cellGeo at hcg
    have hget : ∀ v z, v ∈ n → M.points[v]? = some z → z.pos = scale • pt l v := by
      intro v z hv hz
      have hvl : v < l.length := (ht1 _ hx).1.1.2 v hv
      have := hpos v hvl
      unfold Mesh.nodePos at this
      rw [hz] at this
      cases z <;> simp at this
      exact this
    cases o with
    | some g' => simp only at hcg; subst hcg; exact hgx.2.2
    | none =>
      simp only at hcg
      rcases hcg with ⟨x, y, z, j1, rfl⟩ | ⟨x, y, z, t, j1, rfl⟩
      · rcases n with _ | ⟨n0, _ | ⟨n1, _ | ⟨n2, _ | ⟨n3, tl⟩⟩⟩⟩ <;> simp at j1
        have e := (newTria_iff _ _ _ _).2 ⟨Or.inl rfl, tria_scaled hs hgx, rfl⟩
        simp only [geoBuild, hget _ _ (by simp) j1.1, hget _ _ (by simp) j1.2.1, hget _ _ (by simp) j1.2.2]
        exact Option.isSome_iff_exists.2 ⟨_, e⟩
      · rcases n with _ | ⟨n0, _ | ⟨n1, _ | ⟨n2, _ | ⟨n3, _ | ⟨n4, tl⟩⟩⟩⟩⟩ <;> simp at j1
        have e := (newQuad_iff _ _ _ _ _).2 ⟨Or.inl rfl, quad_scaled hs hgx, rfl⟩
        simp only [geoBuild, hget _ _ (by simp) j1.1, hget _ _ (by simp) j1.2.1, hget _ _ (by simp) j1.2.2.1,
          hget _ _ (by simp) j1.2.2.2]
        exact Option.isSome_iff_exists.2 ⟨_, e⟩
  refine ⟨f, r, M, f', hr', hb, ?_, ?_, hpos, hnum, fun c hc => ?_⟩
  · unfold TestMesh.checked
    rw [if_pos]
    rw [List.all_eq_true]
    intro cell hcell
    rcases List.mem_append.1 hcell with h | h
    · obtain ⟨p, hp, rfl⟩ := List.getElem_of_mem h
      obtain ⟨c, d1, d2, -⟩ := hB.trias p hp
      exact hcon c (List.mem_of_getElem? d1) _ d2.geo
    · obtain ⟨p, hp, rfl⟩ := List.getElem_of_mem h
      obtain ⟨c, d1, d2, -⟩ := hB.quads p hp
      exact hcon c (List.mem_of_getElem? d1) _ d2.geo
  · change M.points.length = _
    rw [hB.points_length, hlen]
  · have hc' : c < f.elements.length := by simpa [hf] using hc
    obtain ⟨p, cell, ref, d1, d2, -, -, -, d6, -⟩ := hB.cellAt c hc'
    have : (M.topo.cell c).nodes = cell.nodes := by simp [Mesh.topo, d1, d2]
    rw [this, d6.nodes]
    simp [hf]

/-- Which cells of a test mesh with a geometry have their corners at their nodes. -/
theorem matching_test (scale : ℝ) (l : List (ℝ × ℝ)) (cells : List CellSpec) :
    Matching (TestMesh.points scale l ++ cells.map callOf) ↔ ∀ c ∈ cells, ∀ g, c.2 = some g →
      g.HasCorners (c.1.map fun v => (l[v]?).map fun p => scale • ![p.1, p.2]) := by
  unfold Matching
  simp only [positions_test, List.getElem?_map]
  constructor
  · intro h c hc g hg
    exact h _ c.1 g (List.mem_append.2 (Or.inr (List.mem_map.2 ⟨c, hc, by rw [callOf, hg]⟩)))
  · intro h ref nodes g hm
    rcases List.mem_append.1 hm with hm | hm
    · obtain ⟨x, hx⟩ := mem_points hm
      cases hx
    · obtain ⟨⟨n, o⟩, hc, hcc⟩ := List.mem_map.1 hm
      simp only [callOf, FactoryCall.entity.injEq] at hcc
      obtain ⟨-, rfl, rfl⟩ := hcc
      exact h _ hc g rfl

end MC
end Verif
