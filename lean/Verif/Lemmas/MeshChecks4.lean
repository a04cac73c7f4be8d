import Verif.Lemmas.MeshChecks3
import Verif.Lemmas.TransferHier
import Verif.Props.Geometry

/-!
# The check of the orientation of geometries for meshes from the factory
-/

namespace Verif
namespace MC

/-! ### The input of the constructor of the mesh -/

section
variable {G : Type}

/-- The points in a list of calls. -/
def pointsOf (calls : List (FactoryCall G)) : List G :=
  calls.filterMap fun c => match c with
    | .point g => some g
    | _ => none

theorem run_inputs (calls : List (FactoryCall G)) (f f' : Factory G) (rets : List ℕ) (h : f.run calls = some (f', rets)) :
    f'.nodes = f.nodes ++ (pointsOf calls).map some ∧
    (∀ i : EdgeIn G, i ∈ f'.edges ↔ i ∈ f.edges ∨ .entity .segment [i.p0, i.p1] i.geo ∈ calls) ∧
    (∀ c : CellIn G, c ∈ f'.elements ↔ c ∈ f.elements ∨ ∃ ref, (ref = .tria ∨ ref = .quad) ∧
      c.nodes.length = ref.numNodes ∧ .entity ref c.nodes c.geo ∈ calls) ∧
    ∀ ref nodes geo, .entity ref nodes geo ∈ calls → ref ≠ .point ∧ nodes.length = ref.numNodes := by
  induction calls generalizing f rets with
  | nil => cases h; simp [pointsOf]
  | cons c cs ih =>
    cases c with
    | point g =>
      obtain ⟨⟨f1, r1⟩, a1, a2⟩ := Option.bind_eq_some_iff.1 h
      cases a2
      obtain ⟨b1, b2, b3, b4⟩ := ih _ _ a1
      refine ⟨?_, fun i => ?_, fun c => ?_, fun ref nodes geo hm => ?_⟩
      · rw [b1]; simp [Factory.addPoint, pointsOf]
      · rw [b2]; simp [Factory.addPoint]
      · rw [b3]; simp [Factory.addPoint]
      · exact b4 ref nodes geo (by simpa using hm)
    | entity ref nodes geo =>
      obtain ⟨⟨f1, i⟩, a1, a2⟩ := Option.bind_eq_some_iff.1 h
      obtain ⟨⟨f2, r2⟩, a3, a4⟩ := Option.bind_eq_some_iff.1 a2
      cases a4
      obtain ⟨b1, b2, b3, b4⟩ := ih _ _ a3
      have hp : pointsOf (.entity ref nodes geo :: cs) = pointsOf cs := by simp [pointsOf]
      unfold Factory.addEntity at a1
      split_ifs at a1 with c1 c2
      cases ref with
      | point => simp [RefEl.dimension] at c1
      | segment =>
        rcases nodes with _ | ⟨x, _ | ⟨y, _ | ⟨z, t⟩⟩⟩ <;> simp only [reduceCtorEq] at a1
        cases a1
        refine ⟨by rw [b1, hp], fun i => ?_, fun c => ?_, fun ref nodes geo' hm => ?_⟩
        · rw [b2]
          simp only [List.mem_append, List.mem_cons, List.not_mem_nil, or_false, FactoryCall.entity.injEq, true_and,
            List.cons.injEq, and_true, or_assoc]
          refine or_congr Iff.rfl (or_congr ?_ Iff.rfl)
          cases i; simp [and_assoc]
        · rw [b3]
          refine or_congr Iff.rfl ⟨?_, ?_⟩
          · rintro ⟨r, d1, d2, d3⟩; exact ⟨r, d1, d2, by simp [d3]⟩
          · rintro ⟨r, d1, d2, d3⟩
            refine ⟨r, d1, d2, ?_⟩
            simp only [List.mem_cons, FactoryCall.entity.injEq] at d3
            rcases d3 with ⟨rfl, -⟩ | d3
            · simp at d1
            · exact d3
        · simp only [List.mem_cons, FactoryCall.entity.injEq] at hm
          rcases hm with ⟨rfl, rfl, rfl⟩ | hm
          · simp [RefEl.numNodes]
          · exact b4 _ _ _ hm
      | tria =>
        simp only at a1
        split_ifs at a1 with c3
        cases a1
        refine ⟨by rw [b1, hp], fun i => ?_, fun c => ?_, fun ref nodes geo' hm => ?_⟩
        · rw [b2]; simp
        · rw [b3]
          simp only [List.mem_append, List.mem_cons, List.not_mem_nil, or_false, FactoryCall.entity.injEq, or_assoc]
          refine or_congr Iff.rfl ⟨?_, ?_⟩
          · rintro (rfl | ⟨r, d1, d2, d3⟩)
            · exact ⟨.tria, Or.inl rfl, c3, by simp⟩
            · exact ⟨r, d1, d2, by simp [d3]⟩
          · rintro ⟨r, d1, d2, ⟨rfl, rfl, rfl⟩ | d3⟩
            · exact Or.inl rfl
            · exact Or.inr ⟨r, d1, d2, d3⟩
        · simp only [List.mem_cons, FactoryCall.entity.injEq] at hm
          rcases hm with ⟨rfl, rfl, rfl⟩ | hm
          · exact ⟨by simp, c3⟩
          · exact b4 _ _ _ hm
      | quad =>
        simp only at a1
        split_ifs at a1 with c3
        cases a1
        refine ⟨by rw [b1, hp], fun i => ?_, fun c => ?_, fun ref nodes geo' hm => ?_⟩
        · rw [b2]; simp
        · rw [b3]
          simp only [List.mem_append, List.mem_cons, List.not_mem_nil, or_false, FactoryCall.entity.injEq, or_assoc]
          refine or_congr Iff.rfl ⟨?_, ?_⟩
          · rintro (rfl | ⟨r, d1, d2, d3⟩)
            · exact ⟨.quad, Or.inr rfl, c3, by simp⟩
            · exact ⟨r, d1, d2, by simp [d3]⟩
          · rintro ⟨r, d1, d2, ⟨rfl, rfl, rfl⟩ | d3⟩
            · exact Or.inl rfl
            · exact Or.inr ⟨r, d1, d2, d3⟩
        · simp only [List.mem_cons, FactoryCall.entity.injEq] at hm
          rcases hm with ⟨rfl, rfl, rfl⟩ | hm
          · exact ⟨by simp, c3⟩
          · exact b4 _ _ _ hm

end

section
variable {K : Type} [Field K] [LinearOrder K] [IsStrictOrderedRing K] {w : ℕ}

theorem points_typed (hist : List (FactoryCall (Geo K w))) (hw : WellTyped hist) :
    pointsOf hist = (positions hist).map .point := by
  unfold WellTyped at hw
  replace hw := hw.1
  induction hist with
  | nil => rfl
  | cons c cs ih =>
    have := ih fun g hg => hw g (by simp [hg])
    cases c with
    | point g =>
      obtain ⟨x, rfl⟩ := hw g (by simp)
      simpa [pointsOf, positions] using this
    | entity ref nodes geo => simpa [pointsOf, positions] using this

theorem contains_corner (r : RefEl) (x : List K) (h : x ∈ refNodeCoords r) : r.Contains x := by
  cases r <;> simp [refNodeCoords] at h
  · subst h; simp [RefEl.Contains]
  · rcases h with rfl | rfl <;> simp [RefEl.Contains]
  · rcases h with rfl | rfl | rfl <;> simp [RefEl.Contains]
  · rcases h with rfl | rfl | rfl | rfl <;> simp [RefEl.Contains]

theorem corners_len (r : RefEl) : (refNodeCoords r : List (List K)).length = r.numNodes := by
  cases r <;> rfl

theorem corner_some (g : Geo K w) (i : ℕ) (hi : i < g.kind.numNodes) :
    ∃ x v, (refNodeCoords g.kind)[i]? = some x ∧ g.global x = some v := by
  have hi' : i < (refNodeCoords g.kind : List (List K)).length := by rw [corners_len]; exact hi
  obtain ⟨v, hv⟩ := Geo.global_some g _ (contains_corner g.kind _ (List.getElem_mem hi'))
  exact ⟨_, v, List.getElem?_eq_getElem hi', hv⟩

theorem nodePos_of {M : Mesh (Geo K w)} {v : ℕ} {y : Vec K w} (h : M.points[v]? = some (.point y)) :
    M.nodePos v = some y := by simp [Mesh.nodePos, h]

/-- What `checkGeometryOrientation` checks. -/
theorem orient_iff (M : Mesh (Geo K w)) (e : EntPtr) (g : Geo K w) (ns : List ℕ) (hk : g.kind = e.refEl)
    (hg : M.geometry e = some g) (hs : M.subEntities e e.refEl.dimension = some (ns.map .pt))
    (hl : ns.length = e.refEl.numNodes) (hp : ∀ v ∈ ns, ∃ y, M.points[v]? = some (.point y)) :
    ∃ b, M.checkGeometryOrientation e = some b ∧ (b = true ↔ g.HasCorners (ns.map M.nodePos)) := by
  have key : ∀ i < e.refEl.numNodes, ∃ x a v b, (refNodeCoords e.refEl)[i]? = some x ∧ g.global x = some a ∧
      ns[i]? = some v ∧ M.points[v]? = some (.point b) := by
    intro i hi
    obtain ⟨x, a, h1, h2⟩ := corner_some g i (by rw [hk]; exact hi)
    obtain ⟨b, hb⟩ := hp (ns[i]'(by omega)) (List.getElem_mem _)
    exact ⟨x, a, _, b, by rw [← hk]; exact h1, h2, List.getElem?_eq_getElem (by omega), hb⟩
  refine ⟨(List.range e.refEl.numNodes).all fun i =>
    decide (((refNodeCoords e.refEl)[i]?).bind g.global = (ns[i]?).bind M.nodePos), ?_, ?_⟩
  · unfold Mesh.checkGeometryOrientation
    rw [foldlM_bool _ (fun i => decide (((refNodeCoords e.refEl)[i]?).bind g.global = (ns[i]?).bind M.nodePos)) _ ?_ true,
      Bool.true_and]
    intro ok i hi
    obtain ⟨x, a, v, b, h1, h2, h3, h4⟩ := key i (by simpa using hi)
    rw [h1, hg, hs]
    have h5 : (ns.map EntPtr.pt)[i]? = some (.pt v) := by rw [List.getElem?_map, h3]; rfl
    have h6 : (Geo.point b : Geo K w).global [] = some b := rfl
    simp only [Option.bind_some, h2, h5, h3, Mesh.geometry, h4, nodePos_of h4, h6, Option.some.injEq]
    congr 3
    exact propext funext_iff.symm
  · unfold Geo.HasCorners
    simp only [List.all_eq_true, List.mem_range, decide_eq_true_eq]
    constructor
    · intro h
      refine List.ext_getElem? fun i => ?_
      by_cases hi : i < e.refEl.numNodes
      · obtain ⟨x, a, v, b, h1, h2, h3, h4⟩ := key i hi
        have := h i hi
        rw [hk, List.getElem?_map, List.getElem?_map, h1, h3]
        rw [h1, h3] at this
        simpa using this
      · rw [List.getElem?_eq_none (by rw [List.length_map, corners_len, hk]; omega),
          List.getElem?_eq_none (by rw [List.length_map]; omega)]
    · intro h i hi
      obtain ⟨x, a, v, b, h1, h2, h3, h4⟩ := key i hi
      have := congrArg (fun l => l[i]?) h
      simp only [List.getElem?_map] at this
      rw [hk, h1, h3] at this
      rw [h1, h3]
      simpa using this

theorem sidePoint_zero (r : RefEl) (hr : r = .tria ∨ r = .quad) (j : ℕ) (hj : j < r.numNodes) :
    some (Geo.sidePoint r j (0 : K)) = (refNodeCoords r)[j]? ∧
    some (Geo.sidePoint r j (1 : K)) = (refNodeCoords r)[(j + 1) % r.numNodes]? := by
  rcases hr with rfl | rfl <;> simp only [RefEl.numNodes] at hj <;> interval_cases j <;>
    simp [Geo.sidePoint, RefEl.corners, RefEl.numNodes, refNodeCoords]

/-- The sides of a cell have their corners at the nodes if the cell has. -/
theorem sub_corners (g : Geo K w) (hg : g.Proper) (hk : g.kind = .tria ∨ g.kind = .quad) (ns : List ℕ)
    (hl : ns.length = g.kind.numNodes) (P : ℕ → Option (Vec K w)) (j : ℕ) (hj : j < ns.length) :
    (geoBuild.sub g 1 j).kind = .segment ∧ (geoBuild.sub g 1 j).Proper ∧
    (g.HasCorners (ns.map P) → (geoBuild.sub g 1 j).HasCorners [P (side ns j).1, P (side ns j).2]) := by
  rw [hl] at hj
  obtain ⟨s, v, a1, a2, a3, a4, a5⟩ := C39_sides g hg hk j hj 0 le_rfl zero_le_one
  obtain ⟨s', v', b1, b2, b3, b4, b5⟩ := C39_sides g hg hk j hj 1 zero_le_one le_rfl
  rw [a1] at b1
  cases b1
  have hs : geoBuild.sub g 1 j = s := by simp [geoBuild, a1]
  have hsp : s.Proper := by cases s <;> simp [Geo.kind] at a2 <;> trivial
  rw [hs]
  refine ⟨a2, hsp, fun h => ?_⟩
  obtain ⟨c1, c2⟩ := sidePoint_zero (K := K) g.kind hk j hj
  have e1 := congrArg (fun l => l[j]?) h
  have e2 := congrArg (fun l => l[(j + 1) % g.kind.numNodes]?) h
  have hn : 0 < g.kind.numNodes := by omega
  simp only [List.getElem?_map] at e1 e2
  rw [← c1, List.getElem?_eq_getElem (by omega : j < ns.length)] at e1
  rw [← c2, List.getElem?_eq_getElem (by rw [hl]; exact Nat.mod_lt _ hn)] at e2
  simp only [Option.map_some, Option.some.injEq] at e1 e2
  unfold Geo.HasCorners
  rw [a2]
  simp only [refNodeCoords, List.map_cons, List.map_nil, List.cons.injEq, and_true]
  refine ⟨?_, ?_⟩
  · rw [a4, ← a5, e1]
    simp only [side]
    rw [List.getD_eq_getElem]
  · rw [b4, ← b5, e2]
    simp only [side]
    rw [List.getD_eq_getElem _ _ (by rw [hl]; exact Nat.mod_lt _ hn)]
    congr 1
    simp only [hl]

/-! ### Geometries of the entities of a mesh from the factory -/

variable {chk : Bool} {hist : List (FactoryCall (Geo K w))} {M : Mesh (Geo K w)}

/-- The nodes of the mesh are at the given positions. -/
theorem points_eq (h : M.FromFactory geoBuild chk hist) (hw : WellTyped hist) :
    M.points = (positions hist).map .point := by
  obtain ⟨f, rets, h1, hv, hB, -⟩ := built_of h
  obtain ⟨a1, -⟩ := run_inputs _ _ _ _ h1
  have := hB.points
  rw [a1, points_typed hist hw, List.nil_append] at this
  exact List.map_injective_iff.2 (Option.some_injective _) this

theorem nodePos_eq (h : M.FromFactory geoBuild chk hist) (hw : WellTyped hist) (v : ℕ) :
    M.nodePos v = (positions hist)[v]? := by
  unfold Mesh.nodePos
  rw [points_eq h hw, List.getElem?_map]
  cases (positions hist)[v]? <;> rfl

theorem point_some (h : M.FromFactory geoBuild chk hist) (hw : WellTyped hist) (v : ℕ) (hv : v < M.points.length) :
    ∃ y, M.points[v]? = some (.point y) := by
  rw [points_eq h hw] at hv ⊢
  rw [List.getElem?_map, List.getElem?_eq_getElem (by simpa using hv)]
  exact ⟨_, rfl⟩

/-- The cell for an element of the input. -/
theorem cell_geo (h : M.FromFactory geoBuild chk hist) (hw : WellTyped hist) (c : ℕ) (hc : c < M.topo.numCells) :
    ∃ e cell, M.entityByIndex 0 c = some e ∧ M.cellOf e = some cell ∧ cell.nodes = (M.topo.cell c).nodes ∧
      e.refEl.numNodes = cell.nodes.length ∧ M.cellGeo c = some cell.geo ∧ M.geometry e = some cell.geo ∧
      cell.geo.kind = e.refEl ∧ cell.geo.Proper ∧ (∀ v ∈ cell.nodes, v < M.points.length) ∧
      (cell.geo.HasCorners (cell.nodes.map M.nodePos) ∨ .entity e.refEl cell.nodes (some cell.geo) ∈ hist) := by
  obtain ⟨f, rets, h1, hv, hB, -⟩ := built_of h
  obtain ⟨f0, rets0, f0', hr, hb⟩ := h
  rw [h1] at hr
  cases hr
  have hF : M.FromFactory geoBuild chk hist := ⟨f, rets, f0', h1, hb⟩
  obtain ⟨e, cell, a1, a2, a3, a4, -⟩ := cell_of hF c hc
  obtain ⟨-, -, g3⟩ := C56_geometry_partial geoBuild chk hist f f0' rets M h1 hb
  have hc' : c < f.elements.length := by rw [← hB.numCells']; exact hc
  obtain ⟨cell', b1, b2, b3⟩ := g3 c _ (List.getElem?_eq_getElem hc')
  rw [a1, Option.bind_some, a2] at b1
  cases b1
  obtain ⟨p, cell', ref, d1, d2, -, -, -, d6, -⟩ := hB.cellAt c hc'
  rw [a1] at d1
  cases d1
  rw [a2] at d2
  cases d2
  have hnodes : f.elements[c].nodes = cell.nodes := d6.nodes.symm
  have hlt : ∀ v ∈ cell.nodes, v < M.points.length := by
    intro v hv'
    rw [hB.points_length]
    exact hv.cell_lt _ (List.getElem_mem hc') v (by rw [hnodes]; exact hv')
  have href : e.refEl = .tria ∨ e.refEl = .quad := (sub_cell a2).2.2.2
  have hgeo : M.geometry e = some cell.geo := by
    cases e <;> simp only [Mesh.cellOf, reduceCtorEq] at a2 <;> simp [Mesh.geometry, a2]
  refine ⟨e, cell, a1, a2, a4, a3, by simp [Mesh.cellGeo, a1, a2], hgeo, ?_⟩
  cases hcg : f.elements[c].geo with
  | some g =>
    have hg := b2 g hcg
    obtain ⟨-, -, i3, i4⟩ := run_inputs _ _ _ _ h1
    obtain ⟨ref', r1, r2, r3⟩ := ((i3 f.elements[c]).1 (List.getElem_mem hc')).resolve_left (by simp)
    rw [hcg, hnodes] at r3
    rw [hnodes] at r2
    have : ref' = e.refEl := by
      rw [← a3] at r2
      rcases href with hr | hr <;> rcases r1 with rfl | rfl <;> rw [hr] at r2 ⊢ <;> simp [RefEl.numNodes] at r2
    subst this
    rw [hg]
    obtain ⟨k1, k2⟩ := hw.2 _ _ _ r3
    exact ⟨k1, k2, hlt, Or.inr r3⟩
  | none =>
    have hP : ∀ v ∈ cell.nodes, ∃ y, M.points[v]? = some (.point y) := fun v hv' => point_some hF hw v (hlt v hv')
    have hget : ∀ v z, v ∈ cell.nodes → M.points[v]? = some z → M.nodePos v = some z.pos ∧ z = .point z.pos := by
      intro v z hv' hz
      obtain ⟨y, hy⟩ := hP v hv'
      rw [hz] at hy
      cases hy
      exact ⟨nodePos_of hz, rfl⟩
    rcases b3 hcg with ⟨x, y, z, j1, j2⟩ | ⟨x, y, z, t, j1, j2⟩
    · rw [hnodes] at j1
      rcases hcn : cell.nodes with _ | ⟨n0, _ | ⟨n1, _ | ⟨n2, _ | ⟨n3, tl⟩⟩⟩⟩ <;> rw [hcn] at j1 <;> simp at j1
      obtain ⟨k0, k1, k2⟩ := j1
      obtain ⟨l0, -⟩ := hget n0 x (by simp [hcn]) k0
      obtain ⟨l1, -⟩ := hget n1 y (by simp [hcn]) k1
      obtain ⟨l2, -⟩ := hget n2 z (by simp [hcn]) k2
      have hr : e.refEl = .tria := by
        rw [hcn] at a3
        rcases href with hr | hr <;> rw [hr] at a3 ⊢ <;> simp [RefEl.numNodes] at a3
      rw [hr, j2]
      refine ⟨rfl, trivial, hcn ▸ hlt, Or.inl ?_⟩
      simp only [geoBuild, Geo.HasCorners, Geo.kind, refNodeCoords, List.map_cons, List.map_nil, l0, l1, l2, Geo.global]
      simp
    · rw [hnodes] at j1
      rcases hcn : cell.nodes with _ | ⟨n0, _ | ⟨n1, _ | ⟨n2, _ | ⟨n3, _ | ⟨n4, tl⟩⟩⟩⟩⟩ <;> rw [hcn] at j1 <;> simp at j1
      obtain ⟨k0, k1, k2, k3⟩ := j1
      obtain ⟨l0, -⟩ := hget n0 x (by simp [hcn]) k0
      obtain ⟨l1, -⟩ := hget n1 y (by simp [hcn]) k1
      obtain ⟨l2, -⟩ := hget n2 z (by simp [hcn]) k2
      obtain ⟨l3, -⟩ := hget n3 t (by simp [hcn]) k3
      have hr : e.refEl = .quad := by
        rw [hcn] at a3
        rcases href with hr | hr <;> rw [hr] at a3 ⊢ <;> simp [RefEl.numNodes] at a3
      rw [hr, j2]
      refine ⟨rfl, trivial, hcn ▸ hlt, Or.inl ?_⟩
      simp only [geoBuild, Geo.HasCorners, Geo.kind, refNodeCoords, List.map_cons, List.map_nil, l0, l1, l2, l3,
        Geo.global]
      simp

/-- The geometry of an edge: its corners are at its nodes, or it was supplied, or inherited from a cell with a supplied
geometry. -/
theorem edge_geo (h : M.FromFactory geoBuild chk hist) (hw : WellTyped hist) (e : ℕ) (he : e < M.topo.numEdges) :
    ∃ p, ∃ hp : p < M.segments.length, M.entityByIndex 1 e = some (.seg p) ∧ M.segments[p].index = e ∧
      M.topo.edge e = (M.segments[p].p0, M.segments[p].p1) ∧ M.segments[p].p0 < M.points.length ∧
      M.segments[p].p1 < M.points.length ∧ M.edgeGeo e = some M.segments[p].geo ∧
      M.segments[p].geo.kind = .segment ∧
      (M.segments[p].geo.HasCorners [M.nodePos M.segments[p].p0, M.nodePos M.segments[p].p1] ∨
        .entity .segment [M.segments[p].p0, M.segments[p].p1] (some M.segments[p].geo) ∈ hist ∨
        ∃ ref ns g j, .entity ref ns (some g) ∈ hist ∧ j < ns.length ∧
          (M.segments[p].p0, M.segments[p].p1) = side ns j ∧
          (g.HasCorners (ns.map M.nodePos) →
            M.segments[p].geo.HasCorners [M.nodePos M.segments[p].p0, M.nodePos M.segments[p].p1])) := by
  obtain ⟨p, hp, a1, a2, a3, a4, a5⟩ := seg_of h e he
  obtain ⟨f, rets, h1, hv, hB, -⟩ := built_of h
  obtain ⟨-, i2, i3, i4⟩ := run_inputs _ _ _ _ h1
  have heg : M.edgeGeo e = some M.segments[p].geo := by simp [Mesh.edgeGeo, a1, Mesh.segOf, hp]
  refine ⟨p, hp, a1, a2, a3, a4, a5, heg, ?_⟩
  by_cases hs : M.segments[p].index < f.edges.length
  · obtain ⟨b1, b2⟩ := hB.seg_supplied _ (List.getElem_mem hp) hs
    have hm := ((i2 _).1 (List.getElem_mem hs)).resolve_left (by simp)
    rw [Prod.ext_iff] at b1
    simp only at b1
    rw [b2, ← b1.1, ← b1.2] at hm
    exact ⟨(hw.2 _ _ _ hm).1, Or.inr (Or.inl hm)⟩
  · rcases (hB.seg_new _ (List.getElem_mem hp) (by omega)).2 with ⟨c, hcm, j, hj, cg, c1, c2, c3⟩ | ⟨-, g0, g1, c1, c2, c3⟩
    · obtain ⟨ref, r1, r2, r3⟩ := ((i3 c).1 hcm).resolve_left (by simp)
      rw [c1] at r3
      obtain ⟨k1, k2⟩ := hw.2 _ _ _ r3
      obtain ⟨d1, -, d3⟩ := sub_corners cg k2 (k1 ▸ r1) c.nodes (k1 ▸ r2) M.nodePos j hj
      rw [c2]
      refine ⟨d1, Or.inr (Or.inr ⟨ref, c.nodes, cg, j, r3, hj, c3, fun hh => ?_⟩)⟩
      have := d3 hh
      rwa [← c3] at this
    · obtain ⟨y0, hy0⟩ := point_some h hw _ a4
      obtain ⟨y1, hy1⟩ := point_some h hw _ a5
      rw [hy0] at c1
      rw [hy1] at c2
      cases c1
      cases c2
      rw [c3]
      refine ⟨rfl, Or.inl ?_⟩
      rw [nodePos_of hy0, nodePos_of hy1]
      simp [geoBuild, Geo.HasCorners, Geo.kind, refNodeCoords, Geo.global, Geo.pos, Geo.coords]

/-- The corners of all entities are at their nodes if and only if this holds for the geometries passed to the factory. -/
theorem corners_iff (h : M.FromFactory geoBuild chk hist) (hw : WellTyped hist) : M.CornersAtNodes ↔ Matching hist := by
  have hpos : M.nodePos = fun v => (positions hist)[v]? := funext fun v => nodePos_eq h hw v
  constructor
  · rintro ⟨h1, h2⟩ ref ns g hm
    obtain ⟨f, rets, hr, hv, hB, -⟩ := built_of h
    obtain ⟨-, i2, i3, i4⟩ := run_inputs _ _ _ _ hr
    obtain ⟨j1, j2⟩ := i4 _ _ _ hm
    rw [← hpos]
    have hcell : (ref = .tria ∨ ref = .quad) → g.HasCorners (ns.map M.nodePos) := by
      intro href
      obtain ⟨c, hc, hcc⟩ := List.getElem_of_mem ((i3 ⟨ns, some g⟩).2 (Or.inr ⟨ref, href, j2, hm⟩))
      have hc' : c < M.topo.numCells := by rw [hB.numCells']; exact hc
      obtain ⟨f0, rets0, f0', hr0, hb0⟩ := h
      rw [hr] at hr0
      cases hr0
      obtain ⟨-, -, g3⟩ := C56_geometry_partial geoBuild chk hist f f0' rets M hr hb0
      obtain ⟨cell, b1, b2, -⟩ := g3 c _ (List.getElem?_eq_getElem hc)
      rw [hcc] at b2
      have hcg := b2 g rfl
      obtain ⟨g', k1, k2⟩ := h2 c hc'
      simp only [Mesh.cellGeo, b1, Option.map_some, Option.some.injEq] at k1
      rw [← k1, hcg] at k2
      have hn : (M.topo.cell c).nodes = ns := by
        obtain ⟨p, cell', ref', d1, d2, -, -, -, d6, -⟩ := hB.cellAt c hc
        rw [d1, Option.bind_some, d2] at b1
        cases b1
        have : (M.topo.cell c).nodes = cell.nodes := by simp [Mesh.topo, d1, d2]
        rw [this, d6.nodes, hcc]
      rwa [hn] at k2
    cases ref with
    | point => exact absurd rfl j1
    | tria => exact hcell (Or.inl rfl)
    | quad => exact hcell (Or.inr rfl)
    | segment =>
      obtain ⟨a, b, rfl⟩ := List.length_eq_two.1 (by simpa [RefEl.numNodes] using j2 : ns.length = 2)
      obtain ⟨e, he, hee⟩ := List.getElem_of_mem ((i2 ⟨a, b, some g⟩).2 (Or.inr hm))
      have he' : e < M.segments.length := lt_of_lt_of_le he hB.seg_count
      obtain ⟨p, hp, p1, p2, p3⟩ := hB.segAt e he'
      obtain ⟨q1, q2⟩ := hB.seg_supplied _ (List.getElem_mem hp) (by rw [p2]; exact he)
      simp only [p2, hee, Option.some.injEq] at q1 q2
      obtain ⟨g', k1, k2⟩ := h1 e he'
      simp only [Mesh.edgeGeo, p1, Option.bind_some, Mesh.segOf, List.getElem?_eq_getElem hp, Option.map_some,
        Option.some.injEq] at k1
      rw [← k1, ← q2, p3, q1] at k2
      exact k2
  · intro hm
    refine ⟨fun e he => ?_, fun c hc => ?_⟩
    · obtain ⟨p, hp, a1, a2, a3, a4, a5, a6, a7, a8⟩ := edge_geo h hw e he
      refine ⟨_, a6, ?_⟩
      rw [a3]
      rcases a8 with a8 | a8 | ⟨ref, ns, g, j, b1, b2, b3, b4⟩
      · exact a8
      · have := hm _ _ _ a8
        rw [← hpos] at this
        exact this
      · refine b4 ?_
        have := hm _ _ _ b1
        rw [← hpos] at this
        exact this
    · obtain ⟨e, cell, a1, a2, a3, a4, a5, a6, a7, a8, a9, a10⟩ := cell_geo h hw c hc
      refine ⟨_, a5, ?_⟩
      rw [← a3]
      rcases a10 with a10 | a10
      · exact a10
      · have := hm _ _ _ a10
        rw [← hpos] at this
        exact this

/-- The check accepts all entities if and only if the corners of all entities are at their nodes. -/
theorem orientation (h : M.FromFactory geoBuild chk hist) (hw : WellTyped hist) :
    (∀ codim ≤ 2, ∃ es, M.entities codim = some es ∧ ∀ e ∈ es, ∃ b, M.checkGeometryOrientation e = some b) ∧
    ((∀ codim ≤ 2, ∀ i e, M.entityByIndex codim i = some e → M.checkGeometryOrientation e = some true) ↔
      M.CornersAtNodes) := by
  have hcell : ∀ c < M.topo.numCells, ∃ e g b, M.entityByIndex 0 c = some e ∧ M.cellGeo c = some g ∧
      M.checkGeometryOrientation e = some b ∧ (b = true ↔ g.HasCorners ((M.topo.cell c).nodes.map M.nodePos)) := by
    intro c hc
    obtain ⟨e, cell, a1, a2, a3, a4, a5, a6, a7, a8, a9, a10⟩ := cell_geo h hw c hc
    obtain ⟨-, s2, s3, -⟩ := sub_cell a2
    obtain ⟨b, b1, b2⟩ := orient_iff M e cell.geo cell.nodes a7 a6 (by rw [s3]; exact s2) a4.symm
      fun v hv => point_some h hw v (a9 v hv)
    exact ⟨e, _, b, a1, a5, b1, a3 ▸ b2⟩
  have hedge : ∀ k < M.topo.numEdges, ∃ e g b, M.entityByIndex 1 k = some e ∧ M.edgeGeo k = some g ∧
      M.checkGeometryOrientation e = some b ∧
      (b = true ↔ g.HasCorners [M.nodePos (M.topo.edge k).1, M.nodePos (M.topo.edge k).2]) := by
    intro k hk
    obtain ⟨p, hp, a1, a2, a3, a4, a5, a6, a7, a8⟩ := edge_geo h hw k hk
    obtain ⟨b, b1, b2⟩ := orient_iff M (.seg p) M.segments[p].geo [M.segments[p].p0, M.segments[p].p1] a7
      (by simp [Mesh.geometry, hp]) (sub_seg p hp) rfl (by
        intro v hv
        simp only [List.mem_cons, List.not_mem_nil, or_false] at hv
        rcases hv with rfl | rfl
        · exact point_some h hw _ a4
        · exact point_some h hw _ a5)
    exact ⟨_, _, b, a1, a6, b1, by rw [a3]; exact b2⟩
  have hpt : ∀ v < M.points.length, M.checkGeometryOrientation (.pt v) = some true := by
    intro v hv
    obtain ⟨y, hy⟩ := point_some h hw v hv
    obtain ⟨b, b1, b2⟩ := orient_iff M (.pt v) (.point y) [v] rfl hy rfl rfl (by simpa using ⟨y, hy⟩)
    rw [b1, b2.2 (by simp [Geo.HasCorners, Geo.kind, refNodeCoords, Geo.global, nodePos_of hy])]
  have hent : ∀ codim ≤ 2, ∀ n, M.numEntities codim = some n → ∀ i e, M.entityByIndex codim i = some e → i < n := by
    intro codim hc n hn i e he
    obtain ⟨f, rets, hr, hv, hB, -⟩ := built_of h
    by_contra hi
    have l0 := hB.len0.trans hB.numCells.symm
    have l1 := hB.len1
    have l2 := hB.len2
    interval_cases codim <;> simp only [Mesh.numEntities, Option.some.injEq] at hn <;> subst hn <;>
      simp only [Mesh.entityByIndex] at he
    · rw [List.getElem?_eq_none (by omega)] at he; simp at he
    · rw [List.getElem?_eq_none (by omega)] at he; simp at he
    · rw [List.getElem?_eq_none (by omega)] at he; simp at he
  have hpts : ∀ i e, M.entityByIndex 2 i = some e → M.checkGeometryOrientation e = some true := by
    intro i e he
    obtain ⟨es, b1, b2, b3⟩ := entities_of h 2 (by omega)
    have hi := hent 2 (by omega) _ b2 i e he
    obtain ⟨c1, c2, c3, c4⟩ := b3 i hi
    rw [he] at c1
    cases c1
    cases hes : es[i] with
    | pt v =>
      rw [hes] at c2
      exact hpt v c2
    | _ => rw [hes] at c3; simp [Mesh.codim] at c3
  constructor
  · intro codim hc
    obtain ⟨es, b1, b2, b3⟩ := entities_of h codim hc
    refine ⟨es, b1, fun e he => ?_⟩
    obtain ⟨i, hi, rfl⟩ := List.getElem_of_mem he
    obtain ⟨c1, -⟩ := b3 i hi
    interval_cases codim
    · simp only [Mesh.numEntities, Option.some.injEq] at b2
      obtain ⟨e, g, b, d1, d2, d3, -⟩ := hcell i (by simp only [Mesh.topo]; omega)
      rw [c1] at d1
      cases d1
      exact ⟨b, d3⟩
    · simp only [Mesh.numEntities, Option.some.injEq] at b2
      obtain ⟨e, g, b, d1, d2, d3, -⟩ := hedge i (by simp only [Mesh.topo]; omega)
      rw [c1] at d1
      cases d1
      exact ⟨b, d3⟩
    · exact ⟨true, hpts i _ c1⟩
  · constructor
    · intro hall
      refine ⟨fun k hk => ?_, fun c hc => ?_⟩
      · obtain ⟨e, g, b, d1, d2, d3, d4⟩ := hedge k hk
        have := hall 1 (by omega) k e d1
        rw [d3] at this
        exact ⟨g, d2, d4.1 (by simpa using this)⟩
      · obtain ⟨e, g, b, d1, d2, d3, d4⟩ := hcell c hc
        have := hall 0 (by omega) c e d1
        rw [d3] at this
        exact ⟨g, d2, d4.1 (by simpa using this)⟩
    · rintro ⟨h1, h2⟩ codim hc i e he
      interval_cases codim
      · have hi := hent 0 (by omega) _ rfl i e he
        obtain ⟨e', g, b, d1, d2, d3, d4⟩ := hcell i hi
        rw [he] at d1
        cases d1
        obtain ⟨g', k1, k2⟩ := h2 i hi
        rw [d2] at k1
        cases k1
        rw [d3, d4.2 k2]
      · have hi := hent 1 (by omega) _ rfl i e he
        obtain ⟨e', g, b, d1, d2, d3, d4⟩ := hedge i hi
        rw [he] at d1
        cases d1
        obtain ⟨g', k1, k2⟩ := h1 i hi
        rw [d2] at k1
        cases k1
        rw [d3, d4.2 k2]
      · exact hpts i e he

end
end MC
end Verif
