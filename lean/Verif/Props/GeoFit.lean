import Verif.Lemmas.GeoFitHier
import Verif.Props.Vtk
import Verif.Props.Mesh

/-!
# C83: the geometries of neighbouring entities fit together on all levels of refinement

`Hierarchy.run ops (geoOps len) chk M hist` is a mesh hierarchy with real geometries after the calls `hist`; the
coordinates are elements of an arbitrary ordered field.
-/

namespace Verif
open Geo
variable {K : Type} [Field K] [LinearOrder K] [IsStrictOrderedRing K] {w : ℕ}

section
variable (ops : GeoOps (Geo K w)) (len : Geo K w → ℚ) (chk : Bool) (M : Mesh (Geo K w))
  (hM : M.Coarse (geoOps len) chk) (hist : List HOp) (ho : ∀ op ∈ hist, op.Legal) (H : Hierarchy (Geo K w))
  (hH : Hierarchy.run ops (geoOps len) chk M hist = some H)

private theorem ok_run (hM : M.Coarse (geoOps len) chk) (ho : ∀ op ∈ hist, op.Legal)
    (hH : Hierarchy.run ops (geoOps len) chk M hist = some H) : HierOk (geoOps len) chk M H := by
  obtain ⟨H', h1, h2, _⟩ := run_ok ops (geoOps_lawful len) hM hist ho
  rw [hH] at h1
  cases h1
  exact h2

variable {chk M H} in
private theorem level_coarse {len : Geo K w → ℚ} (hok : HierOk (geoOps len) chk M H) {level : ℕ} {M' : Mesh (Geo K w)}
    (h : H.getMesh level = some M') : M'.Coarse (geoOps len) chk := by
  unfold Hierarchy.getMesh at h
  obtain ⟨L, hL, rfl⟩ := Option.map_eq_some_iff.1 h
  exact hok.all L (List.mem_reverse.1 (List.mem_of_getElem? hL))

variable {chk M H} in
private theorem level_zero {len : Geo K w → ℚ} (hok : HierOk (geoOps len) chk M H) {M' : Mesh (Geo K w)}
    (h : H.getMesh 0 = some M') : M' = M := by
  unfold Hierarchy.getMesh at h
  rw [← List.head?_eq_getElem?, List.head?_reverse, hok.last] at h
  exact (Option.some.inj h).symm

variable {chk M H} in
private theorem level_below {len : Geo K w → ℚ} (hok : HierOk (geoOps len) chk M H) {level : ℕ} {Mf : Mesh (Geo K w)}
    (hf : H.getMesh (level + 1) = some Mf) : ∃ Mc, H.getMesh level = some Mc := by
  obtain ⟨Mc, h, _⟩ := hok.samePoint (K := K) hf
  exact ⟨Mc, h⟩

variable {M} in
private theorem cell_cases {len : Geo K w → ℚ} (hM : M.Coarse (geoOps len) chk) {c : ℕ} {r : RefEl}
    (hr : M.topo.refEl (0, c) = some r) :
    c < M.topo.numCells ∧ (r = .tria ∨ r = .quad) ∧ r.numNodes = (M.topo.cell c).nodes.length := by
  have hc : c < M.topo.num 0 := by
    by_contra h'
    simp [Topo.refEl, h'] at hr
  refine ⟨hc, ?_⟩
  unfold Topo.refEl at hr
  rw [if_pos (show (0, c).2 < M.topo.num (0, c).1 from hc), if_neg (by simp), if_neg (by simp)] at hr
  split_ifs at hr with h4 h5
  · cases hr; exact ⟨Or.inl rfl, h4.symm⟩
  · cases hr; exact ⟨Or.inr rfl, h5.symm⟩

variable {M} in
/-- Positions of a mesh whose geometries fit together. -/
private theorem posOf_fits {len : Geo K w → ℚ} (hM : M.Coarse (geoOps len) chk) {pos : Ent → List K → Vec K w}
    (hp : FitsTogether M.topo (fun e => M.geo e.1 e.2) pos) : M.topo.SingleValued M.posOf := by
  have val : ∀ e r, M.topo.refEl e = some r → ∀ x, r.Contains x → M.posOf e x = pos e x := by
    intro e r her x hx
    obtain ⟨g, h1, h2⟩ := hp.geo e r her
    unfold Mesh.posOf
    beta_reduce at h1
    rw [h1]
    simp [h2 x hx]
  intro c r hr j hj
  obtain ⟨hc, hrr, hn⟩ := cell_cases chk hM hr
  have hwf := hM.valid.wf
  have he : (M.topo.cell c).edges.getD j 0 < M.topo.num 1 := by
    refine hwf.cell_edges c hc _ ?_
    rw [List.getD_eq_getElem _ _ (by rw [hwf.cell_edges_len c hc]; omega)]
    exact List.getElem_mem _
  have hv : (M.topo.cell c).nodes.getD j 0 < M.topo.num 2 := by
    refine hwf.cell_nodes c hc _ ?_
    rw [List.getD_eq_getElem _ _ (by omega)]
    exact List.getElem_mem _
  have hcorner : (r.corners : List (List K)).getD j [] ∈ (r.corners : List (List K)) := by
    rcases hrr with rfl | rfl <;> simp only [RefEl.numNodes] at hj <;> interval_cases j <;> simp [RefEl.corners]
  obtain ⟨s1, s2⟩ := hp.sides c r hr j hj
  have her : M.topo.refEl (1, (M.topo.cell c).edges.getD j 0) = some .segment := by simp only [Topo.refEl, he]; rfl
  have hvr : M.topo.refEl (2, (M.topo.cell c).nodes.getD j 0) = some .point := by simp only [Topo.refEl, hv]; rfl
  refine ⟨fun t t0 t1 => ?_, ?_⟩
  · rw [val _ r hr _ (onSide_contains M.topo hrr c j hj t0 t1), val _ _ her [t] ⟨t0, t1⟩, s1 t t0 t1]
  · rw [val _ r hr _ (corner_contains hcorner), val _ _ hvr [] trivial, s2]

variable {M} in
/-- The nodes of an edge which belongs to a cell. -/
private theorem ends_of_sides {len : Geo K w → ℚ} (hM : M.Coarse (geoOps len) chk) (hs : M.topo.SingleValued M.posOf)
    (hc : M.topo.Complete) : M.topo.MatchesEnds M.posOf := by
  intro e he
  obtain ⟨c, hc, hmem⟩ := hc.1 e he
  have hwf := hM.valid.wf
  obtain ⟨j, hj, hje⟩ := List.getElem_of_mem hmem
  have hlen := hwf.cell_edges_len c hc
  obtain ⟨r, hr⟩ : ∃ r, M.topo.refEl (0, c) = some r := by
    rcases hwf.cell_len c hc with h | h
    · exact ⟨.tria, by simp [Topo.refEl, Topo.num, hc, h]⟩
    · exact ⟨.quad, by simp [Topo.refEl, Topo.num, hc, h]⟩
  obtain ⟨_, hrr, hn⟩ := cell_cases chk hM hr
  have hjr : j < r.numNodes := by omega
  have hj1 : (j + 1) % r.numNodes < r.numNodes := Nat.mod_lt _ (by omega)
  have hee : (M.topo.cell c).edges.getD j 0 = e := by rw [List.getD_eq_getElem _ _ hj, hje]
  obtain ⟨s1, s2⟩ := hs c r hr j hjr
  obtain ⟨_, s3⟩ := hs c r hr _ hj1
  rw [hee] at s1
  have hside := hwf.cell_side c hc j (by omega)
  have hori := hwf.cell_ori c hc j (by omega)
  rw [hee] at hside hori
  have z0 := s1 0 le_rfl zero_le_one
  have z1 := s1 1 zero_le_one le_rfl
  unfold Topo.onSide at z0 z1
  have c0 : sidePoint r j (0 : K) = (r.corners : List (List K)).getD j [] := by
    rcases hrr with rfl | rfl <;> simp only [RefEl.numNodes] at hjr <;> interval_cases j <;>
      simp [sidePoint, RefEl.corners, RefEl.numNodes]
  have c1 : sidePoint r j (1 : K) = (r.corners : List (List K)).getD ((j + 1) % r.numNodes) [] := by
    rcases hrr with rfl | rfl <;> simp only [RefEl.numNodes] at hjr <;> interval_cases j <;>
      simp [sidePoint, RefEl.corners, RefEl.numNodes]
  have hsd : side (M.topo.cell c).nodes j = ((M.topo.cell c).nodes.getD j 0,
      (M.topo.cell c).nodes.getD ((j + 1) % r.numNodes) 0) := by
    unfold side
    rw [hn]
  cases hor : (M.topo.cell c).ori.getD j false
  · rw [hor] at z0 z1 hori
    simp only [Bool.false_eq_true, false_iff, if_false, sub_zero, sub_self] at z0 z1 hori
    have hsw := hside.resolve_left hori
    rw [hsd] at hsw
    rw [c1] at z0
    rw [c0] at z1
    rw [hsw]
    exact ⟨z0.symm.trans s3, z1.symm.trans s2⟩
  · rw [hor] at z0 z1 hori
    simp only [if_true, true_iff] at z0 z1 hori
    rw [hsd] at hori
    rw [c0] at z0
    rw [c1] at z1
    rw [hori]
    exact ⟨z0.symm.trans s2, z1.symm.trans s3⟩

variable {H M} in
private theorem levels_single {len : Geo K w → ℚ} (hok : HierOk (geoOps len) chk M H) {pos : Ent → List K → Vec K w}
    (hp : FitsTogether M.topo (fun e => M.geo e.1 e.2) pos) (level : ℕ) : ∀ Mf, H.getMesh level = some Mf →
    Mf.topo.SingleValued Mf.posOf := by
  induction level with
  | zero =>
    intro Mf hf
    have e := level_zero hok hf
    subst e
    exact posOf_fits chk (level_coarse hok hf) hp
  | succ level ih =>
    intro Mf hf
    obtain ⟨Mc, hc⟩ := level_below hok hf
    exact fit_step hok level hc hf (ih Mc hc)

variable {H M} in
private theorem levels_first {len : Geo K w → ℚ} (hok : HierOk (geoOps len) chk M H)
    (h1 : ∀ e r g, M.topo.refEl e = some r → M.geo e.1 e.2 = some g → g.quadratic = false) (level : ℕ) : ∀ Mf,
    H.getMesh level = some Mf → ∀ e r g, Mf.topo.refEl e = some r → Mf.geo e.1 e.2 = some g → g.quadratic = false := by
  induction level with
  | zero =>
    intro Mf hf
    have e := level_zero hok hf
    subst e
    exact h1
  | succ level ih =>
    intro Mf hf e r g her hg
    obtain ⟨Mc, hc⟩ := level_below hok hf
    have hhas : H.Has (level + 1) e := by
      refine ⟨Mf, hf, ?_⟩
      unfold Topo.refEl at her
      obtain ⟨cd, i⟩ := e
      split_ifs at her with a1 a2 a3 a4 a5 <;> refine ⟨?_, a1⟩ <;>
        (rcases cd with _ | _ | _ | cd <;> simp [Topo.num] at a1 ⊢)
    obtain ⟨par, g', h', rr, g1, g2, g3, g4, g5, g6, g7, g8, g9, g10, g11⟩ := parent_samples hok level e hhas
    unfold Hierarchy.geo at g4 g5
    rw [hc] at g4
    rw [hf] at g5
    simp only [Option.bind_some] at g4 g5
    rw [hg] at g5
    cases g5
    refine g10 ?_
    obtain ⟨Mc', b1, b2, b3⟩ := g11
    rw [hc] at b1
    cases b1
    have hMc := level_coarse hok hc
    obtain ⟨cd, i⟩ := par
    obtain ⟨r', hr'⟩ : ∃ r', Mc.topo.refEl (cd, i) = some r' := by
      simp only at b2 b3
      interval_cases cd
      · rcases hMc.valid.wf.cell_len i b3 with h | h
        · exact ⟨.tria, by simp [Topo.refEl, b3, h]⟩
        · exact ⟨.quad, by simp [Topo.refEl, b3, h]⟩
      · exact ⟨.segment, by simp [Topo.refEl, b3]⟩
      · exact ⟨.point, by simp [Topo.refEl, b3]⟩
    exact ih Mc hc _ _ _ hr' g4

include hM ho hH

/-- **C83**: if the geometries of the coarsest mesh fit together, then so do those of every level, whatever the sequence
of local and global refinements, for straight and curved triangles and quadrilaterals: every entity has a geometry of
the right type, on the sides of cells the geometries of the cells and of the edges agree, and so do they at the nodes. -/
theorem C83_fit (pos : Ent → List K → Vec K w) (hp : FitsTogether M.topo (fun e => M.geo e.1 e.2) pos) (level : ℕ)
    (Mf : Mesh (Geo K w)) (hf : H.getMesh level = some Mf) : ∃ pos' : Ent → List K → Vec K w,
      (∀ e r, Mf.topo.refEl e = some r → ∃ g, Mf.geo e.1 e.2 = some g ∧ g.kind = r ∧
        ∀ x, r.Contains x → g.global x = some (pos' e x)) ∧
      Mf.topo.SingleValued pos' ∧ (chk = true → Mf.topo.MatchesEnds pos') := by
  have hok := ok_run ops len chk M hist H hM ho hH
  have hMf := level_coarse hok hf
  have hs := levels_single chk hok hp level Mf hf
  refine ⟨Mf.posOf, ?_, hs, fun h => ends_of_sides chk hMf hs (hMf.complete h)⟩
  intro e r her
  obtain ⟨g, h1, h2⟩ := hMf.geo_kind her
  refine ⟨g, h1, h2, fun x hx => ?_⟩
  obtain ⟨v, hv⟩ := Geo.global_some g x (by rw [h2]; exact hx)
  rw [hv]
  unfold Mesh.posOf
  rw [h1]
  simp [hv]

omit hM ho hH in
/-- **C83** for complete meshes. -/
theorem C83_fits (hM : M.Coarse (geoOps len) true) (ho : ∀ op ∈ hist, op.Legal)
    (hH : Hierarchy.run ops (geoOps len) true M hist = some H) (pos : Ent → List K → Vec K w)
    (hp : FitsTogether M.topo (fun e => M.geo e.1 e.2) pos) (level : ℕ) (Mf : Mesh (Geo K w))
    (hf : H.getMesh level = some Mf) : ∃ pos', FitsTogether Mf.topo (fun e => Mf.geo e.1 e.2) pos' := by
  obtain ⟨pos', h1, h2, h3⟩ := C83_fit ops len true M hM hist ho H hH pos hp level Mf hf
  refine ⟨pos', fun e r her => ?_, h2, h3 rfl⟩
  obtain ⟨g, a1, _, a3⟩ := h1 e r her
  exact ⟨g, a1, a3⟩

/-- **C83** for meshes with geometries of first order: on every level each entity is the straight edge, the affine
triangle or the bilinear quadrilateral through the positions of its nodes.  (`Parallelogram` and `QuadO1` with the
same corners describe the same set, with the same parametrization.) -/
theorem C83_straight (hchk : chk = true) (pos : Ent → List K → Vec K w)
    (hp : FitsTogether M.topo (fun e => M.geo e.1 e.2) pos)
    (h1 : ∀ e r g, M.topo.refEl e = some r → M.geo e.1 e.2 = some g → g.quadratic = false) (level : ℕ)
    (Mf : Mesh (Geo K w)) (hf : H.getMesh level = some Mf) : ∃ P : ℕ → Vec K w, ∀ e r, Mf.topo.refEl e = some r →
      ∃ g s, Mf.geo e.1 e.2 = some g ∧ straightGeo Mf.topo P e = some s ∧ g.quadratic = false ∧
        ∀ x, r.Contains x → g.global x = s.global x := by
  have hok := ok_run ops len chk M hist H hM ho hH
  have hMf := level_coarse hok hf
  have hs := levels_single chk hok hp level Mf hf
  have hends := ends_of_sides chk hMf hs (hMf.complete hchk)
  have hwf := hMf.valid.wf
  have hq := levels_first chk hok h1 level Mf hf
  refine ⟨fun v => Mf.posOf (2, v) [], ?_⟩
  intro e r her
  obtain ⟨g, g1, g2⟩ := hMf.geo_kind her
  have gq := hq e r g her g1
  have val : ∀ x v, g.global x = some v → Mf.posOf e x = v := by
    intro x v hv
    unfold Mesh.posOf
    rw [g1]
    simp [hv]
  unfold straightGeo
  rw [her]
  obtain ⟨cd, i⟩ := e
  have hcd : cd ≤ 2 ∧ i < Mf.topo.num cd := by
    unfold Topo.refEl at her
    split_ifs at her with a1 a2 a3 a4 a5 <;> refine ⟨?_, a1⟩ <;>
      (rcases cd with _ | _ | _ | cd <;> simp [Topo.num] at a1 ⊢)
  obtain ⟨hcd, hi⟩ := hcd
  interval_cases cd
  · obtain ⟨_, hrr, hn⟩ := cell_cases chk hMf her
    rcases hrr with rfl | rfl
    · obtain ⟨a, b, c, hnod⟩ := List.length_eq_three.1 hn.symm
      have s0 := (hs i _ her 0 (by decide)).2
      have s1 := (hs i _ her 1 (by decide)).2
      have s2 := (hs i _ her 2 (by decide)).2
      simp only [hnod, RefEl.corners, List.getD_cons_zero, List.getD_cons_succ] at s0 s1 s2
      refine ⟨g, _, g1, by simp only [hnod]; rfl, gq, ?_⟩
      cases g <;> simp [kind, quadratic] at g2 gq
      rename_i p0 p1 p2
      rw [val _ _ (by simp only [global]; rfl)] at s0 s1 s2
      rw [← s0, ← s1, ← s2]
      intro x hx
      rcases x with _ | ⟨x, _ | ⟨y, _ | ⟨z, t⟩⟩⟩ <;> simp [RefEl.Contains] at hx
      simp only [global]
      congr 1; ext k; simp
    · have hn4 : (Mf.topo.cell i).nodes.length = 4 := hn.symm
      match hnod : (Mf.topo.cell i).nodes, hn4 with
      | [a, b, c, d], _ =>
        have s0 := (hs i _ her 0 (by decide)).2
        have s1 := (hs i _ her 1 (by decide)).2
        have s2 := (hs i _ her 2 (by decide)).2
        have s3 := (hs i _ her 3 (by decide)).2
        simp only [hnod, RefEl.corners, List.getD_cons_zero, List.getD_cons_succ] at s0 s1 s2 s3
        refine ⟨g, _, g1, rfl, gq, ?_⟩
        cases g <;> simp [kind, quadratic] at g2 gq <;>
        · rw [val _ _ (by simp only [global]; rfl)] at s0 s1 s2 s3
          beta_reduce
          rw [← s0, ← s1, ← s2, ← s3]
          intro x hx
          rcases x with _ | ⟨x, _ | ⟨y, _ | ⟨z, t⟩⟩⟩ <;> simp [RefEl.Contains] at hx
          simp only [global]
          congr 1; ext k; simp; try ring
  · have hr' : r = .segment := by
      simp only [Topo.refEl, hi] at her
      simpa using her.symm
    subst hr'
    refine ⟨g, _, g1, rfl, gq, ?_⟩
    obtain ⟨e0, e1⟩ := hends i hi
    cases g <;> simp [kind, quadratic] at g2 gq
    rw [val _ _ (by simp only [global]; rfl)] at e0 e1
    beta_reduce
    rw [← e0, ← e1]
    intro x hx
    rcases x with _ | ⟨x, _ | ⟨y, t⟩⟩ <;> simp [RefEl.Contains] at hx
    simp only [global]
    congr 1; ext k; simp
  · have hr' : r = .point := by
      simp only [Topo.refEl, hi] at her
      simpa using her.symm
    subst hr'
    refine ⟨g, _, g1, rfl, gq, ?_⟩
    intro x hx
    rcases x with _ | ⟨x, t⟩ <;> simp [RefEl.Contains] at hx
    obtain ⟨v, hv⟩ := Geo.global_some g [] (by rw [g2]; trivial)
    rw [hv]
    simp only [global]
    rw [val _ _ hv]

end

/-! ### Meshes built from points and cells -/

private theorem run_plain (f f' : Factory (Geo K w)) (calls : List (FactoryCall (Geo K w))) (rets : List ℕ)
    (hc : ∀ c ∈ calls, (∃ p : Vec K w, c = .point (.point p)) ∨ ∃ ref nodes, ref ≠ .segment ∧ c = .entity ref nodes none)
    (h : f.run calls = some (f', rets)) (h1 : ∀ x ∈ f.nodes, ∃ p : Vec K w, x = some (.point p)) (h2 : f.edges = [])
    (h3 : ∀ c ∈ f.elements, c.geo = none) :
    (∀ x ∈ f'.nodes, ∃ p : Vec K w, x = some (.point p)) ∧ f'.edges = [] ∧ ∀ c ∈ f'.elements, c.geo = none := by
  induction calls generalizing f rets with
  | nil => cases h; exact ⟨h1, h2, h3⟩
  | cons c cs ih =>
    rcases hc c (by simp) with ⟨p, rfl⟩ | ⟨ref, nodes, hr, rfl⟩
    · obtain ⟨⟨f1, r1⟩, a1, a2⟩ := Option.bind_eq_some_iff.1 h
      cases a2
      refine ih _ _ (fun c hc' => hc c (by simp [hc'])) a1 ?_ h2 h3
      intro x hx
      simp only [Factory.addPoint, List.mem_append, List.mem_singleton] at hx
      rcases hx with hx | rfl
      · exact h1 x hx
      · exact ⟨p, rfl⟩
    · obtain ⟨⟨f1, i⟩, a1, a2⟩ := Option.bind_eq_some_iff.1 h
      obtain ⟨⟨f2, r2⟩, a3, a4⟩ := Option.bind_eq_some_iff.1 a2
      cases a4
      have hf1 : f1.nodes = f.nodes ∧ f1.edges = f.edges ∧ f1.elements = f.elements ++ [⟨nodes, none⟩] := by
        unfold Factory.addEntity at a1
        split_ifs at a1 with b1 b2
        cases ref
        · simp [RefEl.dimension] at b1
        · exact absurd rfl hr
        all_goals
          simp only at a1
          split_ifs at a1
          cases a1
          exact ⟨rfl, rfl, rfl⟩
      obtain ⟨c1, c2, c3⟩ := hf1
      refine ih _ _ (fun c hc' => hc c (by simp [hc'])) a3 (c1 ▸ h1) (c2.trans h2) ?_
      intro c hc'
      rw [c3, List.mem_append, List.mem_singleton] at hc'
      rcases hc' with hc' | rfl
      · exact h3 c hc'
      · rfl

/-- **C83**, the coarsest mesh: if the factory is given points and cells without geometries, then all geometries of the
mesh are straight: the edge, triangle or quadrilateral through the given positions of the nodes. -/
theorem C83_built (chk : Bool) (calls : List (FactoryCall (Geo K w))) (f f' : Factory (Geo K w)) (rets : List ℕ)
    (M : Mesh (Geo K w)) (hrun : Factory.run {} calls = some (f, rets)) (hb : f.build geoBuild chk = some (M, f'))
    (hc : ∀ c ∈ calls, (∃ p : Vec K w, c = .point (.point p)) ∨ ∃ ref nodes, ref ≠ .segment ∧ c = .entity ref nodes none) :
    ∃ P : ℕ → Vec K w, (∀ v, v < M.topo.numNodes → M.points[v]? = some (.point (P v))) ∧
      ∀ e r, M.topo.refEl e = some r → M.geo e.1 e.2 = straightGeo M.topo P e := by
  have hwf := C16_wellFormed geoBuild chk calls f f' rets M hrun hb
  obtain ⟨g1, g2, g3⟩ := C56_geometry_partial geoBuild chk calls f f' rets M hrun hb
  obtain ⟨n1, n2, n3⟩ := run_plain {} f calls rets hc hrun (by simp) rfl (by simp)
  have hpt : ∀ (v : ℕ) (g : Geo K w), M.points[v]? = some g → g = .point g.pos := by
    intro v g h
    obtain ⟨p, hp⟩ := n1 (some g) (by rw [← g1]; exact List.mem_map_of_mem (List.mem_of_getElem? h))
    cases hp
    rfl
  refine ⟨fun v => ((M.points[v]?).map Geo.pos).getD 0, ?_, ?_⟩
  · intro v hv
    have h : M.points[v]? = some (M.points[v]'hv) := List.getElem?_eq_getElem hv
    have h' : ((M.points[v]?).map Geo.pos).getD 0 = (M.points[v]'hv).pos := by rw [h]; rfl
    beta_reduce
    rw [h', h]
    exact congrArg some (hpt v _ h)
  have hPv : ∀ (v : ℕ) (g : Geo K w), M.points[v]? = some g → ((M.points[v]?).map Geo.pos).getD 0 = g.pos := by
    intro v g h
    rw [h]; rfl
  rintro ⟨cd, i⟩ r her
  have hcd : cd ≤ 2 ∧ i < M.topo.num cd := by
    unfold Topo.refEl at her
    split_ifs at her with a1 a2 a3 a4 a5 <;> refine ⟨?_, a1⟩ <;>
      (rcases cd with _ | _ | _ | cd <;> simp [Topo.num] at a1 ⊢)
  obtain ⟨hcd, hi⟩ := hcd
  unfold straightGeo
  rw [her]
  interval_cases cd
  · have hlt : i < f.elements.length := by
      rw [← (C17_numbers geoBuild chk calls f f' rets M hrun hb).2.1]; exact hi
    have hel : f.elements[i]? = some f.elements[i] := List.getElem?_eq_getElem hlt
    obtain ⟨cell, k1, -, k3⟩ := g3 i _ hel
    have hg : M.geo 0 i = some cell.geo := by
      show ((M.entityByIndex 0 i).bind M.cellOf).map (·.geo) = _
      rw [k1]; rfl
    have hn : (M.topo.cell i).nodes = f.elements[i].nodes := by
      have hB : Built geoBuild f.nodes f.edges f.elements M := by
        unfold Factory.build at hb
        rcases buildMesh_spec geoBuild f.nodes f.edges f.elements chk (fun x hx => by
            obtain ⟨p, rfl⟩ := n1 x hx; rfl) with ⟨_, M', e, hB⟩ | ⟨_, e⟩
        · rw [e] at hb
          cases hb
          exact hB
        · rw [e] at hb
          cases hb
      exact (hB.cell_eq i hlt).1
    show M.geo 0 i = _
    rw [hg]
    rcases k3 (n3 _ (List.getElem_mem hlt)) with ⟨x, y, z, m1, m2⟩ | ⟨x, y, z, u, m1, m2⟩
    · rw [← hn] at m1
      have hl := congrArg List.length m1
      simp only [List.length_map, List.length_cons, List.length_nil] at hl
      obtain ⟨a, b, c, hnod⟩ := List.length_eq_three.1 hl
      have hr : r = .tria := by
        simp only [Topo.refEl, hi, hl] at her
        simpa using her.symm
      subst hr
      rw [hnod] at m1
      simp only [List.map_cons, List.map_nil, List.cons.injEq, and_true] at m1
      simp only [hnod]
      rw [hPv _ _ m1.1, hPv _ _ m1.2.1, hPv _ _ m1.2.2, m2]
      rfl
    · rw [← hn] at m1
      have hl := congrArg List.length m1
      simp only [List.length_map, List.length_cons, List.length_nil] at hl
      match hnod : (M.topo.cell i).nodes, hl with
      | [a, b, c, d], _ =>
        have hr : r = .quad := by
          simp only [Topo.refEl, hi, hnod] at her
          simpa using her.symm
        subst hr
        rw [hnod] at m1
        simp only [List.map_cons, List.map_nil, List.cons.injEq, and_true] at m1
        simp only
        rw [hPv _ _ m1.1, hPv _ _ m1.2.1, hPv _ _ m1.2.2.1, hPv _ _ m1.2.2.2, m2]
        rfl
  · have hr' : r = .segment := by
      simp only [Topo.refEl, hi] at her
      simpa using her.symm
    subst hr'
    have hne := hwf.edge_ne i hi
    cases hs : (M.entityByIndex 1 i).bind M.segOf with
    | none => simp [Mesh.topo, hs] at hne
    | some s =>
      have hed : M.topo.edge i = (s.p0, s.p1) := by simp [Mesh.topo, hs]
      rcases (g2 i s hs).2 (by rw [n2]; rfl) with ⟨c, hc1, j, hj, cg, hcg, _⟩ | ⟨_, x, y, k1, k2, k3⟩
      · rw [n3 c hc1] at hcg
        cases hcg
      · show ((M.entityByIndex 1 i).bind M.segOf).map (·.geo) = _
        rw [hs, hed]
        simp only [Option.map_some]
        rw [hPv _ _ k1, hPv _ _ k2, k3]
        rfl
  · have hr' : r = .point := by
      simp only [Topo.refEl, hi] at her
      simpa using her.symm
    subst hr'
    have h : M.points[i]? = some (M.points[i]'hi) := List.getElem?_eq_getElem hi
    show M.points[i]? = some (.point (((M.points[i]?).map Geo.pos).getD 0))
    rw [hPv i _ h, h]
    exact congrArg some (hpt i _ h)

/-- **C83** for meshes which the factory built from points and cells: after any sequence of refinements, every entity
of every level is the straight edge, the affine triangle or the bilinear quadrilateral through the positions of its
nodes. -/
theorem C83_built_straight (len : Geo K w → ℚ) (calls : List (FactoryCall (Geo K w))) (f f' : Factory (Geo K w))
    (rets : List ℕ) (M : Mesh (Geo K w)) (hrun : Factory.run {} calls = some (f, rets))
    (hb : f.build geoBuild true = some (M, f'))
    (hc : ∀ c ∈ calls, (∃ p : Vec K w, c = .point (.point p)) ∨ ∃ ref nodes, ref ≠ .segment ∧ c = .entity ref nodes none)
    (hM : M.Coarse (geoOps len) true) (hist : List HOp) (ho : ∀ op ∈ hist, op.Legal) (H : Hierarchy (Geo K w))
    (hH : Hierarchy.run geoBuild (geoOps len) true M hist = some H) (level : ℕ) (Mf : Mesh (Geo K w))
    (hf : H.getMesh level = some Mf) : ∃ P : ℕ → Vec K w, ∀ e r, Mf.topo.refEl e = some r →
      ∃ g s, Mf.geo e.1 e.2 = some g ∧ straightGeo Mf.topo P e = some s ∧ g.quadratic = false ∧
        ∀ x, r.Contains x → g.global x = s.global x := by
  obtain ⟨P, -, hP⟩ := C83_built true calls f f' rets M hrun hb hc
  have hfit : FitsTogether M.topo (fun e => M.geo e.1 e.2)
      (fun e x => ((straightGeo M.topo P e).bind fun g => g.global x).getD 0) := by
    obtain ⟨h1, h2, h3⟩ := straight_fits M.topo hM.valid.wf P
    refine ⟨fun e r her => ?_, h2, h3⟩
    rw [hP e r her]
    exact h1 e r her
  refine C83_straight geoBuild len true M hM hist ho H hH rfl _ hfit ?_ level Mf hf
  intro e r g her hg
  rw [hP e r her] at hg
  unfold straightGeo at hg
  rw [her] at hg
  cases r
  · cases hg; rfl
  · cases hg; rfl
  · simp only at hg
    split at hg <;> cases hg
    rfl
  · simp only at hg
    split at hg <;> cases hg
    rfl

/-! ### A concrete case -/

/-- The calls by which `trapMesh` (two triangles and a trapezoid) is built. -/
def trapCalls : List (FactoryCall (Geo ℚ 2)) :=
  [.point (pt 0 0), .point (pt 1 0), .point (pt 0 1), .point (pt 1 1), .point (pt 2 0), .point (pt 2 3),
    .entity .tria [0, 1, 2] none, .entity .tria [1, 3, 2] none, .entity .quad [1, 4, 5, 3] none]

/-- The hypotheses are met: two triangles and a trapezoid, refined twice, the second time locally. -/
example : ∃ (f f' : Factory (Geo ℚ 2)) (rets : List ℕ) (H : Hierarchy (Geo ℚ 2)) (Mf : Mesh (Geo ℚ 2)),
    Factory.run {} trapCalls = some (f, rets) ∧ f.build geoBuild true = some (trapMesh, f') ∧
    (∀ c ∈ trapCalls, (∃ p : Vec ℚ 2, c = .point (.point p)) ∨
      ∃ ref nodes, ref ≠ .segment ∧ c = .entity ref nodes none) ∧
    trapMesh.Coarse (geoOps fun _ => 1) true ∧
    Hierarchy.run geoBuild (geoOps fun _ => 1) true trapMesh
      [.regular .regular, .mark fun e => e == 0, .refineMarked] = some H ∧ H.getMesh 2 = some Mf ∧
    Mf.topo.refEl (0, 0) = some .tria := by
  have h : (Hierarchy.run geoBuild (geoOps fun _ => 1) true trapMesh
      [.regular .regular, .mark fun e => e == 0, .refineMarked]).any
    (fun H => (H.getMesh 2).any fun m' => decide (m'.topo.refEl (0, 0) = some .tria)) = true := by decide +kernel
  simp only [Option.any_eq_true, decide_eq_true_eq] at h
  obtain ⟨H, h1, m, h3, h4⟩ := h
  refine ⟨_, {}, _, H, m, rfl, ?_, ?_, trapMesh_coarse _, h1, h3, h4⟩
  · unfold Factory.build
    have := trapezoid_eq
    unfold trapezoid at this
    exact congrArg (fun o => o.bind fun M => some (M, ({} : Factory (Geo ℚ 2)))) this
  · intro c hc
    simp only [trapCalls, List.mem_cons, List.not_mem_nil, or_false] at hc
    rcases hc with rfl | rfl | rfl | rfl | rfl | rfl | rfl | rfl | rfl
    · exact Or.inl ⟨_, rfl⟩
    · exact Or.inl ⟨_, rfl⟩
    · exact Or.inl ⟨_, rfl⟩
    · exact Or.inl ⟨_, rfl⟩
    · exact Or.inl ⟨_, rfl⟩
    · exact Or.inl ⟨_, rfl⟩
    · exact Or.inr ⟨_, _, by decide, rfl⟩
    · exact Or.inr ⟨_, _, by decide, rfl⟩
    · exact Or.inr ⟨_, _, by decide, rfl⟩

end Verif
