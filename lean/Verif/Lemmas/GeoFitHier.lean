import Verif.Lemmas.GeoFit
import Verif.Props.Relative

/-!
# Lemmas: geometries of neighbouring entities of refined meshes, hierarchies
-/

namespace Verif
open Geo
variable {K : Type} [Field K] [LinearOrder K] [IsStrictOrderedRing K] {w : ℕ}
  {len : Geo K w → ℚ} {chk : Bool} {M : Mesh (Geo K w)} {H : Hierarchy (Geo K w)}

/-- Position of the point with local coordinates `x` in the entity `e`. -/
def Mesh.posOf (M : Mesh (Geo K w)) (e : Ent) (x : List K) : Vec K w := ((M.geo e.1 e.2).bind fun g => g.global x).getD 0

omit [IsStrictOrderedRing K] in
/-- All entities have geometries of the right type. -/
theorem Mesh.Coarse.geo_kind (hM : M.Coarse (geoOps len) chk) {e : Ent} {r : RefEl} (he : M.topo.refEl e = some r) :
    ∃ g, M.geo e.1 e.2 = some g ∧ g.kind = r := by
  obtain ⟨c, i⟩ := e
  unfold Topo.refEl at he
  split_ifs at he with h1 h2 h3 h4 h5
  · cases he
    simp only at h2
    subst h2
    exact hM.geoOk.points i h1
  · cases he
    simp only at h3
    subst h3
    exact hM.geoOk.edges i h1
  · cases he
    have h0 : c = 0 := by
      rcases c with _ | _ | _ | c
      · rfl
      · exact absurd rfl h3
      · exact absurd rfl h2
      · simp [Topo.num] at h1
    subst h0
    obtain ⟨g, a1, a2⟩ := hM.geoOk.cells i h1
    refine ⟨g, a1, ?_⟩
    have := hM.valid.ref i h1
    rw [a2] at this
    unfold cellRefEl at this
    rw [if_pos h4] at this
    exact Option.some.inj this
  · cases he
    have h0 : c = 0 := by
      rcases c with _ | _ | _ | c
      · rfl
      · exact absurd rfl h3
      · exact absurd rfl h2
      · simp [Topo.num] at h1
    subst h0
    obtain ⟨g, a1, a2⟩ := hM.geoOk.cells i h1
    refine ⟨g, a1, ?_⟩
    have := hM.valid.ref i h1
    rw [a2] at this
    unfold cellRefEl at this
    rw [if_neg h4, if_pos h5] at this
    exact Option.some.inj this

omit [IsStrictOrderedRing K] in
/-- Children of geometries of first order are of first order. -/
theorem child_first {g : Geo K w} (hg : g.quadratic = false) {p : Pattern} {codim : ℕ} {gs : List (Geo K w)}
    (h : g.child p codim = some gs) : ∀ h ∈ gs, h.quadratic = false := by
  have m0 : ∀ (o : Option (List (Vec K w))) h, o.bind mkPoint = some h → h.quadratic = false := by
    intro o h hh
    simp only [Option.bind_eq_some_iff] at hh
    obtain ⟨l, -, hl⟩ := hh
    unfold mkPoint at hl; split at hl <;> cases hl; rfl
  have m1 : ∀ (o : Option (List (Vec K w))) h, o.bind mkSegO1 = some h → h.quadratic = false := by
    intro o h hh
    simp only [Option.bind_eq_some_iff] at hh
    obtain ⟨l, -, hl⟩ := hh
    unfold mkSegO1 at hl; split at hl <;> cases hl; rfl
  have m2 : ∀ (o : Option (List (Vec K w))) h, o.bind mkTriaO1 = some h → h.quadratic = false := by
    intro o h hh
    simp only [Option.bind_eq_some_iff] at hh
    obtain ⟨l, -, hl⟩ := hh
    unfold mkTriaO1 at hl; split at hl <;> cases hl; rfl
  have m3 : ∀ (o : Option (List (Vec K w))) h, o.bind mkQuadO1 = some h → h.quadratic = false := by
    intro o h hh
    simp only [Option.bind_eq_some_iff] at hh
    obtain ⟨l, -, hl⟩ := hh
    unfold mkQuadO1 at hl; split at hl <;> cases hl; rfl
  have m4 : ∀ (o : Option (List (Vec K w))) h, o.bind mkParallelogram = some h → h.quadratic = false := by
    intro o h hh
    simp only [Option.bind_eq_some_iff] at hh
    obtain ⟨l, -, hl⟩ := hh
    unfold mkParallelogram at hl; split at hl <;> cases hl; rfl
  have hb : ∀ poly h, buildChild g codim poly = some h → h.quadratic = false := by
    intro poly h hh
    cases g <;> simp [quadratic] at hg <;> rcases codim with _ | _ | _ | codim <;> simp only [buildChild, reduceCtorEq] at hh <;>
      split_ifs at hh <;> first | exact m0 _ _ hh | exact m1 _ _ hh | exact m2 _ _ hh | exact m3 _ _ hh | exact m4 _ _ hh
  have key : ∀ polys, List.mapM (buildChild g codim) polys = some gs → ∀ h ∈ gs, h.quadratic = false := by
    intro polys hp x hx
    obtain ⟨k, hk, rfl⟩ := List.getElem_of_mem hx
    obtain ⟨m1, m2⟩ := mapM_get _ _ _ hp
    obtain ⟨y, y1, y2⟩ := m2 k (polys[k]'(by omega)) (List.getElem?_eq_getElem _)
    rw [List.getElem?_eq_getElem hk] at y1
    cases y1
    exact hb _ _ y2
  unfold child at h
  by_cases hk : p.ref = g.kind
  · rw [if_pos hk] at h
    cases g
    case point a =>
      simp only at h
      split_ifs at h
      cases h
      simp [quadratic]
    all_goals
      simp only [Option.bind_eq_some_iff] at h
      obtain ⟨polys, -, h⟩ := h
      split_ifs at h
      exact key polys h
  · rw [if_neg hk] at h
    cases h

/-- What is known on the geometry of an entity of a refined level. -/
theorem parent_samples (hH : HierOk (geoOps len) chk M H) (level : ℕ) (e : Ent) (he : H.Has (level + 1) e) :
    ∃ (par : Ent) (g h : Geo K w) (r : Geo K (2 - par.1)), H.parentEntity (level + 1) e = some par ∧
      H.geometryInParent K (level + 1) e = some ⟨2 - par.1, r⟩ ∧ par.1 ≤ e.1 ∧
      H.geo level par = some g ∧ H.geo (level + 1) e = some h ∧ g.kind.dimension = 2 - par.1 ∧
      (g.Stable ∨ e.1 = 2 → r.Places g h) ∧ (r.kind = .segment → ∃ a b, r = segO1 a b) ∧
      (¬ g.Stable → e.1 ≤ 1 → h.quadratic = g.quadratic ∧ ∀ x ∈ h.nodes, ∃ y v, r.global x = some y ∧
        g.global (List.ofFn y) = some v ∧ h.global x = some v) ∧
      (g.quadratic = false → h.quadratic = false) ∧ H.Has level par := by
  obtain ⟨Mf, hMf, he2, hei⟩ := he
  unfold Hierarchy.getMesh at hMf
  obtain ⟨N, hN, rfl⟩ := Option.map_eq_some_iff.1 hMf
  obtain ⟨k, L, hk1, hk2, hL⟩ := level_pair hN
  obtain ⟨L0, N0, P, A, Γ, hs, hp, rfl, rfl, hm, h0, h1, h2⟩ := hH.link k N L hk1 hk2
  have hpar : ∀ codim ≤ 2, N.parents codim = N0.parents codim := by
    intro codim hc
    match codim, hc with
    | 0, _ => exact h0
    | 1, _ => exact h1
    | 2, _ => exact h2
  rw [hm] at hei
  obtain ⟨info, par, j, g, p, polys, poly, gs, h, q1, q2, q3, q4, q5, q6, q7, q8, q9, q10, q11, q12, q13, q14⟩ :=
    hs.childrenOk e.1 he2 e.2 hei
  obtain ⟨_, hagree, _⟩ := hs.parentsAgree e.1 he2
  obtain ⟨info', par', j', a1, a2, a3, a4, a5, _⟩ := hagree e.2 hei
  rw [q1] at a1
  cases a1
  rw [q2] at a2
  cases a2
  rw [← hpar e.1 he2] at q1
  have hinfo : H.parentInfo (level + 1) e = some info := by
    unfold Hierarchy.parentInfo
    rw [if_pos (by omega), hN, Option.bind_some]
    obtain ⟨c, i⟩ := e
    simp only at he2 q1 ⊢
    interval_cases c <;> exact q1
  have hgp : H.geo level par = some g := by
    unfold Hierarchy.geo Hierarchy.getMesh
    rw [hL]
    exact q4
  have hge : H.geo (level + 1) e = some h := by
    unfold Hierarchy.geo Hierarchy.getMesh
    rw [hN]
    simp only [Option.map_some, Option.bind_some, hm]
    exact q14
  have hr := pattern_reachable q5
  have hLM := hH.all L (List.mem_of_getElem? hk2)
  have hkind : g.kind.dimension = 2 - par.1 := by
    have := hLM.geoOk
    obtain ⟨c, i⟩ := par
    simp only at a4 a5 q4 ⊢
    have hc2 : c ≤ 2 := by omega
    interval_cases c
    · obtain ⟨g', e1, e2⟩ := this.cells i a5
      have e3 : some g' = some g := e1.symm.trans q4
      cases e3
      have := hLM.valid.ref i a5
      rw [e2] at this
      have e4 : some g.kind = cellRefEl _ := this
      unfold cellRefEl at e4
      split at e4
      · rw [Option.some.inj e4]; rfl
      · split at e4
        · rw [Option.some.inj e4]; rfl
        · cases e4
    · obtain ⟨g', e1, e2⟩ := this.edges i a5
      have e3 : some g' = some g := e1.symm.trans q4
      cases e3
      have e4 : g.kind = .segment := e2
      rw [e4]; rfl
    · obtain ⟨g', e1, e2⟩ := this.points i a5
      have e3 : some g' = some g := e1.symm.trans q4
      cases e3
      have e4 : g.kind = .point := e2
      rw [e4]; rfl
  have q7' : p.ref = g.kind := q7
  obtain ⟨hs', c1, c2, c3, c4⟩ := child_places g p hr q6 q7 _ polys q9
  have q12' : g.child p (e.1 - par.1) = some gs := q12
  rw [c1] at q12'
  cases q12'
  rw [hkind] at c4
  obtain ⟨r, r1, r2⟩ := c4 j poly h q10 q13
  have hcd : e.1 - par.1 ≤ p.ref.dimension := by rw [q7', hkind]; omega
  obtain ⟨n, polys', d1, d2, rfl, d4⟩ := C26_contract p hr q6.1 _ hcd
  rw [q9] at d2
  cases d2
  obtain ⟨hlen, hlat⟩ := d4 poly (List.mem_of_getElem? q10)
  refine ⟨par, g, h, r, ?_, ?_, a4, hgp, hge, hkind, ?_, ?_, ?_, fun hg => child_first hg c1 h (List.mem_of_getElem? q13),
    ⟨L.mesh, by unfold Hierarchy.getMesh; rw [hL]; rfl, by omega, a5⟩⟩
  · unfold Hierarchy.parentEntity
    rw [hinfo]
    exact q2
  · unfold Hierarchy.geometryInParent
    rw [hinfo]
    simp only [Option.bind_some, q2, q11, r1, Option.map_some]
  · rintro (hst | h2')
    · exact r2 (Or.inl hst)
    · by_cases hq : g.kind = .quad
      · refine r2 (Or.inr ?_)
        rw [q7', hkind, show 2 - par.1 - (e.1 - par.1) = 0 by omega] at hlen
        simp [vertexCounts] at hlen
        rcases poly with _ | ⟨a, _ | ⟨b, t⟩⟩ <;> simp at hlen
        trivial
      · exact r2 (Or.inl (Geo.stable_of_kind hq))
  · intro hrk
    unfold relative at r1
    split at r1 <;> cases r1
    · simp [kind] at hrk
    · exact ⟨_, _, rfl⟩
    · simp [kind] at hrk
    · simp [kind] at hrk
  · intro hn he1
    have hq : g.kind = .quad := by
      by_contra hq
      exact hn (Geo.stable_of_kind hq)
    have hp0 : par.1 = 0 := by
      rw [hq] at hkind
      simp only [RefEl.dimension] at hkind
      omega
    have hb : buildChild g (e.1 - par.1) poly = some h := by
      have hb' : g.child p (e.1 - par.1) = polys.mapM (buildChild g (e.1 - par.1)) := by
        cases g with
        | point a => simp [kind] at hq
        | _ => unfold child; rw [if_pos q7']; simp only [q9, Option.bind_some, d1, if_true]
      rw [hb'] at c1
      obtain ⟨h', f2, f1⟩ := (mapM_get _ _ _ c1).2 j poly q10
      rw [q13] at f2
      cases f2
      exact f1
    rw [q7', hkind] at hlen
    rw [q7', hq] at hlat
    obtain ⟨c, i⟩ := par
    simp only at hp0
    subst hp0
    exact quad_samples g hq hn (by omega) hlen hlat hb r1

/-- The position of a point of a refined mesh is the position of the point of the parent given by the relative
geometry. -/
def Hierarchy.ExactAt (H : Hierarchy (Geo K w)) (level : ℕ) (Mc Mf : Mesh (Geo K w)) (e : Ent) (x : List K) : Prop :=
  ∃ par y, transferStep H (level + 1) e x = some (par, y) ∧ Mf.posOf e x = Mc.posOf par y

omit [IsStrictOrderedRing K] in
theorem exactAt_of {level : ℕ} {Mc Mf : Mesh (Geo K w)} (hc : H.getMesh level = some Mc) (hf : H.getMesh (level + 1) = some Mf)
    {e par : Ent} {g h : Geo K w} {r : Geo K (2 - par.1)} (h1 : H.parentEntity (level + 1) e = some par)
    (h2 : H.geometryInParent K (level + 1) e = some ⟨2 - par.1, r⟩) (h3 : H.geo level par = some g)
    (h4 : H.geo (level + 1) e = some h) {x : List K}
    (hx : ∃ y v, r.global x = some y ∧ g.global (List.ofFn y) = some v ∧ h.global x = some v) :
    H.ExactAt level Mc Mf e x := by
  obtain ⟨y, v, e1, e2, e3⟩ := hx
  refine ⟨par, List.ofFn y, ?_, ?_⟩
  · unfold transferStep
    rw [h2, h1]
    simp only [Option.bind_some, e1]
  · unfold Hierarchy.geo at h3 h4
    rw [hc] at h3
    rw [hf] at h4
    simp only [Option.bind_some] at h3 h4
    unfold Mesh.posOf
    rw [h3, h4]
    simp only [Option.bind_some, e2, e3]

omit [IsStrictOrderedRing K] in
/-- Descriptions of one point have the same position. -/
theorem samePoint_pos {Mc : Mesh (Geo K w)} (hs : Mc.topo.SingleValued Mc.posOf) {r : RefEl} {c : ℕ}
    (hr : Mc.topo.refEl (0, c) = some r) {y : List K} {e : Ent} {x : List K} (h : Mc.topo.SamePoint r c y e x) :
    Mc.posOf (0, c) y = Mc.posOf e x := by
  rcases h with ⟨rfl, rfl, _⟩ | ⟨j, hj, t, t0, t1, rfl, rfl, rfl⟩ | ⟨j, hj, rfl, rfl, rfl⟩
  · rfl
  · exact (hs c r hr j hj).1 t t0 t1
  · exact (hs c r hr j hj).2

theorem onSide_zero (T : Topo) {r : RefEl} (hr : r = .tria ∨ r = .quad) (c j : ℕ) (hj : j < r.numNodes) {t : K}
    (ht : t = 0 ∨ t = 1) : T.onSide r c j t ∈ (r.corners : List (List K)) := by
  unfold Topo.onSide
  rcases hr with rfl | rfl <;> simp only [RefEl.numNodes] at hj <;> rcases ht with rfl | rfl <;> split_ifs <;>
    interval_cases j <;> simp [sidePoint, RefEl.corners, RefEl.numNodes]

theorem onSide_half (T : Topo) {r : RefEl} (hr : r = .tria ∨ r = .quad) (c j : ℕ) (hj : j < r.numNodes) :
    T.onSide r c j (1 / 2 : K) ∈ (r.sideMids : List (List K)) := by
  have h : (1 - 2⁻¹ : K) = 2⁻¹ := by norm_num
  have h' : (2⁻¹ + 2⁻¹ : K) = 1 := by norm_num
  unfold Topo.onSide
  rcases hr with rfl | rfl <;> simp only [RefEl.numNodes] at hj <;> split_ifs <;>
    interval_cases j <;> simp [sidePoint, RefEl.corners, RefEl.numNodes, RefEl.sideMids, h, h']

theorem onSide_contains (T : Topo) {r : RefEl} (hr : r = .tria ∨ r = .quad) (c j : ℕ) (hj : j < r.numNodes) {t : K}
    (h0 : 0 ≤ t) (h1 : t ≤ 1) : r.Contains (T.onSide r c j t) := by
  have h2 : 0 ≤ 1 - t := by linarith
  have h3 : 1 - t ≤ 1 := by linarith
  unfold Topo.onSide
  rcases hr with rfl | rfl <;> simp only [RefEl.numNodes] at hj <;> split_ifs <;>
    interval_cases j <;> simp [sidePoint, RefEl.corners, RefEl.numNodes, RefEl.Contains, h0, h1, h2, h3]

theorem corner_contains {r : RefEl} {x : List K} (hx : x ∈ (r.corners : List (List K))) : r.Contains x := by
  cases r <;> simp only [RefEl.corners, List.mem_cons, List.not_mem_nil, or_false] at hx
  · subst hx; trivial
  · rcases hx with rfl | rfl <;> simp [RefEl.Contains]
  · rcases hx with rfl | rfl | rfl <;> simp [RefEl.Contains]
  · rcases hx with rfl | rfl | rfl | rfl <;> simp [RefEl.Contains]

omit [IsStrictOrderedRing K] in
private theorem posOf_eq {M : Mesh (Geo K w)} {e : Ent} {g : Geo K w} (h : M.geo e.1 e.2 = some g) {x : List K} {v : Vec K w}
    (hv : g.global x = some v) : M.posOf e x = v := by
  unfold Mesh.posOf
  rw [h]
  simp [hv]

omit [IsStrictOrderedRing K] in
private theorem has_of {level : ℕ} {Mf : Mesh (Geo K w)} (hf : H.getMesh level = some Mf) {e : Ent} {r : RefEl}
    (h : Mf.topo.refEl e = some r) : H.Has level e := by
  refine ⟨Mf, hf, ?_, ?_⟩
  · unfold Topo.refEl at h
    obtain ⟨c, i⟩ := e
    rcases c with _ | _ | _ | c <;> simp [Topo.num] at h ⊢
  · unfold Topo.refEl at h
    by_contra hc
    rw [if_neg hc] at h
    cases h

/-- One refinement: the geometries of the refined mesh agree on common sides and at common nodes if those of the
mesh before do. -/
theorem fit_step (hH : HierOk (geoOps len) chk M H) (level : ℕ) {Mc Mf : Mesh (Geo K w)} (hc : H.getMesh level = some Mc)
    (hf : H.getMesh (level + 1) = some Mf) (hs : Mc.topo.SingleValued Mc.posOf) : Mf.topo.SingleValued Mf.posOf := by
  have coarse : ∀ {level : ℕ} {M' : Mesh (Geo K w)}, H.getMesh level = some M' → M'.Coarse (geoOps len) chk := by
    intro level M' h
    unfold Hierarchy.getMesh at h
    obtain ⟨L, hL, rfl⟩ := Option.map_eq_some_iff.1 h
    exact hH.all L (List.mem_reverse.1 (List.mem_of_getElem? hL))
  have hMc := coarse hc
  have hMf := coarse hf
  intro i rf hi j hj
  obtain ⟨Mc', hc', hsame⟩ := hH.samePoint (K := K) hf
  rw [hc] at hc'
  cases hc'
  obtain ⟨c, r, hr, hsame⟩ := hsame i rf hi
  have hilt : i < Mf.topo.numCells := by
    have := has_of hf hi
    obtain ⟨M', h1, h2, h3⟩ := this
    rw [hf] at h1
    cases h1
    exact h3
  have hwf := hMf.valid.wf
  have hrf : rf = .tria ∨ rf = .quad := by
    unfold Topo.refEl at hi
    rw [if_pos (show (0, i).2 < Mf.topo.num (0, i).1 from hilt), if_neg (by simp), if_neg (by simp)] at hi
    split_ifs at hi with h4 h5
    · exact Or.inl (Option.some.inj hi).symm
    · exact Or.inr (Option.some.inj hi).symm
  have hn : rf.numNodes = (Mf.topo.cell i).nodes.length := by
    unfold Topo.refEl at hi
    rw [if_pos (show (0, i).2 < Mf.topo.num (0, i).1 from hilt), if_neg (by simp), if_neg (by simp)] at hi
    split_ifs at hi with h4 h5
    · cases hi; exact h4.symm
    · cases hi; exact h5.symm
  -- two exact descriptions of one point
  have meet : ∀ y e x, Mf.topo.SamePoint rf i y e x → H.ExactAt level Mc Mf (0, i) y → H.ExactAt level Mc Mf e x →
      Mf.posOf (0, i) y = Mf.posOf e x := by
    rintro y e x hp ⟨p1, y1, a1, a2⟩ ⟨p2, y2, b1, b2⟩
    obtain ⟨y', e', x', c1, c2, c3⟩ := hsame y e x hp
    rw [a1] at c1
    rw [b1] at c2
    cases c1
    cases c2
    rw [a2, b2]
    exact samePoint_pos hs hr c3
  -- the cell
  obtain ⟨par, g, h, rr, g1, g2, g3, g4, g5, g6, g7, g8, g9, -⟩ := parent_samples hH level (0, i) (has_of hf hi)
  have hgeo : Mf.geo 0 i = some h := by
    unfold Hierarchy.geo at g5
    rw [hf] at g5
    exact g5
  have hkind : h.kind = rf := by
    obtain ⟨h', b1, b2⟩ := hMf.geo_kind hi
    rw [hgeo] at b1
    cases b1
    exact b2
  have stableAt : g.Stable → ∀ x, rf.Contains x → H.ExactAt level Mc Mf (0, i) x := by
    intro hst x hx
    obtain ⟨y, v, b1, _, b2, b3⟩ := (g7 (Or.inl hst)).2 x (by rw [hkind]; exact hx)
    exact exactAt_of hc hf g1 g2 g4 g5 ⟨y, v, b1, b2, b3⟩
  have nodeAt : ∀ x ∈ h.nodes, rf.Contains x → H.ExactAt level Mc Mf (0, i) x := by
    intro x hx hx'
    by_cases hst : g.Stable
    · exact stableAt hst x hx'
    · exact exactAt_of hc hf g1 g2 g4 g5 ((g9 hst (by simp)).2 x hx)
  have cornerAt : ∀ x ∈ (rf.corners : List (List K)), H.ExactAt level Mc Mf (0, i) x := by
    intro x hx
    refine nodeAt x ?_ (corner_contains hx)
    unfold Geo.nodes
    rw [hkind]
    exact List.mem_append_left _ hx
  have hpar : par = (0, c) := by
    have hp : Mf.topo.SamePoint rf i ((rf.corners : List (List K)).getD j []) (0, i) ((rf.corners : List (List K)).getD j []) := by
      refine Or.inl ⟨rfl, rfl, ?_⟩
      rcases hrf with rfl | rfl <;> simp only [RefEl.numNodes] at hj <;> interval_cases j <;> simp [RefEl.corners]
    obtain ⟨y', e', x', c1, c2, c3⟩ := hsame _ _ _ hp
    unfold transferStep at c1
    rw [g2, g1] at c1
    simp only [Option.bind_some, Option.bind_eq_some_iff] at c1
    obtain ⟨_, _, c1⟩ := c1
    cases c1
    rfl
  subst hpar
  have hcorner : (rf.corners : List (List K)).getD j [] ∈ (rf.corners : List (List K)) := by
    rcases hrf with rfl | rfl <;> simp only [RefEl.numNodes] at hj <;> interval_cases j <;> simp [RefEl.corners]
  refine ⟨?_, ?_⟩
  · -- edges
    have hel : (Mf.topo.cell i).edges.length = rf.numNodes := by rw [hn]; exact hwf.cell_edges_len i hilt
    have hmem : (Mf.topo.cell i).edges.getD j 0 < Mf.topo.numEdges := by
      refine hwf.cell_edges i hilt _ ?_
      rw [List.getD_eq_getElem _ _ (by omega)]
      exact List.getElem_mem _
    generalize he : (Mf.topo.cell i).edges.getD j 0 = e at hmem
    have her : Mf.topo.refEl (1, e) = some .segment := by
      unfold Topo.refEl
      rw [if_pos (show (1, e).2 < Mf.topo.num (1, e).1 from hmem), if_neg (by simp), if_pos rfl]
    obtain ⟨pe, ge, he', re, f1, f2, f3, f4, f5, f6, f7, f8, f9, -⟩ := parent_samples hH level (1, e) (has_of hf her)
    have hgeoe : Mf.geo 1 e = some he' := by
      unfold Hierarchy.geo at f5
      rw [hf] at f5
      exact f5
    have hkinde : he'.kind = .segment := by
      obtain ⟨h', b1, b2⟩ := hMf.geo_kind her
      rw [hgeoe] at b1
      cases b1
      exact b2
    have same : ∀ t : K, 0 ≤ t → t ≤ 1 → Mf.topo.SamePoint rf i (Mf.topo.onSide rf i j t) (1, e) [t] := fun t t0 t1 =>
      Or.inr (Or.inl ⟨j, hj, t, t0, t1, by rw [he], rfl, rfl⟩)
    have segStable : ge.Stable → ∀ t : K, 0 ≤ t → t ≤ 1 → H.ExactAt level Mc Mf (1, e) [t] := by
      intro hst t t0 t1
      obtain ⟨y, v, b1, _, b2, b3⟩ := (f7 (Or.inl hst)).2 [t] (by rw [hkinde]; exact ⟨t0, t1⟩)
      exact exactAt_of hc hf f1 f2 f4 f5 ⟨y, v, b1, b2, b3⟩
    have segNode : ∀ t : K, 0 ≤ t → t ≤ 1 → [t] ∈ he'.nodes → H.ExactAt level Mc Mf (1, e) [t] := by
      intro t t0 t1 ht
      by_cases hst : ge.Stable
      · exact segStable hst t t0 t1
      · exact exactAt_of hc hf f1 f2 f4 f5 ((f9 hst (by simp)).2 [t] ht)
    have segEnd : ∀ t : K, t = 0 ∨ t = 1 → H.ExactAt level Mc Mf (1, e) [t] := by
      intro t ht
      refine segNode t (by rcases ht with rfl | rfl <;> simp) (by rcases ht with rfl | rfl <;> simp) ?_
      unfold Geo.nodes
      rw [hkinde]
      refine List.mem_append_left _ ?_
      rcases ht with rfl | rfl <;> simp [RefEl.corners]
    have atEnd : ∀ t : K, t = 0 ∨ t = 1 → Mf.posOf (0, i) (Mf.topo.onSide rf i j t) = Mf.posOf (1, e) [t] := by
      intro t ht
      refine meet _ _ _ (same t (by rcases ht with rfl | rfl <;> simp) (by rcases ht with rfl | rfl <;> simp))
        (cornerAt _ (onSide_zero Mf.topo hrf i j hj ht)) (segEnd t ht)
    have hstep : ∀ (t : K) p x, transferStep H (level + 1) (1, e) [t] = some (p, x) → p = pe ∧ ∃ z, re.global [t] = some z ∧
        x = List.ofFn z := by
      intro t p x hx
      unfold transferStep at hx
      rw [f2, f1] at hx
      simp only [Option.bind_some, Option.bind_eq_some_iff] at hx
      obtain ⟨z, hz, hx⟩ := hx
      cases hx
      exact ⟨rfl, z, hz, rfl⟩
    -- the edge lies inside of the parent of the cell or on a side of it
    have hpe : pe = (0, c) ∨ ∃ J < r.numNodes, pe = (1, (Mc.topo.cell c).edges.getD J 0) := by
      obtain ⟨y', e', x', c1, c2, c3⟩ := hsame _ _ _ (same 0 le_rfl zero_le_one)
      obtain ⟨rfl, _⟩ := hstep _ _ _ c2
      rcases c3 with ⟨b1, _⟩ | ⟨J, hJ, _, _, _, b1, _⟩ | ⟨_, _, b1, _⟩
      · exact Or.inl b1
      · exact Or.inr ⟨J, hJ, b1⟩
      · rw [b1] at f3
        simp at f3
    have hge : pe = (0, c) → ge = g := by
      rintro rfl
      rw [g4] at f4
      exact (Option.some.inj f4).symm
    have hges : pe.1 = 1 → ge.Stable := by
      intro hp
      refine Geo.stable_of_kind fun hq => ?_
      rw [hq, hp] at f6
      simp [RefEl.dimension] at f6
    intro t t0 t1
    by_cases hst : g.Stable
    · refine meet _ _ _ (same t t0 t1) (stableAt hst _ (onSide_contains Mf.topo hrf i j hj t0 t1)) ?_
      refine segStable ?_ t t0 t1
      rcases hpe with hpe | ⟨J, _, hpe⟩
      · rw [hge hpe]; exact hst
      · exact hges (by rw [hpe])
    · have hgq := (g9 hst (by simp)).1
      obtain ⟨A, B, C, s1, s2⟩ := Geo.onSide_curve Mf.topo h (by rw [hkind]; exact hrf) i j (by rw [hkind]; exact hj)
      rw [hkind] at s2
      obtain ⟨A', B', C', s1', s2'⟩ := Geo.seg_curve he' hkinde
      have v1 : ∀ t, 0 ≤ t → t ≤ 1 → Mf.posOf (0, i) (Mf.topo.onSide rf i j t) = quadCurve A B C t := fun t t0 t1 =>
        posOf_eq hgeo (s2 t t0 t1)
      have v2 : ∀ t, 0 ≤ t → t ≤ 1 → Mf.posOf (1, e) [t] = quadCurve A' B' C' t := fun t t0 t1 =>
        posOf_eq hgeoe (s2' t t0 t1)
      have a0 := atEnd 0 (Or.inl rfl)
      have a1 := atEnd 1 (Or.inr rfl)
      rw [v1 _ le_rfl zero_le_one, v2 _ le_rfl zero_le_one] at a0
      rw [v1 _ zero_le_one le_rfl, v2 _ zero_le_one le_rfl] at a1
      have hh0 : (0 : K) ≤ 1 / 2 := by norm_num
      have hh1 : (1 / 2 : K) ≤ 1 := by norm_num
      cases hq : g.quadratic with
      | true =>
        have hhq : h.quadratic = true := hgq.trans hq
        have am : Mf.posOf (0, i) (Mf.topo.onSide rf i j (1 / 2)) = Mf.posOf (1, e) [1 / 2] := by
          refine meet _ _ _ (same _ hh0 hh1) (nodeAt _ ?_ (onSide_contains Mf.topo hrf i j hj hh0 hh1)) ?_
          · unfold Geo.nodes
            rw [hkind, if_pos hhq]
            exact List.mem_append_right _ (onSide_half Mf.topo hrf i j hj)
          · rcases hpe with hpe | ⟨J, _, hpe⟩
            · refine segNode _ hh0 hh1 ?_
              have hgs : ¬ ge.Stable := by rw [hge hpe]; exact hst
              have : he'.quadratic = true := by rw [(f9 hgs (by simp)).1, hge hpe, hq]
              unfold Geo.nodes
              rw [hkinde, if_pos this]
              simp [RefEl.corners, RefEl.sideMids]
            · exact segStable (hges (by rw [hpe])) _ hh0 hh1
        rw [v1 _ hh0 hh1, v2 _ hh0 hh1] at am
        rw [v1 t t0 t1, v2 t t0 t1]
        exact curve_quad a0 a1 am t
      | false =>
        have hC : C = 0 := s1 (hgq.trans hq)
        subst hC
        rcases hpe with hpe | ⟨J, hJ, hpe⟩
        · have hgs : ¬ ge.Stable := by rw [hge hpe]; exact hst
          have hC : C' = 0 := s1' (by rw [(f9 hgs (by simp)).1, hge hpe, hq])
          subst hC
          rw [v1 t t0 t1, v2 t t0 t1]
          exact curve_line a0 a1 t
        · -- the side of the parent is straight
          obtain ⟨gc, b1, b2⟩ := hMc.geo_kind hr
          have hgc : gc = g := by
            have : H.geo level (0, c) = Mc.geo 0 c := by unfold Hierarchy.geo; rw [hc]; rfl
            rw [this] at g4
            exact Option.some.inj (b1.symm.trans g4)
          subst hgc
          have hrq : r = .quad := by
            rw [← b2]
            by_contra hq'
            exact hst (Geo.stable_of_kind hq')
          obtain ⟨A2, B2, C2, w1, w2⟩ := Geo.onSide_curve Mc.topo gc (by rw [b2]; exact Or.inr hrq) c J (by rw [b2]; exact hJ)
          obtain rfl := w1 hq
          rw [b2] at w2
          have side : ∀ s, 0 ≤ s → s ≤ 1 → Mc.posOf (1, (Mc.topo.cell c).edges.getD J 0) [s] = quadCurve A2 B2 0 s := by
            intro s s0 s1
            rw [← (hs c r hr J hJ).1 s s0 s1]
            exact posOf_eq b1 (w2 s s0 s1)
          subst hpe
          have hpl := f7 (Or.inl (hges rfl))
          have hgek : ge.kind = .segment := by
            cases hgk : ge.kind <;> rw [hgk] at f6 <;> simp [RefEl.dimension] at f6 ⊢
          obtain ⟨a, b, hab⟩ : ∃ a b : Vec K 1, re = (segO1 a b : Geo K 1) := f8 (hpl.1.trans hkinde)
          subst hab
          have line : ∀ t, 0 ≤ t → t ≤ 1 → Mf.posOf (1, e) [t] =
              quadCurve (A2 + (a 0) • B2) ((b 0 - a 0) • B2) 0 t := by
            intro t t0 t1
            obtain ⟨y, v, u1, u2, u3, u4⟩ := hpl.2 [t] (by rw [hkinde]; exact ⟨t0, t1⟩)
            simp only [global, Option.some.injEq] at u1
            have hy : List.ofFn y = [t * b 0 + (1 - t) * a 0] := by
              rw [← u1]
              simp [List.ofFn_succ]
            rw [hy, hgek] at u2
            rw [hy] at u3
            have e1 : Mf.posOf (1, e) [t] = v := posOf_eq hgeoe u4
            have e2 : Mc.posOf (1, (Mc.topo.cell c).edges.getD J 0) [t * b 0 + (1 - t) * a 0] = v := by
              refine posOf_eq ?_ u3
              unfold Hierarchy.geo at f4
              rw [hc] at f4
              exact f4
            rw [e1, ← e2, side _ u2.1 u2.2]
            ext k
            simp [quadCurve]
            ring
          rw [v1 t t0 t1, line t t0 t1]
          rw [← v2 _ le_rfl zero_le_one, line _ le_rfl zero_le_one] at a0
          rw [← v2 _ zero_le_one le_rfl, line _ zero_le_one le_rfl] at a1
          exact curve_line a0 a1 t
  · -- nodes
    refine meet _ _ _ (Or.inr (Or.inr ⟨j, hj, rfl, rfl, rfl⟩)) (cornerAt _ hcorner) ?_
    have hmem : (Mf.topo.cell i).nodes.getD j 0 < Mf.topo.numNodes := by
      refine hwf.cell_nodes i hilt _ ?_
      rw [List.getD_eq_getElem _ _ (by omega)]
      exact List.getElem_mem _
    generalize (Mf.topo.cell i).nodes.getD j 0 = v at hmem
    have hvr : Mf.topo.refEl (2, v) = some .point := by
      unfold Topo.refEl
      rw [if_pos (show (2, v).2 < Mf.topo.num (2, v).1 from hmem), if_pos rfl]
    obtain ⟨pv, gv, hv, rv, f1, f2, f3, f4, f5, f6, f7, f8, f9, -⟩ := parent_samples hH level (2, v) (has_of hf hvr)
    have hkindv : hv.kind = .point := by
      obtain ⟨h', b1, b2⟩ := hMf.geo_kind hvr
      unfold Hierarchy.geo at f5
      rw [hf] at f5
      simp only [Option.bind_some] at f5
      rw [f5] at b1
      cases b1
      exact b2
    obtain ⟨y, u, b1, _, b2, b3⟩ := (f7 (Or.inr rfl)).2 [] (by rw [hkindv]; trivial)
    exact exactAt_of hc hf f1 f2 f4 f5 ⟨y, u, b1, b2, b3⟩

end Verif
