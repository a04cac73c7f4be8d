import Verif.Lemmas.Transfer
import Verif.Lemmas.RefHier
import Verif.Lemmas.RefCounts

/-! Relative geometries in hierarchies. -/

namespace Verif
variable {K : Type} [Field K] [LinearOrder K] [IsStrictOrderedRing K] {w : ℕ}

/-- Facts on the polygons of a pattern, from a finite table. -/
theorem polygons_table (ref : RefEl) (codim : ℕ) (S : List RefPat) (chk : List (List ℤ) → Bool)
    (k1 : ∀ pat ∈ S, Pattern.Admissible ⟨ref, none, pat, false⟩ →
      ∀ P ∈ ((Pattern.childPolygons ⟨ref, none, pat, false⟩ codim).getD []), chk P = true)
    (k2 : ∀ pat ∈ S, ∀ a < ref.numNodes, Pattern.Admissible ⟨ref, some a, pat, true⟩ →
      ∀ P ∈ ((Pattern.childPolygons ⟨ref, some a, pat, true⟩ codim).getD []), chk P = true)
    {p : Pattern} (hr : p.Reachable) (ha : p.Admissible) (ht : p.ref = ref) (hS : p.pat ∈ S)
    {polys : List (List (List ℤ))} (hp : p.childPolygons codim = some polys) : ∀ P ∈ polys, chk P = true := by
  intro P hP
  rcases Pattern.cases_of hr with hs | ⟨a, h1, h2, h3⟩
  · have hadm : Pattern.Admissible ⟨ref, none, p.pat, false⟩ := by
      unfold Pattern.Admissible at ha ⊢
      rw [hs, ht] at ha; exact ha
    refine k1 p.pat hS hadm P ?_
    have e1 := (childPolygons_unset p codim hs).1
    rw [ht, hp] at e1
    rw [← e1]
    exact hP
  · rw [h3, ht] at ha
    refine k2 p.pat hS a (by rw [ht] at h1; exact h1) ha P ?_
    rw [h3, ht] at hp
    rw [hp]
    exact hP


private def axisB : List (List ℤ) → Bool
  | [_] => true
  | [[x0, y0], [x1, y1]] => x0 == x1 || y0 == y1
  | [[x0, y0], [x1, y1], [x2, y2], [x3, y3]] =>
    (y1 == y0 && x2 == x1 && x3 == x0 && y3 == y2) || (x1 == x0 && y2 == y1 && y3 == y0 && x3 == x2)
  | _ => false

private theorem axisB_spec (poly : List (List ℤ)) (h : axisB poly = true) : AxisParallel poly := by
  unfold axisB at h
  unfold AxisParallel
  split at h
  · trivial
  · simpa using h
  · simp only [Bool.or_eq_true, Bool.and_eq_true, beq_iff_eq, and_assoc] at h
    exact h
  · cases h

theorem quad_axis {p : Pattern} (hr : p.Reachable) (ha : p.Admissible) (ht : p.ref = .quad) (hS : p.pat ∈ axisPats)
    (codim : ℕ) {polys : List (List (List ℤ))} (hp : p.childPolygons codim = some polys) :
    ∀ P ∈ polys, AxisParallel P := by
  intro P hP
  by_cases hc : codim ≤ 2
  · apply axisB_spec
    interval_cases codim <;>
      exact polygons_table .quad _ axisPats axisB (by decide +kernel) (by decide +kernel) hr ha ht hS hp P hP
  · have := (C26_codim p codim (by rw [ht]; simpa [RefEl.dimension] using hc)).2
    rw [hp] at this
    cases this

theorem quad_lat {p : Pattern} (hr : p.Reachable) (ha : p.Admissible) (ht : p.ref = .quad)
    {polys : List (List (List ℤ))} (hp : p.childPolygons 0 = some polys) :
    ∀ P ∈ polys, P.length = 4 → Geo.latParallelogram P = true := by
  intro P hP
  have := polygons_table .quad 0 allPats (fun P => !decide (P.length = 4) || Geo.latParallelogram P)
    (by decide +kernel) (by decide +kernel) hr ha ht (mem_allPats _) hp P hP
  intro h4
  simpa [h4] using this

namespace Geo

theorem stable_of_kind {g : Geo K w} (h : g.kind ≠ .quad) : g.Stable := by
  cases g <;> simp [kind] at h <;> trivial

theorem build_par {g : Geo K w} (hg : g.Stable) (hk : g.kind = .quad) {poly : List (List ℤ)} (h4 : poly.length = 4)
    (hl : latParallelogram poly = true) {h : Geo K w} (hb : buildChild g 0 poly = some h) : h.Stable := by
  cases g <;> simp [kind, Stable] at hk hg
  simp only [buildChild, h4, hl, if_true] at hb
  rw [if_neg (by decide)] at hb
  obtain ⟨pts, _, hm⟩ := Option.bind_eq_some_iff.1 hb
  unfold mkParallelogram at hm
  split at hm <;> cases hm
  trivial

/-- Children of such geometries are of that kind again. -/
theorem child_stable {g : Geo K w} (hg : g.Stable) {p : Pattern} (hr : p.Reachable) (hf : p.Refines) (hk : p.ref = g.kind)
    (codim : ℕ) {polys : List (List (List ℤ))} (hp : p.childPolygons codim = some polys) {hs : List (Geo K w)}
    (hc : g.child p codim = some hs) {j : ℕ} {h : Geo K w} (hj : hs[j]? = some h) : h.Stable := by
  obtain ⟨hs', c1, c2, c3, c4⟩ := child_places g p hr hf hk codim polys hp
  rw [hc] at c1
  cases c1
  by_cases hq : h.kind = .quad
  · have hjl : j < polys.length := by
      rw [← c2]
      exact (List.getElem?_eq_some_iff.1 hj).1
    have hpj : polys[j]? = some (polys[j]'hjl) := List.getElem?_eq_getElem hjl
    have hkj : h.kind = polyKind (polys[j]'hjl) := by
      have e := congrArg (fun l => l[j]?) c3
      simp only [List.getElem?_map, hj, hpj, Option.map_some] at e
      exact Option.some.inj e
    have hmem : polys[j]'hjl ∈ polys := List.getElem_mem hjl
    have hcd : codim ≤ p.ref.dimension := by
      by_contra hc
      have := (C26_codim p codim (by omega)).2
      rw [hp] at this
      cases this
    obtain ⟨n, polys', h1, h2, h3, h4⟩ := C26_contract p hr hf.1 codim hcd
    rw [hp] at h2
    cases h2
    obtain ⟨hlen, _⟩ := h4 _ hmem
    generalize polys[j]'hjl = P at *
    rw [hq] at hkj
    have hd : g.kind.dimension - codim = 2 ∧ P.length = 4 := by
      rw [hk] at hlen hcd
      have : g.kind.dimension ≤ 2 := by cases g.kind <;> decide
      unfold polyKind at hkj
      generalize hm : g.kind.dimension - codim = m at *
      have hm2 : m ≤ 2 := by omega
      interval_cases m <;> simp [vertexCounts] at hlen
      · rw [hlen] at hkj; simp at hkj
      · rw [hlen] at hkj; simp at hkj
      · rcases hlen with e | e
        · rw [e] at hkj; simp at hkj
        · exact ⟨rfl, e⟩
    have hc0 : codim = 0 := by
      have : g.kind.dimension ≤ 2 := by cases g.kind <;> decide
      omega
    subst hc0
    have hgq : g.kind = .quad := by
      have h2 : g.kind.dimension = 2 := by omega
      cases hg' : g.kind <;> simp [hg', RefEl.dimension] at h2 ⊢
      have := tria_children hr hf.1 (hk.trans hg') hp P hmem
      omega
    refine build_par hg hgq hd.2 (quad_lat hr hf.1 (hk.trans hgq) hp P hmem hd.2) (h := h) ?_
    have hbc : g.child p 0 = polys.mapM (buildChild g 0) := by
      cases g with
      | point a => simp [kind] at hgq
      | _ => unfold child; rw [if_pos hk]; simp only [hp, Option.bind_some, h1, h3, if_true]
    rw [hbc] at hc
    have hget := (mapM_get _ _ _ hc).2 j _ hpj
    obtain ⟨y, hy1, hy2⟩ := hget
    rw [hj] at hy1
    rw [Option.some.inj hy1]
    exact hy2
  · exact stable_of_kind hq

end Geo

variable {len : Geo K w → ℚ} {chk : Bool} {M : Mesh (Geo K w)} {H : Hierarchy (Geo K w)}

theorem pattern_reachable {G : Type} {L : Level G} {par : Ent} {p : Pattern} (h : L.pattern par = some p) : p.Reachable := by
  unfold Level.pattern at h
  split at h <;> simp only [Option.bind_eq_some_iff] at h
  · obtain ⟨ref, _, ci, _, h⟩ := h
    exact .make _ _ _ _ h
  · obtain ⟨ci, _, h⟩ := h
    exact .make _ _ _ _ h
  · obtain ⟨ci, _, h⟩ := h
    exact .make _ _ _ _ h

/-- Consecutive levels. -/
theorem level_pair {G : Type} {H : Hierarchy G} {level : ℕ} {N : Level G} (h : H.levels.reverse[level + 1]? = some N) :
    ∃ k L, H.levels[k]? = some N ∧ H.levels[k + 1]? = some L ∧ H.levels.reverse[level]? = some L := by
  have hl := (List.getElem?_eq_some_iff.1 h).1
  rw [List.length_reverse] at hl
  refine ⟨H.levels.length - 2 - level, H.levels[H.levels.length - 1 - level]'(by omega), ?_, ?_, ?_⟩
  · rw [List.getElem?_reverse (by omega)] at h
    rw [← h]
    congr 1
    omega
  · rw [List.getElem?_eq_some_iff]
    refine ⟨by omega, ?_⟩
    congr 1
    omega
  · rw [List.getElem?_reverse (by omega)]
    exact List.getElem?_eq_getElem _

/-- What is known on an entity of a refined level. -/
theorem parent_step (hH : HierOk (geoOps len) chk M H) (level : ℕ) (e : Ent) (he : H.Has (level + 1) e) :
    ∃ (par : Ent) (g h : Geo K w) (r : Geo K (2 - par.1)), H.parentEntity (level + 1) e = some par ∧
      H.geometryInParent K (level + 1) e = some ⟨2 - par.1, r⟩ ∧ H.Has level par ∧ par.1 ≤ e.1 ∧
      H.geo level par = some g ∧ H.geo (level + 1) e = some h ∧ g.kind.dimension = 2 - par.1 ∧
      (g.Stable → h.Stable) ∧ (H.Exact level par → r.Places g h) ∧ ∃ p, H.pattern level par = some p := by
  obtain ⟨Mf, hMf, he2, hei⟩ := he
  unfold Hierarchy.getMesh at hMf
  obtain ⟨N, hN, rfl⟩ := Option.map_eq_some_iff.1 hMf
  obtain ⟨k, L, hk1, hk2, hL⟩ := level_pair hN
  obtain ⟨L0, N0, P, A, Γ, hs, hp, rfl, rfl, hm, h0, h1, h2⟩ := hH.link k N L hk1 hk2
  have hpar : ∀ codim ≤ 2, N.parents codim = N0.parents codim := by
    intro codim hc
    match codim, hc with
    | 0, _ => exact h0
    | 1, _ => exact h1
    | 2, _ => exact h2
  rw [hm] at hei
  obtain ⟨info, par, j, g, p, polys, poly, gs, h, q1, q2, q3, q4, q5, q6, q7, q8, q9, q10, q11, q12, q13, q14⟩ :=
    hs.childrenOk e.1 he2 e.2 hei
  obtain ⟨_, hagree, _⟩ := hs.parentsAgree e.1 he2
  obtain ⟨info', par', j', a1, a2, a3, a4, a5, _⟩ := hagree e.2 hei
  rw [q1] at a1
  cases a1
  rw [q2] at a2
  cases a2
  rw [← hpar e.1 he2] at q1
  have hinfo : H.parentInfo (level + 1) e = some info := by
    unfold Hierarchy.parentInfo
    rw [if_pos (by omega), hN, Option.bind_some]
    obtain ⟨c, i⟩ := e
    simp only at he2 q1 ⊢
    interval_cases c <;> exact q1
  have hgp : H.geo level par = some g := by
    unfold Hierarchy.geo Hierarchy.getMesh
    rw [hL]
    exact q4
  have hge : H.geo (level + 1) e = some h := by
    unfold Hierarchy.geo Hierarchy.getMesh
    rw [hN]
    simp only [Option.map_some, Option.bind_some, hm]
    exact q14
  have hpat : H.pattern level par = some p := by
    unfold Hierarchy.pattern
    rw [hL]
    exact q5
  have hr := pattern_reachable q5
  have hkind : g.kind.dimension = 2 - par.1 := by
    have hLM := hH.all L (List.mem_of_getElem? hk2)
    have := hLM.geoOk
    obtain ⟨c, i⟩ := par
    simp only at a4 a5 q4 ⊢
    have hc2 : c ≤ 2 := by omega
    interval_cases c
    · obtain ⟨g', e1, e2⟩ := this.cells i a5
      have e3 : some g' = some g := e1.symm.trans q4
      cases e3
      have := hLM.valid.ref i a5
      rw [e2] at this
      have e4 : some g.kind = cellRefEl _ := this
      unfold cellRefEl at e4
      split at e4
      · rw [Option.some.inj e4]; rfl
      · split at e4
        · rw [Option.some.inj e4]; rfl
        · cases e4
    · obtain ⟨g', e1, e2⟩ := this.edges i a5
      have e3 : some g' = some g := e1.symm.trans q4
      cases e3
      have e4 : g.kind = .segment := e2
      rw [e4]; rfl
    · obtain ⟨g', e1, e2⟩ := this.points i a5
      have e3 : some g' = some g := e1.symm.trans q4
      cases e3
      have e4 : g.kind = .point := e2
      rw [e4]; rfl
  obtain ⟨hs', c1, c2, c3, c4⟩ := child_places g p hr q6 q7 _ polys q9
  have q12' : g.child p (e.1 - par.1) = some gs := q12
  rw [c1] at q12'
  cases q12'
  rw [hkind] at c4
  obtain ⟨r, r1, r2⟩ := c4 j poly h q10 q13
  refine ⟨par, g, h, r, ?_, ?_, ⟨L.mesh, ?_, by omega, a5⟩, a4, hgp, hge, hkind, ?_, ?_, p, hpat⟩
  · unfold Hierarchy.parentEntity
    rw [hinfo]
    exact q2
  · unfold Hierarchy.geometryInParent
    rw [hinfo]
    simp only [Option.bind_some, q2, q11, r1, Option.map_some]
  · unfold Hierarchy.getMesh
    rw [hL]
    rfl
  · intro hg
    exact Geo.child_stable hg hr q6 q7 _ q9 c1 q13
  · rintro (⟨g', hg', hst⟩ | ⟨p', hp', hax⟩)
    · rw [hgp] at hg'
      cases hg'
      exact r2 (Or.inl hst)
    · rw [hpat] at hp'
      cases hp'
      by_cases hq : g.kind = .quad
      · exact r2 (Or.inr (quad_axis hr q6.1 (q7.trans hq) hax _ q9 poly (List.mem_of_getElem? q10)))
      · exact r2 (Or.inl (Geo.stable_of_kind hq))

/-- All levels consist of such geometries if the coarsest mesh does. -/
theorem levels_stable (hH : HierOk (geoOps len) chk M H) (hM : M.Stable) (level : ℕ) (e : Ent) (he : H.Has level e) :
    ∃ g, H.geo level e = some g ∧ g.Stable := by
  induction level generalizing e with
  | zero =>
    obtain ⟨M', h1, h2, h3⟩ := he
    have hlast := hH.last
    have hM' : M' = M := by
      unfold Hierarchy.getMesh at h1
      rw [← List.head?_eq_getElem?, List.head?_reverse, hlast] at h1
      exact (Option.some.inj h1).symm
    subst hM'
    have hc : M'.Coarse (geoOps len) chk := by
      obtain ⟨L, hL, hm⟩ := Option.map_eq_some_iff.1 hlast
      rw [← hm]
      exact hH.all L (List.mem_of_getLast? hL)
    have : ∃ g, M'.geo e.1 e.2 = some g := by
      obtain ⟨c, i⟩ := e
      simp only at h2 h3 ⊢
      interval_cases c
      · obtain ⟨g, q, _⟩ := hc.geoOk.cells i h3; exact ⟨g, q⟩
      · obtain ⟨g, q, _⟩ := hc.geoOk.edges i h3; exact ⟨g, q⟩
      · obtain ⟨g, q, _⟩ := hc.geoOk.points i h3; exact ⟨g, q⟩
    obtain ⟨g, hg⟩ := this
    exact ⟨g, by unfold Hierarchy.geo; rw [h1]; exact hg, hM _ h2 _ h3 _ hg⟩
  | succ level ih =>
    obtain ⟨par, g, h, r, a1, a2, a3, a4, a5, a6, a7, a8, a9, _⟩ := parent_step hH level e he
    obtain ⟨g', hg', hs⟩ := ih par a3
    rw [a5] at hg'
    cases hg'
    exact ⟨h, a6, a8 hs⟩


/-! ### Uniform refinement -/

/-- All cells of refined levels have been refined by one of the regular patterns. -/
def UniformLevels {G : Type} (H : Hierarchy G) : Prop :=
  ∀ L ∈ H.levels.tail, ∀ ci ∈ L.cellCI, ci.pat = .regular ∨ ci.pat = .barycentric

theorem fold_uniform {G : Type} (ops : GeoOps G) {cops : ChildOps G} {chk : Bool} (hl : cops.Lawful) {M : Mesh G}
    (hist : List HOp) (ho : ∀ op ∈ hist, op.Legal) (hu : ∀ op ∈ hist, op ≠ .refineMarked) (H H' : Hierarchy G)
    (hH : HierOk cops chk M H) (h : hist.foldlM (fun H op => H.call ops cops chk op) H = some H') (hU : UniformLevels H) :
    UniformLevels H' := by
  induction hist generalizing H with
  | nil =>
    have : H = H' := Option.some.inj h
    exact this ▸ hU
  | cons op hist ih =>
    obtain ⟨H1, e1, h1, _⟩ := call_ok ops hl hH op (ho op (by simp))
    rw [List.foldlM_cons, e1] at h
    refine ih (fun o ho' => ho o (by simp [ho'])) (fun o ho' => hu o (by simp [ho'])) H1 h1 h ?_
    cases hlev : H.levels with
    | nil => exact absurd hlev hH.ne
    | cons L rest =>
      unfold UniformLevels at hU
      rw [hlev] at hU
      have hL := hH.head L (by rw [hlev]; rfl)
      cases op with
      | refineMarked => exact absurd rfl (hu .refineMarked (by simp))
      | mark f =>
        unfold Hierarchy.call Hierarchy.markEdges at e1
        simp only [hlev] at e1
        obtain ⟨L1, _, e3⟩ := Option.bind_eq_some_iff.1 e1
        cases e3
        exact hU
      | regular pat =>
        have hp : pat = .regular ∨ pat = .barycentric := ho (.regular pat) (by simp)
        obtain ⟨L', N, Γ, r1, r2, r3⟩ := regular_step ops hl hL hp
        unfold Hierarchy.call Hierarchy.refineRegular at e1
        simp only [hlev, hH.factory, r1] at e1
        cases e1
        intro L1 hL1 ci hci
        simp only [List.tail_cons, List.mem_cons] at hL1
        rcases hL1 with rfl | hL1
        · rw [r3.same] at hci
          obtain ⟨c, hc, rfl⟩ := List.mem_map.1 hci
          have hcc : c < L.mesh.topo.numCells := List.mem_range.1 hc
          have : (outC L.mesh.topo (L.withPatterns (L.edgeCI.map fun _ => .split) (L.cellCI.map fun ci => (pat, ci.anchor))).plan
              (L.withPatterns (L.edgeCI.map fun _ => .split) (L.cellCI.map fun ci => (pat, ci.anchor))).pats c).pat = pat := by
            simp [outC, Level.pats, Level.withPatterns, hL.fresh.cells, hcc]
          have e : ∀ q, q = pat → q = .regular ∨ q = .barycentric := fun q hq => hq ▸ hp
          exact e _ this
        · exact hU L1 hL1 ci hci

theorem run_uniform {G : Type} (ops : GeoOps G) {cops : ChildOps G} {chk : Bool} (hl : cops.Lawful) {M : Mesh G}
    (hM : M.Coarse cops chk) (hist : List HOp) (ho : ∀ op ∈ hist, op.Legal) (hu : ∀ op ∈ hist, op ≠ .refineMarked)
    {H : Hierarchy G} (hr : Hierarchy.run ops cops chk M hist = some H) : UniformLevels H := by
  obtain ⟨H0, e0, h0, l0⟩ := make_ok hM
  unfold Hierarchy.run at hr
  rw [e0] at hr
  refine fold_uniform ops hl hist ho hu H0 H h0 hr ?_
  intro L hL
  obtain ⟨a, ha⟩ := List.length_eq_one_iff.1 l0
  rw [ha] at hL
  cases hL

theorem uniform_exact (hH : HierOk (geoOps len) chk M H) (hU : UniformLevels H) (level : ℕ) (e par : Ent)
    (he : H.Has (level + 1) e) (hp : H.parentEntity (level + 1) e = some par) : H.Exact level par := by
  obtain ⟨par', g, h, r, a1, a2, a3, a4, a5, a6, a7, a8, a9, p, hpat⟩ := parent_step hH level e he
  rw [hp] at a1
  cases a1
  by_cases hq : g.kind = .quad
  · right
    refine ⟨p, hpat, ?_⟩
    have h0 : par.1 = 0 := by
      rw [hq] at a7
      simp [RefEl.dimension] at a7
      omega
    unfold Hierarchy.pattern at hpat
    obtain ⟨L, hL, hLp⟩ := Option.bind_eq_some_iff.1 hpat
    unfold Level.pattern at hLp
    rw [h0] at hLp
    simp only [Option.bind_eq_some_iff] at hLp
    obtain ⟨ref, _, ci, hci, hm⟩ := hLp
    obtain ⟨Mf, hMf, _, _⟩ := he
    unfold Hierarchy.getMesh at hMf
    obtain ⟨N, hN, rfl⟩ := Option.map_eq_some_iff.1 hMf
    obtain ⟨k, L1, hk1, hk2, hL1⟩ := level_pair hN
    rw [hL] at hL1
    cases hL1
    have hmem : L ∈ H.levels.tail := by
      rw [List.mem_iff_getElem?]
      exact ⟨k, by rw [List.getElem?_tail]; exact hk2⟩
    have := hU L hmem ci (List.mem_of_getElem? hci)
    rw [make_eq hm]
    rcases this with h | h <;> simp [h, axisPats]
  · exact Or.inl ⟨g, a5, Geo.stable_of_kind hq⟩

/-! ### Transfer over several levels -/

theorem Geo.global_some (g : Geo K w) (x : List K) (hx : g.kind.Contains x) : ∃ v, g.global x = some v := by
  cases g <;> rcases x with _ | ⟨x, _ | ⟨y, _ | ⟨z, t⟩⟩⟩ <;> simp [Geo.kind, RefEl.Contains] at hx <;>
    simp only [Geo.global] <;> try exact ⟨_, rfl⟩
  · rw [if_pos ((inUnit_one x).2 hx)]; exact ⟨_, rfl⟩
  · rw [if_pos ((inUnit_two x y).2 ⟨⟨hx.1, by linarith⟩, ⟨hx.2.1, by linarith⟩⟩)]; exact ⟨_, rfl⟩
  · rw [if_pos ((inUnit_two x y).2 ⟨⟨hx.1, hx.2.1⟩, ⟨hx.2.2.1, hx.2.2.2⟩⟩)]; exact ⟨_, rfl⟩


/-- The loop of `MeshFunctionTransfer`. -/
theorem transfer_loop (hH : HierOk (geoOps len) chk M H) (n : ℕ) : ∀ (level : ℕ) (e : Ent) (h : Geo K w) (x : List K),
    n ≤ level → H.Has level e → H.geo level e = some h → h.kind.Contains x →
    (∀ m < n, ∀ par, H.ancestor (m + 1) level e = some par → H.Exact (level - (m + 1)) par) →
    ∃ par g y v, H.ancestor n level e = some par ∧ H.Has (level - n) par ∧ H.geo (level - n) par = some g ∧
      transferLoop H n level e x = some (par, y) ∧ g.kind.Contains y ∧ g.global y = some v ∧ h.global x = some v := by
  induction n with
  | zero =>
    intro level e h x _ he hh hx _
    obtain ⟨v, hv⟩ := Geo.global_some h x hx
    exact ⟨e, h, x, v, rfl, he, hh, rfl, hx, hv, hv⟩
  | succ n ih =>
    intro level e h x hn he hh hx hex
    obtain ⟨l, rfl⟩ : ∃ l, level = l + 1 := ⟨level - 1, by omega⟩
    obtain ⟨par, g, h', r, a1, a2, a3, a4, a5, a6, a7, a8, a9, _⟩ := parent_step hH l e he
    rw [hh] at a6
    cases a6
    have hx0 : H.Exact l par := by
      have := hex 0 (by omega) par (by unfold Hierarchy.ancestor; rw [a1]; rfl)
      simpa using this
    obtain ⟨b1, b2⟩ := a9 hx0
    obtain ⟨y, v, c1, c2, c3, c4⟩ := b2 x hx
    obtain ⟨par2, g2, y2, v2, d1, d2, d3, d4, d5, d6, d7⟩ := ih l par g (List.ofFn y) (by omega) a3 a5 c2 (by
      intro m hm p hp
      have := hex (m + 1) (by omega) p (by
        unfold Hierarchy.ancestor
        rw [a1]
        exact hp)
      have e : l + 1 - (m + 1 + 1) = l - (m + 1) := by omega
      rwa [e] at this)
    have el : l + 1 - (n + 1) = l - n := by omega
    refine ⟨par2, g2, y2, v2, ?_, by rw [el]; exact d2, by rw [el]; exact d3, ?_, d5, d6, ?_⟩
    · unfold Hierarchy.ancestor
      rw [a1]
      exact d1
    · unfold transferLoop transferStep
      rw [a1, a2]
      simp only [Option.bind_some, c1]
      exact d4
    · rw [c4, ← c3]
      exact d7

theorem transferLoop_add {G : Type} (H : Hierarchy G) (a b level : ℕ) (e : Ent) (x : List K) :
    transferLoop H (a + b) level e x =
      (transferLoop H a level e x).bind fun r => transferLoop H b (level - a) r.1 r.2 := by
  induction a generalizing level e x with
  | zero => simp [transferLoop]
  | succ a ih =>
    rw [Nat.add_right_comm]
    simp only [transferLoop]
    cases transferStep H level e x with
    | none => rfl
    | some r =>
      simp only [Option.bind_some]
      rw [ih]
      have : level - 1 - a = level - (a + 1) := by omega
      rw [this]

end Verif
