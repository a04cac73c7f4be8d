import Verif.Lemmas.Prolongation
import Verif.Spec.Prolongation
import Verif.Props.Interpolation
import Verif.Props.Relative

/-!
# C71: prolongation of finite element functions to the next finer level

`Hierarchy.run ops cops chk M hist` is a mesh hierarchy after the calls `hist`.  `H.AgreesAt` and `H.Nested` are
defined in `Verif/Spec/Prolongation.lean`.
-/

namespace Verif
variable {G : Type}

theorem inParent_of_step {K : Type} [Field K] [LinearOrder K] {H : Hierarchy G} {level : ℕ} {e par : Ent} {x y : List K}
    (h : transferStep H level e x = some (par, y)) : H.InParent level e x par y := by
  unfold transferStep at h
  obtain ⟨⟨n, g⟩, h1, h2⟩ := Option.bind_eq_some_iff.1 h
  obtain ⟨par', h3, h4⟩ := Option.bind_eq_some_iff.1 h2
  obtain ⟨v, h5, h6⟩ := Option.bind_eq_some_iff.1 h4
  simp only [Option.some.injEq, Prod.mk.injEq] at h6
  obtain ⟨rfl, rfl⟩ := h6
  exact ⟨h3, n, g, v, h1, h5, rfl⟩

/-- Entries beyond the number of dofs do not matter. -/
theorem evalFE_take {S : FeSpace ℝ} {cnt : Ent → ℕ} (h : Conforming S cnt) {w : List ℝ} {e : Ent}
    (he : S.mesh.IsEnt e) (x : List ℝ) : S.evalFE w e x = S.evalFE (w.take S.dofh.numDofs) e x := by
  have : ∀ n, S.localDofs w e n = S.localDofs (w.take S.dofh.numDofs) e n := by
    intro n
    unfold FeSpace.localDofs
    rw [(h.answers e he).2.1]
    simp only [Option.bind_some]
    congr 1
    funext i
    rcases hg : (S.dofh.all e)[i]? with _ | g
    · rfl
    · have : g < S.dofh.numDofs := (h.range e he).1 g (List.mem_of_getElem? hg)
      simp only [Option.bind_some, List.getElem?_take, if_pos this]
  unfold FeSpace.evalFE
  simp only [this]

/-- Position of a child cell in its parent. -/
theorem HierOk.child_form {cops : ChildOps G} {chk : Bool} {M : Mesh G} {H : Hierarchy G} (hH : HierOk cops chk M H)
    {level : ℕ} {Mf Mc : Mesh G} (hf : H.getMesh (level + 1) = some Mf) (hc : H.getMesh level = some Mc)
    {i : ℕ} {rf : RefEl} (hi : Mf.topo.refEl (0, i) = some rf) :
    ∃ c r p polys Q, Mc.topo.refEl (0, c) = some r ∧ H.pattern level (0, c) = some p ∧ p.ref = r ∧ p.Reachable ∧
      p.Refines ∧ p.childPolygons 0 = some polys ∧ Q ∈ polys ∧ Q.length = rf.numNodes ∧
      (∀ q ∈ Q, ∃ x y : ℤ, q = [x, y]) ∧
      ∀ x : List ℝ, transferStep H (level + 1) (0, i) x = relEval (0, c) Q x := by
  unfold Hierarchy.getMesh at hf
  obtain ⟨N, hN, rfl⟩ := Option.map_eq_some_iff.1 hf
  obtain ⟨k, L, hk1, hk2, hL⟩ := level_pair hN
  obtain ⟨L0, N0, P, A, Γ, hs, hp, rfl, rfl, hm, h0, h1, h2⟩ := hH.link k N L hk1 hk2
  unfold Hierarchy.getMesh at hc
  rw [hL] at hc
  cases hc
  have hLm : L.mesh = L0.mesh := by rw [hs.same]
  have hst : ∀ (x : List ℝ), transferStep H (level + 1) (0, i) x = stepIn N0 (0, i) x := by
    intro x
    rw [transferStep_eq hN]
    unfold stepIn parentAt
    rw [h0, h1, h2]
  rw [hm] at hi
  obtain ⟨c, r, p, polys, Q, a1, a2, a3, a4, a5, a6, a7, a8, a9, a10⟩ := hs.child_form hi
  refine ⟨c, r, p, polys, Q, by rw [← hLm] at a1; exact a1, ?_, a3, a4, a5, a6, a7, a8, a9, fun x => by rw [hst, a10]⟩
  unfold Hierarchy.pattern
  rw [hL]
  exact a2

/-- Shape functions of Lagrangian finite elements on cells. -/
theorem lagr_poly {p : ℕ} (hp : 1 ≤ p ∧ p ≤ 3) {r : RefEl} (hr : r = .tria ∨ r = .quad) (a : ℕ → ℝ) :
    IsPolyOn r p fun x => ∑ i ∈ Finset.range (lagrFE p r : RefFE ℝ).num, a i * (lagrFE p r : RefFE ℝ).shape i x := by
  have hL := lagrFE_isLagrange p hp r (by rcases hr with rfl | rfl <;> simp)
  have hd : (lagrFE p r : RefFE ℝ).ref = r ∧ (lagrFE p r : RefFE ℝ).degree = p := by
    obtain ⟨h1, h3⟩ := hp
    rcases hr with rfl | rfl <;> interval_cases p <;> exact ⟨rfl, rfl⟩
  have hP := hL.polynomial
  unfold RefFE.Polynomial at hP
  rw [hd.1, hd.2] at hP
  rcases hr with rfl | rfl
  · exact TP.sum _ fun i hi => TP.smul _ (hP i (Finset.mem_range.1 hi))
  · exact QP.sum _ fun i hi => QP.smul _ (hP i (Finset.mem_range.1 hi))

section
variable (ops : GeoOps G) {cops : ChildOps G} (hl : cops.Lawful) (chk : Bool) (M : Mesh G)
  (hM : M.Coarse cops chk) (hist : List HOp) (ho : ∀ op ∈ hist, op.Legal) (H : Hierarchy G)
  (hH : Hierarchy.run ops cops chk M hist = some H) (level : ℕ) (Mc Mf : Mesh G) (hc : H.getMesh level = some Mc)
  (hf : H.getMesh (level + 1) = some Mf) (pc pf : ℕ) (hpc : 1 ≤ pc ∧ pc ≤ 3) (hpf : 1 ≤ pf ∧ pf ≤ 3)
  (Uc Uf : UniformFESpace ℝ) (hUc : lagrangeSpace Mc.topo pc = some Uc) (hUf : lagrangeSpace Mf.topo pf = some Uf)
  (w : List ℝ)
include hl hM ho hH hc hf hpc hpf hUc hUf

/-- **C71**, for all meshes, all sequences of refinements and Lagrangian spaces of order 1, 2 and 3 on two
consecutive levels: prolongation yields the coefficients of the function on the fine mesh which has
the values of the coarse function at all evaluation nodes of the fine cells; on the cells of the fine mesh on which
the coarse function is a polynomial of the degree of the fine space, it has the values of the coarse function
everywhere. -/
theorem C71_prolongates (hw : Uc.dofh.numDofs ≤ w.length) :
    ∃ F, prolongate H (Uc.space Mc.topo) (Uf.space Mf.topo) w level = some F ∧ F.length = Uf.dofh.numDofs ∧
      ∀ i rf, Mf.topo.refEl (0, i) = some rf → ∃ c r, Mc.topo.refEl (0, c) = some r ∧
        (∀ fe, (Uf.space Mf.topo).layout (0, i) = some fe → ∀ x ∈ fe.nodes,
          H.AgreesAt level (Uc.space Mc.topo) (Uf.space Mf.topo) w F c i x) ∧
        (H.Nested level c r rf pc pf → ∀ x : List ℝ, x.length = 2 →
          H.AgreesAt level (Uc.space Mc.topo) (Uf.space Mf.topo) w F c i x) := by
  have hok : HierOk cops chk M H := by
    obtain ⟨H', h1, h2, _⟩ := run_ok ops hl hM hist ho
    rw [hH] at h1
    cases h1
    exact h2
  have hlev : level + 1 < H.levels.length := by
    unfold Hierarchy.getMesh at hf
    obtain ⟨N, hN, -⟩ := Option.map_eq_some_iff.1 hf
    simpa using (List.getElem?_eq_some_iff.1 hN).1
  have hWFc : Mc.topo.WF := by
    unfold Hierarchy.getMesh at hc
    obtain ⟨N, hN, rfl⟩ := Option.map_eq_some_iff.1 hc
    exact (hok.all N (by simpa using List.mem_of_getElem? hN)).valid.wf
  have hWFf : Mf.topo.WF := by
    unfold Hierarchy.getMesh at hf
    obtain ⟨N, hN, rfl⟩ := Option.map_eq_some_iff.1 hf
    exact (hok.all N (by simpa using List.mem_of_getElem? hN)).valid.wf
  have hrp : ∀ T : Topo, T.WF → ∀ c r, T.refEl (0, c) = some r → r = .tria ∨ r = .quad := by
    intro T hT c r hr
    obtain ⟨hc, hn⟩ := Topo.refEl_cell hT hr
    have := hT.cell_len c hc
    rw [← hn] at this
    revert this
    cases r <;> simp [RefEl.numNodes]
  obtain ⟨cnt, hconf⟩ := lagr_conforming Mc.topo hWFc pc hpc Uc hUc
  set w' := w.take Uc.dofh.numDofs with hw'
  have hwl : w'.length = (Uc.space Mc.topo).dofh.numDofs := by
    rw [hw', List.length_take]
    exact Nat.min_eq_left hw
  have htake : ∀ e x, Mc.topo.IsEnt e → (Uc.space Mc.topo).evalFE w e x = (Uc.space Mc.topo).evalFE w' e x :=
    fun e x he => evalFE_take hconf he x
  have hmk : MFTransfer.make H level (level + 1) = some ⟨H, level, level + 1⟩ := by
    unfold MFTransfer.make Hierarchy.numLevels
    rw [if_pos ⟨by omega, by omega, hlev⟩]
  obtain ⟨-, hme, hmn⟩ := C45_continuous Mc.topo hWFc pc hpc Uc hUc
  have hmf : Mc.topo.SingleValued ((Uc.space Mc.topo).evalFE w) := by
    intro c r hr j hj
    obtain ⟨hcl, hn⟩ := Topo.refEl_cell hWFc hr
    have hE : Mc.topo.IsEnt (0, c) := ⟨Nat.zero_le 2, hcl⟩
    have hj1 : j < (Mc.topo.cell c).edges.length := by rw [hWFc.cell_edges_len c hcl, ← hn]; exact hj
    have hj2 : j < (Mc.topo.cell c).nodes.length := by rw [← hn]; exact hj
    have hE1 : Mc.topo.IsEnt (1, (Mc.topo.cell c).edges.getD j 0) := by
      refine ⟨show 1 ≤ 2 by omega, ?_⟩
      rw [List.getD_eq_getElem _ _ hj1]
      exact hWFc.cell_edges c hcl _ (List.getElem_mem _)
    have hE2 : Mc.topo.IsEnt (2, (Mc.topo.cell c).nodes.getD j 0) := by
      refine ⟨show 2 ≤ 2 by omega, ?_⟩
      rw [List.getD_eq_getElem _ _ hj2]
      exact hWFc.cell_nodes c hcl _ (List.getElem_mem _)
    constructor
    · intro t _ _
      obtain ⟨y, h1, h2⟩ := hme w' hwl c r hr j hj t
      rw [htake _ _ hE, htake _ _ hE1]
      exact h1.trans h2.symm
    · obtain ⟨y, h1, h2⟩ := (hmn w' hwl).1 c r hr j hj
      rw [htake _ _ hE, htake _ _ hE2]
      exact h1.trans h2.symm
  obtain ⟨hsv, -⟩ := C73_single_valued ops hl chk M hM hist ho H hH level (level + 1) _ hmk Mc Mf hc hf
    ((Uc.space Mc.topo).evalFE w) hmf
  have hev : ∀ (e : Ent) (x : List ℝ), MFTransfer.eval ⟨H, level, level + 1⟩ ((Uc.space Mc.topo).evalFE w) e x =
      (transferStep H (level + 1) e x).map fun r => (Uc.space Mc.topo).evalFE w r.1 r.2 := by
    intro e x
    unfold MFTransfer.eval
    simp only [Nat.add_sub_cancel_left, transferLoop]
    rcases transferStep H (level + 1) e x with _ | r <;> rfl
  set f : Ent → List ℝ → ℝ := fun e x =>
    ((MFTransfer.eval ⟨H, level, level + 1⟩ ((Uc.space Mc.topo).evalFE w) e x).join).getD 0 with hfdef
  have hfs : Mf.topo.SingleValued f := by
    intro c r hr j hj
    obtain ⟨h1, h2⟩ := hsv c r hr j hj
    refine ⟨fun t h0 h1' => ?_, ?_⟩
    · exact congrArg (fun v : Option (Option ℝ) => v.join.getD 0) (h1 t h0 h1')
    · exact congrArg (fun v : Option (Option ℝ) => v.join.getD 0) h2
  have hchild : ∀ i rf, Mf.topo.refEl (0, i) = some rf → ∃ c r, Mc.topo.refEl (0, c) = some r ∧
      (∀ x : List ℝ, x.length = 2 → ∃ y v, transferStep H (level + 1) (0, i) x = some ((0, c), y) ∧
        (Uc.space Mc.topo).evalFE w (0, c) y = some v ∧ f (0, i) x = v) ∧
      (H.Nested level c r rf pc pf → ∃ g, IsPolyOn rf pf g ∧ ∀ x : List ℝ, x.length = 2 → f (0, i) x = g x) := by
    intro i rf hi
    obtain ⟨c, r, p, polys, Q, a1, a2, a3, a4, a5, a6, a7, a8, a9, a10⟩ := hok.child_form hf hc hi
    have hrr := hrp _ hWFc c r a1
    have hrf := hrp _ hWFf i rf hi
    obtain ⟨hcl, -⟩ := Topo.refEl_cell hWFc a1
    have hE : Mc.topo.IsEnt (0, c) := ⟨Nat.zero_le 2, hcl⟩
    set g : List ℝ → ℝ := fun y => ∑ i ∈ Finset.range (lagrFE pc r : RefFE ℝ).num,
      ((Uc.dofh.all (0, c)).map fun d => w'.getD d 0).getD i 0 * (lagrFE pc r : RefFE ℝ).shape i y with hg
    have hgv : ∀ y : List ℝ, y.length = 2 → (Uc.space Mc.topo).evalFE w (0, c) y = some (g y) := by
      intro y hy
      rw [htake _ _ hE]
      exact lagr_evalFE Mc.topo hWFc pc hpc Uc hUc w' hwl c r a1 y hy
    have hgp : IsPolyOn r pc g := lagr_poly hpc hrr _
    have hval : ∀ x : List ℝ, x.length = 2 → ∃ y, transferStep H (level + 1) (0, i) x = some ((0, c), y) ∧
        (Uc.space Mc.topo).evalFE w (0, c) y = some (g y) ∧ f (0, i) x = g y := by
      intro x hx
      obtain ⟨y, b1, b2⟩ := relEval_cell c (pts := Q) (by
        rcases hrf with rfl | rfl
        · exact Or.inl a8
        · exact Or.inr a8) a9 x hx
      have e1 := (a10 x).trans b1
      refine ⟨y, e1, hgv y b2, ?_⟩
      simp only [hfdef]
      rw [hev, e1, Option.map_some, hgv y b2]
      rfl
    refine ⟨c, r, a1, fun x hx => ?_, fun hN => ?_⟩
    · obtain ⟨y, c1, c2, c3⟩ := hval x hx
      exact ⟨y, g y, c1, c2, c3⟩
    · have hcase : (rf = .tria ∧ r = .tria ∧ pc ≤ pf) ∨ (rf = .tria ∧ r = .quad ∧ 2 * pc ≤ pf) ∨
          (rf = .quad ∧ r = .quad ∧ AxisParallel Q ∧ pc ≤ pf) := by
        have htt : r = .tria → rf = .tria := by
          rintro rfl
          have := tria_children a4 a5.1 a3 a6 Q a7
          rcases hrf with h | rfl
          · exact h
          · rw [this] at a8
            simp [RefEl.numNodes] at a8
        rcases hrr with rfl | rfl
        · refine Or.inl ⟨htt rfl, rfl, ?_⟩
          rcases hN with ⟨_, h⟩ | ⟨_, h⟩ | ⟨_, _, _, h⟩ <;> omega
        · rcases hN with ⟨h, _⟩ | ⟨h1, h2⟩ | ⟨p', h1, h2, h3⟩
          · cases h
          · exact Or.inr (Or.inl ⟨h1, rfl, h2⟩)
          · rw [a2] at h1
            cases h1
            have hax := quad_axis a4 a5.1 a3 h2 0 a6 Q a7
            refine Or.inr (Or.inr ⟨?_, rfl, hax, h3⟩)
            rcases hrf with rfl | rfl
            · exfalso
              match Q, a8 with
              | [p, q, s], _ => simp [AxisParallel] at hax
            · rfl
      obtain ⟨h, d1, d2⟩ := rel_poly (pf := pf) c a8 a9 hgp hcase
      refine ⟨h, d1, fun x hx => ?_⟩
      obtain ⟨y, c1, c2, c3⟩ := hval x hx
      obtain ⟨y', e1, e2⟩ := d2 x hx
      rw [a10, e1] at c1
      cases c1
      rw [c3, e2]
  have hcon : ∀ rf : RefEl, rf = .tria ∨ rf = .quad → ∀ x : List ℝ, rf.Contains x → x.length = 2 := by
    intro rf hrf x hx
    rcases hrf with rfl | rfl <;> rcases x with _ | ⟨a, _ | ⟨b, _ | _⟩⟩ <;> simp_all [RefEl.Contains]
  have hfe : Mf.topo.Evaluates (transferredFE ⟨H, level, level + 1⟩ (Uc.space Mc.topo) w) f := by
    intro i rf hi pts hpts
    obtain ⟨c, r, h1, h2, -⟩ := hchild i rf hi
    unfold transferredFE
    refine mapM_some_map _ _ _ fun x hx => ?_
    obtain ⟨y, v, c1, c2, c3⟩ := h2 x (hcon rf (hrp _ hWFf i rf hi) x (hpts x hx))
    rw [hev, c1, Option.map_some, c2, c3]
    rfl
  obtain ⟨F, g1, g2, g3⟩ := C74_interpolates Mf.topo hWFf pf hpf Uf hUf _ f hfs hfe fun _ => true
  refine ⟨F, ?_, g2, fun i rf hi => ?_⟩
  · unfold prolongate Hierarchy.numLevels
    rw [if_pos ⟨by omega, hw⟩, hmk]
    exact g1
  · obtain ⟨c, r, h1, h2, h3⟩ := hchild i rf hi
    have hrf := hrp _ hWFf i rf hi
    have hlay : (Uf.space Mf.topo).layout (0, i) = some (lagrFE pf rf) := by
      rw [lagrangeSpace_eq Mf.topo pf hpf] at hUf
      obtain ⟨dh, -, rfl⟩ := Option.map_eq_some_iff.mp hUf
      change (Mf.topo.refEl (0, i)).bind _ = _
      rw [hi]
      rcases hrf with rfl | rfl <;> rfl
    refine ⟨c, r, h1, fun fe hfe' x hx => ?_, fun hN x hx => ?_⟩
    · have hx2 : x.length = 2 := by
        rw [hlay] at hfe'
        cases hfe'
        exact hcon rf hrf x (lagrFE_contains pf hpf rf hrf x hx)
      obtain ⟨y, v, c1, c2, c3⟩ := h2 x hx2
      refine ⟨y, v, inParent_of_step c1, c2, ?_⟩
      rw [(g3 i rf hi rfl fe hfe').1 x hx, c3]
    · obtain ⟨y, v, c1, c2, c3⟩ := h2 x hx
      obtain ⟨g, d1, d2⟩ := h3 hN
      refine ⟨y, v, inParent_of_step c1, c2, ?_⟩
      rw [(g3 i rf hi rfl _ hlay).2 g d1 (fun x hx => d2 x (hcon rf hrf x hx)) x hx, ← d2 x hx, c3]

/-- **C71**, meshes of triangles: the function is not changed by prolongation to a space of the same or higher
degree. -/
theorem C71_triangles (hw : Uc.dofh.numDofs ≤ w.length) (hp : pc ≤ pf)
    (ht : ∀ c r, Mc.topo.refEl (0, c) = some r → r = .tria) :
    ∃ F, prolongate H (Uc.space Mc.topo) (Uf.space Mf.topo) w level = some F ∧
      ∀ i rf, Mf.topo.refEl (0, i) = some rf → ∃ c, c < Mc.topo.numCells ∧ ∀ x : List ℝ, x.length = 2 →
        H.AgreesAt level (Uc.space Mc.topo) (Uf.space Mf.topo) w F c i x := by
  obtain ⟨F, h1, -, h3⟩ := C71_prolongates ops hl chk M hM hist ho H hH level Mc Mf hc hf pc pf hpc hpf Uc Uf hUc hUf w hw
  refine ⟨F, h1, fun i rf hi => ?_⟩
  obtain ⟨c, r, h4, -, h5⟩ := h3 i rf hi
  refine ⟨c, ?_, h5 (Or.inl ⟨ht c r h4, hp⟩)⟩
  by_contra hlt
  have : (0, c).2 < Mc.topo.num 0 → False := fun h => hlt h
  simp only [Topo.refEl, if_neg this] at h4
  cases h4

end

/-- There is no prolongation from the finest level, nor with too few coefficients. -/
theorem C71_rejects {K : Type} [Field K] [LinearOrder K] (H : Hierarchy G) (coarse fine : FeSpace K) (w : List K)
    (level : ℕ) (h : H.numLevels ≤ level + 1 ∨ w.length < coarse.dofh.numDofs) :
    prolongate H coarse fine w level = none := by
  unfold prolongate
  rw [if_neg (by omega)]

/-- The hypotheses of C71 are met: two triangles and a trapezoid, refined regularly, then locally; piecewise
linear functions on level 0, quadratic ones on level 1; on a quadrilateral of level 1 the condition for equality
everywhere is met. -/
example : ∃ (H : Hierarchy (Geo ℚ 2)) (Mf : Mesh (Geo ℚ 2)) (Uc Uf : UniformFESpace ℝ) (c : ℕ),
    Hierarchy.run geoBuild (geoOps fun _ => 1) true trapMesh
      [.regular .regular, .mark fun e => e == 0, .refineMarked] = some H ∧
    trapMesh.Coarse (geoOps fun _ => 1) true ∧ (geoOps fun _ : Geo ℚ 2 => 1).Lawful ∧ H.getMesh 0 = some trapMesh ∧
    H.getMesh 1 = some Mf ∧ lagrangeSpace trapMesh.topo 1 = some Uc ∧ lagrangeSpace Mf.topo 2 = some Uf ∧
    trapMesh.topo.refEl (0, c) = some .quad ∧ H.Nested 0 c .quad .quad 1 2 := by
  have h : (Hierarchy.run geoBuild (geoOps fun _ => 1) true trapMesh
      [.regular .regular, .mark fun e => e == 0, .refineMarked]).any
    (fun H => (H.getMesh 1).any fun m' => true && ((H.pattern 0 (0, 2)).any fun p => decide (p.pat ∈ axisPats))) = true := by
    decide +kernel
  simp only [Option.any_eq_true, Bool.and_eq_true, decide_eq_true_eq] at h
  obtain ⟨H, h1, m, h3, -, p, h4, h5⟩ := h
  obtain ⟨H', k1, k2, _⟩ := run_ok geoBuild (geoOps_lawful fun _ : Geo ℚ 2 => 1) (trapMesh_coarse fun _ => 1)
    [.regular .regular, .mark fun e => e == 0, .refineMarked] (by simp [HOp.Legal])
  rw [h1] at k1
  cases k1
  have h0 : H.getMesh 0 = some trapMesh := by
    have := k2.last
    unfold Hierarchy.getMesh
    rw [← List.head?_eq_getElem?, List.head?_reverse]
    exact this
  have hWF : m.topo.WF := by
    unfold Hierarchy.getMesh at h3
    obtain ⟨N, hN, rfl⟩ := Option.map_eq_some_iff.1 h3
    exact (k2.all N (by simpa using List.mem_of_getElem? hN)).valid.wf
  obtain ⟨Uc, hUc, -⟩ := C45_constructible (K := ℝ) trapMesh.topo (trapMesh_coarse fun _ => 1).valid.wf 1 (by norm_num)
  obtain ⟨Uf, hUf, -⟩ := C45_constructible (K := ℝ) m.topo hWF 2 (by norm_num)
  exact ⟨H, m, Uc, Uf, 2, h1, trapMesh_coarse _, geoOps_lawful _, h0, h3, hUc, hUf, by decide +kernel,
    Or.inr (Or.inr ⟨p, h4, h5, by norm_num⟩)⟩

end Verif
