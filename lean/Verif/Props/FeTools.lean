import Verif.Lemmas.FeTools
import Verif.Props.Conform
import Verif.Props.Hierarchic
import Verif.Props.Lagrange
import Verif.Props.HierElement
import Verif.Props.HierDual

/-!
# C49, C51: `NodalProjection` and `InitEssentialConditionFromFunction`
-/

namespace Verif
open Geo

/-! ## C49 -/

/-- **C49**, what `NodalProjection` computes, for all meshes, spaces, mesh functions `u` and selections of
cells.  Let `I c` be the dof values computed from the values of `u` on the selected cell `c`.  Then the
result has one entry per dof; it is zero for dofs which belong to no selected cell; for the others it is
the value computed on the last selected cell they belong to. -/
theorem C49_values {K : Type} [Field K] (S : FeSpace K) (hA : S.dofh.Answers S.mesh)
    (hD : S.dofh.DistinctInRange S.mesh) (u : MeshFn K K) (pred : ℕ → Bool) (I : ℕ → List K)
    (hI : ∀ c < S.mesh.numCells, pred c = true → S.Interpolant u (0, c) (I c)) :
    ∃ F, nodalProjection S u pred = some F ∧ F.length = S.dofh.numDofs ∧
      (∀ d < S.dofh.numDofs, (∀ c < S.mesh.numCells, pred c = true → d ∉ S.dofh.all (0, c)) →
        F[d]? = some 0) ∧
      ∀ c < S.mesh.numCells, pred c = true → ∀ d ∈ S.dofh.all (0, c),
        (∀ c', c < c' → c' < S.mesh.numCells → pred c' = true → d ∉ S.dofh.all (0, c')) →
        ∃ j : ℕ, (S.dofh.all (0, c))[j]? = some d ∧ (I c)[j]?.isSome ∧ F[d]? = (I c)[j]? := by
  refine ⟨_, entityLoop_eq S.mesh.numCells pred (fun c => S.dofh.all (0, c)) I _ _ S.dofh.numDofs (by simp)
    (fun g c hc hs => by rw [projectCell, hs]; rfl)
    (fun g c hg hc hs => projectCell_eq hA hD hc hs (hI c hc hs) hg), ?_, ?_, ?_⟩
  · rw [assigns_length]; simp
  · intro d hd hn
    rw [assigns_other _ _ d]
    · simp [hd]
    · intro w hw he
      obtain ⟨c, hc, hs, j, h1, -⟩ := mem_allWrites.mp hw
      exact hn c hc hs (by rw [← he]; exact List.mem_of_getElem? h1)
  · intro c hc hs d hd hl
    refine allWrites_last _ pred (fun c => S.dofh.all (0, c)) I _ (fun c hc hs => ?_) c d hc hs hd ?_ hl
    · obtain ⟨_, _, -, -, -, -, h, -⟩ := hI c hc hs; exact h
    · simpa using (hD (0, c) ⟨Nat.zero_le 2, hc⟩).1 d hd

/-- If for a selected cell there is no finite element, the values of `u` cannot be had, or no or a wrong
number of dof values is computed, the call fails. -/
theorem C49_fails {K : Type} [Field K] (S : FeSpace K) (hA : S.dofh.Answers S.mesh) (u : MeshFn K K)
    (pred : ℕ → Bool) (c : ℕ) (hc : c < S.mesh.numCells) (hs : pred c = true)
    (h : ¬ ∃ v, S.Interpolant u (0, c) v) : nodalProjection S u pred = none :=
  foldlM_none _ _ _ c (List.mem_range.mpr hc) (projectCell_none hA hc hs h)

/-- **C49**: projection of a finite element function given by its coefficient vector returns the vector on
all dofs which belong to selected cells, and zero elsewhere. -/
theorem C49_reproduces (S : FeSpace ℝ) (hA : S.dofh.Answers S.mesh) (hD : S.dofh.DistinctInRange S.mesh)
    (hU : ∀ c < S.mesh.numCells, S.Unisolvent (0, c)) (u : List ℝ) (hu : u.length = S.dofh.numDofs)
    (pred : ℕ → Bool) :
    ∃ F, nodalProjection S (S.meshFunction u) pred = some F ∧ F.length = S.dofh.numDofs ∧
      ∀ d < S.dofh.numDofs,
        ((∃ c < S.mesh.numCells, pred c = true ∧ d ∈ S.dofh.all (0, c)) → F.getD d 0 = u.getD d 0) ∧
        ((¬ ∃ c < S.mesh.numCells, pred c = true ∧ d ∈ S.dofh.all (0, c)) → F.getD d 0 = 0) := by
  have hI : ∀ c < S.mesh.numCells, pred c = true → S.Interpolant (S.meshFunction u) (0, c)
      ((S.dofh.all (0, c)).map fun d => u.getD d 0) := fun c hc _ =>
    (hU c hc).interpolant (hA (0, c) ⟨Nat.zero_le 2, hc⟩).2.1
      (by rw [hu]; exact (hD (0, c) ⟨Nat.zero_le 2, hc⟩).1)
  refine ⟨_, entityLoop_eq S.mesh.numCells pred (fun c => S.dofh.all (0, c))
    (fun c => (S.dofh.all (0, c)).map fun d => u.getD d 0) _ _ S.dofh.numDofs (by simp)
    (fun g c hc hs => by rw [projectCell, hs]; rfl)
    (fun g c hg hc hs => projectCell_eq hA hD hc hs (hI c hc hs) hg), ?_, ?_⟩
  · rw [assigns_length]; simp
  · intro d hd
    constructor
    · rintro ⟨c, hc, hs, hm⟩
      obtain ⟨j, hj⟩ := List.mem_iff_getElem?.mp hm
      obtain ⟨w, h1, h2, h3⟩ := assigns_some (allWrites S.mesh.numCells pred (fun c => S.dofh.all (0, c))
          (fun c => (S.dofh.all (0, c)).map fun d => u.getD d 0)) (List.replicate S.dofh.numDofs 0) d
        (by simpa using hd)
        ⟨(d, u.getD d 0), mem_allWrites.mpr ⟨c, hc, hs, j, hj, by simp [hj]⟩, rfl⟩
      rw [List.getD_eq_getElem?_getD, h3, Option.getD_some]
      obtain ⟨c', -, -, j', g1, g2⟩ := mem_allWrites.mp h1
      rw [List.getElem?_map, g1, h2, Option.map_some] at g2
      exact (Option.some.inj g2).symm
    · intro hn
      rw [List.getD_eq_getElem?_getD, assigns_other _ _ d]
      · simp
      · intro w hw he
        obtain ⟨c, hc, hs, j, h1, -⟩ := mem_allWrites.mp hw
        exact hn ⟨c, hc, hs, by rw [← he]; exact List.mem_of_getElem? h1⟩

theorem lagrFE_isLagrange (p : ℕ) (hp : 1 ≤ p ∧ p ≤ 3) (r : RefEl) (hr : r ≠ .point) :
    (lagrFE p r : RefFE ℝ).IsLagrange := by
  obtain ⟨h1, h3⟩ := hp
  interval_cases p <;> cases r
  all_goals first
    | exact absurd rfl hr
    | exact C44_o1Segment
    | exact C44_o1Tria
    | exact C44_o1Quad
    | exact C44_o2Segment
    | exact C44_o2Tria
    | exact C44_o2Quad
    | exact C44_o3Segment
    | exact C44_o3Tria
    | exact C44_o3Quad

theorem RefFE.IsLagrange.nodes_ne {fe : RefFE ℝ} (h : fe.IsLagrange) : fe.nodes ≠ [] := by
  intro hn
  have hs := h.sumsToOne (List.replicate fe.ref.dimension 0) (by simp)
  have := h.cardinal.1
  rw [hn] at this
  rw [← this] at hs
  simp at hs

/-- The hypotheses of `C49_reproduces` hold for the Lagrangian spaces. -/
theorem lagr_unisolvent (T : Topo) (hT : T.WF) (p : ℕ) (hp : 1 ≤ p ∧ p ≤ 3) (U : UniformFESpace ℝ)
    (hU : lagrangeSpace T p = some U) :
    (∀ c < T.numCells, (U.space T).Unisolvent (0, c)) ∧ ∀ e < T.numEdges, (U.space T).Unisolvent (1, e) := by
  obtain ⟨cnt, h⟩ := lagr_conforming T hT p hp U hU
  rw [lagrangeSpace_eq T p hp] at hU
  obtain ⟨dh, -, rfl⟩ := Option.map_eq_some_iff.mp hU
  constructor
  · intro c hc
    obtain ⟨r, hr, hrp⟩ : ∃ r, T.refEl (0, c) = some r ∧ (r = .tria ∨ r = .quad) := by
      simp only [Topo.refEl, if_pos (show c < T.num 0 from hc)]
      rcases hT.cell_len c hc with h | h <;> simp [h]
    have hL := lagrFE_isLagrange p hp r (by rcases hrp with rfl | rfl <;> simp)
    refine h.unisolvent_cell (r := r) hr (fe := lagrFE p r) ?_ hL.evaluates hL.dual hL.nodes_ne hL.cardinal.2.1
    change (T.refEl (0, c)).bind _ = _
    rw [hr]
    rcases hrp with rfl | rfl <;> rfl
  · intro e he
    have hL := lagrFE_isLagrange p hp .segment (by simp)
    refine h.unisolvent_edge he (fe := lagrFE p .segment) ?_ hL.evaluates hL.dual hL.nodes_ne hL.cardinal.2.1
    change (T.refEl (1, e)).bind _ = _
    rw [Topo.refEl, if_pos (show e < T.num 1 from he)]
    rfl

/-- **C49** for the Lagrangian spaces of order 1, 2, 3 on all meshes. -/
theorem C49_lagrange (T : Topo) (hT : T.WF) (p : ℕ) (hp : 1 ≤ p ∧ p ≤ 3) (U : UniformFESpace ℝ)
    (hU : lagrangeSpace T p = some U) (u : List ℝ) (hu : u.length = U.dofh.numDofs) (pred : ℕ → Bool) :
    ∃ F, nodalProjection (U.space T) ((U.space T).meshFunction u) pred = some F ∧
      F.length = U.dofh.numDofs ∧ ∀ d < U.dofh.numDofs,
        ((∃ c < T.numCells, pred c = true ∧ d ∈ U.dofh.all (0, c)) → F.getD d 0 = u.getD d 0) ∧
        ((¬ ∃ c < T.numCells, pred c = true ∧ d ∈ U.dofh.all (0, c)) → F.getD d 0 = 0) := by
  obtain ⟨cnt, h⟩ := lagr_conforming T hT p hp U hU
  exact C49_reproduces (U.space T) h.answers h.range (lagr_unisolvent T hT p hp U hU).1 u hu pred

theorem hier_unisolvent (get : RefEl → ℕ → Option (QuadRule ℝ))
    (hget : ∀ r d q, get r d = some q → q.ref = r ∧ q.WellFormed ∧ q.ExactFor d)
    (htop : ∀ d q, get .tria d = some q → ∀ x ∈ q.points, x.getD 1 0 ≠ 1)
    (T : Topo) (hT : T.WF) (degree : Ent → ℕ) (S : FeSpace ℝ) (hS : hierSpace get T degree = some S) :
    (∀ c < T.numCells, S.Unisolvent (0, c)) ∧ ∀ e < T.numEdges, S.Unisolvent (1, e) := by
  have h := hier_conforming get T hT degree S hS
  have hS' := hS
  obtain ⟨dh, hh, -⟩ := C09_dynamic T hT (hierCount T degree)
  rw [hierSpace, hh, Option.bind_some] at hS
  split at hS
  swap
  · cases hS
  rename_i hl
  obtain ⟨-, l1, l0⟩ := hl
  cases hS
  constructor
  · intro c hc
    obtain ⟨fe, hfe⟩ := Option.isSome_iff_exists.mp (l0 c hc)
    obtain ⟨r, hr, hrp⟩ : ∃ r, T.refEl (0, c) = some r ∧ (r = .tria ∨ r = .quad) := by
      simp only [Topo.refEl, if_pos (show c < T.num 0 from hc)]
      rcases hT.cell_len c hc with h | h <;> simp [h]
    have hfe' := hfe
    rw [hierLayout, hr, Option.bind_some] at hfe'
    rcases hrp with rfl | rfl
    · obtain ⟨F, hF, rfl⟩ := Option.map_eq_some_iff.mp hfe'
      refine h.unisolvent_cell hr hfe (C61_tria get _ _ _ F hF).2.2.1 (C63_tria get _ _ _ F hget htop hF)
        ?_ ?_
      · simp [HierTria.fe, HierTria.nodes]
      · exact F.nodes_len (makeHierTria_ready get _ _ _ F hget htop hF)
    · obtain ⟨F, hF, rfl⟩ := Option.map_eq_some_iff.mp hfe'
      refine h.unisolvent_cell hr hfe (C61_quad get _ _ _ F hF).2.2.1 (C63_quad get _ _ _ F hget hF)
        ?_ F.nodes_len
      simp [HierQuad.fe, HierQuad.nodes]
  · intro e he
    obtain ⟨fe, hfe⟩ := Option.isSome_iff_exists.mp (l1 e he)
    have hfe' := hfe
    rw [hierLayout_edge get T degree e he] at hfe'
    refine h.unisolvent_edge he hfe (C61_segment get _ fe hfe').2.2.1
      (C47_segment get _ fe (fun q hq => hget _ _ _ hq) hfe') ?_ ?_
    · obtain ⟨-, q, -, rfl⟩ := makeHierSegment_some hfe'
      simp [hierSegment]
    · obtain ⟨-, q, hq, rfl⟩ := makeHierSegment_some hfe'
      obtain ⟨q1, q2, -⟩ := hget _ _ _ hq
      intro x hx
      simp only [hierSegment, List.mem_append, List.mem_cons, List.not_mem_nil, or_false] at hx
      rcases hx with (rfl | rfl) | hx
      · rfl
      · rfl
      · have := q2.1 x hx
        rw [q1] at this
        exact this

/-- **C49** for the hierarchic spaces of arbitrary, locally varying degree on all meshes, if the quadrature
rules are exact. -/
theorem C49_hierarchic (get : RefEl → ℕ → Option (QuadRule ℝ))
    (hget : ∀ r d q, get r d = some q → q.ref = r ∧ q.WellFormed ∧ q.ExactFor d)
    (htop : ∀ d q, get .tria d = some q → ∀ x ∈ q.points, x.getD 1 0 ≠ 1)
    (T : Topo) (hT : T.WF) (degree : Ent → ℕ) (S : FeSpace ℝ) (hS : hierSpace get T degree = some S)
    (u : List ℝ) (hu : u.length = S.dofh.numDofs) (pred : ℕ → Bool) :
    ∃ F, nodalProjection S (S.meshFunction u) pred = some F ∧
      F.length = S.dofh.numDofs ∧ ∀ d < S.dofh.numDofs,
        ((∃ c < T.numCells, pred c = true ∧ d ∈ S.dofh.all (0, c)) → F.getD d 0 = u.getD d 0) ∧
        ((¬ ∃ c < T.numCells, pred c = true ∧ d ∈ S.dofh.all (0, c)) → F.getD d 0 = 0) := by
  have h := hier_conforming get T hT degree S hS
  have hm : S.mesh = T := by
    obtain ⟨dh, hh, -⟩ := C09_dynamic T hT (hierCount T degree)
    rw [hierSpace, hh, Option.bind_some] at hS
    split at hS
    · cases hS; rfl
    · cases hS
  have := C49_reproduces S h.answers h.range
    (by rw [hm]; exact (hier_unisolvent get hget htop T hT degree S hS).1) u hu pred
  rw [hm] at this
  exact this

/-- On the sample mesh with quadratic elements, only the triangle selected: its six dofs are reproduced, the
others are zero. -/
example : ∃ U : UniformFESpace ℚ, lagrangeSpace sampleTopo 2 = some U ∧
    nodalProjection (U.space sampleTopo)
      ((U.space sampleTopo).meshFunction ((List.range U.dofh.numDofs).map fun i => (i : ℚ) + 1))
      (fun c => c == 0) =
    some ((List.range U.dofh.numDofs).map fun i => if i ∈ U.dofh.all (0, 0) then (i : ℚ) + 1 else 0) := by
  refine ⟨_, rfl, by decide +kernel⟩

/-! ## C51 -/

/-- **C51**, for all meshes, spaces, selections of edges and functions for which dof values `I e` can be
computed on the selected edges: there is one entry per dof; it is flagged if and only if the dof belongs
to a selected edge or to one of its end points; for flagged dofs the value is the one computed on the last
selected edge; the others have the value zero. -/
theorem C51_flags {K : Type} [Field K] (S : FeSpace K) (hA : S.dofh.Answers S.mesh)
    (hL : S.dofh.LaidOut S.mesh) (hD : S.dofh.DistinctInRange S.mesh)
    (flag : ℕ → Bool) (g : MeshFn K K) (I : ℕ → List K)
    (hI : ∀ e < S.mesh.numEdges, flag e = true → S.Interpolant g (1, e) (I e)) :
    ∃ F, initEssentialCondition S flag g = some F ∧ F.length = S.dofh.numDofs ∧
      (∀ d < S.dofh.numDofs, ((F.getD d (false, 0)).1 = true ↔ ∃ e < S.mesh.numEdges, flag e = true ∧
        (d ∈ S.dofh.own (1, e) ∨ d ∈ S.dofh.own (2, (S.mesh.edge e).1) ∨
          d ∈ S.dofh.own (2, (S.mesh.edge e).2)))) ∧
      (∀ d < S.dofh.numDofs, (F.getD d (false, 0)).1 = false → (F.getD d (false, 0)).2 = 0) ∧
      ∀ e < S.mesh.numEdges, flag e = true → ∀ d ∈ S.dofh.all (1, e),
        (∀ e', e < e' → e' < S.mesh.numEdges → flag e' = true → d ∉ S.dofh.all (1, e')) →
        ∃ (j : ℕ) (v : K), (S.dofh.all (1, e))[j]? = some d ∧ (I e)[j]? = some v ∧ F[d]? = some (true, v) := by
  have hall : ∀ e < S.mesh.numEdges, ∀ d, (d ∈ S.dofh.all (1, e) ↔ d ∈ S.dofh.own (1, e) ∨
      d ∈ S.dofh.own (2, (S.mesh.edge e).1) ∨ d ∈ S.dofh.own (2, (S.mesh.edge e).2)) := by
    intro e he d
    rw [hL.2.1 e he, List.mem_append, List.mem_append]
    tauto
  let I' : ℕ → List (Bool × K) := fun e => (I e).map fun x => (true, x)
  have hother : ∀ d < S.dofh.numDofs, (¬ ∃ e < S.mesh.numEdges, flag e = true ∧ d ∈ S.dofh.all (1, e)) →
      (assigns (allWrites S.mesh.numEdges flag (fun e => S.dofh.all (1, e)) I')
        (List.replicate S.dofh.numDofs (false, 0)))[d]? = some (false, 0) := by
    intro d hd hn
    rw [assigns_other _ _ d]
    · simp [hd]
    · intro w hw he
      obtain ⟨c, hc, hs, j, h1, -⟩ := mem_allWrites.mp hw
      exact hn ⟨c, hc, hs, by rw [← he]; exact List.mem_of_getElem? h1⟩
  have hthis : ∀ d < S.dofh.numDofs, (∃ e < S.mesh.numEdges, flag e = true ∧ d ∈ S.dofh.all (1, e)) →
      ∃ v, (assigns (allWrites S.mesh.numEdges flag (fun e => S.dofh.all (1, e)) I')
        (List.replicate S.dofh.numDofs (false, 0)))[d]? = some (true, v) := by
    rintro d hd ⟨e, he, hs, hm⟩
    obtain ⟨j, hj⟩ := List.mem_iff_getElem?.mp hm
    obtain ⟨_, _, -, -, -, -, hlen, -⟩ := hI e he hs
    have hjI : j < (I e).length := by
      rw [hlen]; exact (List.getElem?_eq_some_iff.mp hj).1
    obtain ⟨w, h1, h2, h3⟩ := assigns_some (allWrites S.mesh.numEdges flag (fun e => S.dofh.all (1, e)) I')
      (List.replicate S.dofh.numDofs (false, 0)) d (by simpa using hd)
      ⟨(d, (true, (I e)[j])), mem_allWrites.mpr ⟨e, he, hs, j, hj, by
        simp [I', hjI]⟩, rfl⟩
    obtain ⟨e', -, -, j', -, g2⟩ := mem_allWrites.mp h1
    simp only [I', List.getElem?_map, Option.map_eq_some_iff] at g2
    obtain ⟨v, -, hv⟩ := g2
    exact ⟨v, by rw [h3, hv]⟩
  refine ⟨_, entityLoop_eq S.mesh.numEdges flag (fun e => S.dofh.all (1, e)) I' _ _ S.dofh.numDofs (by simp)
    (fun g c hc hs => by rw [essentialEdge, hs]; rfl)
    (fun g c hg hc hs => essentialEdge_eq hA hD hc hs (hI c hc hs) hg), ?_, ?_, ?_, ?_⟩
  · rw [assigns_length]; simp
  · intro d hd
    rw [List.getD_eq_getElem?_getD]
    constructor
    · intro ht
      by_contra hn
      rw [hother d hd fun ⟨e, he, hs, hm⟩ => hn ⟨e, he, hs, (hall e he d).mp hm⟩] at ht
      simp at ht
    · rintro ⟨e, he, hs, hm⟩
      obtain ⟨v, hv⟩ := hthis d hd ⟨e, he, hs, (hall e he d).mpr hm⟩
      rw [hv]; rfl
  · intro d hd
    rw [List.getD_eq_getElem?_getD]
    intro hf
    by_cases hn : ∃ e < S.mesh.numEdges, flag e = true ∧ d ∈ S.dofh.all (1, e)
    · obtain ⟨v, hv⟩ := hthis d hd hn
      rw [hv] at hf
      simp at hf
    · rw [hother d hd hn]; rfl
  · intro e he hs d hd hl
    obtain ⟨j, h1, h2, h3⟩ := allWrites_last _ flag (fun e => S.dofh.all (1, e)) I'
      (List.replicate S.dofh.numDofs (false, 0)) (fun e he hs => by
        obtain ⟨_, _, -, -, -, -, h, -⟩ := hI e he hs; simpa [I'] using h) e d he hs hd
      (by simpa using (hD (1, e) ⟨one_le_two, he⟩).1 d hd) hl
    obtain ⟨b, hb⟩ := Option.isSome_iff_exists.mp h2
    rw [hb] at h3
    simp only [I', List.getElem?_map, Option.map_eq_some_iff] at hb
    obtain ⟨v, hv, rfl⟩ := hb
    exact ⟨j, v, h1, hv, h3⟩

/-- If for a selected edge no dof values or a wrong number of them is computed, the call fails. -/
theorem C51_fails {K : Type} [Field K] (S : FeSpace K) (hA : S.dofh.Answers S.mesh) (flag : ℕ → Bool)
    (g : MeshFn K K) (e : ℕ) (he : e < S.mesh.numEdges) (hs : flag e = true)
    (h : ¬ ∃ v, S.Interpolant g (1, e) v) : initEssentialCondition S flag g = none :=
  foldlM_none _ _ _ e (List.mem_range.mpr he) (essentialEdge_none hA he hs h)

/-- **C51** for finite element functions: the value of every flagged dof is the coefficient of the
function. -/
theorem C51_reproduces (S : FeSpace ℝ) (hA : S.dofh.Answers S.mesh)
    (hL : S.dofh.LaidOut S.mesh) (hD : S.dofh.DistinctInRange S.mesh)
    (hU : ∀ e < S.mesh.numEdges, S.Unisolvent (1, e)) (u : List ℝ) (hu : u.length = S.dofh.numDofs)
    (flag : ℕ → Bool) :
    ∃ F, initEssentialCondition S flag (S.meshFunction u) = some F ∧ F.length = S.dofh.numDofs ∧
      ∀ d < S.dofh.numDofs,
        ((F.getD d (false, 0)).1 = true ↔ ∃ e < S.mesh.numEdges, flag e = true ∧
          (d ∈ S.dofh.own (1, e) ∨ d ∈ S.dofh.own (2, (S.mesh.edge e).1) ∨
            d ∈ S.dofh.own (2, (S.mesh.edge e).2))) ∧
        ((F.getD d (false, 0)).1 = true → (F.getD d (false, 0)).2 = u.getD d 0) := by
  obtain ⟨F, h1, h2, h3, h4, h5⟩ := C51_flags S hA hL hD flag (S.meshFunction u)
    (fun e => (S.dofh.all (1, e)).map fun d => u.getD d 0) fun e he _ =>
      (hU e he).interpolant (hA (1, e) ⟨one_le_two, he⟩).2.1
        (by rw [hu]; exact (hD (1, e) ⟨one_le_two, he⟩).1)
  refine ⟨F, h1, h2, fun d hd => ⟨h3 d hd, fun ht => ?_⟩⟩
  obtain ⟨e0, he0, hs0, hm0⟩ := (h3 d hd).mp ht
  have hm0 : d ∈ S.dofh.all (1, e0) := by
    rw [hL.2.1 e0 he0, List.mem_append, List.mem_append]; tauto
  -- the last selected edge with this dof
  let P : ℕ → Prop := fun e => e < S.mesh.numEdges ∧ flag e = true ∧ d ∈ S.dofh.all (1, e)
  classical
  have hP : P (Nat.findGreatest P S.mesh.numEdges) :=
    Nat.findGreatest_spec (P := P) he0.le ⟨he0, hs0, hm0⟩
  obtain ⟨p1, p2, p3⟩ := hP
  obtain ⟨j, v, g1, g2, g3⟩ := h5 _ p1 p2 d p3 fun e' hlt hn hs' hm' =>
    Nat.findGreatest_is_greatest hlt hn.le ⟨hn, hs', hm'⟩
  rw [List.getD_eq_getElem?_getD, g3, Option.getD_some]
  rw [List.getElem?_map, g1, Option.map_some] at g2
  exact (Option.some.inj g2).symm

/-- **C51** for the Lagrangian spaces of order 1, 2, 3 on all meshes. -/
theorem C51_lagrange (T : Topo) (hT : T.WF) (p : ℕ) (hp : 1 ≤ p ∧ p ≤ 3) (U : UniformFESpace ℝ)
    (hU : lagrangeSpace T p = some U) (u : List ℝ) (hu : u.length = U.dofh.numDofs) (flag : ℕ → Bool) :
    ∃ F, initEssentialCondition (U.space T) flag ((U.space T).meshFunction u) = some F ∧
      F.length = U.dofh.numDofs ∧ ∀ d < U.dofh.numDofs,
        ((F.getD d (false, 0)).1 = true ↔ ∃ e < T.numEdges, flag e = true ∧
          (d ∈ U.dofh.own (1, e) ∨ d ∈ U.dofh.own (2, (T.edge e).1) ∨ d ∈ U.dofh.own (2, (T.edge e).2))) ∧
        ((F.getD d (false, 0)).1 = true → (F.getD d (false, 0)).2 = u.getD d 0) := by
  obtain ⟨cnt, h⟩ := lagr_conforming T hT p hp U hU
  exact C51_reproduces (U.space T) h.answers h.laid h.range (lagr_unisolvent T hT p hp U hU).2 u hu flag

/-- **C51** for the hierarchic spaces, if the quadrature rules are exact. -/
theorem C51_hierarchic (get : RefEl → ℕ → Option (QuadRule ℝ))
    (hget : ∀ r d q, get r d = some q → q.ref = r ∧ q.WellFormed ∧ q.ExactFor d)
    (htop : ∀ d q, get .tria d = some q → ∀ x ∈ q.points, x.getD 1 0 ≠ 1)
    (T : Topo) (hT : T.WF) (degree : Ent → ℕ) (S : FeSpace ℝ) (hS : hierSpace get T degree = some S)
    (u : List ℝ) (hu : u.length = S.dofh.numDofs) (flag : ℕ → Bool) :
    ∃ F, initEssentialCondition S flag (S.meshFunction u) = some F ∧
      F.length = S.dofh.numDofs ∧ ∀ d < S.dofh.numDofs,
        ((F.getD d (false, 0)).1 = true ↔ ∃ e < T.numEdges, flag e = true ∧
          (d ∈ S.dofh.own (1, e) ∨ d ∈ S.dofh.own (2, (T.edge e).1) ∨ d ∈ S.dofh.own (2, (T.edge e).2))) ∧
        ((F.getD d (false, 0)).1 = true → (F.getD d (false, 0)).2 = u.getD d 0) := by
  have h := hier_conforming get T hT degree S hS
  have hm : S.mesh = T := by
    obtain ⟨dh, hh, -⟩ := C09_dynamic T hT (hierCount T degree)
    rw [hierSpace, hh, Option.bind_some] at hS
    split at hS
    · cases hS; rfl
    · cases hS
  have := C51_reproduces S h.answers h.laid h.range
    (by rw [hm]; exact (hier_unisolvent get hget htop T hT degree S hS).2) u hu flag
  rw [hm] at this
  exact this

/-- On the sample mesh with quadratic elements, one edge selected. -/
example : ∃ U : UniformFESpace ℚ, lagrangeSpace sampleTopo 2 = some U ∧
    initEssentialCondition (U.space sampleTopo) (fun e => e == 2)
      (fun _ pts => some (pts.map fun x => x.getD 0 0 + 7)) =
    some ((List.range U.dofh.numDofs).map fun i =>
      if i ∈ U.dofh.own (1, 2) then (true, 15 / 2) else
      if i ∈ U.dofh.own (2, (sampleTopo.edge 2).1) then (true, 7) else
      if i ∈ U.dofh.own (2, (sampleTopo.edge 2).2) then (true, 8) else (false, 0)) := by
  refine ⟨_, rfl, by decide +kernel⟩

end Verif
