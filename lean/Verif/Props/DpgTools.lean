import Verif.Lemmas.DpgFlow
import Verif.Lemmas.DpgNormals
import Verif.Lemmas.MeshFunction
import Verif.Spec.DpgTools
import Verif.Spec.Quad
import Verif.Spec.Refinement
import Verif.Props.DataSet

/-!
# C85, C86: signs of edges, outer normals, inflow and outflow boundary (`projects/dpg`)
-/

namespace Verif
open Dpg

/-! ### C85 -/

/-- The sign of a cell at one of its edges is 1 if no cell with larger index is adjacent to the edge,
and -1 otherwise. -/
theorem C85_sign (m : MeshObj) (hT : m.topo.WF) (hn : m.topo.numCells ≤ 2 ^ 31) :
    ∃ d, signInit m = some d ∧ ∀ c < m.topo.numCells, ∀ e ∈ (m.topo.cell c).edges,
      ∃ s, prescribedSign d ⟨m.id, (0, c)⟩ ⟨m.id, (1, e)⟩ = some s ∧
        ((s = 1 ∧ ∀ c' < m.topo.numCells, e ∈ (m.topo.cell c').edges → c' ≤ c) ∨
         (s = -1 ∧ ∃ c' < m.topo.numCells, e ∈ (m.topo.cell c').edges ∧ c < c')) := by
  obtain ⟨d, h1, h2, h3⟩ := signInit_spec m hT hn
  refine ⟨d, h1, ?_⟩
  intro c hc e he
  have hlt := hT.cell_edges c hc e he
  obtain ⟨v, hv, hm⟩ := h3 e hlt
  unfold prescribedSign
  rw [h2.read (i := e) hlt, hv]
  refine ⟨_, rfl, ?_⟩
  rcases hm with ⟨-, hm⟩ | ⟨c0, rfl, ⟨hc0, he0⟩, hm⟩
  · exact absurd ⟨hc, he⟩ (hm c)
  · have hmod : (c0 : ℤ) % 2 ^ 32 = c0 := Int.emod_eq_of_lt (by omega) (by omega)
    beta_reduce
    rw [hmod]
    by_cases hcc : (c : ℤ) = c0
    · rw [if_pos hcc]
      obtain rfl : c = c0 := by exact_mod_cast hcc
      exact .inl ⟨rfl, fun c' h h' => hm c' ⟨h, h'⟩⟩
    · rw [if_neg hcc]
      have := hm c ⟨hc, he⟩
      exact .inr ⟨rfl, c0, hc0, he0, by omega⟩

/-- The two cells adjacent to an edge have opposite signs, so that the prescribed normal of the edge is
the same seen from both of them. -/
theorem C85_opposite (m : MeshObj) (hT : m.topo.Conforming) (hn : m.topo.numCells ≤ 2 ^ 31) :
    ∃ d, signInit m = some d ∧ ∀ c < m.topo.numCells, ∀ c' < m.topo.numCells, c ≠ c' → ∀ e,
      e ∈ (m.topo.cell c).edges → e ∈ (m.topo.cell c').edges →
      ∃ s s', prescribedSign d ⟨m.id, (0, c)⟩ ⟨m.id, (1, e)⟩ = some s ∧
        prescribedSign d ⟨m.id, (0, c')⟩ ⟨m.id, (1, e)⟩ = some s' ∧ (s = 1 ∧ s' = -1 ∨ s = -1 ∧ s' = 1) := by
  obtain ⟨d, h1, h2⟩ := C85_sign m hT.wf hn
  refine ⟨d, h1, ?_⟩
  intro c hc c' hc' hne e he he'
  obtain ⟨s, hs, ha⟩ := h2 c hc e he
  obtain ⟨s', hs', ha'⟩ := h2 c' hc' e he'
  refine ⟨s, s', hs, hs', ?_⟩
  have hlt := hT.wf.cell_edges c hc e he
  have two := hT.two e hlt
  -- a third cell would exceed the bound
  have third : ∀ k < m.topo.numCells, e ∈ (m.topo.cell k).edges → k = c ∨ k = c' := by
    intro k hk hek
    by_contra hcon
    push Not at hcon
    have h3 : 3 ≤ m.topo.incidence e := by
      have hi : m.topo.incidence e = ∑ c ∈ Finset.range m.topo.numCells, (m.topo.cell c).edges.count e := rfl
      have hsub : ({c, c', k} : Finset ℕ) ⊆ Finset.range m.topo.numCells := by
        intro x hx
        simp only [Finset.mem_insert, Finset.mem_singleton] at hx
        rcases hx with rfl | rfl | rfl <;> simpa
      rw [hi]
      refine le_trans ?_ (Finset.sum_le_sum_of_subset hsub)
      rw [Finset.sum_insert (by simp [hne, hcon.1.symm]), Finset.sum_insert (by simp [hcon.2.symm]),
        Finset.sum_singleton]
      have p1 := List.count_pos_iff.2 he
      have p2 := List.count_pos_iff.2 he'
      have p3 := List.count_pos_iff.2 hek
      omega
    omega
  rcases ha with ⟨rfl, ha⟩ | ⟨rfl, k, hk, hek, hck⟩
  · rcases ha' with ⟨rfl, ha'⟩ | ⟨rfl, -⟩
    · have := ha c' hc' he'
      have := ha' c hc he
      omega
    · exact .inl ⟨rfl, rfl⟩
  · rcases ha' with ⟨rfl, -⟩ | ⟨rfl, k', hk', hek', hck'⟩
    · exact .inr ⟨rfl, rfl⟩
    · rcases third k hk hek with rfl | rfl <;> rcases third k' hk' hek' with rfl | rfl <;> omega

/-- At a boundary edge the sign is 1: the prescribed normal is the outer normal. -/
theorem C85_boundary (m : MeshObj) (hT : m.topo.WF) (hn : m.topo.numCells ≤ 2 ^ 31) :
    ∃ d, signInit m = some d ∧ ∀ c < m.topo.numCells, ∀ e ∈ (m.topo.cell c).edges, m.topo.OnBoundary e →
      prescribedSign d ⟨m.id, (0, c)⟩ ⟨m.id, (1, e)⟩ = some 1 := by
  obtain ⟨d, h1, h2⟩ := C85_sign m hT hn
  refine ⟨d, h1, ?_⟩
  intro c hc e he hon
  obtain ⟨s, hs, ⟨rfl, -⟩ | ⟨rfl, c', hc', he', hlt⟩⟩ := h2 c hc e he
  · exact hs
  · obtain ⟨p, -, hu⟩ := hon
    obtain ⟨i, hi⟩ := List.mem_iff_getElem?.1 he
    obtain ⟨i', hi'⟩ := List.mem_iff_getElem?.1 he'
    have := (hu (c, i) ⟨hc, hi⟩).trans (hu (c', i') ⟨hc', hi'⟩).symm
    have := (Prod.mk.inj this).1
    omega

/-- The constructor stops for meshes with more cells than an `int` can count. -/
theorem C85_too_large (m : MeshObj) (hT : m.topo.WF) (hn : 2 ^ 31 < m.topo.numCells) : signInit m = none :=
  signInit_none m hT hn

/-- Two cells with a common edge. -/
example : ∃ d, signInit ⟨7, sampleTopo⟩ = some d ∧ d.data = [0, 1, 0, 1, 1, 1] := ⟨_, rfl, rfl⟩
example : ∃ d, signInit ⟨7, sampleTopo⟩ = some d ∧
    prescribedSign d ⟨7, (0, 0)⟩ ⟨7, (1, 1)⟩ = some (-1) ∧ prescribedSign d ⟨7, (0, 1)⟩ ⟨7, (1, 1)⟩ = some 1 :=
  ⟨_, rfl, rfl, rfl⟩

/-! ### C86 -/

/-- `OuterNormals` yields one vector per side, which is the outer unit normal, for all strictly convex
triangles and quadrilaterals with straight sides, whatever the direction in which the corners are numbered. -/
theorem C86_normals (g : Geo ℝ 2) (h : g.StrictlyConvex) :
    ∃ ns, outerNormals g = some ns ∧ ns.length = g.kind.numNodes ∧
      ∀ i n, ns[i]? = some n → g.IsOuterNormal i n := by
  match g, h with
  | .triaO1 a b c, h => exact outer_tria a b c h
  | .quadO1 a b c d, h => exact outer_quad a b c d h
  | .parallelogram a b c d, h => exact outer_para a b c d h.1 h.2

/-- For all quadrilaterals, convex or not, for which at least three of the four determinants at the corners
have the same sign (this includes all simple quadrilaterals), the flux of the field `x ↦ x` through the sides,
computed with these normals, is twice the area: the normals point outwards. -/
theorem C86_quad (a b c d : Vec ℝ 2)
    (h : let ds := [Geo.det2 (a - d) (b - a), Geo.det2 (b - a) (c - b), Geo.det2 (c - b) (d - c), Geo.det2 (d - c) (a - d)]
      3 ≤ ds.countP (fun x => decide (0 < x)) ∨ 3 ≤ ds.countP (fun x => decide (x < 0))) :
    ∃ n0 n1 n2 n3, outerNormals (.quadO1 a b c d) = some [n0, n1, n2, n3] ∧
      (let flux (p q n : Vec ℝ 2) := Real.sqrt (Geo.dot (q - p) (q - p)) * Geo.dot n ((1 / 2 : ℝ) • (p + q))
       flux a b n0 + flux b c n1 + flux c d n2 + flux d a n3 = |Geo.det2 (c - a) (d - b)|) ∧
      0 < |Geo.det2 (c - a) (d - b)| ∧
      Geo.dot n0 (b - a) = 0 ∧ Geo.dot n1 (c - b) = 0 ∧ Geo.dot n2 (d - c) = 0 ∧ Geo.dot n3 (a - d) = 0 := by
  have f0 : Geo.det2 (b - a) (d - a) = Geo.det2 (a - d) (b - a) := by simp only [det2_eq, Pi.sub_apply]; ring
  have f1 : Geo.det2 (c - d) (c - b) = Geo.det2 (c - b) (d - c) := by simp only [det2_eq, Pi.sub_apply]; ring
  have f2 : Geo.det2 (c - d) (d - a) = Geo.det2 (d - c) (a - d) := by simp only [det2_eq, Pi.sub_apply]; ring
  have s1 : Geo.det2 (c - a) (d - b) = Geo.det2 (a - d) (b - a) + Geo.det2 (c - b) (d - c) := by
    simp only [det2_eq, Pi.sub_apply]; ring
  have s2 : Geo.det2 (c - a) (d - b) = Geo.det2 (b - a) (c - b) + Geo.det2 (d - c) (a - d) := by
    simp only [det2_eq, Pi.sub_apply]; ring
  refine ⟨_, _, _, _, normals_quad a b c d, ?_⟩
  rw [f0, f1, f2]
  obtain ⟨o, ho, hsq, hA⟩ : ∃ o : ℝ,
      (if [Geo.det2 (a - d) (b - a), Geo.det2 (b - a) (c - b), Geo.det2 (c - b) (d - c), Geo.det2 (d - c) (a - d)].countP
        (fun d => decide (d > 0)) ≥ 3 then (1 : ℝ) else -1) = o ∧ o * o = 1 ∧ 0 < o * Geo.det2 (c - a) (d - b) := by
    refine ⟨_, rfl, sgn_sq _, ?_⟩
    dsimp only at h
    clear f0 f1 f2
    generalize Geo.det2 (a - d) (b - a) = x0 at *
    generalize Geo.det2 (b - a) (c - b) = x1 at *
    generalize Geo.det2 (c - b) (d - c) = x2 at *
    generalize Geo.det2 (d - c) (a - d) = x3 at *
    generalize Geo.det2 (c - a) (d - b) = A at *
    by_cases hc : [x0, x1, x2, x3].countP (fun d => decide (d > 0)) ≥ 3
    · rw [if_pos hc, one_mul]
      simp only [List.countP_cons, List.countP_nil, decide_eq_true_eq, gt_iff_lt] at hc
      split_ifs at hc <;> first | linarith | omega
    · rw [if_neg hc]
      have h' := h.resolve_left hc
      simp only [List.countP_cons, List.countP_nil, decide_eq_true_eq] at h'
      split_ifs at h' <;> first | linarith | omega
  have key (p q : Vec ℝ 2) := normalOf_scaled o hsq p q
  have orth (p q : Vec ℝ 2) : Geo.dot (normalOf o p q) (q - p) = 0 := by
    by_cases hpq : 0 < Geo.dot (q - p) (q - p)
    · refine (sign_of_scaled hsq hpq).2 ?_
      simp only [det2_eq, Pi.sub_apply]; ring
    · rw [dot2] at hpq
      have e0 : (q - p) 0 = 0 := by nlinarith [mul_self_nonneg ((q - p) 0), mul_self_nonneg ((q - p) 1)]
      have e1 : (q - p) 1 = 0 := by nlinarith [mul_self_nonneg ((q - p) 0), mul_self_nonneg ((q - p) 1)]
      rw [dot2, e0, e1]; ring
  dsimp only
  rw [ho]
  refine ⟨?_, ?_, orth _ _, orth _ _, orth _ _, orth _ _⟩
  · rw [key, key, key, key]
    have ho1 : o = 1 ∨ o = -1 := mul_self_eq_one_iff.1 hsq
    have : |Geo.det2 (c - a) (d - b)| = o * Geo.det2 (c - a) (d - b) := by
      rcases ho1 with rfl | rfl
      · rw [one_mul] at hA ⊢; exact abs_of_pos hA
      · rw [neg_one_mul] at hA ⊢; exact abs_of_neg (by linarith)
    rw [this]
    simp only [det2_eq, Pi.sub_apply, Pi.add_apply, Pi.smul_apply, smul_eq_mul]
    ring
  · refine abs_pos.2 fun h0 => ?_
    rw [h0, mul_zero] at hA
    exact lt_irrefl _ hA

/-- There is only one outer unit normal. -/
theorem C86_unique (g : Geo ℝ 2) (h : g.StrictlyConvex) (i : ℕ) (hi : i < g.kind.numNodes) :
    ∃! n, g.IsOuterNormal i n := by
  obtain ⟨ns, -, h2, h3⟩ := C86_normals g h
  have hi' : i < ns.length := by omega
  refine ⟨ns[i], h3 i _ (List.getElem?_eq_getElem hi'), ?_⟩
  intro n' hn'
  exact outer_unique g h i hi n' _ hn' (h3 i _ (List.getElem?_eq_getElem hi'))

private theorem inflow_core (m : MeshObj) (hT : m.topo.WF) (geo : Ent → Option (Geo ℝ 2)) (beta : MeshFn ℝ (Vec ℝ 2))
    (β : ℕ → Vec ℝ 2) (hβ : ∀ e < m.topo.numEdges, beta (1, e) [[1 / 2]] = some [β e])
    (hgeo : ∀ c < m.topo.numCells, ∃ g, geo (0, c) = some g ∧ m.topo.refEl (0, c) = some g.kind ∧ g.StrictlyConvex) :
    ∃ d, flagInflow m geo beta = some d ∧ CodimDS.Ok m 1 d ∧ ∀ e < m.topo.numEdges, ∃ b, d.data[e]? = some b ∧
      (b = true ↔ m.topo.OnBoundary e ∧ ∃ c < m.topo.numCells, ∃ i g n, (m.topo.cell c).edges[i]? = some e ∧
        geo (0, c) = some g ∧ g.IsOuterNormal i n ∧ Geo.dot n (β e) < 0) := by
  obtain ⟨bd, hb1, hb2⟩ := C21_edges m hT
  have hβ' : ∀ e < m.topo.numEdges, ((beta (1, e) [[1 / 2]]).bind fun vs => vs[0]?) = some (β e) := by
    intro e he; rw [hβ e he]; rfl
  have hN : ∀ c < m.topo.numCells, ∃ g, geo (0, c) = some g ∧
      outerNormals g = some ((((geo (0, c)).bind outerNormals)).getD []) ∧
      (((geo (0, c)).bind outerNormals).getD []).length = (m.topo.cell c).edges.length := by
    intro c hc
    obtain ⟨g, h1, h2, h3⟩ := hgeo c hc
    obtain ⟨ns, h4, h5, -⟩ := C86_normals g h3
    refine ⟨g, h1, by rw [h1, Option.bind_some, h4]; rfl, ?_⟩
    rw [h1, Option.bind_some, h4, Option.getD_some, h5]
    obtain ⟨r, hr1, hr2⟩ := refEl_cellE hT hc
    rw [h2] at hr1
    obtain rfl := Option.some.inj hr1
    match g, h3, hr2 with
    | .triaO1 .., _, hr2 => exact Option.some.inj hr2
    | .quadO1 .., _, hr2 => exact Option.some.inj hr2
    | .parallelogram .., _, hr2 => exact Option.some.inj hr2
  obtain ⟨d, h1, h2, h3⟩ := flagInflow_spec m hT geo beta β hβ' _ hN bd hb1 hb2
  refine ⟨d, h1, h2, ?_⟩
  intro e he
  obtain ⟨b, h4, h5⟩ := h3 e he
  refine ⟨b, h4, h5.trans (and_congr_right fun _ => ?_)⟩
  constructor
  · rintro ⟨c, i, hc, hei, e', n, he', hn, hneg⟩
    rw [hei] at he'
    obtain rfl := Option.some.inj he'
    obtain ⟨g, g1, g2, g3⟩ := hgeo c hc
    obtain ⟨ns, h6, -, h7⟩ := C86_normals g g3
    rw [g1, Option.bind_some, h6, Option.getD_some] at hn
    exact ⟨c, hc, i, g, n, hei, g1, h7 i n hn, hneg⟩
  · rintro ⟨c, hc, i, g, n, hei, hg, hn, hneg⟩
    obtain ⟨g', g1, g2, g3⟩ := hgeo c hc
    rw [hg] at g1
    obtain rfl := Option.some.inj g1
    obtain ⟨ns, h6, h6', h7⟩ := C86_normals g g3
    have hi : i < ns.length := by
      obtain ⟨g'', k1, k2, k3⟩ := hN c hc
      rw [hg, Option.bind_some, h6, Option.getD_some] at k3
      rw [k3]
      exact (List.getElem?_eq_some_iff.1 hei).1
    refine ⟨c, i, hc, hei, e, ns[i], hei, ?_, ?_⟩
    · rw [hg, Option.bind_some, h6, Option.getD_some]; exact List.getElem?_eq_getElem hi
    · rw [← outer_unique g g3 i (by omega) n _ hn (h7 i _ (List.getElem?_eq_getElem hi))]
      exact hneg

/-- Inflow boundary: an edge is flagged iff it is on the boundary and the convection field in its midpoint
points into the cell, for meshes of strictly convex cells with straight sides. -/
theorem C86_inflow (m : MeshObj) (hT : m.topo.WF) (geo : Ent → Option (Geo ℝ 2)) (beta : MeshFn ℝ (Vec ℝ 2))
    (β : ℕ → Vec ℝ 2) (hβ : ∀ e < m.topo.numEdges, beta (1, e) [[1 / 2]] = some [β e])
    (hgeo : ∀ c < m.topo.numCells, ∃ g, geo (0, c) = some g ∧ m.topo.refEl (0, c) = some g.kind ∧ g.StrictlyConvex) :
    ∃ d, flagInflow m geo beta = some d ∧ ∀ e < m.topo.numEdges, ∃ b, d.read ⟨m.id, (1, e)⟩ = some b ∧
      (b = true ↔ m.topo.OnBoundary e ∧ ∃ c < m.topo.numCells, ∃ i g n, (m.topo.cell c).edges[i]? = some e ∧
        geo (0, c) = some g ∧ g.IsOuterNormal i n ∧ Geo.dot n (β e) < 0) := by
  obtain ⟨d, h1, h2, h3⟩ := inflow_core m hT geo beta β hβ hgeo
  refine ⟨d, h1, ?_⟩
  intro e he
  obtain ⟨b, h4, h5⟩ := h3 e he
  exact ⟨b, by rw [h2.read (i := e) he]; exact h4, h5⟩

/-- Inflow and outflow edges are a partition of the boundary edges. -/
theorem C86_partition (m : MeshObj) (hT : m.topo.WF) (geo : Ent → Option (Geo ℝ 2)) (beta : MeshFn ℝ (Vec ℝ 2))
    (β : ℕ → Vec ℝ 2) (hβ : ∀ e < m.topo.numEdges, beta (1, e) [[1 / 2]] = some [β e])
    (hgeo : ∀ c < m.topo.numCells, ∃ g, geo (0, c) = some g ∧ m.topo.refEl (0, c) = some g.kind ∧ g.StrictlyConvex) :
    ∃ i o, flagInflow m geo beta = some i ∧ flagOutflow m geo beta = some o ∧
      ∀ e < m.topo.numEdges, ∃ bi bo, i.read ⟨m.id, (1, e)⟩ = some bi ∧ o.read ⟨m.id, (1, e)⟩ = some bo ∧
        ((bi = true ∨ bo = true) ↔ m.topo.OnBoundary e) ∧ ¬ (bi = true ∧ bo = true) := by
  obtain ⟨bd, hb1, hb2⟩ := C21_edges m hT
  obtain ⟨d, h1, hok, h2⟩ := inflow_core m hT geo beta β hβ hgeo
  obtain ⟨o, h3, h4, h5⟩ := flagOutflow_spec m geo beta bd hb1 hb2 d h1 hok
  refine ⟨d, o, h1, h3, ?_⟩
  intro e he
  obtain ⟨bi, r1, r2⟩ := h2 e he
  rw [← hok.read (i := e) he] at r1
  obtain ⟨f, bo, r3, r4, r5⟩ := h5 e he
  rw [r1] at r3
  obtain rfl := Option.some.inj r3
  refine ⟨bi, bo, r1, r4, ?_⟩
  cases bi <;> cases bo <;> simp only [Bool.false_eq_true, false_iff, true_iff, false_or, or_false, and_true,
    and_false, false_and, or_self, not_false_eq_true, and_self, reduceCtorEq] at r2 r5 ⊢ <;> tauto

/-- `BoundaryQuadRule`: rule `i` has its points on side `i` of the reference cell and is the given rule,
transformed to this side; if the given rule is exact for polynomials of degree `d`, it computes the line
integral of all functions which are polynomials of degree `d` along the side. -/
theorem C86_boundary_rule (r : RefEl) (hr : r = .tria ∨ r = .quad) (q : QuadRule ℝ) (hq : q.ref = .segment)
    (hw : q.WellFormed) :
    ∃ qs, boundaryQuadRule r q = some qs ∧ qs.length = r.numNodes ∧ ∀ i q', qs[i]? = some q' →
      q'.WellFormed ∧ q'.ref = r ∧ (∀ p ∈ q'.points, ∃ t, p = Geo.sidePoint r i t) ∧
      (∀ f, q'.integrate f = r.sideLength i * q.integrate fun x => f (Geo.sidePoint r i (x.getD 0 0))) ∧
      ∀ d f, q.ExactFor d → IsPolyOn .segment d (fun x => f (Geo.sidePoint r i (x.getD 0 0))) →
        q'.integrate f = r.sideLength i * ∫ t in (0 : ℝ)..1, f (Geo.sidePoint r i t) := by
  rw [QuadRule.WellFormed, hq] at hw
  -- the geometry of side `i`
  have hsides : ∃ g, refGeo r = some g ∧ ∀ i < r.numNodes, ∃ a b : Vec ℝ 2, g.sub 1 i = some (.segO1 a b) ∧
      (∀ t : ℝ, [(1 - t) * a 0 + t * b 0, (1 - t) * a 1 + t * b 1] = Geo.sidePoint r i t) := by
    rcases hr with rfl | rfl
    · refine ⟨_, rfl, ?_⟩
      intro i hi
      match i, hi with
      | 0, _ => exact ⟨_, _, rfl, fun t => rfl⟩
      | 1, _ => exact ⟨_, _, rfl, fun t => rfl⟩
      | 2, _ => exact ⟨_, _, rfl, fun t => rfl⟩
    · refine ⟨_, rfl, ?_⟩
      intro i hi
      match i, hi with
      | 0, _ => exact ⟨_, _, rfl, fun t => rfl⟩
      | 1, _ => exact ⟨_, _, rfl, fun t => rfl⟩
      | 2, _ => exact ⟨_, _, rfl, fun t => rfl⟩
      | 3, _ => exact ⟨_, _, rfl, fun t => rfl⟩
  obtain ⟨g, hg, hs⟩ := hsides
  have hnum : r.numSubEntities 1 = some r.numNodes := by rcases hr with rfl | rfl <;> rfl
  have hint : ∀ (ws : List ℝ) (ps : List (List ℝ)) (L : ℝ) (S : List ℝ → List ℝ) (f : List ℝ → ℝ),
      (List.zipWith (fun w p => w * f p) (ws.map fun w => w * L) (ps.map S)).sum =
        L * (List.zipWith (fun w p => w * f (S p)) ws ps).sum := by
    intro ws
    induction ws with
    | nil => intro ps L S f; simp
    | cons w ws ih =>
      intro ps L S f
      cases ps with
      | nil => simp
      | cons p ps =>
        simp only [List.map_cons, List.zipWith_cons_cons, List.sum_cons, ih]
        ring
  unfold boundaryQuadRule
  rw [hg, hnum]
  simp only [Option.bind_some]
  obtain ⟨qs, h1, h2, h3⟩ := mapM_range_some r.numNodes (fun i =>
      (g.sub 1 i).bind fun edge => (q.points.mapM edge.global).bind fun pts =>
      (edge.integrationElement [1 / 2]).bind fun len =>
      QuadRule.make r (pts.map fun p => [p 0, p 1]) (q.weights.map fun w => w * len) 0)
    (fun i q' => q'.WellFormed ∧ q'.ref = r ∧ (∀ p ∈ q'.points, ∃ t, p = Geo.sidePoint r i t) ∧
      (∀ f, q'.integrate f = r.sideLength i * q.integrate fun x => f (Geo.sidePoint r i (x.getD 0 0)))) (by
    intro i hi
    obtain ⟨a, b, hab, hp⟩ := hs i hi
    obtain ⟨q', k1, k2, k3, k4, k5⟩ := bqr_side r hr q hw.1 hw.2 a b
    refine ⟨q', by rw [hab]; exact k1, ?_, k2, ?_, ?_⟩
    · rw [QuadRule.WellFormed, k2, k4, k5]
      refine ⟨?_, by simpa using hw.2⟩
      intro c hc
      obtain ⟨x, -, rfl⟩ := List.mem_map.1 hc
      rcases hr with rfl | rfl <;> rfl
    · rw [k4]
      intro p hp'
      obtain ⟨x, -, rfl⟩ := List.mem_map.1 hp'
      exact ⟨_, hp _⟩
    · intro f
      have hL : Real.sqrt (Geo.dot (b - a) (b - a)) = r.sideLength i := by
        unfold RefEl.sideLength
        rw [← hp 0, ← hp 1, dot2]
        simp only [List.zipWith_cons_cons, List.zipWith_nil_right, List.sum_cons, List.sum_nil, Pi.sub_apply]
        congr 1
        ring
      unfold QuadRule.integrate
      rw [k4, k5, hint, hL]
      simp only [hp])
  refine ⟨qs, h1, h2, ?_⟩
  intro i q' hq'
  obtain ⟨q2, hq2, r1, r2, r3, r4⟩ := h3 i (h2 ▸ (List.getElem?_eq_some_iff.1 hq').1)
  rw [hq'] at hq2
  obtain rfl := Option.some.inj hq2
  refine ⟨r1, r2, r3, r4, ?_⟩
  intro d f hex hpoly
  rw [r4, hex _ (by rw [hq]; exact hpoly), hq]
  rfl

/-- A triangle whose corners are numbered clockwise, and a quadrilateral. -/
example : (Geo.triaO1 ![0, 0] ![0, 1] ![2, 0] : Geo ℝ 2).StrictlyConvex := by
  simp [Geo.StrictlyConvex, Geo.det2, Geo.entry]
example : (Geo.quadO1 ![0, 0] ![2, 0] ![3, 2] ![0, 1] : Geo ℝ 2).StrictlyConvex := by
  left; simp [Geo.det2, Geo.entry]; norm_num

/-- A quadrilateral which is not convex satisfies the assumption of `C86_quad`. -/
example : let a : Vec ℝ 2 := ![0, 0]; let b : Vec ℝ 2 := ![4, 0]; let c : Vec ℝ 2 := ![1, 1]; let d : Vec ℝ 2 := ![0, 4]
    3 ≤ [Geo.det2 (a - d) (b - a), Geo.det2 (b - a) (c - b), Geo.det2 (c - b) (d - c), Geo.det2 (d - c) (a - d)].countP
      (fun x => decide (0 < x)) := by
  simp [Geo.det2, Geo.entry]

/-- Side 1 of the reference triangle has length `√2`. -/
example : RefEl.tria.sideLength 1 = Real.sqrt 2 := by
  simp [RefEl.sideLength, Geo.sidePoint, RefEl.corners, RefEl.numNodes]; norm_num

/-- The sample mesh of a triangle and a quadrilateral with strictly convex cells and a constant field
satisfies the assumptions of `C86_inflow`. -/
example : sampleTopo.WF ∧ ∃ geo : Ent → Option (Geo ℝ 2),
    ∀ c < sampleTopo.numCells, ∃ g, geo (0, c) = some g ∧ sampleTopo.refEl (0, c) = some g.kind ∧ g.StrictlyConvex := by
  refine ⟨sampleTopo_WF, fun e => if e.2 = 0 then some (.triaO1 ![0, 0] ![0, 1] ![2, 0])
    else some (.quadO1 ![0, 0] ![2, 0] ![3, 2] ![0, 1]), ?_⟩
  intro c hc
  match c, hc with
  | 0, _ => exact ⟨_, rfl, rfl, by simp [Geo.StrictlyConvex, Geo.det2, Geo.entry]⟩
  | 1, _ => exact ⟨_, rfl, rfl, .inl (by simp [Geo.det2, Geo.entry]; norm_num)⟩

end Verif
