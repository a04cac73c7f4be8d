import Verif.Lemmas.ShapeStep
import Verif.Lemmas.Transfer

/-! Refinements which change the shape of a triangle. -/

namespace Verif
variable {K : Type} {w : ℕ} [Field K] [LinearOrder K] [IsStrictOrderedRing K] {len : Geo K w → ℚ}

/-- An unmarked edge which is not the refinement edge of any triangle is not split. -/
theorem not_inClosure {T : Topo} {re : List (Option ℕ)} {A : ℕ → Prop} {e : ℕ} (hA : ¬ A e)
    (h : ∀ c < T.numCells, (T.cell c).nodes.length = 3 → ∀ a, re[c]? = some (some a) → (T.cell c).edges.getD a 0 ≠ e) :
    ¬ InClosure T re A e := by
  intro hc
  refine hc (fun f => f ≠ e) ?_ ?_ rfl
  · rintro f hf rfl
    exact hA hf
  · intro c hcn h3 a ha _
    exact h c hcn h3 a ha

theorem corner_tria {L : Level (Geo K w)} (hg : L.mesh.GeoOk (geoOps len)) {c : ℕ} (hc : c < L.mesh.topo.numCells)
    {x : Vec K w × Vec K w} (h : L.corner c = some x) : L.mesh.cellRef c = some .tria := by
  obtain ⟨p0, p1, p2, r, g1, _, _⟩ := corner_some h
  obtain ⟨g, e1, e2⟩ := hg.cells c hc
  rw [g1] at e1
  cases e1
  exact e2

/-- The finest level of a hierarchy has a triangle with the corner `x`. -/
def HasCorner (H : Hierarchy (Geo K w)) (x : Vec K w × Vec K w) : Prop :=
  ∃ L rest c, H.levels = L :: rest ∧ c < L.mesh.topo.numCells ∧ L.corner c = some x

theorem pattern_some {G : Type} {cops : ChildOps G} {L L' N : Level G} {P : Plan} {A : Pats} {Γ : GPlan G}
    (hs : Step cops L L' N P A Γ) {c : ℕ} (hc : c < L.mesh.topo.numCells) {ci : CellCI}
    (hci : L'.cellCI[c]? = some ci) : ∃ p, L'.pattern (0, c) = some p ∧ p.pat = ci.pat := by
  obtain ⟨ref, p, _, h1, _, h3, _, h2, _, _⟩ := hs.ready.cell c hc
  have hci' : L'.cellCI[c]? = some (outC L.mesh.topo P A c) := by
    rw [hs.same]
    simp [hc]
  rw [hci] at hci'
  cases hci'
  have hm : L'.mesh = L.mesh := by rw [hs.same]
  refine ⟨p, ?_, by rw [make_eq h3]; rfl⟩
  show (L'.mesh.cellRef c).bind (fun ref => (L'.cellCI[c]?).bind fun ci => Pattern.make ref ci.pat ci.anchor) = some p
  rw [hm, h1, hci]
  exact h3

/-- Regular refinement, marking of the refinement edge of the middle child and of one of its other sides, refinement. -/
theorem cycle (ops : GeoOps (Geo K w)) {chk : Bool} {M : Mesh (Geo K w)} {H : Hierarchy (Geo K w)}
    (hH : HierOk (geoOps len) chk M H) (hR : HierRef (geoOps len) H) {u v : Vec K w} (hx : HasCorner H (u, v)) (left : Bool) :
    ∃ f H', [HOp.regular .regular, .mark f, .refineMarked].foldlM (fun H op => H.call ops (geoOps len) chk op) H = some H' ∧
      HierOk (geoOps len) chk M H' ∧ HierRef (geoOps len) H' ∧
      HasCorner H' (if left then ((1 / 4 : K) • u, -(1 / 4 : K) • v) else (-(1 / 4 : K) • (u - v), (1 / 4 : K) • v)) := by
  have hl := geoOps_lawful len
  obtain ⟨L, rest, c, hlev, hc, hcor⟩ := hx
  have hL := hH.head L (by rw [hlev]; rfl)
  have hct := corner_tria hL.coarse.geoOk hc hcor
  -- regular refinement
  obtain ⟨L', N, Γ, h1, hN, hs⟩ := regular_step ops hl hL (Or.inl rfl)
  obtain ⟨hrule, hreg⟩ := regular_rule ops hL.fresh (Or.inl rfl) h1 hs
  have hm : L'.mesh = L.mesh := by rw [hs.same]; rfl
  have hre : L'.refEdges = L.refEdges := by rw [hs.same]; rfl
  obtain ⟨H1, c1, k1, _⟩ := call_ok ops hl hH (.regular .regular) (Or.inl rfl)
  have r1 := hR.call ops hl hH (op := .regular .regular) (Or.inl rfl) c1
  have e1 : H1 = ⟨N :: L' :: rest, {}⟩ := by
    have c1' := c1
    unfold Hierarchy.call Hierarchy.refineRegular at c1'
    simp only [hlev, hH.factory, h1] at c1'
    cases c1'
    rfl
  have hcor' : L'.corner c = some (u, v) := by
    unfold Level.corner
    rw [hm, hre]
    exact hcor
  obtain ⟨ci, ci1, ci2, ci3⟩ := hreg c hc
  obtain ⟨p, hp1, hp2⟩ := pattern_some hs hc ci1
  obtain ⟨t, ht, info, i1, i2, i3⟩ := hs.child_at hc hct ci1 (k := 3) (ch := _) (by rw [ci2, ci3]; rfl) (by decide)
  obtain ⟨y, y1, y2⟩ := corner_child hrule hs.childrenOk hN.coarse.geoOk (by rw [hm]; exact hc) hcor' hp1
    (by rw [hp2, ci2]; decide) ht i1 i2 i3
  rw [hp2, ci2] at y2
  have y2' : y = (-(1 / 2 : K) • u, -(1 / 2 : K) • v) := y2
  have htt := corner_tria hN.coarse.geoOk ht y1
  obtain ⟨q0, q1, q2, a, _, ga, gc⟩ := corner_some y1
  have ha3 := triaCorner_lt gc
  obtain ⟨_, _, _, r, _, gr, grc⟩ := corner_some hcor'
  have hr3 := triaCorner_lt grc
  -- marking
  let e : ℕ → ℕ := fun j => (N.mesh.topo.cell t).edges.getD j 0
  let s : ℕ := if left then (a + 2) % 3 else (a + 1) % 3
  let o : ℕ := if left then (a + 1) % 3 else (a + 2) % 3
  have hs3 : s < 3 := by unfold s; split_ifs <;> omega
  have ho3 : o < 3 := by unfold o; split_ifs <;> omega
  have hoa : o ≠ a := by unfold o; split_ifs <;> omega
  have hos : o ≠ s := by unfold o s; split_ifs <;> omega
  let f : ℕ → Bool := fun i => i == e a || i == e s
  obtain ⟨H2, c2, k2, _⟩ := call_ok ops hl k1 (.mark f) trivial
  have r2 := r1.call ops hl k1 (op := .mark f) trivial c2
  let N2 : Level (Geo K w) := { N with marked := (List.range N.mesh.topo.numEdges).map f }
  have e2 : H2 = ⟨N2 :: L' :: rest, {}⟩ := by
    have c2' := c2
    unfold Hierarchy.call Hierarchy.markEdges at c2'
    rw [e1] at c2'
    simp only at c2'
    unfold Level.markEdges at c2'
    rw [if_pos hN.fresh.marked] at c2'
    cases c2'
    rfl
  have hN2 : N2.Good (geoOps len) chk := k2.head N2 (by rw [e2]; rfl)
  -- refinement
  obtain ⟨L3, N3, Γ3, Lp, m1, m2, _, m4, m5, _, m7, m8, m9, _, m11⟩ := marked_rule ops hl hN2
  obtain ⟨H3, c3, k3, _⟩ := call_ok ops hl k2 .refineMarked trivial
  have r3 := r2.call ops hl k2 (op := .refineMarked) trivial c3
  have e3 : H3 = ⟨N3 :: L3 :: L' :: rest, {}⟩ := by
    have c3' := c3
    unfold Hierarchy.call Hierarchy.refineMarked at c3'
    rw [e2] at c3'
    simp only [m1] at c3'
    cases c3'
    rfl
  obtain ⟨fl, a', ha', ci3', f1, f2, f3, f4, f5⟩ := m11 t ht htt
  have haa : a' = a := by
    have f1' : N.refEdges[t]? = some (some a') := f1
    rw [ga] at f1'
    cases f1'
    rfl
  subst haa
  have hedge : ∀ j < 3, e j < N.mesh.topo.numEdges := by
    intro j hj
    have hn := (cellRef_len hN.fresh.valid ht htt).2
    have hlen : (N.mesh.topo.cell t).edges.length = 3 := by
      rw [hN.fresh.valid.wf.cell_edges_len t ht]; exact hn.symm
    show (N.mesh.topo.cell t).edges.getD j 0 < _
    rw [List.getD_eq_getElem _ _ (by omega)]
    exact hN.fresh.valid.wf.cell_edges t ht _ (List.getElem_mem _)
  have hmark : ∀ i, N2.marked[i]? = some true ↔ i < N.mesh.topo.numEdges ∧ f i = true := by
    intro i
    show ((List.range N.mesh.topo.numEdges).map f)[i]? = some true ↔ _
    rw [List.getElem?_map]
    by_cases hi : i < N.mesh.topo.numEdges
    · rw [List.getElem?_range hi]; simp [hi]
    · rw [List.getElem?_eq_none (by simpa using hi)]; simp [hi]
  have fa : fl.getD a' false = true := by
    rw [f5 a' ha3]
    intro S hS _
    exact hS _ ((hmark _).2 ⟨hedge a' ha3, by show (e a' == e a' || e a' == e s) = true; simp only [beq_self_eq_true, Bool.true_or]⟩)
  have fs : fl.getD s false = true := by
    rw [f5 s hs3]
    intro S hS _
    exact hS _ ((hmark _).2 ⟨hedge s hs3, by show (e s == e a' || e s == e s) = true; simp only [beq_self_eq_true, Bool.or_true]⟩)
  have fo : fl.getD o false = false := by
    rw [← Bool.not_eq_true, f5 o ho3]
    have hmid : ∀ d < N.mesh.topo.numCells, (N.mesh.topo.cell d).nodes.length = 3 → ∀ b, N.refEdges[d]? = some (some b) →
        (N.mesh.topo.cell d).edges.getD b 0 ≠ e o := by
      intro d hd h3 b hb
      have hdt : N.mesh.cellRef d = some .tria := by
        rw [hN.fresh.valid.ref d hd]; simp [cellRefEl, h3]
      obtain ⟨b', hb3, hb'⟩ := hN.fresh.refEdges.2 d hd h3
      rw [hb] at hb'
      cases hb'
      exact hs.middle K hrule hreg hc hct hr3 gr ht i1 i2 i3 htt ga ho3 hoa hd hdt hb hb3
    refine not_inClosure ?_ hmid
    rw [hmark]
    rintro ⟨_, hf⟩
    have hnd := edges_nodup hN.coarse.conforming t ht
    have hn := (cellRef_len hN.fresh.valid ht htt).2
    have hlen : (N.mesh.topo.cell t).edges.length = 3 := by
      rw [hN.fresh.valid.wf.cell_edges_len t ht]; exact hn.symm
    have hinj : ∀ i < 3, ∀ j < 3, e i = e j → i = j := by
      intro i hi j hj hij
      simp only [e] at hij
      rw [List.getD_eq_getElem _ _ (by omega), List.getD_eq_getElem _ _ (by omega)] at hij
      exact (List.Nodup.getElem_inj_iff hnd).1 hij
    simp only [f, Bool.or_eq_true, beq_iff_eq] at hf
    rcases hf with hf | hf
    · exact hoa (hinj o ho3 a' ha3 hf)
    · exact hos (hinj o ho3 s hs3 hf)
  have hpat : ci3'.pat = if left then .trisectLeft else .trisect := by
    rw [f4, fa]
    cases left
    · have hs' : s = (a' + 1) % 3 := rfl
      have ho' : o = (a' + 2) % 3 := rfl
      rw [← hs', ← ho', fs, fo]; rfl
    · have hs' : s = (a' + 2) % 3 := rfl
      have ho' : o = (a' + 1) % 3 := rfl
      rw [← hs', ← ho', fs, fo]; rfl
  have htp : t < Lp.mesh.topo.numCells := by rw [m4]; exact ht
  have htpr : Lp.mesh.cellRef t = some .tria := by rw [m4]; exact htt
  obtain ⟨p3, hp3, hp3'⟩ := pattern_some m5 htp f2
  have y3 : L3.corner t = some y := by
    unfold Level.corner
    rw [m8, m9]
    exact y1
  have hfold : [HOp.regular .regular, .mark f, .refineMarked].foldlM (fun H op => H.call ops (geoOps len) chk op) H = some H3 := by
    simp only [List.foldlM_cons, List.foldlM_nil, c1, c2, c3, Option.bind_eq_bind, Option.bind_some]
    rfl
  refine ⟨f, H3, hfold, k3, r3, ?_⟩
  cases left
  · obtain ⟨i, hi, info3, j1, j2, j3⟩ := m5.child_at htp htpr f2 (k := 1) (ch := _) (by rw [hpat, f3]; rfl) (by simp)
    obtain ⟨z, z1, z2⟩ := corner_child m7 m5.childrenOk m2.coarse.geoOk (by rw [m8]; exact ht) y3 hp3
      (by rw [hp3', hpat]; decide) hi j1 j2 j3
    rw [hp3', hpat, y2'] at z2
    refine ⟨N3, _, i, by rw [e3], hi, ?_⟩
    rw [z1]
    have z2' : z = ((1 / 2 : K) • (-(1 / 2 : K) • u - -(1 / 2 : K) • v), -(1 / 2 : K) • (-(1 / 2 : K) • v)) := z2
    rw [z2']
    simp only [Bool.false_eq_true, if_false, Option.some.injEq, Prod.mk.injEq]
    constructor <;> module
  · obtain ⟨i, hi, info3, j1, j2, j3⟩ := m5.child_at htp htpr f2 (k := 2) (ch := _) (by rw [hpat, f3]; rfl) (by simp)
    obtain ⟨z, z1, z2⟩ := corner_child m7 m5.childrenOk m2.coarse.geoOk (by rw [m8]; exact ht) y3 hp3
      (by rw [hp3', hpat]; decide) hi j1 j2 j3
    rw [hp3', hpat, y2'] at z2
    refine ⟨N3, _, i, by rw [e3], hi, ?_⟩
    rw [z1]
    have z2' : z = (-(1 / 2 : K) • (-(1 / 2 : K) • u), (1 / 2 : K) • (-(1 / 2 : K) • v)) := z2
    rw [z2']
    simp only [if_true, Option.some.injEq, Prod.mk.injEq]
    constructor <;> module

/-- Repetition. -/
theorem cycles (ops : GeoOps (Geo K w)) {chk : Bool} {M : Mesh (Geo K w)} (n : ℕ) {H : Hierarchy (Geo K w)}
    (hH : HierOk (geoOps len) chk M H) (hR : HierRef (geoOps len) H) {u v : Vec K w} (hx : HasCorner H (u, v)) :
    ∃ (hist : List HOp) (H' : Hierarchy (Geo K w)), (∀ op ∈ hist, op.Legal) ∧ hist.foldlM (fun H op => H.call ops (geoOps len) chk op) H = some H' ∧
      HierOk (geoOps len) chk M H' ∧ HierRef (geoOps len) H' ∧
      HasCorner H' ((-(1 / 16 : K)) ^ n • (u - (n : K) • v), (-(1 / 16 : K)) ^ n • v) := by
  induction n generalizing H u v with
  | zero => exact ⟨[], H, by simp, rfl, hH, hR, by simpa using hx⟩
  | succ n ih =>
    obtain ⟨f1, H1, c1, h1, r1, x1⟩ := cycle ops hH hR hx false
    simp only [Bool.false_eq_true, if_false] at x1
    obtain ⟨f2, H2, c2, h2, r2, x2⟩ := cycle ops h1 r1 x1 true
    simp only [if_true] at x2
    have x2' : HasCorner H2 ((-(1 / 16 : K)) • (u - v), (-(1 / 16 : K)) • v) := by
      have a1 : (1 / 4 : K) • -(1 / 4 : K) • (u - v) = (-(1 / 16 : K)) • (u - v) := by module
      have a2 : -(1 / 4 : K) • (1 / 4 : K) • v = (-(1 / 16 : K)) • v := by module
      rw [a1, a2] at x2
      exact x2
    obtain ⟨hist, H', l, c3, h3, r3, x3⟩ := ih h2 r2 x2'
    refine ⟨[.regular .regular, .mark f1, .refineMarked] ++ ([.regular .regular, .mark f2, .refineMarked] ++ hist), H', ?_,
      ?_, h3, r3, ?_⟩
    · intro op hop
      simp only [List.mem_append, List.mem_cons, List.not_mem_nil, or_false] at hop
      rcases hop with (rfl | rfl | rfl) | (rfl | rfl | rfl) | hop
      · exact Or.inl rfl
      · trivial
      · trivial
      · exact Or.inl rfl
      · trivial
      · trivial
      · exact l op hop
    · rw [List.foldlM_append, c1]
      show ([HOp.regular .regular, .mark f2, .refineMarked] ++ hist).foldlM _ H1 = some H'
      rw [List.foldlM_append, c2]
      exact c3
    · have a1 : (-(1 / 16 : K)) ^ n • ((-(1 / 16 : K)) • (u - v) - (n : K) • (-(1 / 16 : K)) • v) =
          (-(1 / 16 : K)) ^ (n + 1) • (u - ((n + 1 : ℕ) : K) • v) := by
        rw [pow_succ]
        push_cast
        module
      have a2 : (-(1 / 16 : K)) ^ n • ((-(1 / 16 : K)) • v) = (-(1 / 16 : K)) ^ (n + 1) • v := by
        rw [pow_succ]
        module
      rw [a1, a2] at x3
      exact x3

end Verif
