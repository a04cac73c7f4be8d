import Verif.Lemmas.Shape
import Verif.Lemmas.RefCounts

/-! Triangles, their children, and the edges of the child in the middle. -/

namespace Verif
variable {K : Type} {w : ℕ} [Field K] [LinearOrder K] [IsStrictOrderedRing K]

theorem triaCorner_lt {p0 p1 p2 : Vec K w} {r : ℕ} {x : Vec K w × Vec K w} (h : triaCorner p0 p1 p2 r = some x) : r < 3 := by
  unfold triaCorner at h
  split at h
  · omega
  · omega
  · omega
  · cases h

theorem corner_some {L : Level (Geo K w)} {c : ℕ} {x : Vec K w × Vec K w} (h : L.corner c = some x) :
    ∃ p0 p1 p2 r, L.mesh.cellGeo c = some (.triaO1 p0 p1 p2) ∧ L.refEdges[c]? = some (some r) ∧
      triaCorner p0 p1 p2 r = some x := by
  unfold Level.corner at h
  split at h
  · next p0 p1 p2 r h1 h2 => exact ⟨p0, p1, p2, r, h1, h2, h⟩
  · cases h

variable {len : Geo K w → ℚ}

/-- The corner of a child of a triangle. -/
theorem corner_child {L' N : Level (Geo K w)} (hr : RefRule (geoOps len) L' N) (hc : ChildrenOk (geoOps len) L' N)
    (hg : N.mesh.GeoOk (geoOps len)) {c : ℕ} (hcn : c < L'.mesh.topo.numCells) {x : Vec K w × Vec K w} (hx : L'.corner c = some x)
    {p : Pattern} (hp : L'.pattern (0, c) = some p) (hb : p.pat ≠ .barycentric) {i : ℕ} (hi : i < N.mesh.topo.numCells)
    {info : ParentInfo} (hinfo : N.parents0[i]? = some info) (hpar : info.parent = some (0, c)) {k : ℕ}
    (hk : info.childNumber = some k) : ∃ y, N.corner i = some y ∧ ChildCorner p.pat k x y := by
  obtain ⟨p0, p1, p2, r, g1, g2, g3⟩ := corner_some hx
  obtain ⟨info', par, j, g, p', polys, poly, gs, h, q1, q2, q3, q4, q5, q6, q7, q8, q9, q10, q11, q12, q13, q14⟩ :=
    hc 0 (by omega) i hi
  have q1' : N.parents0[i]? = some info' := q1
  rw [hinfo] at q1'
  cases q1'
  rw [hpar] at q2
  cases q2
  rw [hk] at q3
  cases q3
  rw [hp] at q5
  cases q5
  have q4' : L'.mesh.cellGeo c = some g := q4
  rw [g1] at q4'
  cases q4'
  have hL : (L'.mesh.cellRef c).bind (fun ref => (L'.cellCI[c]?).bind fun ci => Pattern.make ref ci.pat ci.anchor) = some p := hp
  obtain ⟨ref, hcr, hL⟩ := Option.bind_eq_some_iff.1 hL
  obtain ⟨ci, hci, hL⟩ := Option.bind_eq_some_iff.1 hL
  have hpe := make_eq hL
  have href : ref = .tria := by
    rw [hpe] at q7
    exact q7
  subst href
  have hpp : p.pat = ci.pat := by rw [hpe]
  rw [hpp] at hb ⊢
  have hbuild : Geo.buildChild (.triaO1 p0 p1 p2) 0 poly = some h := by
    have q12' : Geo.child (.triaO1 p0 p1 p2) p 0 = some gs := q12
    unfold Geo.child at q12'
    have q7' : p.ref = (Geo.triaO1 p0 p1 p2).kind := q7
    rw [if_pos q7'] at q12'
    simp only at q12'
    have q9' : p.childPolygons 0 = some polys := q9
    rw [q9', Option.bind_some] at q12'
    split at q12'
    · obtain ⟨h', f1, f2⟩ := (mapM_get _ _ _ q12').2 k poly q10
      rw [q13] at f1
      cases f1
      exact f2
    · cases q12'
  have hpoly : childPoly ci.pat ci.anchor k = some poly := by
    unfold childPoly
    rw [hL, Option.bind_some]
    have q9' : p.childPolygons 0 = some polys := q9
    rw [q9']
    exact q10
  obtain ⟨g', e1, e2⟩ := hg.cells i hi
  have q14' : N.mesh.cellGeo i = some h := q14
  rw [q14'] at e1
  cases e1
  have hr3 := triaCorner_lt g3
  obtain ⟨ci', hci', hanc⟩ := hr.anchor c hcn hcr
  rw [hci] at hci'
  cases hci'
  have htri : h.kind = .tria := by
    have hl : poly.length = 3 := by
      by_contra hl
      unfold Geo.buildChild at hbuild
      simp only [hl, if_false] at hbuild
      cases hbuild
    match poly, hl with
    | [a, b, d], _ =>
      unfold Geo.buildChild at hbuild
      simp only [List.length_cons, List.length_nil, if_true] at hbuild
      obtain ⟨pts, _, hb2⟩ := Option.bind_eq_some_iff.1 hbuild
      unfold Geo.mkTriaO1 at hb2
      split at hb2
      · cases hb2; rfl
      · cases hb2
  obtain ⟨ci', r', x', f1, f2, f3, f4⟩ := hr.edge i hi (by rw [e2]; exact congrArg some htri) info c k hinfo hpar hk hcr
  rw [hci] at f1
  cases f1
  rw [g2] at f2
  cases f2
  have hanc' : (ci.pat ∈ [RefPat.copy, .bisect, .trisect, .trisectLeft, .regular] ∧ ci.anchor = some r) ∨
      (ci.pat = .regular ∧ ci.anchor = none) := by
    rcases hanc with ⟨h1, a, _, h2, h3⟩ | ⟨h1 | h1, h2⟩
    · rw [g2] at h3
      cases h3
      exact Or.inl ⟨h1, h2⟩
    · exact Or.inr ⟨h1, h2⟩
    · exact absurd h1 hb
  cases x' with
  | none =>
    exfalso
    have hm : ci.pat ∈ [RefPat.copy, .bisect, .trisect, .trisectLeft, .regular] := by
      rcases hanc' with ⟨h1, _⟩ | ⟨h1, _⟩
      · exact h1
      · rw [h1]; decide
    simp only [List.mem_cons, List.not_mem_nil, or_false] at hm
    unfold childRefEdge at f4
    rcases hm with h1 | h1 | h1 | h1 | h1 <;> rw [h1] at f4 <;> simp only at f4
    · cases f4
    · split at f4 <;> cases f4
    · split at f4 <;> cases f4
    · split at f4 <;> cases f4
    · split at f4 <;> cases f4
  | some x' =>
    obtain ⟨u, a0, a1, a2, y, t1, t2, t3, t4⟩ := childCorner_tab hr3 hanc' f4 hpoly hbuild
    rw [g3] at t1
    cases t1
    subst t2
    refine ⟨y, ?_, t4⟩
    unfold Level.corner
    rw [q14', f3]
    exact t3

/-- A triangle has all the children described by the tables. -/
theorem Step.child_at {G : Type} {cops : ChildOps G} {L L' N : Level G} {P : Plan} {A : Pats} {Γ : GPlan G}
    (hs : Step cops L L' N P A Γ) {c : ℕ} (hc : c < L.mesh.topo.numCells) (ht : L.mesh.cellRef c = some .tria) {ci : CellCI}
    (hci : L'.cellCI[c]? = some ci) {ch : List (List LNode) × List (LNode × LNode)}
    (hch : cellChildren .tria ci.pat ci.anchor = some ch) {k : ℕ} (hk : k < ch.1.length) :
    ∃ i < N.mesh.topo.numCells, ∃ info, N.parents0[i]? = some info ∧ info.parent = some (0, c) ∧ info.childNumber = some k := by
  obtain ⟨ref, p, _, h1, _, _, _, h2, _, _⟩ := hs.ready.cell c hc
  rw [ht] at h1
  cases h1
  have hci' : L'.cellCI[c]? = some (outC L.mesh.topo P A c) := by
    rw [hs.same]
    simp [hc]
  rw [hci] at hci'
  cases hci'
  have : ch = (P.polys c, P.ints c) := by
    simp only [outC] at hch
    rw [h2] at hch
    exact (Option.some.inj hch).symm
  subst this
  have h3 := hs.par0 c hc k hk
  refine ⟨off P.pw c + k, ?_, _, h3, rfl, rfl⟩
  rw [← hs.len0]
  exact (List.getElem?_eq_some_iff.1 h3).1

theorem samePoint_interior {T : Topo} {c : ℕ} {a b : K} (ha : 0 < a) (hb : 0 < b) (hab : a + b < 1) {e : Ent} {x : List K}
    (h : T.SamePoint .tria c [a, b] e x) : e = (0, c) ∧ x = [a, b] := by
  rcases h with ⟨h1, h2, _⟩ | ⟨j, hj, t, _, _, _, _, h⟩ | ⟨j, hj, _, _, h⟩
  · exact ⟨h1, h2⟩
  · exfalso
    have hj : j < 3 := hj
    unfold Topo.onSide at h
    generalize (if (T.cell c).ori.getD j false = true then t else 1 - t) = s at h
    interval_cases j <;> simp [Geo.sidePoint, RefEl.corners, RefEl.numNodes] at h <;> obtain ⟨rfl, rfl⟩ := h <;> linarith
  · exfalso
    have hj : j < 3 := hj
    interval_cases j <;> simp [RefEl.corners] at h <;> obtain ⟨rfl, rfl⟩ := h <;> linarith

/-- Child `k` of a triangle which is refined with `rp_regular`. -/
def regPoly (k : ℕ) : List (List ℤ) := (childPoly .regular none k).getD []

theorem regPoly_table : ∀ k < 4, (regPoly k).length = 3 ∧ ∀ q ∈ regPoly k, q.length = 2 := by decide +kernel

theorem list_two {q : List ℤ} (h : q.length = 2) : ∃ x y, q = [x, y] := by
  match q, h with
  | [x, y], _ => exact ⟨x, y, rfl⟩

section
variable {G : Type} {cops : ChildOps G} {L L' N : Level G} {P : Plan} {A : Pats} {Γ : GPlan G}

theorem Step.reg_eval (hs : Step cops L L' N P A Γ) {c : ℕ} (ht : L.mesh.cellRef c = some .tria) {ci : CellCI}
    (hci : L'.cellCI[c]? = some ci) (h1 : ci.pat = .regular) (h2 : ci.anchor = none) {i : ℕ} (hi : i < N.mesh.topo.numCells)
    {info : ParentInfo} (hinfo : N.parents0[i]? = some info) (hpar : info.parent = some (0, c)) {k : ℕ}
    (hk : info.childNumber = some k) : k < 4 ∧ ∀ m < 3, ∀ s : K, stepIn N (0, i) (Geo.sidePoint .tria m s) =
      some ((0, c), comb s (Geo.latRef ((regPoly k).getD m [])) (Geo.latRef ((regPoly k).getD ((m + 1) % 3) []))) := by
  obtain ⟨info', par, j, g, p', polys, poly, gs, h, q1, q2, q3, q4, q5, q6, q7, q8, q9, q10, q11, q12, q13, q14⟩ :=
    hs.childrenOk 0 (by omega) i hi
  have q1' : N.parents0[i]? = some info' := q1
  rw [hinfo] at q1'
  cases q1'
  rw [hpar] at q2
  cases q2
  rw [hk] at q3
  cases q3
  have hm : L'.mesh = L.mesh := by rw [hs.same]
  have hL : (L'.mesh.cellRef c).bind (fun ref => (L'.cellCI[c]?).bind fun ci => Pattern.make ref ci.pat ci.anchor) = some p' := q5
  rw [hm, ht, hci] at hL
  simp only [Option.bind_some, h1, h2] at hL
  have hpoly : childPoly .regular none k = some poly := by
    unfold childPoly
    rw [hL, Option.bind_some]
    have q9' : p'.childPolygons 0 = some polys := q9
    rw [q9']
    exact q10
  have hk4 : k < 4 := by
    by_contra hk4
    obtain ⟨m, rfl⟩ : ∃ m, k = m + 4 := ⟨k - 4, by omega⟩
    cases hpoly
  have hreg : regPoly k = poly := by unfold regPoly; rw [hpoly]; rfl
  obtain ⟨t1, t2⟩ := regPoly_table k hk4
  refine ⟨hk4, fun m hm s => ?_⟩
  rw [hreg] at t1 t2 ⊢
  refine (stepIn_of (N := N) (e := (0, i)) hinfo hpar q11).trans ?_
  exact relEval_side c (Or.inl rfl) t1 (fun q hq => list_two (t2 q hq)) m hm s

/-- Side `j` of the middle child is its refinement edge or not the refinement edge of child `k`. -/
def middleRow (r k j : ℕ) : Bool :=
  match childRefEdge .regular 3 (some r) none, childRefEdge .regular k (some r) none with
  | some (some a), some (some b) => decide (j = a) ||
    (!(decide ((regPoly k).getD b [] = (regPoly 3).getD j []) &&
        decide ((regPoly k).getD ((b + 1) % 3) [] = (regPoly 3).getD ((j + 1) % 3) [])) &&
      !(decide ((regPoly k).getD b [] = (regPoly 3).getD ((j + 1) % 3) []) &&
        decide ((regPoly k).getD ((b + 1) % 3) [] = (regPoly 3).getD j [])))
  | _, _ => false

theorem middle_table : ∀ r < 3, ∀ k < 4, ∀ j < 3, middleRow r k j = true := by decide +kernel

/-- The midpoints of the sides of the middle child are interior points of the parent. -/
theorem middle_mid (j : ℕ) (hj : j < 3) : ∃ a b : K, 0 < a ∧ 0 < b ∧ a + b < 1 ∧
    comb (1 / 2 : K) (Geo.latRef ((regPoly 3).getD j [])) (Geo.latRef ((regPoly 3).getD ((j + 1) % 3) [])) = [a, b] := by
  have h : regPoly 3 = [[3, 0], [3, 3], [0, 3]] := by decide +kernel
  rw [h]
  interval_cases j
  · exact ⟨1 / 2, 1 / 4, by norm_num, by norm_num, by norm_num, by simp [comb, Geo.latRef]; norm_num⟩
  · exact ⟨1 / 4, 1 / 2, by norm_num, by norm_num, by norm_num, by simp [comb, Geo.latRef]; norm_num⟩
  · exact ⟨1 / 4, 1 / 4, by norm_num, by norm_num, by norm_num, by simp [comb, Geo.latRef]; norm_num⟩

omit [IsStrictOrderedRing K] in
theorem stepIn_parent {e par : Ent} {x y : List K} (h : stepIn N e x = some (par, y)) :
    ∃ info, parentAt N e = some info ∧ info.parent = some par := by
  unfold stepIn at h
  obtain ⟨info, h1, h⟩ := Option.bind_eq_some_iff.1 h
  obtain ⟨par', h2, h⟩ := Option.bind_eq_some_iff.1 h
  obtain ⟨poly, _, h⟩ := Option.bind_eq_some_iff.1 h
  unfold relEval at h
  obtain ⟨r, _, h⟩ := Option.bind_eq_some_iff.1 h
  obtain ⟨v, _, h⟩ := Option.map_eq_some_iff.1 h
  cases h
  exact ⟨info, h1, h2⟩

theorem latRef_inj {p q : List ℤ} (h : (Geo.latRef p : List K) = Geo.latRef q) : p = q := by
  unfold Geo.latRef at h
  refine List.map_injective_iff.2 ?_ h
  intro a b hab
  have : ((a : K)) = b := by
    have h6 : (1 / 6 : K) ≠ 0 := by norm_num
    exact mul_left_cancel₀ h6 hab
  exact_mod_cast this

theorem comb_zero {x y z u : ℤ} : comb (0 : K) (Geo.latRef [x, y]) (Geo.latRef [z, u]) = Geo.latRef [x, y] := by
  simp [comb, Geo.latRef]

theorem comb_one {x y z u : ℤ} : comb (1 : K) (Geo.latRef [x, y]) (Geo.latRef [z, u]) = Geo.latRef [z, u] := by
  simp [comb, Geo.latRef]

theorem childRefEdge_regular (k : ℕ) (r l : Option ℕ) : childRefEdge .regular k r l = childRefEdge .regular k r none := rfl

/-- The sides of the middle child of a triangle are not refinement edges of any triangle, with the exception of its own
refinement edge. -/
theorem Step.middle (K : Type) [Field K] [LinearOrder K] [IsStrictOrderedRing K] (hs : Step cops L L' N P A Γ)
    (hr : RefRule cops L' N) (hreg : ∀ c < L.mesh.topo.numCells, ∃ ci, L'.cellCI[c]? = some ci ∧ ci.pat = .regular ∧ ci.anchor = none)
    {c : ℕ} (hc : c < L.mesh.topo.numCells) (hct : L.mesh.cellRef c = some .tria) {r : ℕ} (hr3 : r < 3)
    (hre : L'.refEdges[c]? = some (some r)) {t : ℕ} (htn : t < N.mesh.topo.numCells)
    {info : ParentInfo} (hinfo : N.parents0[t]? = some info) (hpar : info.parent = some (0, c))
    (hk : info.childNumber = some 3) (htt : N.mesh.cellRef t = some .tria) {a : ℕ}
    (ha : N.refEdges[t]? = some (some a)) {j : ℕ} (hj : j < 3) (hja : j ≠ a)
    {d : ℕ} (hd : d < N.mesh.topo.numCells) (hdt : N.mesh.cellRef d = some .tria) {b : ℕ}
    (hb : N.refEdges[d]? = some (some b)) (hb3 : b < 3) :
    (N.mesh.topo.cell d).edges.getD b 0 ≠ (N.mesh.topo.cell t).edges.getD j 0 := by
  intro he
  have hm : L'.mesh = L.mesh := by rw [hs.same]
  have htr : ∀ i, i < N.mesh.topo.numCells → N.mesh.cellRef i = some .tria → N.mesh.topo.refEl (0, i) = some .tria := by
    intro i hi h
    have h3 := (cellRef_len hs.refined.valid hi h).2
    unfold Topo.refEl
    have hi' : i < N.mesh.topo.num 0 := hi
    rw [if_pos hi']
    have h3' : (N.mesh.topo.cell i).nodes.length = 3 := h3.symm
    simp [h3']
  obtain ⟨c1, r1, s1, _, s2⟩ := hs.samePoint (K := K) (htr t htn htt)
  obtain ⟨c2, r2, s3, _, s4⟩ := hs.samePoint (K := K) (htr d hd hdt)
  obtain ⟨ci, ci1, ci2, ci3⟩ := hreg c hc
  obtain ⟨_, ev⟩ := hs.reg_eval (K := K) hct ci1 ci2 ci3 htn hinfo hpar hk
  -- the point with parameter `τ` on the edge, seen from the middle child
  have key : ∀ τ : K, 0 ≤ τ → τ ≤ 1 → ∃ e' x' y', stepIn N (0, t) (N.mesh.topo.onSide .tria t j τ) = some ((0, c), y') ∧
      stepIn N (1, (N.mesh.topo.cell t).edges.getD j 0) [τ] = some (e', x') ∧ L.mesh.topo.SamePoint .tria c y' e' x' ∧
      (τ = 1 / 2 → e' = (0, c)) := by
    intro τ h0 h1
    obtain ⟨y', e', x', u1, u2, u3⟩ := s2 _ _ _ (Or.inr (Or.inl ⟨j, hj, τ, h0, h1, rfl, rfl, rfl⟩))
    have u1' := u1
    unfold Topo.onSide at u1'
    rw [ev j hj] at u1'
    cases u1'
    have hr1 : r1 = .tria := by
      have h3 := (cellRef_len hs.ready.valid hc hct).2
      have h3' : (L.mesh.topo.cell c).nodes.length = 3 := h3.symm
      have hc' : c < L.mesh.topo.num 0 := hc
      unfold Topo.refEl at s1
      rw [if_pos hc'] at s1
      simp [h3'] at s1
      exact s1.symm
    subst hr1
    refine ⟨e', x', _, u1, u2, u3, ?_⟩
    rintro rfl
    have hh : (if (N.mesh.topo.cell t).ori.getD j false = true then (1 / 2 : K) else 1 - 1 / 2) = 1 / 2 := by
      split_ifs <;> norm_num
    rw [hh] at u3
    obtain ⟨p, q, hp, hq, hpq, hmid⟩ := middle_mid (K := K) j hj
    rw [hmid] at u3
    exact (samePoint_interior hp hq hpq u3).1
  -- the parent of the edge is the triangle
  obtain ⟨em, xm, ym, v1, v2, v3, v4⟩ := key (1 / 2) (by norm_num) (by norm_num)
  obtain ⟨infoE, w1, w2⟩ := stepIn_parent v2
  rw [v4 rfl] at w2
  -- the same point seen from the two triangles
  have both : ∀ τ : K, 0 ≤ τ → τ ≤ 1 → c2 = c ∧ ∃ y, stepIn N (0, t) (N.mesh.topo.onSide .tria t j τ) = some ((0, c), y) ∧
      stepIn N (0, d) (N.mesh.topo.onSide .tria d b τ) = some ((0, c), y) := by
    intro τ h0 h1
    obtain ⟨e', x', y', u1, u2, u3, _⟩ := key τ h0 h1
    have he' : e' = (0, c) := by
      obtain ⟨info', t1, t2⟩ := stepIn_parent u2
      rw [w1] at t1
      cases t1
      rw [w2] at t2
      exact (Option.some.inj t2).symm
    subst he'
    have hxy : x' = y' := by
      rcases u3 with ⟨_, h, _⟩ | ⟨_, _, _, _, _, h, _⟩ | ⟨_, _, h, _⟩
      · exact h
      · exact absurd (congrArg Prod.fst h) (by simp)
      · exact absurd (congrArg Prod.fst h) (by simp)
    subst hxy
    obtain ⟨y2, e2, x2, z1, z2, z3⟩ := s4 _ _ _ (Or.inr (Or.inl ⟨b, hb3, τ, h0, h1, rfl, rfl, rfl⟩))
    rw [he, u2] at z2
    cases z2
    rcases z3 with ⟨h, h', _⟩ | ⟨_, _, _, _, _, h, _⟩ | ⟨_, _, h, _⟩
    · have hcc : c2 = c := (congrArg Prod.snd h).symm
      subst hcc
      subst h'
      exact ⟨rfl, _, u1, z1⟩
    · exact absurd (congrArg Prod.fst h) (by simp)
    · exact absurd (congrArg Prod.fst h) (by simp)
  obtain ⟨hc2, y0, a1, a2⟩ := both 0 le_rfl zero_le_one
  obtain ⟨_, y1, a3, a4⟩ := both 1 zero_le_one le_rfl
  obtain ⟨infoD, d1, d2⟩ := stepIn_parent a2
  have d1' : N.parents0[d]? = some infoD := d1
  obtain ⟨k, hkD⟩ : ∃ k, infoD.childNumber = some k := by
    obtain ⟨info', par, j', _, _, _, _, _, _, q1, _, q3, _⟩ := hs.childrenOk 0 (by omega) d hd
    have q1' : N.parents0[d]? = some info' := q1
    rw [d1'] at q1'
    cases q1'
    exact ⟨j', q3⟩
  obtain ⟨hk4, ev2⟩ := hs.reg_eval (K := K) hct ci1 ci2 ci3 hd d1' d2 hkD
  -- refinement edges
  obtain ⟨_, _, _, f1, f2, f3, f4⟩ := hr.edge t htn htt info c 3 hinfo hpar hk (by rw [hm]; exact hct)
  rw [ci1] at f1
  cases f1
  rw [hre] at f2
  cases f2
  rw [ha] at f3
  cases f3
  obtain ⟨_, _, _, g1, g2, g3, g4⟩ := hr.edge d hd hdt infoD c k d1' d2 hkD (by rw [hm]; exact hct)
  rw [ci1] at g1
  cases g1
  rw [hre] at g2
  cases g2
  rw [hb] at g3
  cases g3
  rw [ci2, childRefEdge_regular] at f4 g4
  have row := middle_table r hr3 k hk4 j hj
  unfold middleRow at row
  rw [f4, g4] at row
  simp only [hja, decide_false, Bool.false_or, Bool.and_eq_true, Bool.not_eq_true', Bool.and_eq_false_iff,
    decide_eq_false_iff_not] at row
  -- corners
  have two : ∀ k < 4, ∀ m < 3, ∃ x y, (regPoly k).getD m [] = [x, y] := by
    intro k hk m hm
    obtain ⟨t1, t2⟩ := regPoly_table k hk
    rw [List.getD_eq_getElem _ _ (by omega)]
    exact list_two (t2 _ (List.getElem_mem _))
  obtain ⟨x0, z0, e0⟩ := two 3 (by omega) j hj
  obtain ⟨x1, z1, e1⟩ := two 3 (by omega) ((j + 1) % 3) (by omega)
  obtain ⟨x2, z2, e2⟩ := two k hk4 b hb3
  obtain ⟨x3, z3, e3⟩ := two k hk4 ((b + 1) % 3) (by omega)
  unfold Topo.onSide at a1 a2 a3 a4
  rw [ev j hj, e0, e1] at a1 a3
  rw [ev2 b hb3, e2, e3] at a2 a4
  rw [e0, e1, e2, e3] at row
  rw [Option.some.injEq, Prod.mk.injEq] at a1 a2 a3 a4
  have b1 := a2.2.trans a1.2.symm
  have b2 := a4.2.trans a3.2.symm
  clear a1 a2 a3 a4
  generalize (N.mesh.topo.cell t).ori.getD j false = o1 at b1 b2
  generalize (N.mesh.topo.cell d).ori.getD b false = o2 at b1 b2
  cases o1 <;> cases o2 <;>
    simp only [if_true, if_false, Bool.false_eq_true, sub_zero, sub_self, comb_zero, comb_one] at b1 b2 <;>
    have b1' := latRef_inj b1 <;> have b2' := latRef_inj b2
  · rcases row.1 with h | h
    · exact h b2'
    · exact h b1'
  · rcases row.2 with h | h
    · exact h b1'
    · exact h b2'
  · rcases row.2 with h | h
    · exact h b2'
    · exact h b1'
  · rcases row.1 with h | h
    · exact h b1'
    · exact h b2'

end

end Verif
