import Verif.Lemmas.Relative
import Verif.Lemmas.TransferHier
import Verif.Spec.Vtk

/-!
# Lemmas: geometries of neighbouring entities of refined meshes
-/

namespace Verif
open Geo
variable {K : Type} [Field K] [LinearOrder K] [IsStrictOrderedRing K] {w : ℕ}

/-! ### Curves of second order -/

/-- A curve given by a polynomial of second order. -/
def quadCurve (A B C : Vec K w) (t : K) : Vec K w := A + t • B + (t * t) • C

omit [LinearOrder K] [IsStrictOrderedRing K] in
theorem curve_line {A B A' B' : Vec K w} (h0 : quadCurve A B 0 0 = quadCurve A' B' 0 0)
    (h1 : quadCurve A B 0 1 = quadCurve A' B' 0 1) (t : K) : quadCurve A B 0 t = quadCurve A' B' 0 t := by
  have e : A = A' := by simpa [quadCurve] using h0
  subst e
  have e : B = B' := by simpa [quadCurve] using h1
  rw [e]

theorem curve_quad {A B C A' B' C' : Vec K w} (h0 : quadCurve A B C 0 = quadCurve A' B' C' 0)
    (h1 : quadCurve A B C 1 = quadCurve A' B' C' 1)
    (h2 : quadCurve A B C (1 / 2) = quadCurve A' B' C' (1 / 2)) (t : K) : quadCurve A B C t = quadCurve A' B' C' t := by
  ext i
  have a0 := congrFun h0 i
  have a1 := congrFun h1 i
  have a2 := congrFun h2 i
  simp [quadCurve] at a0 a1 a2 ⊢
  linear_combination (1 - 3 * t + 2 * t * t) * a0 + (2 * t * t - t) * a1 + (4 * t - 4 * t * t) * a2

/-- The sides of a cell are curves of second order, and straight for geometries of first order. -/
theorem Geo.side_curve (g : Geo K w) (hk : g.kind = .tria ∨ g.kind = .quad) (j : ℕ) (hj : j < g.kind.numNodes) :
    ∃ A B C : Vec K w, (g.quadratic = false → C = 0) ∧
      ∀ t, 0 ≤ t → t ≤ 1 → g.global (sidePoint g.kind j t) = some (quadCurve A B C t) := by
  have hd : g.kind.dimension = 2 := by rcases hk with h | h <;> rw [h] <;> rfl
  obtain ⟨q, hq, qt, qo, qa⟩ := global_poly g hd
  have ht : ∀ t : K, 0 ≤ t → t ≤ 1 → 0 ≤ 1 - t ∧ 1 - t ≤ 1 := fun t h0 h1 => ⟨by linarith, by linarith⟩
  have hz : (0 : K) ≤ 0 ∧ (0 : K) ≤ 1 := ⟨le_refl _, zero_le_one⟩
  have ho : (0 : K) ≤ 1 ∧ (1 : K) ≤ 1 := ⟨zero_le_one, le_refl _⟩
  rcases hk with hk | hk
  · obtain ⟨e0, e1⟩ := qt hk
    have hdel : g.quadratic = false → q.delta = 0 := by
      intro h
      refine qa h ?_
      cases g <;> simp [kind, isAffine, quadratic] at hk h ⊢
    rw [hk] at hj ⊢
    simp only [RefEl.numNodes] at hj
    interval_cases j
    · refine ⟨q.alpha, q.beta0, q.gamma0, fun h => (qo h).2.2.1, fun t h0 h1 => ?_⟩
      have : sidePoint (K := K) .tria 0 t = [t, 0] := by simp [sidePoint, RefEl.corners, RefEl.numNodes]
      rw [this, hq _ _ (lat_mem_unit ⟨h0, h1⟩ hz)]
      congr 1; ext i; simp [Coef.eval, quadCurve]; ring
    · refine ⟨q.alpha + q.beta0 + q.gamma0, q.beta1 - q.beta0 - (2 : K) • q.gamma0 + q.delta,
        q.gamma0 + q.gamma1 - q.delta, fun h => ?_, fun t h0 h1 => ?_⟩
      · rw [(qo h).2.2.1, (qo h).2.2.2, hdel h]; simp
      · have : sidePoint (K := K) .tria 1 t = [1 - t, t] := by simp [sidePoint, RefEl.corners, RefEl.numNodes]
        rw [this, hq _ _ (lat_mem_unit (ht t h0 h1) ⟨h0, h1⟩)]
        congr 1; ext i; simp [Coef.eval, quadCurve, e0, e1]; ring
    · refine ⟨q.alpha + q.beta1 + q.gamma1, - q.beta1 - (2 : K) • q.gamma1, q.gamma1, fun h => (qo h).2.2.2, fun t h0 h1 => ?_⟩
      have : sidePoint (K := K) .tria 2 t = [0, 1 - t] := by simp [sidePoint, RefEl.corners, RefEl.numNodes]
      rw [this, hq _ _ (lat_mem_unit hz (ht t h0 h1))]
      congr 1; ext i; simp [Coef.eval, quadCurve]; ring
  · rw [hk] at hj ⊢
    simp only [RefEl.numNodes] at hj
    interval_cases j
    · refine ⟨q.alpha, q.beta0, q.gamma0, fun h => (qo h).2.2.1, fun t h0 h1 => ?_⟩
      have : sidePoint (K := K) .quad 0 t = [t, 0] := by simp [sidePoint, RefEl.corners, RefEl.numNodes]
      rw [this, hq _ _ (lat_mem_unit ⟨h0, h1⟩ hz)]
      congr 1; ext i; simp [Coef.eval, quadCurve]; ring
    · refine ⟨q.alpha + q.beta0 + q.gamma0, q.beta1 + q.delta + q.eps0, q.gamma1 + q.eps1, fun h => ?_, fun t h0 h1 => ?_⟩
      · rw [(qo h).2.1, (qo h).2.2.2]; simp
      · have : sidePoint (K := K) .quad 1 t = [1, t] := by simp [sidePoint, RefEl.corners, RefEl.numNodes]
        rw [this, hq _ _ (lat_mem_unit ho ⟨h0, h1⟩)]
        congr 1; ext i; simp [Coef.eval, quadCurve]; ring
    · refine ⟨q.alpha + q.beta1 + q.gamma1 + q.beta0 + q.gamma0 + q.delta + q.eps0 + q.eps1,
        - q.beta0 - (2 : K) • q.gamma0 - q.delta - (2 : K) • q.eps0 - q.eps1, q.gamma0 + q.eps0, fun h => ?_, fun t h0 h1 => ?_⟩
      · rw [(qo h).1, (qo h).2.2.1]; simp
      · have : sidePoint (K := K) .quad 2 t = [1 - t, 1] := by simp [sidePoint, RefEl.corners, RefEl.numNodes]
        rw [this, hq _ _ (lat_mem_unit (ht t h0 h1) ho)]
        congr 1; ext i; simp [Coef.eval, quadCurve]; ring
    · refine ⟨q.alpha + q.beta1 + q.gamma1, - q.beta1 - (2 : K) • q.gamma1, q.gamma1, fun h => (qo h).2.2.2, fun t h0 h1 => ?_⟩
      have : sidePoint (K := K) .quad 3 t = [0, 1 - t] := by simp [sidePoint, RefEl.corners, RefEl.numNodes]
      rw [this, hq _ _ (lat_mem_unit hz (ht t h0 h1))]
      congr 1; ext i; simp [Coef.eval, quadCurve]; ring

/-- The sides, passed through in the direction of the edge. -/
theorem Geo.onSide_curve (T : Topo) (g : Geo K w) (hk : g.kind = .tria ∨ g.kind = .quad) (c j : ℕ) (hj : j < g.kind.numNodes) :
    ∃ A B C : Vec K w, (g.quadratic = false → C = 0) ∧
      ∀ t, 0 ≤ t → t ≤ 1 → g.global (T.onSide g.kind c j t) = some (quadCurve A B C t) := by
  obtain ⟨A, B, C, h1, h2⟩ := g.side_curve hk j hj
  unfold Topo.onSide
  cases (T.cell c).ori.getD j false
  · refine ⟨A + B + C, -B - (2 : K) • C, C, h1, fun t h0 h1' => ?_⟩
    rw [if_neg (by simp), h2 _ (by linarith) (by linarith)]
    congr 1; ext i; simp [quadCurve]; ring
  · refine ⟨A, B, C, h1, fun t h0 h1' => ?_⟩
    rw [if_pos rfl, h2 _ h0 h1']

theorem Geo.seg_curve (g : Geo K w) (hk : g.kind = .segment) : ∃ A B C : Vec K w, (g.quadratic = false → C = 0) ∧
    ∀ t, 0 ≤ t → t ≤ 1 → g.global [t] = some (quadCurve A B C t) := by
  obtain ⟨α, β, γ, h1, h2⟩ := global_seg g hk
  refine ⟨γ, β, α, h2, fun t h0 h1' => ?_⟩
  rw [h1 t ⟨h0, h1'⟩]
  congr 1; ext i; simp [quadCurve]; ring

/-! ### Children of general quadrilaterals -/

private theorem ofFn2' (p : Fin 2 → K) : List.ofFn p = [p 0, p 1] := by simp [List.ofFn_succ]

private theorem node_in {h : Geo K w} {x : List K} (hx : x ∈ h.nodes) : x ∈ (h.kind.corners : List (List K)) ∨
    (h.quadratic = true ∧ x ∈ (h.kind.sideMids : List (List K))) := by
  unfold Geo.nodes at hx
  rcases List.mem_append.1 hx with h' | h'
  · exact Or.inl h'
  · cases hq : h.quadratic with
    | false => rw [hq] at h'; simp at h'
    | true => rw [hq] at h'; exact Or.inr ⟨rfl, by simpa using h'⟩

/-- The points through which the geometry of a child is laid are points of the parent, also for quadrilaterals
which are not parallelograms: segments. -/
theorem quad_samples_seg (g : Geo K w) (hk : g.kind = .quad) (hn : ¬ g.Stable) {poly : List (List ℤ)}
    (hlen : poly.length = 2) (hlat : ∀ col ∈ poly, InLattice .quad col) {h : Geo K w}
    (hb : buildChild g 1 poly = some h) {r : Geo K 2} (hr : relative 2 poly = some r) :
    h.quadratic = g.quadratic ∧ ∀ x ∈ h.nodes, ∃ y v, r.global x = some y ∧ g.global (List.ofFn y) = some v ∧
      h.global x = some v := by
  have hd : g.kind.dimension = 2 := by rw [hk]; rfl
  have hcol : ∀ col ∈ poly, ∃ x y : ℤ, col = [x, y] ∧ (0 ≤ (1 / 6 : K) * (x : K) ∧ (1 / 6 : K) * (x : K) ≤ 1) ∧
      (0 ≤ (1 / 6 : K) * (y : K) ∧ (1 / 6 : K) * (y : K) ≤ 1) := by
    intro col hcol
    obtain ⟨x, y, e, a, b, _⟩ := lattice_cell (K := K) (r := .quad) rfl (hlat col hcol)
    exact ⟨x, y, e, a, b⟩
  obtain ⟨q, hq, -, -, -⟩ := global_poly g hd
  have ev : ∀ X Y : K, inUnit [X, Y] → ∃ v, g.global [X, Y] = some v := fun X Y h => ⟨_, hq X Y h⟩
  have h2 : (2 : K)⁻¹ ≤ 1 := by norm_num
  rcases poly with _ | ⟨a, _ | ⟨b, _ | ⟨z, t⟩⟩⟩ <;> simp at hlen
  obtain ⟨x0, y0, rfl, hx0, hy0⟩ := hcol a (by simp)
  obtain ⟨x1, y1, rfl, hx1, hy1⟩ := hcol b (by simp)
  obtain ⟨r', e1, e2, e3⟩ := rel_seg (K := K) x0 y0 x1 y1
  rw [hr] at e1
  cases e1
  obtain ⟨P0, hG0⟩ := ev _ _ (lat_mem_unit hx0 hy0)
  obtain ⟨P1, hG1⟩ := ev _ _ (lat_mem_unit hx1 hy1)
  obtain ⟨M0, hM0⟩ := ev _ _ (lat_mem_unit (mid_unit hx0 hx1) (mid_unit hy0 hy1))
  have key : ∀ {x : K} {v : Vec K w} {X Y : K}, g.global [X, Y] = some v → h.global [x] = some v →
      x * (1 / 6 * (x1 : K)) + (1 - x) * (1 / 6 * (x0 : K)) = X →
      x * (1 / 6 * (y1 : K)) + (1 - x) * (1 / 6 * (y0 : K)) = Y →
      ∃ z v, r.global [x] = some z ∧ g.global (List.ofFn z) = some v ∧ h.global [x] = some v := by
    intro x v X Y a2 a1 a3 a4
    obtain ⟨z, b1, b2⟩ := e3 x
    exact ⟨z, v, b1, by rw [b2, a3, a4]; exact a2, a1⟩
  cases g <;> simp only [kind, Stable, not_true_eq_false, not_false_eq_true, reduceCtorEq] at hk hn
  · simp only [buildChild, List.map, latRef, List.mapM_cons, List.mapM_nil, hG0, hG1] at hb
    obtain rfl := Option.some.inj hb
    refine ⟨rfl, fun x hx => ?_⟩
    rcases node_in hx with hx | ⟨hx, -⟩
    · simp only [kind, RefEl.corners, List.mem_cons, List.not_mem_nil, or_false] at hx
      rcases hx with rfl | rfl
      · exact key hG0 (by simp [global]) (by ring) (by ring)
      · exact key hG1 (by simp [global]) (by ring) (by ring)
    · simp [quadratic] at hx
  · simp only [buildChild, withMids, midRef, List.zipWith, List.map, latRef, List.mapM_cons, List.mapM_nil, hG0, hG1,
      hM0] at hb
    obtain rfl := Option.some.inj hb
    refine ⟨rfl, fun x hx => ?_⟩
    rcases node_in hx with hx | ⟨-, hx⟩
    · simp only [kind, RefEl.corners, List.mem_cons, List.not_mem_nil, or_false] at hx
      rcases hx with rfl | rfl
      · exact key hG0 (by simp [global, inUnit, segCoef, h2] <;> (ext i; simp; ring)) (by ring) (by ring)
      · exact key hG1 (by simp [global, inUnit, segCoef, h2] <;> (ext i; simp; ring)) (by ring) (by ring)
    · simp only [kind, RefEl.sideMids, List.mem_cons, List.not_mem_nil, or_false] at hx
      rcases hx with rfl
      · exact key hM0 (by simp [global, inUnit, segCoef, h2] <;> (ext i; simp; ring)) (by ring) (by ring)

/-- The points through which the geometry of a child is laid are points of the parent, also for quadrilaterals
which are not parallelograms: triangles. -/
theorem quad_samples_tria (g : Geo K w) (hk : g.kind = .quad) (hn : ¬ g.Stable) {poly : List (List ℤ)}
    (hlen : poly.length = 3) (hlat : ∀ col ∈ poly, InLattice .quad col) {h : Geo K w}
    (hb : buildChild g 0 poly = some h) {r : Geo K 2} (hr : relative 2 poly = some r) :
    h.quadratic = g.quadratic ∧ ∀ x ∈ h.nodes, ∃ y v, r.global x = some y ∧ g.global (List.ofFn y) = some v ∧
      h.global x = some v := by
  have hd : g.kind.dimension = 2 := by rw [hk]; rfl
  have hcol : ∀ col ∈ poly, ∃ x y : ℤ, col = [x, y] ∧ (0 ≤ (1 / 6 : K) * (x : K) ∧ (1 / 6 : K) * (x : K) ≤ 1) ∧
      (0 ≤ (1 / 6 : K) * (y : K) ∧ (1 / 6 : K) * (y : K) ≤ 1) := by
    intro col hcol
    obtain ⟨x, y, e, a, b, _⟩ := lattice_cell (K := K) (r := .quad) rfl (hlat col hcol)
    exact ⟨x, y, e, a, b⟩
  obtain ⟨q, hq, -, -, -⟩ := global_poly g hd
  have ev : ∀ X Y : K, inUnit [X, Y] → ∃ v, g.global [X, Y] = some v := fun X Y h => ⟨_, hq X Y h⟩
  have h2 : (2 : K)⁻¹ ≤ 1 := by norm_num
  rcases poly with _ | ⟨a, _ | ⟨b, _ | ⟨c, _ | ⟨z, t⟩⟩⟩⟩ <;> simp at hlen
  obtain ⟨x0, y0, rfl, hx0, hy0⟩ := hcol a (by simp)
  obtain ⟨x1, y1, rfl, hx1, hy1⟩ := hcol b (by simp)
  obtain ⟨x2, y2, rfl, hx2, hy2⟩ := hcol c (by simp)
  obtain ⟨r', e1, e2, e3⟩ := rel_tria (K := K) x0 y0 x1 y1 x2 y2
  rw [hr] at e1
  cases e1
  obtain ⟨P0, hG0⟩ := ev _ _ (lat_mem_unit hx0 hy0)
  obtain ⟨P1, hG1⟩ := ev _ _ (lat_mem_unit hx1 hy1)
  obtain ⟨P2, hG2⟩ := ev _ _ (lat_mem_unit hx2 hy2)
  obtain ⟨M0, hM0⟩ := ev _ _ (lat_mem_unit (mid_unit hx0 hx1) (mid_unit hy0 hy1))
  obtain ⟨M1, hM1⟩ := ev _ _ (lat_mem_unit (mid_unit hx1 hx2) (mid_unit hy1 hy2))
  obtain ⟨M2, hM2⟩ := ev _ _ (lat_mem_unit (mid_unit hx2 hx0) (mid_unit hy2 hy0))
  have key : ∀ {x y : K} {v : Vec K w} {X Y : K}, g.global [X, Y] = some v → h.global [x, y] = some v →
      (1 - x - y) * (1 / 6 * (x0 : K)) + x * (1 / 6 * (x1 : K)) + y * (1 / 6 * (x2 : K)) = X →
      (1 - x - y) * (1 / 6 * (y0 : K)) + x * (1 / 6 * (y1 : K)) + y * (1 / 6 * (y2 : K)) = Y →
      ∃ z v, r.global [x, y] = some z ∧ g.global (List.ofFn z) = some v ∧ h.global [x, y] = some v := by
    intro x y v X Y a2 a1 a3 a4
    obtain ⟨z, b1, b2⟩ := e3 x y
    exact ⟨z, v, b1, by rw [b2, a3, a4]; exact a2, a1⟩
  cases g <;> simp only [kind, Stable, not_true_eq_false, not_false_eq_true, reduceCtorEq] at hk hn
  · simp only [buildChild, List.map, latRef, List.mapM_cons, List.mapM_nil, hG0, hG1, hG2] at hb
    obtain rfl := Option.some.inj hb
    refine ⟨rfl, fun x hx => ?_⟩
    rcases node_in hx with hx | ⟨hx, -⟩
    · simp only [kind, RefEl.corners, List.mem_cons, List.not_mem_nil, or_false] at hx
      rcases hx with rfl | rfl | rfl
      · exact key hG0 (by simp [global]) (by ring) (by ring)
      · exact key hG1 (by simp [global]) (by ring) (by ring)
      · exact key hG2 (by simp [global]) (by ring) (by ring)
    · simp [quadratic] at hx
  · simp only [buildChild, withMids, midRef, List.zipWith, List.map, latRef, List.mapM_cons, List.mapM_nil, hG0, hG1, hG2,
      hM0, hM1, hM2] at hb
    obtain rfl := Option.some.inj hb
    refine ⟨rfl, fun x hx => ?_⟩
    rcases node_in hx with hx | ⟨-, hx⟩
    · simp only [kind, RefEl.corners, List.mem_cons, List.not_mem_nil, or_false] at hx
      rcases hx with rfl | rfl | rfl
      · exact key hG0 (by simp [global, inUnit, triaCoef, h2] <;> (ext i; simp; ring)) (by ring) (by ring)
      · exact key hG1 (by simp [global, inUnit, triaCoef, h2] <;> (ext i; simp; ring)) (by ring) (by ring)
      · exact key hG2 (by simp [global, inUnit, triaCoef, h2] <;> (ext i; simp; ring)) (by ring) (by ring)
    · simp only [kind, RefEl.sideMids, List.mem_cons, List.not_mem_nil, or_false] at hx
      rcases hx with rfl | rfl | rfl
      · exact key hM0 (by simp [global, inUnit, triaCoef, h2] <;> (ext i; simp; ring)) (by ring) (by ring)
      · exact key hM1 (by simp [global, inUnit, triaCoef, h2] <;> (ext i; simp; ring)) (by ring) (by ring)
      · exact key hM2 (by simp [global, inUnit, triaCoef, h2] <;> (ext i; simp; ring)) (by ring) (by ring)

/-- The points through which the geometry of a child is laid are points of the parent, also for quadrilaterals
which are not parallelograms: quadrilaterals. -/
theorem quad_samples_quad (g : Geo K w) (hk : g.kind = .quad) (hn : ¬ g.Stable) {poly : List (List ℤ)}
    (hlen : poly.length = 4) (hlat : ∀ col ∈ poly, InLattice .quad col) {h : Geo K w}
    (hb : buildChild g 0 poly = some h) {r : Geo K 2} (hr : relative 2 poly = some r) :
    h.quadratic = g.quadratic ∧ ∀ x ∈ h.nodes, ∃ y v, r.global x = some y ∧ g.global (List.ofFn y) = some v ∧
      h.global x = some v := by
  have hd : g.kind.dimension = 2 := by rw [hk]; rfl
  have hcol : ∀ col ∈ poly, ∃ x y : ℤ, col = [x, y] ∧ (0 ≤ (1 / 6 : K) * (x : K) ∧ (1 / 6 : K) * (x : K) ≤ 1) ∧
      (0 ≤ (1 / 6 : K) * (y : K) ∧ (1 / 6 : K) * (y : K) ≤ 1) := by
    intro col hcol
    obtain ⟨x, y, e, a, b, _⟩ := lattice_cell (K := K) (r := .quad) rfl (hlat col hcol)
    exact ⟨x, y, e, a, b⟩
  obtain ⟨q, hq, -, -, -⟩ := global_poly g hd
  have ev : ∀ X Y : K, inUnit [X, Y] → ∃ v, g.global [X, Y] = some v := fun X Y h => ⟨_, hq X Y h⟩
  have h2 : (2 : K)⁻¹ ≤ 1 := by norm_num
  rcases poly with _ | ⟨a, _ | ⟨b, _ | ⟨c, _ | ⟨d, _ | ⟨z, t⟩⟩⟩⟩⟩ <;> simp at hlen
  obtain ⟨x0, y0, rfl, hx0, hy0⟩ := hcol a (by simp)
  obtain ⟨x1, y1, rfl, hx1, hy1⟩ := hcol b (by simp)
  obtain ⟨x2, y2, rfl, hx2, hy2⟩ := hcol c (by simp)
  obtain ⟨x3, y3, rfl, hx3, hy3⟩ := hcol d (by simp)
  obtain ⟨r', e1, e2, e3⟩ := rel_quad (K := K) x0 y0 x1 y1 x2 y2 x3 y3
  rw [hr] at e1
  cases e1
  obtain ⟨P0, hG0⟩ := ev _ _ (lat_mem_unit hx0 hy0)
  obtain ⟨P1, hG1⟩ := ev _ _ (lat_mem_unit hx1 hy1)
  obtain ⟨P2, hG2⟩ := ev _ _ (lat_mem_unit hx2 hy2)
  obtain ⟨P3, hG3⟩ := ev _ _ (lat_mem_unit hx3 hy3)
  obtain ⟨M0, hM0⟩ := ev _ _ (lat_mem_unit (mid_unit hx0 hx1) (mid_unit hy0 hy1))
  obtain ⟨M1, hM1⟩ := ev _ _ (lat_mem_unit (mid_unit hx1 hx2) (mid_unit hy1 hy2))
  obtain ⟨M2, hM2⟩ := ev _ _ (lat_mem_unit (mid_unit hx2 hx3) (mid_unit hy2 hy3))
  obtain ⟨M3, hM3⟩ := ev _ _ (lat_mem_unit (mid_unit hx3 hx0) (mid_unit hy3 hy0))
  have key : ∀ {x y : K} {v : Vec K w} {X Y : K}, g.global [X, Y] = some v → h.global [x, y] = some v →
      (1 - x) * (1 - y) * (1 / 6 * (x0 : K)) + x * (1 - y) * (1 / 6 * (x1 : K)) + x * y * (1 / 6 * (x2 : K)) + (1 - x) * y * (1 / 6 * (x3 : K)) = X →
      (1 - x) * (1 - y) * (1 / 6 * (y0 : K)) + x * (1 - y) * (1 / 6 * (y1 : K)) + x * y * (1 / 6 * (y2 : K)) + (1 - x) * y * (1 / 6 * (y3 : K)) = Y →
      ∃ z v, r.global [x, y] = some z ∧ g.global (List.ofFn z) = some v ∧ h.global [x, y] = some v := by
    intro x y v X Y a2 a1 a3 a4
    obtain ⟨z, b1, b2⟩ := e3 x y
    exact ⟨z, v, b1, by rw [b2, a3, a4]; exact a2, a1⟩
  cases g <;> simp only [kind, Stable, not_true_eq_false, not_false_eq_true, reduceCtorEq] at hk hn
  · simp only [buildChild, List.map, latRef, List.mapM_cons, List.mapM_nil, hG0, hG1, hG2, hG3] at hb
    obtain rfl := Option.some.inj hb
    refine ⟨rfl, fun x hx => ?_⟩
    rcases node_in hx with hx | ⟨hx, -⟩
    · simp only [kind, RefEl.corners, List.mem_cons, List.not_mem_nil, or_false] at hx
      rcases hx with rfl | rfl | rfl | rfl
      · exact key hG0 (by simp [global]) (by ring) (by ring)
      · exact key hG1 (by simp [global]) (by ring) (by ring)
      · exact key hG2 (by simp [global]) (by ring) (by ring)
      · exact key hG3 (by simp [global]) (by ring) (by ring)
    · simp [quadratic] at hx
  · simp only [buildChild, withMids, midRef, List.zipWith, List.map, latRef, List.mapM_cons, List.mapM_nil, hG0, hG1, hG2, hG3,
      hM0, hM1, hM2, hM3] at hb
    obtain rfl := Option.some.inj hb
    refine ⟨rfl, fun x hx => ?_⟩
    rcases node_in hx with hx | ⟨-, hx⟩
    · simp only [kind, RefEl.corners, List.mem_cons, List.not_mem_nil, or_false] at hx
      rcases hx with rfl | rfl | rfl | rfl
      · exact key hG0 (by simp [global, inUnit, quadCoef, h2] <;> (ext i; simp; ring)) (by ring) (by ring)
      · exact key hG1 (by simp [global, inUnit, quadCoef, h2] <;> (ext i; simp; ring)) (by ring) (by ring)
      · exact key hG2 (by simp [global, inUnit, quadCoef, h2] <;> (ext i; simp; ring)) (by ring) (by ring)
      · exact key hG3 (by simp [global, inUnit, quadCoef, h2] <;> (ext i; simp; ring)) (by ring) (by ring)
    · simp only [kind, RefEl.sideMids, List.mem_cons, List.not_mem_nil, or_false] at hx
      rcases hx with rfl | rfl | rfl | rfl
      · exact key hM0 (by simp [global, inUnit, quadCoef, h2] <;> (ext i; simp; ring)) (by ring) (by ring)
      · exact key hM1 (by simp [global, inUnit, quadCoef, h2] <;> (ext i; simp; ring)) (by ring) (by ring)
      · exact key hM2 (by simp [global, inUnit, quadCoef, h2] <;> (ext i; simp; ring)) (by ring) (by ring)
      · exact key hM3 (by simp [global, inUnit, quadCoef, h2] <;> (ext i; simp; ring)) (by ring) (by ring)

/-- All children of positive dimension. -/
theorem quad_samples (g : Geo K w) (hk : g.kind = .quad) (hn : ¬ g.Stable) {codim : ℕ} (hc : codim ≤ 1) {poly : List (List ℤ)}
    (hlen : poly.length ∈ vertexCounts (2 - codim)) (hlat : ∀ col ∈ poly, InLattice .quad col) {h : Geo K w}
    (hb : buildChild g codim poly = some h) {r : Geo K 2} (hr : relative 2 poly = some r) :
    h.quadratic = g.quadratic ∧ ∀ x ∈ h.nodes, ∃ y v, r.global x = some y ∧ g.global (List.ofFn y) = some v ∧
      h.global x = some v := by
  interval_cases codim
  · simp [vertexCounts] at hlen
    rcases hlen with hlen | hlen
    · exact quad_samples_tria g hk hn hlen hlat hb hr
    · exact quad_samples_quad g hk hn hlen hlat hb hr
  · simp [vertexCounts] at hlen
    exact quad_samples_seg g hk hn hlen hlat hb hr

end Verif
