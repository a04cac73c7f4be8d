import Verif.Props.Geometry
import Verif.Props.RefPattern
import Verif.Spec.Transfer
import Verif.Model.Transfer
import Verif.Props.RefPattern
import Verif.Spec.Refinement
import Mathlib.Tactic.Linarith
import Mathlib.Tactic.FieldSimp

/-!
# Lemmas on child geometries and relative geometries
-/

namespace Verif
open Geo
variable {K : Type} [Field K] [LinearOrder K] [IsStrictOrderedRing K] {w : ℕ}

/-- Value of the polynomial with the given coefficients. -/
def Geo.Coef.eval (q : Coef K w) (x y : K) : Vec K w :=
  (x • q.beta0 + y • q.beta1) + ((x * x) • q.gamma0 + (y * y) • q.gamma1) + (x * y) • q.delta +
    ((x * x * y) • q.eps0 + (y * y * x) • q.eps1) + q.alpha

/-- Every two-dimensional geometry is given by a polynomial. -/
theorem global_poly (g : Geo K w) (hd : g.kind.dimension = 2) :
    ∃ q : Coef K w, (∀ x y, inUnit [x, y] → g.global [x, y] = some (q.eval x y)) ∧
      (g.kind = .tria → q.eps0 = 0 ∧ q.eps1 = 0) ∧
      (g.quadratic = false → q.eps0 = 0 ∧ q.eps1 = 0 ∧ q.gamma0 = 0 ∧ q.gamma1 = 0) ∧
      (g.quadratic = false → g.isAffine = true → q.delta = 0) := by
  cases g with
  | point a => simp [kind, RefEl.dimension] at hd
  | segO1 a b => simp [kind, RefEl.dimension] at hd
  | segO2 a b m => simp [kind, RefEl.dimension] at hd
  | triaO1 a b c =>
    refine ⟨⟨a, b - a, c - a, 0, 0, 0, 0, 0⟩, ?_, by simp, by simp, by simp⟩
    intro x y _; simp only [global, Coef.eval]; congr 1; ext i; simp; ring
  | triaO2 a b c d e f =>
    refine ⟨triaCoef a b c d e f, ?_, by simp [triaCoef], by simp [quadratic], by simp [quadratic]⟩
    intro x y hx; simp only [global, if_pos hx, Coef.eval]; simp [triaCoef]
  | quadO1 a b c d =>
    refine ⟨⟨a, b - a, d - a, 0, 0, a - b + c - d, 0, 0⟩, ?_, by simp, by simp, by simp [isAffine]⟩
    intro x y _; simp only [global, Coef.eval]; congr 1; ext i; simp; ring
  | parallelogram a b c d =>
    refine ⟨⟨a, b - a, d - a, 0, 0, 0, 0, 0⟩, ?_, by simp, by simp, by simp⟩
    intro x y _; simp only [global, Coef.eval]; congr 1; ext i; simp; ring
  | quadO2 a b c d e f g h =>
    refine ⟨quadCoef a b c d e f g h, ?_, by simp [kind], by simp [quadratic], by simp [quadratic]⟩
    intro x y hx; simp only [global, if_pos hx, Coef.eval]

/-! ### Polynomials on subcells -/

theorem tria1_eval (q : Coef K w) (h1 : q.eps0 = 0) (h2 : q.eps1 = 0) (h3 : q.gamma0 = 0) (h4 : q.gamma1 = 0)
    (h5 : q.delta = 0) (x0 y0 x1 y1 x2 y2 x y : K) :
    (1 - x - y) • q.eval x0 y0 + x • q.eval x1 y1 + y • q.eval x2 y2 =
      q.eval ((1 - x - y) * x0 + x * x1 + y * x2) ((1 - x - y) * y0 + x * y1 + y * y2) := by
  ext i
  simp only [Coef.eval, h1, h2, h3, h4, h5, Pi.add_apply, Pi.smul_apply, smul_eq_mul, Pi.zero_apply]
  ring

theorem tria2_eval (q : Coef K w) (h1 : q.eps0 = 0) (h2 : q.eps1 = 0) (x0 y0 x1 y1 x2 y2 x y : K) :
    (triaCoef (q.eval x0 y0) (q.eval x1 y1) (q.eval x2 y2) (q.eval ((x0 + x1) / 2) ((y0 + y1) / 2))
      (q.eval ((x1 + x2) / 2) ((y1 + y2) / 2)) (q.eval ((x2 + x0) / 2) ((y2 + y0) / 2))).eval x y =
      q.eval ((1 - x - y) * x0 + x * x1 + y * x2) ((1 - x - y) * y0 + x * y1 + y * y2) := by
  ext i
  simp only [Coef.eval, triaCoef, h1, h2, Pi.add_apply, Pi.sub_apply, Pi.smul_apply, smul_eq_mul, Pi.zero_apply]
  ring

theorem seg1_eval (q : Coef K w) (h1 : q.eps0 = 0) (h2 : q.eps1 = 0) (h3 : q.gamma0 = 0) (h4 : q.gamma1 = 0)
    (x0 y0 x1 y1 x : K) (h5 : q.delta = 0 ∨ x0 = x1 ∨ y0 = y1) :
    x • q.eval x1 y1 + (1 - x) • q.eval x0 y0 = q.eval (x * x1 + (1 - x) * x0) (x * y1 + (1 - x) * y0) := by
  ext i
  simp only [Coef.eval, h1, h2, h3, h4, Pi.add_apply, Pi.smul_apply, smul_eq_mul, Pi.zero_apply]
  rcases h5 with h5 | rfl | rfl
  · simp only [h5, Pi.zero_apply]; ring
  · ring
  · ring

theorem seg2_eval (q : Coef K w) (x0 y0 x1 y1 x : K) (h5 : (q.eps0 = 0 ∧ q.eps1 = 0) ∨ x0 = x1 ∨ y0 = y1) :
    x • (x • (segCoef (q.eval x0 y0) (q.eval x1 y1) (q.eval ((x0 + x1) / 2) ((y0 + y1) / 2))).1 +
      (segCoef (q.eval x0 y0) (q.eval x1 y1) (q.eval ((x0 + x1) / 2) ((y0 + y1) / 2))).2.1) +
      (segCoef (q.eval x0 y0) (q.eval x1 y1) (q.eval ((x0 + x1) / 2) ((y0 + y1) / 2))).2.2 =
      q.eval (x * x1 + (1 - x) * x0) (x * y1 + (1 - x) * y0) := by
  ext i
  simp only [Coef.eval, segCoef, Pi.add_apply, Pi.sub_apply, Pi.smul_apply, smul_eq_mul]
  rcases h5 with ⟨h5, h6⟩ | rfl | rfl
  · simp only [h5, h6, Pi.zero_apply]; ring
  · ring
  · ring

theorem quad1_eval (q : Coef K w) (h1 : q.eps0 = 0) (h2 : q.eps1 = 0) (h3 : q.gamma0 = 0) (h4 : q.gamma1 = 0)
    (x0 y0 x1 y1 x2 y2 x3 y3 x y : K) (h5 : q.delta = 0 ∨ AxisQuad x0 y0 x1 y1 x2 y2 x3 y3) :
    ((1 - x) * (1 - y)) • q.eval x0 y0 + (x * (1 - y)) • q.eval x1 y1 + (x * y) • q.eval x2 y2 +
        ((1 - x) * y) • q.eval x3 y3 =
      q.eval ((1 - x) * (1 - y) * x0 + x * (1 - y) * x1 + x * y * x2 + (1 - x) * y * x3)
        ((1 - x) * (1 - y) * y0 + x * (1 - y) * y1 + x * y * y2 + (1 - x) * y * y3) := by
  ext i
  simp only [Coef.eval, h1, h2, h3, h4, Pi.add_apply, Pi.smul_apply, smul_eq_mul, Pi.zero_apply]
  rcases h5 with h5 | ⟨rfl, rfl, rfl, rfl⟩ | ⟨rfl, rfl, rfl, rfl⟩
  · simp only [h5, Pi.zero_apply]; ring
  · ring
  · ring

theorem par_eval (q : Coef K w) (h1 : q.eps0 = 0) (h2 : q.eps1 = 0) (h3 : q.gamma0 = 0) (h4 : q.gamma1 = 0)
    (h5 : q.delta = 0) (x0 y0 x1 y1 x2 y2 x3 y3 x y : K) (hx : x0 - x1 + x2 - x3 = 0) (hy : y0 - y1 + y2 - y3 = 0) :
    (1 - x - y) • q.eval x0 y0 + x • q.eval x1 y1 + y • q.eval x3 y3 =
      q.eval ((1 - x) * (1 - y) * x0 + x * (1 - y) * x1 + x * y * x2 + (1 - x) * y * x3)
        ((1 - x) * (1 - y) * y0 + x * (1 - y) * y1 + x * y * y2 + (1 - x) * y * y3) := by
  obtain rfl : x2 = x1 + x3 - x0 := by linear_combination hx
  obtain rfl : y2 = y1 + y3 - y0 := by linear_combination hy
  ext i
  simp only [Coef.eval, h1, h2, h3, h4, h5, Pi.add_apply, Pi.smul_apply, smul_eq_mul, Pi.zero_apply]
  ring

theorem quad2_eval (q : Coef K w) (x0 y0 x1 y1 x2 y2 x3 y3 x y : K) (h : AxisQuad x0 y0 x1 y1 x2 y2 x3 y3) :
    (quadCoef (q.eval x0 y0) (q.eval x1 y1) (q.eval x2 y2) (q.eval x3 y3) (q.eval ((x0 + x1) / 2) ((y0 + y1) / 2))
      (q.eval ((x1 + x2) / 2) ((y1 + y2) / 2)) (q.eval ((x2 + x3) / 2) ((y2 + y3) / 2))
      (q.eval ((x3 + x0) / 2) ((y3 + y0) / 2))).eval x y =
      q.eval ((1 - x) * (1 - y) * x0 + x * (1 - y) * x1 + x * y * x2 + (1 - x) * y * x3)
        ((1 - x) * (1 - y) * y0 + x * (1 - y) * y1 + x * y * y2 + (1 - x) * y * y3) := by
  ext i
  simp only [Coef.eval, quadCoef, Pi.add_apply, Pi.sub_apply, Pi.neg_apply, Pi.smul_apply, smul_eq_mul]
  rcases h with ⟨rfl, rfl, rfl, rfl⟩ | ⟨rfl, rfl, rfl, rfl⟩
  · ring
  · ring

/-! ### Points -/

theorem comb_unit {a b x : K} (ha : 0 ≤ a ∧ a ≤ 1) (hb : 0 ≤ b ∧ b ≤ 1) (hx : 0 ≤ x ∧ x ≤ 1) :
    0 ≤ x * b + (1 - x) * a ∧ x * b + (1 - x) * a ≤ 1 := by
  have h1 := mul_nonneg hx.1 hb.1
  have h2 := mul_nonneg (sub_nonneg.2 hx.2) ha.1
  have h3 := mul_nonneg hx.1 (sub_nonneg.2 hb.2)
  have h4 := mul_nonneg (sub_nonneg.2 hx.2) (sub_nonneg.2 ha.2)
  constructor <;> linarith

theorem comb_tria {a b c x y : K} (hx : 0 ≤ x) (hy : 0 ≤ y) (hxy : x + y ≤ 1) (l : K)
    (ha : a ≤ l) (hb : b ≤ l) (hc : c ≤ l) : (1 - x - y) * a + x * b + y * c ≤ l := by
  have h1 := mul_nonneg hx (sub_nonneg.2 hb)
  have h2 := mul_nonneg hy (sub_nonneg.2 hc)
  have h3 := mul_nonneg (by linarith : 0 ≤ 1 - x - y) (sub_nonneg.2 ha)
  linarith

theorem comb_tria' {a b c x y : K} (hx : 0 ≤ x) (hy : 0 ≤ y) (hxy : x + y ≤ 1)
    (ha : 0 ≤ a) (hb : 0 ≤ b) (hc : 0 ≤ c) : 0 ≤ (1 - x - y) * a + x * b + y * c := by
  have h1 := mul_nonneg hx hb
  have h2 := mul_nonneg hy hc
  have h3 := mul_nonneg (by linarith : 0 ≤ 1 - x - y) ha
  linarith

theorem comb_quad {a b c d x y : K} (ha : 0 ≤ a ∧ a ≤ 1) (hb : 0 ≤ b ∧ b ≤ 1) (hc : 0 ≤ c ∧ c ≤ 1)
    (hd : 0 ≤ d ∧ d ≤ 1) (hx : 0 ≤ x ∧ x ≤ 1) (hy : 0 ≤ y ∧ y ≤ 1) :
    0 ≤ (1 - x) * (1 - y) * a + x * (1 - y) * b + x * y * c + (1 - x) * y * d ∧
      (1 - x) * (1 - y) * a + x * (1 - y) * b + x * y * c + (1 - x) * y * d ≤ 1 := by
  have h := comb_unit (comb_unit ha hb hx) (comb_unit hd hc hx) hy
  have e : (1 - x) * (1 - y) * a + x * (1 - y) * b + x * y * c + (1 - x) * y * d =
      y * (x * c + (1 - x) * d) + (1 - y) * (x * b + (1 - x) * a) := by ring
  rw [e]
  exact h

theorem mid_unit {a b : K} (ha : 0 ≤ a ∧ a ≤ 1) (hb : 0 ≤ b ∧ b ≤ 1) : 0 ≤ (a + b) / 2 ∧ (a + b) / 2 ≤ 1 := by
  constructor <;> linarith [ha.1, ha.2, hb.1, hb.2]

theorem lat_unit {z : ℤ} (h0 : 0 ≤ z) (h6 : z ≤ 6) : 0 ≤ (1 / 6 : K) * (z : K) ∧ (1 / 6 : K) * (z : K) ≤ 1 := by
  have h1 : (0 : K) ≤ (z : K) := by exact_mod_cast h0
  have h2 : (z : K) ≤ 6 := by exact_mod_cast h6
  constructor <;> linarith

/-- A lattice point of a two-dimensional reference element. -/
theorem lattice_cell {r : RefEl} (hd : r.dimension = 2) {col : List ℤ} (h : InLattice r col) :
    ∃ x y : ℤ, col = [x, y] ∧ (0 ≤ (1 / 6 : K) * (x : K) ∧ (1 / 6 : K) * (x : K) ≤ 1) ∧
      (0 ≤ (1 / 6 : K) * (y : K) ∧ (1 / 6 : K) * (y : K) ≤ 1) ∧
      (r = .tria → (1 / 6 : K) * (x : K) + (1 / 6 : K) * (y : K) ≤ 1) := by
  rcases col with _ | ⟨x, _ | ⟨y, _ | ⟨z, t⟩⟩⟩ <;> cases r <;> simp [InLattice, RefEl.dimension] at h hd
  · refine ⟨x, y, rfl, lat_unit (by omega) (by omega), lat_unit (by omega) (by omega), fun _ => ?_⟩
    have : (x : K) + (y : K) ≤ 6 := by exact_mod_cast h.2.2
    linarith
  · exact ⟨x, y, rfl, lat_unit (by omega) (by omega), lat_unit (by omega) (by omega), by simp⟩

/-! ### Relative geometries -/

private theorem ofFn2 (p : Fin 2 → K) : List.ofFn p = [p 0, p 1] := by simp [List.ofFn_succ]

theorem rel_point (x0 y0 : ℤ) : ∃ r : Geo K 2, relative 2 [[x0, y0]] = some r ∧ r.kind = .point ∧
    ∃ v, r.global [] = some v ∧ List.ofFn v = [1 / 6 * (x0 : K), 1 / 6 * (y0 : K)] := by
  refine ⟨_, rfl, rfl, _, rfl, ?_⟩
  rw [ofFn2]
  simp [ofEntries, latRef]

theorem rel_seg (x0 y0 x1 y1 : ℤ) : ∃ r : Geo K 2, relative 2 [[x0, y0], [x1, y1]] = some r ∧ r.kind = .segment ∧
    ∀ x, ∃ v, r.global [x] = some v ∧ List.ofFn v =
      [x * (1 / 6 * (x1 : K)) + (1 - x) * (1 / 6 * (x0 : K)), x * (1 / 6 * (y1 : K)) + (1 - x) * (1 / 6 * (y0 : K))] := by
  refine ⟨_, rfl, rfl, fun x => ⟨_, rfl, ?_⟩⟩
  rw [ofFn2]
  simp [ofEntries, latRef]

theorem rel_tria (x0 y0 x1 y1 x2 y2 : ℤ) : ∃ r : Geo K 2, relative 2 [[x0, y0], [x1, y1], [x2, y2]] = some r ∧
    r.kind = .tria ∧ ∀ x y, ∃ v, r.global [x, y] = some v ∧ List.ofFn v =
      [(1 - x - y) * (1 / 6 * (x0 : K)) + x * (1 / 6 * (x1 : K)) + y * (1 / 6 * (x2 : K)),
        (1 - x - y) * (1 / 6 * (y0 : K)) + x * (1 / 6 * (y1 : K)) + y * (1 / 6 * (y2 : K))] := by
  refine ⟨_, rfl, rfl, fun x y => ⟨_, rfl, ?_⟩⟩
  rw [ofFn2]
  simp [ofEntries, latRef]

theorem rel_quad (x0 y0 x1 y1 x2 y2 x3 y3 : ℤ) :
    ∃ r : Geo K 2, relative 2 [[x0, y0], [x1, y1], [x2, y2], [x3, y3]] = some r ∧
    r.kind = .quad ∧ ∀ x y, ∃ v, r.global [x, y] = some v ∧ List.ofFn v =
      [(1 - x) * (1 - y) * (1 / 6 * (x0 : K)) + x * (1 - y) * (1 / 6 * (x1 : K)) + x * y * (1 / 6 * (x2 : K)) +
          (1 - x) * y * (1 / 6 * (x3 : K)),
        (1 - x) * (1 - y) * (1 / 6 * (y0 : K)) + x * (1 - y) * (1 / 6 * (y1 : K)) + x * y * (1 / 6 * (y2 : K)) +
          (1 - x) * y * (1 / 6 * (y3 : K))] := by
  refine ⟨_, rfl, rfl, fun x y => ⟨_, rfl, ?_⟩⟩
  rw [ofFn2]
  simp [ofEntries, latRef]

/-! ### Children of cells -/

/-- When the relative geometry is known to describe the child. -/
def PlacesCond (g : Geo K w) (poly : List (List ℤ)) : Prop := g.Stable ∨ AxisParallel poly

theorem lat_mem_unit {X Y : K} (hx : 0 ≤ X ∧ X ≤ 1) (hy : 0 ≤ Y ∧ Y ≤ 1) : inUnit [X, Y] :=
  (inUnit_two _ _).2 ⟨hx, hy⟩

private theorem contains_of {r : RefEl} (hd : r.dimension = 2) {X Y : K} (hx : 0 ≤ X ∧ X ≤ 1) (hy : 0 ≤ Y ∧ Y ≤ 1)
    (ht : r = .tria → X + Y ≤ 1) : r.Contains [X, Y] := by
  cases r <;> simp [RefEl.dimension] at hd
  · exact ⟨hx.1, hy.1, ht rfl⟩
  · exact ⟨hx.1, hx.2, hy.1, hy.2⟩

omit [IsStrictOrderedRing K] in
theorem stable_affine {g : Geo K w} (h : g.Stable) (hq : g.quadratic = false) : g.isAffine = true := by
  cases g <;> simp [Stable, isAffine, quadratic] at h hq ⊢

omit [IsStrictOrderedRing K] in
theorem stable_tria {g : Geo K w} (h : g.Stable) (hq : g.quadratic = true) (hd : g.kind.dimension = 2) : g.kind = .tria := by
  cases g <;> simp [Stable, kind, RefEl.dimension, quadratic] at h hq hd ⊢

theorem child_point (g : Geo K w) (hd : g.kind.dimension = 2) (x0 y0 : ℤ) (hl : InLattice g.kind [x0, y0]) :
    ∃ r h, relative 2 [[x0, y0]] = some r ∧ buildChild g 2 [[x0, y0]] = some h ∧ h.kind = .point ∧
      r.Places g h := by
  obtain ⟨q, hq, -, -, -⟩ := global_poly g hd
  obtain ⟨x, y, e, hx, hy, ht⟩ := lattice_cell (K := K) hd hl
  cases e
  obtain ⟨r, h1, h2, v, h3, h4⟩ := rel_point (K := K) x0 y0
  have hG := hq _ _ (lat_mem_unit hx hy)
  refine ⟨r, .point (q.eval (1 / 6 * (x0 : K)) (1 / 6 * (y0 : K))), h1, ?_, rfl, h2, ?_⟩
  · cases g <;> simp [kind, RefEl.dimension] at hd <;>
      simp only [buildChild, List.map, latRef, List.mapM_cons, List.mapM_nil, hG] <;> rfl
  · intro x hx'
    rcases x with _ | ⟨x, t⟩ <;> simp [kind, RefEl.Contains] at hx'
    refine ⟨v, _, h3, ?_, ?_, rfl⟩
    · rw [h4]; exact contains_of hd hx hy ht
    · rw [h4]; exact hG

theorem child_seg (g : Geo K w) (hd : g.kind.dimension = 2) (x0 y0 x1 y1 : ℤ) (hl0 : InLattice g.kind [x0, y0])
    (hl1 : InLattice g.kind [x1, y1]) :
    ∃ r h, relative 2 [[x0, y0], [x1, y1]] = some r ∧ buildChild g 1 [[x0, y0], [x1, y1]] = some h ∧
      h.kind = .segment ∧ (PlacesCond g [[x0, y0], [x1, y1]] → r.Places g h) := by
  obtain ⟨q, hq, qt, qo, qa⟩ := global_poly g hd
  obtain ⟨x, y, e, hx0, hy0, ht0⟩ := lattice_cell (K := K) hd hl0
  cases e
  obtain ⟨x, y, e, hx1, hy1, ht1⟩ := lattice_cell (K := K) hd hl1
  cases e
  obtain ⟨r, h1, h2, h3⟩ := rel_seg (K := K) x0 y0 x1 y1
  have hG0 := hq _ _ (lat_mem_unit hx0 hy0)
  have hG1 := hq _ _ (lat_mem_unit hx1 hy1)
  have hGm := hq _ _ (lat_mem_unit (mid_unit hx0 hx1) (mid_unit hy0 hy1))
  have hax : AxisParallel [[x0, y0], [x1, y1]] → (1 / 6 * (x0 : K) = 1 / 6 * (x1 : K) ∨ 1 / 6 * (y0 : K) = 1 / 6 * (y1 : K)) := by
    rintro (h | h)
    · exact Or.inl (by rw [h])
    · exact Or.inr (by rw [h])
  have inside : ∀ x : K, 0 ≤ x ∧ x ≤ 1 → g.kind.Contains
      [x * (1 / 6 * (x1 : K)) + (1 - x) * (1 / 6 * (x0 : K)), x * (1 / 6 * (y1 : K)) + (1 - x) * (1 / 6 * (y0 : K))] := by
    intro x hx
    refine contains_of hd (comb_unit hx0 hx1 hx) (comb_unit hy0 hy1 hx) ?_
    intro hk
    have h1 := mul_nonneg hx.1 (sub_nonneg.2 (ht1 hk))
    have h2 := mul_nonneg (sub_nonneg.2 hx.2) (sub_nonneg.2 (ht0 hk))
    linarith
  cases hquad : g.quadratic with
  | false =>
    obtain ⟨e0, e1, e2, e3⟩ := qo hquad
    refine ⟨r, .segO1 (q.eval (1 / 6 * (x0 : K)) (1 / 6 * (y0 : K))) (q.eval (1 / 6 * (x1 : K)) (1 / 6 * (y1 : K))), h1, ?_, rfl, ?_⟩
    · cases g <;> simp [kind, RefEl.dimension, quadratic] at hd hquad <;>
        simp only [buildChild, List.map, latRef, List.mapM_cons, List.mapM_nil, hG0, hG1] <;> rfl
    · intro hc
      have hc' : q.delta = 0 ∨ 1 / 6 * (x0 : K) = 1 / 6 * (x1 : K) ∨ 1 / 6 * (y0 : K) = 1 / 6 * (y1 : K) := by
        rcases hc with hc | hc
        · exact Or.inl (qa hquad (stable_affine hc hquad))
        · exact Or.inr (hax hc)
      refine ⟨h2, ?_⟩
      intro x hx
      rcases x with _ | ⟨x, _ | ⟨z, t⟩⟩ <;> simp [kind, RefEl.Contains] at hx
      obtain ⟨v, h4, h5⟩ := h3 x
      have hin := inside x hx
      refine ⟨v, _, h4, h5 ▸ hin, ?_, rfl⟩
      rw [h5, hq _ _ (lat_mem_unit (comb_unit hx0 hx1 hx) (comb_unit hy0 hy1 hx)), ← seg1_eval q e0 e1 e2 e3 _ _ _ _ x hc']
  | true =>
    refine ⟨r, .segO2 (q.eval (1 / 6 * (x0 : K)) (1 / 6 * (y0 : K))) (q.eval (1 / 6 * (x1 : K)) (1 / 6 * (y1 : K)))
      (q.eval ((1 / 6 * (x0 : K) + 1 / 6 * (x1 : K)) / 2) ((1 / 6 * (y0 : K) + 1 / 6 * (y1 : K)) / 2)), h1, ?_, rfl, ?_⟩
    · cases g <;> simp [kind, RefEl.dimension, quadratic] at hd hquad <;>
        simp only [buildChild, withMids, midRef, List.zipWith, List.map, latRef, List.mapM_cons, List.mapM_nil, hG0, hG1, hGm] <;> rfl
    · intro hc
      have hc' : (q.eps0 = 0 ∧ q.eps1 = 0) ∨ 1 / 6 * (x0 : K) = 1 / 6 * (x1 : K) ∨ 1 / 6 * (y0 : K) = 1 / 6 * (y1 : K) := by
        rcases hc with hc | hc
        · exact Or.inl (qt (stable_tria hc hquad hd))
        · exact Or.inr (hax hc)
      refine ⟨h2, ?_⟩
      intro x hx
      rcases x with _ | ⟨x, _ | ⟨z, t⟩⟩ <;> simp [kind, RefEl.Contains] at hx
      obtain ⟨v, h4, h5⟩ := h3 x
      have hin := inside x hx
      refine ⟨v, _, h4, h5 ▸ hin, ?_, if_pos ((inUnit_one _).2 hx)⟩
      rw [h5, hq _ _ (lat_mem_unit (comb_unit hx0 hx1 hx) (comb_unit hy0 hy1 hx)), seg2_eval q _ _ _ _ x hc']

set_option maxHeartbeats 1000000 in
theorem child_tria (g : Geo K w) (hd : g.kind.dimension = 2) (x0 y0 x1 y1 x2 y2 : ℤ) (hl0 : InLattice g.kind [x0, y0])
    (hl1 : InLattice g.kind [x1, y1]) (hl2 : InLattice g.kind [x2, y2]) :
    ∃ r h, relative 2 [[x0, y0], [x1, y1], [x2, y2]] = some r ∧ buildChild g 0 [[x0, y0], [x1, y1], [x2, y2]] = some h ∧
      h.kind = .tria ∧ (PlacesCond g [[x0, y0], [x1, y1], [x2, y2]] → r.Places g h) := by
  obtain ⟨q, hq, qt, qo, qa⟩ := global_poly g hd
  obtain ⟨x, y, e, hx0, hy0, ht0⟩ := lattice_cell (K := K) hd hl0
  cases e
  obtain ⟨x, y, e, hx1, hy1, ht1⟩ := lattice_cell (K := K) hd hl1
  cases e
  obtain ⟨x, y, e, hx2, hy2, ht2⟩ := lattice_cell (K := K) hd hl2
  cases e
  obtain ⟨r, h1, h2, h3⟩ := rel_tria (K := K) x0 y0 x1 y1 x2 y2
  have hG0 := hq _ _ (lat_mem_unit hx0 hy0)
  have hG1 := hq _ _ (lat_mem_unit hx1 hy1)
  have hG2 := hq _ _ (lat_mem_unit hx2 hy2)
  have hGa := hq _ _ (lat_mem_unit (mid_unit hx0 hx1) (mid_unit hy0 hy1))
  have hGb := hq _ _ (lat_mem_unit (mid_unit hx1 hx2) (mid_unit hy1 hy2))
  have hGc := hq _ _ (lat_mem_unit (mid_unit hx2 hx0) (mid_unit hy2 hy0))
  have box : ∀ x y : K, 0 ≤ x ∧ 0 ≤ y ∧ x + y ≤ 1 →
      (0 ≤ (1 - x - y) * (1 / 6 * (x0 : K)) + x * (1 / 6 * (x1 : K)) + y * (1 / 6 * (x2 : K)) ∧
        (1 - x - y) * (1 / 6 * (x0 : K)) + x * (1 / 6 * (x1 : K)) + y * (1 / 6 * (x2 : K)) ≤ 1) ∧
      (0 ≤ (1 - x - y) * (1 / 6 * (y0 : K)) + x * (1 / 6 * (y1 : K)) + y * (1 / 6 * (y2 : K)) ∧
        (1 - x - y) * (1 / 6 * (y0 : K)) + x * (1 / 6 * (y1 : K)) + y * (1 / 6 * (y2 : K)) ≤ 1) := by
    intro x y hx
    exact ⟨⟨comb_tria' hx.1 hx.2.1 hx.2.2 hx0.1 hx1.1 hx2.1, comb_tria hx.1 hx.2.1 hx.2.2 1 hx0.2 hx1.2 hx2.2⟩,
      comb_tria' hx.1 hx.2.1 hx.2.2 hy0.1 hy1.1 hy2.1, comb_tria hx.1 hx.2.1 hx.2.2 1 hy0.2 hy1.2 hy2.2⟩
  have inside : ∀ x y : K, 0 ≤ x ∧ 0 ≤ y ∧ x + y ≤ 1 → g.kind.Contains
      [(1 - x - y) * (1 / 6 * (x0 : K)) + x * (1 / 6 * (x1 : K)) + y * (1 / 6 * (x2 : K)),
        (1 - x - y) * (1 / 6 * (y0 : K)) + x * (1 / 6 * (y1 : K)) + y * (1 / 6 * (y2 : K))] := by
    intro x y hx
    refine contains_of hd (box x y hx).1 (box x y hx).2 ?_
    intro hk
    have := comb_tria hx.1 hx.2.1 hx.2.2 1 (ht0 hk) (ht1 hk) (ht2 hk)
    linarith
  have hst : PlacesCond g [[x0, y0], [x1, y1], [x2, y2]] → g.Stable := fun h => h.resolve_right (fun h => h)
  cases hquad : g.quadratic with
  | false =>
    obtain ⟨e0, e1, e2, e3⟩ := qo hquad
    refine ⟨r, .triaO1 (q.eval (1 / 6 * (x0 : K)) (1 / 6 * (y0 : K))) (q.eval (1 / 6 * (x1 : K)) (1 / 6 * (y1 : K)))
      (q.eval (1 / 6 * (x2 : K)) (1 / 6 * (y2 : K))), h1, ?_, rfl, ?_⟩
    · cases g <;> simp [kind, RefEl.dimension, quadratic] at hd hquad <;>
        simp only [buildChild, List.map, latRef, List.mapM_cons, List.mapM_nil, hG0, hG1, hG2] <;> rfl
    · intro hc
      have hc' : q.delta = 0 := qa hquad (stable_affine (hst hc) hquad)
      refine ⟨h2, ?_⟩
      intro x hx
      rcases x with _ | ⟨x, _ | ⟨y, _ | ⟨z, t⟩⟩⟩ <;> simp [kind, RefEl.Contains] at hx
      obtain ⟨v, h4, h5⟩ := h3 x y
      refine ⟨v, _, h4, h5 ▸ inside x y hx, ?_, rfl⟩
      rw [h5, hq _ _ (lat_mem_unit (box x y hx).1 (box x y hx).2), ← tria1_eval q e0 e1 e2 e3 hc']
  | true =>
    refine ⟨r, .triaO2 (q.eval (1 / 6 * (x0 : K)) (1 / 6 * (y0 : K))) (q.eval (1 / 6 * (x1 : K)) (1 / 6 * (y1 : K)))
      (q.eval (1 / 6 * (x2 : K)) (1 / 6 * (y2 : K)))
      (q.eval ((1 / 6 * (x0 : K) + 1 / 6 * (x1 : K)) / 2) ((1 / 6 * (y0 : K) + 1 / 6 * (y1 : K)) / 2))
      (q.eval ((1 / 6 * (x1 : K) + 1 / 6 * (x2 : K)) / 2) ((1 / 6 * (y1 : K) + 1 / 6 * (y2 : K)) / 2))
      (q.eval ((1 / 6 * (x2 : K) + 1 / 6 * (x0 : K)) / 2) ((1 / 6 * (y2 : K) + 1 / 6 * (y0 : K)) / 2)), h1, ?_, rfl, ?_⟩
    · cases g <;> simp [kind, RefEl.dimension, quadratic] at hd hquad <;>
        simp only [buildChild, withMids, midRef, List.zipWith, List.map, latRef, List.mapM_cons, List.mapM_nil, hG0, hG1,
          hG2, hGa, hGb, hGc] <;> rfl
    · intro hc
      obtain ⟨c0, c1⟩ := qt (stable_tria (hst hc) hquad hd)
      refine ⟨h2, ?_⟩
      intro x hx
      rcases x with _ | ⟨x, _ | ⟨y, _ | ⟨z, t⟩⟩⟩ <;> simp [kind, RefEl.Contains] at hx
      obtain ⟨v, h4, h5⟩ := h3 x y
      have hu : inUnit [x, y] := (inUnit_two _ _).2 ⟨⟨hx.1, by linarith [hx.2.1, hx.2.2]⟩, ⟨hx.2.1, by linarith [hx.1, hx.2.2]⟩⟩
      refine ⟨v, _, h4, h5 ▸ inside x y hx, ?_, if_pos hu⟩
      rw [h5, hq _ _ (lat_mem_unit (box x y hx).1 (box x y hx).2), ← tria2_eval q c0 c1]
      simp [Coef.eval, triaCoef]

set_option maxHeartbeats 2000000 in
theorem child_quad (g : Geo K w) (hd : g.kind = .quad) (x0 y0 x1 y1 x2 y2 x3 y3 : ℤ) (hl0 : InLattice g.kind [x0, y0])
    (hl1 : InLattice g.kind [x1, y1]) (hl2 : InLattice g.kind [x2, y2]) (hl3 : InLattice g.kind [x3, y3]) :
    ∃ r h, relative 2 [[x0, y0], [x1, y1], [x2, y2], [x3, y3]] = some r ∧
      buildChild g 0 [[x0, y0], [x1, y1], [x2, y2], [x3, y3]] = some h ∧
      h.kind = .quad ∧ (PlacesCond g [[x0, y0], [x1, y1], [x2, y2], [x3, y3]] → r.Places g h) := by
  have hd' : g.kind.dimension = 2 := by rw [hd]; rfl
  obtain ⟨q, hq, -, qo, qa⟩ := global_poly g hd'
  obtain ⟨x, y, e, hx0, hy0, -⟩ := lattice_cell (K := K) hd' hl0
  cases e
  obtain ⟨x, y, e, hx1, hy1, -⟩ := lattice_cell (K := K) hd' hl1
  cases e
  obtain ⟨x, y, e, hx2, hy2, -⟩ := lattice_cell (K := K) hd' hl2
  cases e
  obtain ⟨x, y, e, hx3, hy3, -⟩ := lattice_cell (K := K) hd' hl3
  cases e
  obtain ⟨r, h1, h2, h3⟩ := rel_quad (K := K) x0 y0 x1 y1 x2 y2 x3 y3
  have hG0 := hq _ _ (lat_mem_unit hx0 hy0)
  have hG1 := hq _ _ (lat_mem_unit hx1 hy1)
  have hG2 := hq _ _ (lat_mem_unit hx2 hy2)
  have hG3 := hq _ _ (lat_mem_unit hx3 hy3)
  have hGa := hq _ _ (lat_mem_unit (mid_unit hx0 hx1) (mid_unit hy0 hy1))
  have hGb := hq _ _ (lat_mem_unit (mid_unit hx1 hx2) (mid_unit hy1 hy2))
  have hGc := hq _ _ (lat_mem_unit (mid_unit hx2 hx3) (mid_unit hy2 hy3))
  have hGd := hq _ _ (lat_mem_unit (mid_unit hx3 hx0) (mid_unit hy3 hy0))
  have bx : ∀ x y : K, 0 ≤ x ∧ x ≤ 1 ∧ 0 ≤ y ∧ y ≤ 1 → _ := fun x y hx =>
    comb_quad hx0 hx1 hx2 hx3 (x := x) (y := y) ⟨hx.1, hx.2.1⟩ hx.2.2
  have bY : ∀ x y : K, 0 ≤ x ∧ x ≤ 1 ∧ 0 ≤ y ∧ y ≤ 1 → _ := fun x y hx =>
    comb_quad hy0 hy1 hy2 hy3 (x := x) (y := y) ⟨hx.1, hx.2.1⟩ hx.2.2
  have hax : AxisParallel [[x0, y0], [x1, y1], [x2, y2], [x3, y3]] →
      AxisQuad (1 / 6 * (x0 : K)) (1 / 6 * (y0 : K)) (1 / 6 * (x1 : K)) (1 / 6 * (y1 : K)) (1 / 6 * (x2 : K))
        (1 / 6 * (y2 : K)) (1 / 6 * (x3 : K)) (1 / 6 * (y3 : K)) := by
    rintro (⟨rfl, rfl, rfl, rfl⟩ | ⟨rfl, rfl, rfl, rfl⟩)
    · exact Or.inl ⟨rfl, rfl, rfl, rfl⟩
    · exact Or.inr ⟨rfl, rfl, rfl, rfl⟩
  cases hquad : g.quadratic with
  | false =>
    obtain ⟨e0, e1, e2, e3⟩ := qo hquad
    have bil : (buildChild g 0 [[x0, y0], [x1, y1], [x2, y2], [x3, y3]] = some
        (.quadO1 (q.eval (1 / 6 * (x0 : K)) (1 / 6 * (y0 : K))) (q.eval (1 / 6 * (x1 : K)) (1 / 6 * (y1 : K)))
          (q.eval (1 / 6 * (x2 : K)) (1 / 6 * (y2 : K))) (q.eval (1 / 6 * (x3 : K)) (1 / 6 * (y3 : K))))) →
        ∃ r h, relative 2 [[x0, y0], [x1, y1], [x2, y2], [x3, y3]] = some r ∧
          buildChild g 0 [[x0, y0], [x1, y1], [x2, y2], [x3, y3]] = some h ∧
          h.kind = .quad ∧ (PlacesCond g [[x0, y0], [x1, y1], [x2, y2], [x3, y3]] → r.Places g h) := by
      intro hb
      refine ⟨r, _, h1, hb, rfl, ?_⟩
      intro hc
      have hc' : q.delta = 0 ∨ AxisQuad (1 / 6 * (x0 : K)) (1 / 6 * (y0 : K)) (1 / 6 * (x1 : K)) (1 / 6 * (y1 : K))
          (1 / 6 * (x2 : K)) (1 / 6 * (y2 : K)) (1 / 6 * (x3 : K)) (1 / 6 * (y3 : K)) := by
        rcases hc with hc | hc
        · exact Or.inl (qa hquad (stable_affine hc hquad))
        · exact Or.inr (hax hc)
      refine ⟨h2, ?_⟩
      intro x hx
      rcases x with _ | ⟨x, _ | ⟨y, _ | ⟨z, t⟩⟩⟩ <;> simp [kind, RefEl.Contains] at hx
      obtain ⟨v, h4, h5⟩ := h3 x y
      refine ⟨v, _, h4, ?_, ?_, rfl⟩
      · rw [h5]; exact contains_of hd' (bx x y hx) (bY x y hx) (by rw [hd]; simp)
      · rw [h5, hq _ _ (lat_mem_unit (bx x y hx) (bY x y hx)), ← quad1_eval q e0 e1 e2 e3 _ _ _ _ _ _ _ _ x y hc']
    cases g with
    | point a => simp [kind] at hd
    | segO1 a b => simp [kind] at hd
    | segO2 a b m => simp [kind] at hd
    | triaO1 a b c => simp [kind] at hd
    | triaO2 a b c d e f => simp [kind] at hd
    | quadO2 a b c d e f g h => simp [quadratic] at hquad
    | quadO1 a b c d =>
      refine bil ?_
      simp only [buildChild, List.map, latRef, List.mapM_cons, List.mapM_nil, hG0, hG1, hG2, hG3]
      rfl
    | parallelogram a b c d =>
      by_cases hp : latParallelogram [[x0, y0], [x1, y1], [x2, y2], [x3, y3]] = true
      · have hp' := hp
        simp [latParallelogram] at hp'
        have px : 1 / 6 * (x0 : K) - 1 / 6 * (x1 : K) + 1 / 6 * (x2 : K) - 1 / 6 * (x3 : K) = 0 := by
          have : ((x0 - x1 + x2 - x3 : ℤ) : K) = 0 := by rw [hp'.1]; simp
          push_cast at this
          linear_combination 1 / 6 * this
        have py : 1 / 6 * (y0 : K) - 1 / 6 * (y1 : K) + 1 / 6 * (y2 : K) - 1 / 6 * (y3 : K) = 0 := by
          have : ((y0 - y1 + y2 - y3 : ℤ) : K) = 0 := by rw [hp'.2]; simp
          push_cast at this
          linear_combination 1 / 6 * this
        refine ⟨r, .parallelogram (q.eval (1 / 6 * (x0 : K)) (1 / 6 * (y0 : K))) (q.eval (1 / 6 * (x1 : K)) (1 / 6 * (y1 : K)))
          (q.eval (1 / 6 * (x2 : K)) (1 / 6 * (y2 : K))) (q.eval (1 / 6 * (x3 : K)) (1 / 6 * (y3 : K))), h1, ?_, rfl, ?_⟩
        · simp only [buildChild, List.map, latRef, List.mapM_cons, List.mapM_nil, hG0, hG1, hG2, hG3, hp]
          rfl
        · intro _
          refine ⟨h2, ?_⟩
          intro x hx
          rcases x with _ | ⟨x, _ | ⟨y, _ | ⟨z, t⟩⟩⟩ <;> simp [kind, RefEl.Contains] at hx
          obtain ⟨v, h4, h5⟩ := h3 x y
          refine ⟨v, _, h4, ?_, ?_, rfl⟩
          · rw [h5]; exact contains_of hd' (bx x y hx) (bY x y hx) (by rw [hd]; simp)
          · rw [h5, hq _ _ (lat_mem_unit (bx x y hx) (bY x y hx)),
              ← par_eval q e0 e1 e2 e3 (qa rfl rfl) _ _ _ _ _ _ _ _ x y px py]
      · refine bil ?_
        simp only [buildChild, List.map, latRef, List.mapM_cons, List.mapM_nil, hG0, hG1, hG2, hG3, hp]
        rfl
  | true =>
    refine ⟨r, .quadO2 (q.eval (1 / 6 * (x0 : K)) (1 / 6 * (y0 : K))) (q.eval (1 / 6 * (x1 : K)) (1 / 6 * (y1 : K)))
      (q.eval (1 / 6 * (x2 : K)) (1 / 6 * (y2 : K))) (q.eval (1 / 6 * (x3 : K)) (1 / 6 * (y3 : K)))
      (q.eval ((1 / 6 * (x0 : K) + 1 / 6 * (x1 : K)) / 2) ((1 / 6 * (y0 : K) + 1 / 6 * (y1 : K)) / 2))
      (q.eval ((1 / 6 * (x1 : K) + 1 / 6 * (x2 : K)) / 2) ((1 / 6 * (y1 : K) + 1 / 6 * (y2 : K)) / 2))
      (q.eval ((1 / 6 * (x2 : K) + 1 / 6 * (x3 : K)) / 2) ((1 / 6 * (y2 : K) + 1 / 6 * (y3 : K)) / 2))
      (q.eval ((1 / 6 * (x3 : K) + 1 / 6 * (x0 : K)) / 2) ((1 / 6 * (y3 : K) + 1 / 6 * (y0 : K)) / 2)), h1, ?_, rfl, ?_⟩
    · cases g <;> simp [kind, quadratic] at hd hquad
      simp only [buildChild, withMids, midRef, List.zipWith, List.map, latRef, List.mapM_cons, List.mapM_nil, hG0, hG1,
          hG2, hG3, hGa, hGb, hGc, hGd]
      rfl
    · intro hc
      have hc' := hax (hc.resolve_left (fun h => by have := stable_tria h hquad hd'; rw [hd] at this; cases this))
      refine ⟨h2, ?_⟩
      intro x hx
      rcases x with _ | ⟨x, _ | ⟨y, _ | ⟨z, t⟩⟩⟩ <;> simp [kind, RefEl.Contains] at hx
      obtain ⟨v, h4, h5⟩ := h3 x y
      have hu : inUnit [x, y] := (inUnit_two _ _).2 ⟨⟨hx.1, hx.2.1⟩, hx.2.2⟩
      refine ⟨v, _, h4, ?_, ?_, if_pos hu⟩
      · rw [h5]; exact contains_of hd' (bx x y hx) (bY x y hx) (by rw [hd]; simp)
      · rw [h5, hq _ _ (lat_mem_unit (bx x y hx) (bY x y hx)), ← quad2_eval q _ _ _ _ _ _ _ _ x y hc']
        rfl

/-! ### Children of segments -/

omit [IsStrictOrderedRing K] in
private theorem ofFn1 (p : Fin 1 → K) : List.ofFn p = [p 0] := by simp [List.ofFn_succ]

/-- A lattice point of the reference segment. -/
theorem lattice_seg {col : List ℤ} (h : InLattice .segment col) :
    ∃ x : ℤ, col = [x] ∧ (0 ≤ (1 / 6 : K) * (x : K) ∧ (1 / 6 : K) * (x : K) ≤ 1) := by
  rcases col with _ | ⟨x, _ | ⟨y, t⟩⟩ <;> simp [InLattice] at h
  exact ⟨x, rfl, lat_unit h.1 h.2⟩

theorem global_seg (g : Geo K w) (hk : g.kind = .segment) : ∃ α β γ : Vec K w,
    (∀ x, 0 ≤ x ∧ x ≤ 1 → g.global [x] = some (x • (x • α + β) + γ)) ∧ (g.quadratic = false → α = 0) := by
  cases g <;> simp [kind] at hk
  · rename_i a b
    refine ⟨0, b - a, a, ?_, by simp⟩
    intro x _; simp only [global]; congr 1; ext i; simp; ring
  · rename_i a b m
    refine ⟨(segCoef a b m).1, (segCoef a b m).2.1, (segCoef a b m).2.2, ?_, by simp [quadratic]⟩
    intro x hx; simp only [global, if_pos ((inUnit_one x).2 hx)]

theorem segChild_point (g : Geo K w) (hk : g.kind = .segment) (x0 : ℤ) (hl : InLattice .segment [x0]) :
    ∃ r h, relative 1 [[x0]] = some r ∧ buildChild g 1 [[x0]] = some h ∧ h.kind = .point ∧ r.Places g h := by
  obtain ⟨α, β, γ, hG, -⟩ := global_seg g hk
  obtain ⟨x, e, hx⟩ := lattice_seg (K := K) hl
  cases e
  have hG0 := hG _ hx
  refine ⟨_, .point ((1 / 6 * (x0 : K)) • ((1 / 6 * (x0 : K)) • α + β) + γ), rfl, ?_, rfl, rfl, ?_⟩
  · cases g <;> simp [kind] at hk <;>
      simp only [buildChild, List.map, latRef, List.mapM_cons, List.mapM_nil, hG0] <;> rfl
  · intro x hx'
    rcases x with _ | ⟨x, t⟩ <;> simp [kind, RefEl.Contains] at hx'
    refine ⟨_, _, rfl, ?_, ?_, rfl⟩
    · rw [ofFn1, hk]
      simpa [ofEntries, latRef, RefEl.Contains] using hx
    · rw [ofFn1, ← hG0]
      simp [ofEntries, latRef]

theorem segChild_seg (g : Geo K w) (hk : g.kind = .segment) (x0 x1 : ℤ) (hl0 : InLattice .segment [x0])
    (hl1 : InLattice .segment [x1]) :
    ∃ r h, relative 1 [[x0], [x1]] = some r ∧ buildChild g 0 [[x0], [x1]] = some h ∧ h.kind = .segment ∧
      r.Places g h := by
  obtain ⟨α, β, γ, hG, hα⟩ := global_seg g hk
  obtain ⟨x, e, hx0⟩ := lattice_seg (K := K) hl0
  cases e
  obtain ⟨x, e, hx1⟩ := lattice_seg (K := K) hl1
  cases e
  have hG0 := hG _ hx0
  have hG1 := hG _ hx1
  have hGm := hG _ (mid_unit hx0 hx1)
  generalize hX0 : 1 / 6 * (x0 : K) = X0 at *
  generalize hX1 : 1 / 6 * (x1 : K) = X1 at *
  have hr : ∃ r : Geo K 1, relative 1 [[x0], [x1]] = some r ∧ r.kind = .segment ∧
      ∀ x, ∃ v, r.global [x] = some v ∧ List.ofFn v = [x * X1 + (1 - x) * X0] := by
    refine ⟨_, rfl, rfl, fun x => ⟨_, rfl, ?_⟩⟩
    rw [ofFn1, ← hX0, ← hX1]
    simp [ofEntries, latRef]
  obtain ⟨r, h1, h2, h3⟩ := hr
  have hc : ∀ x, 0 ≤ x ∧ x ≤ 1 → g.kind.Contains [x * X1 + (1 - x) * X0] := by
    intro x hx
    rw [hk]
    exact comb_unit hx0 hx1 hx
  cases hq : g.quadratic with
  | false =>
    have := hα hq
    subst this
    refine ⟨r, .segO1 (X0 • (X0 • 0 + β) + γ) (X1 • (X1 • 0 + β) + γ), h1, ?_, rfl, h2, ?_⟩
    · cases g <;> simp [kind, quadratic] at hk hq
      simp only [buildChild, List.map, latRef, List.mapM_cons, List.mapM_nil, hX0, hX1, hG0, hG1]
      rfl
    · intro x hx
      rcases x with _ | ⟨x, _ | ⟨z, t⟩⟩ <;> simp [kind, RefEl.Contains] at hx
      obtain ⟨v, h4, h5⟩ := h3 x
      refine ⟨v, _, h4, h5 ▸ hc x hx, ?_, rfl⟩
      rw [h5, hG _ (comb_unit hx0 hx1 hx)]
      congr 1
      ext i
      simp
      ring
  | true =>
    refine ⟨r, .segO2 (X0 • (X0 • α + β) + γ) (X1 • (X1 • α + β) + γ)
      (((X0 + X1) / 2) • (((X0 + X1) / 2) • α + β) + γ), h1, ?_, rfl, h2, ?_⟩
    · cases g <;> simp [kind, quadratic] at hk hq
      simp only [buildChild, withMids, midRef, List.zipWith, List.map, latRef, List.mapM_cons, List.mapM_nil, hX0, hX1,
        hG0, hG1, hGm]
      rfl
    · intro x hx
      rcases x with _ | ⟨x, _ | ⟨z, t⟩⟩ <;> simp [kind, RefEl.Contains] at hx
      obtain ⟨v, h4, h5⟩ := h3 x
      refine ⟨v, _, h4, h5 ▸ hc x hx, ?_, if_pos ((inUnit_one x).2 hx)⟩
      rw [h5, hG _ (comb_unit hx0 hx1 hx)]
      congr 1
      ext i
      simp [segCoef]
      ring

/-! ### All parents -/

/-- Children of a triangle are triangles. -/
theorem tria_children {p : Pattern} (hr : p.Reachable) (ha : p.Admissible) (ht : p.ref = .tria) {polys : List (List (List ℤ))}
    (hp : p.childPolygons 0 = some polys) : ∀ P ∈ polys, P.length = 3 := by
  intro P hP
  rcases Pattern.cases_of hr with hs | ⟨a, h1, h2, h3⟩
  · have key : ∀ pat ∈ allPats, Pattern.Admissible ⟨.tria, none, pat, false⟩ →
        ∀ P ∈ ((Pattern.childPolygons ⟨.tria, none, pat, false⟩ 0).getD []), P.length = 3 := by decide +kernel
    have hadm : Pattern.Admissible ⟨.tria, none, p.pat, false⟩ := by
      unfold Pattern.Admissible at ha ⊢
      rw [hs, ht] at ha; exact ha
    refine key p.pat (mem_allPats _) hadm P ?_
    have e1 := (childPolygons_unset p 0 hs).1
    rw [ht, hp] at e1
    rw [← e1]
    exact hP
  · have key : ∀ pat ∈ allPats, ∀ a < 3, Pattern.Admissible ⟨.tria, some a, pat, true⟩ →
        ∀ P ∈ ((Pattern.childPolygons ⟨.tria, some a, pat, true⟩ 0).getD []), P.length = 3 := by decide +kernel
    rw [h3, ht] at ha
    refine key p.pat (mem_allPats _) a (by rw [ht] at h1; exact h1) ha P ?_
    rw [h3, ht] at hp
    rw [hp]
    exact hP

/-- `ChildGeometry` creates one geometry of the right type for each polygon, and the relative geometry
describes its position in the parent. -/
theorem child_places (g : Geo K w) (p : Pattern) (hr : p.Reachable) (hf : p.Refines) (hk : p.ref = g.kind)
    (codim : ℕ) (polys : List (List (List ℤ))) (hp : p.childPolygons codim = some polys) :
    ∃ hs, g.child p codim = some hs ∧ hs.length = polys.length ∧ hs.map Geo.kind = polys.map polyKind ∧
      ∀ (j : ℕ) (poly : List (List ℤ)) (h : Geo K w), polys[j]? = some poly → hs[j]? = some h →
        ∃ r : Geo K g.kind.dimension, relative g.kind.dimension poly = some r ∧ (PlacesCond g poly → r.Places g h) := by
  have ha := hf.1
  have hcopy : p.ref = .point → p.pat = .copy := by
    intro hp
    have h1 := hf.1
    have h2 := hf.2
    unfold Pattern.Admissible at h1
    rw [hp] at h1
    cases hpat : p.pat <;> simp [hpat, patternTable] at h1 h2 ⊢
  have hcd : codim ≤ p.ref.dimension := by
    by_contra hc
    have := (C26_codim p codim (by omega)).2
    rw [hp] at this
    cases this
  obtain ⟨n, polys', h1, h2, rfl, h4⟩ := C26_contract p hr ha codim hcd
  rw [hp] at h2
  cases h2
  have list : ∀ l : List (List (List ℤ)), (∀ poly ∈ l, ∃ (r : Geo K g.kind.dimension) (h : Geo K w),
      relative g.kind.dimension poly = some r ∧
      buildChild g codim poly = some h ∧ h.kind = polyKind poly ∧ (PlacesCond g poly → r.Places g h)) →
      ∃ hs, l.mapM (buildChild g codim) = some hs ∧ hs.length = l.length ∧ hs.map Geo.kind = l.map polyKind ∧
      ∀ (j : ℕ) (poly : List (List ℤ)) (h : Geo K w), l[j]? = some poly → hs[j]? = some h →
        ∃ r : Geo K g.kind.dimension, relative g.kind.dimension poly = some r ∧ (PlacesCond g poly → r.Places g h) := by
    intro l
    induction l with
    | nil => intro _; exact ⟨[], rfl, rfl, rfl, by simp⟩
    | cons poly l ih =>
      intro hl
      obtain ⟨r, h, e1, e2, e3, e4⟩ := hl poly (by simp)
      obtain ⟨hs, f1, f2, f3, f4⟩ := ih (fun q hq => hl q (by simp [hq]))
      refine ⟨h :: hs, by simp [List.mapM_cons, e2, f1], by simp [f2], by simp [e3, f3], ?_⟩
      intro j poly' h' hj1 hj2
      cases j with
      | zero =>
        simp at hj1 hj2
        subst hj1 hj2
        exact ⟨r, e1, e4⟩
      | succ j => exact f4 j poly' h' (by simpa using hj1) (by simpa using hj2)
  have build : (∃ a, g = .point a) ∨ (g.kind ≠ .point ∧ g.child p codim = polys.mapM (buildChild g codim)) := by
    cases g with
    | point a => exact Or.inl ⟨a, rfl⟩
    | _ => exact Or.inr ⟨by simp [kind], by unfold child; rw [if_pos hk]; simp only [hp, Option.bind_some, h1, if_true]⟩
  rcases build with ⟨a, rfl⟩ | ⟨hnp, hb⟩
  · simp only [kind] at hk
    have h0 : codim = 0 := by rw [hk] at hcd; simpa [RefEl.dimension] using hcd
    subst h0
    have hpat := hcopy hk
    have hnum : p.numChildren 0 = some 1 := by
      unfold Pattern.numChildren
      rw [hk, hpat]
      rfl
    have hpol : p.childPolygons 0 = some [[[]]] := by
      unfold Pattern.childPolygons
      rw [hk, hpat]
      rfl
    rw [hp] at hpol
    cases hpol
    refine ⟨[.point a], by unfold child; rw [if_pos (show p.ref = (point a).kind from hk)]; simp [hnum], rfl, rfl, ?_⟩
    intro j poly h hj1 hj2
    rcases j with _ | j <;> simp at hj1 hj2
    subst hj1 hj2
    refine ⟨_, rfl, fun _ => ⟨rfl, ?_⟩⟩
    intro x hx
    rcases x with _ | ⟨x, t⟩ <;> simp [kind, RefEl.Contains] at hx
    have e : ∀ y : Vec K (point a).kind.dimension, List.ofFn y = [] := fun y => List.ofFn_zero (f := y)
    refine ⟨_, a, rfl, ?_, ?_, rfl⟩
    · rw [e]; trivial
    · rw [e]; rfl
  · rw [hb]
    refine list polys ?_
    intro poly hpoly
    obtain ⟨hlen, hlat⟩ := h4 poly hpoly
    have h3 : p.ref = .tria → codim = 0 → poly.length = 3 := by
      rintro ht rfl
      exact tria_children hr ha ht hp poly hpoly
    rw [hk] at hlen hlat hcd h3
    have h2d : g.kind.dimension = 2 → ∃ (r : Geo K 2) (h : Geo K w), relative 2 poly = some r ∧
        buildChild g codim poly = some h ∧ h.kind = polyKind poly ∧ (PlacesCond g poly → r.Places g h) := by
      intro hd
      rw [hd] at hcd hlen
      have hcol : ∀ col ∈ poly, ∃ x y, col = [x, y] := by
        intro col hcol
        obtain ⟨x, y, e, _⟩ := lattice_cell (K := K) hd (hlat col hcol)
        exact ⟨x, y, e⟩
      interval_cases codim
      · simp [vertexCounts] at hlen
        rcases hlen with hlen | hlen
        · rcases poly with _ | ⟨a, _ | ⟨b, _ | ⟨c, _ | ⟨d, t⟩⟩⟩⟩ <;> simp at hlen
          obtain ⟨x0, y0, rfl⟩ := hcol a (by simp)
          obtain ⟨x1, y1, rfl⟩ := hcol b (by simp)
          obtain ⟨x2, y2, rfl⟩ := hcol c (by simp)
          exact child_tria g hd _ _ _ _ _ _ (hlat _ (by simp)) (hlat _ (by simp)) (hlat _ (by simp))
        · have hq : g.kind = .quad := by
            cases hg : g.kind <;> simp [hg, RefEl.dimension] at hd ⊢
            have := h3 hg rfl
            omega
          rcases poly with _ | ⟨a, _ | ⟨b, _ | ⟨c, _ | ⟨d, _ | ⟨e, t⟩⟩⟩⟩⟩ <;> simp at hlen
          obtain ⟨x0, y0, rfl⟩ := hcol a (by simp)
          obtain ⟨x1, y1, rfl⟩ := hcol b (by simp)
          obtain ⟨x2, y2, rfl⟩ := hcol c (by simp)
          obtain ⟨x3, y3, rfl⟩ := hcol d (by simp)
          exact child_quad g hq _ _ _ _ _ _ _ _ (hlat _ (by simp)) (hlat _ (by simp)) (hlat _ (by simp)) (hlat _ (by simp))
      · simp [vertexCounts] at hlen
        rcases poly with _ | ⟨a, _ | ⟨b, _ | ⟨c, t⟩⟩⟩ <;> simp at hlen
        obtain ⟨x0, y0, rfl⟩ := hcol a (by simp)
        obtain ⟨x1, y1, rfl⟩ := hcol b (by simp)
        exact child_seg g hd _ _ _ _ (hlat _ (by simp)) (hlat _ (by simp))
      · simp [vertexCounts] at hlen
        rcases poly with _ | ⟨a, _ | ⟨b, t⟩⟩ <;> simp at hlen
        obtain ⟨x0, y0, rfl⟩ := hcol a (by simp)
        obtain ⟨r, h, e1, e2, e3, e4⟩ := child_point g hd x0 y0 (hlat _ (by simp))
        exact ⟨r, h, e1, e2, e3, fun _ => e4⟩
    cases hg : g.kind with
    | point => exact absurd hg hnp
    | segment =>
      rw [hg] at hcd hlat hlen
      simp [RefEl.dimension] at hcd
      interval_cases codim
      · simp [vertexCounts, RefEl.dimension] at hlen
        rcases poly with _ | ⟨a, _ | ⟨b, _ | ⟨c, t⟩⟩⟩ <;> simp at hlen
        obtain ⟨x0, rfl, _⟩ := lattice_seg (K := K) (hlat a (by simp))
        obtain ⟨x1, rfl, _⟩ := lattice_seg (K := K) (hlat b (by simp))
        obtain ⟨r, h, e1, e2, e3, e4⟩ := segChild_seg g hg x0 x1 (hlat _ (by simp)) (hlat _ (by simp))
        exact ⟨r, h, e1, e2, e3, fun _ => e4⟩
      · simp [vertexCounts, RefEl.dimension] at hlen
        rcases poly with _ | ⟨a, _ | ⟨b, t⟩⟩ <;> simp at hlen
        obtain ⟨x0, rfl, _⟩ := lattice_seg (K := K) (hlat a (by simp))
        obtain ⟨r, h, e1, e2, e3, e4⟩ := segChild_point g hg x0 (hlat _ (by simp))
        exact ⟨r, h, e1, e2, e3, fun _ => e4⟩
    | tria => rw [hg] at h2d; exact h2d rfl
    | quad => rw [hg] at h2d; exact h2d rfl

/-- `ChildGeometry` does what refinement needs. -/
theorem geoOps_lawful (len : Geo K w → ℚ) : (geoOps len).Lawful := by
  intro g p codim polys hk hr hf hp
  obtain ⟨hs, h1, -, h2, -⟩ := child_places g p hr hf hk codim polys hp
  exact ⟨hs, h1, h2⟩

end Verif
