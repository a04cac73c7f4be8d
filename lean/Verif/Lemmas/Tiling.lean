import Verif.Spec.RefPattern
import Mathlib.Tactic.Linarith
import Mathlib.Tactic.Ring
import Mathlib.Tactic.FieldSimp
import Mathlib.Tactic.NormNum
import Mathlib.Algebra.Order.Ring.Abs

/-! Convex polygons on the lattice. -/

namespace Verif
variable {K : Type} [Field K] [LinearOrder K] [IsStrictOrderedRing K]

/-- A linear functional which is at most `c` at the vertices is at most `c` in the polygon. -/
theorem comb_le (a b c : K) : ∀ (w : List K) (pts : List (K × K)), w.length = pts.length →
    (∀ x ∈ w, 0 ≤ x) → (∀ q ∈ pts, a * q.1 + b * q.2 ≤ c) →
    a * (combination w pts).1 + b * (combination w pts).2 ≤ c * w.sum
  | [], [], _, _, _ => by simp [combination]
  | x :: w, q :: pts, hl, hw, hq => by
    have ih := comb_le a b c w pts (by simpa using hl) (fun y hy => hw y (by simp [hy]))
      (fun y hy => hq y (by simp [hy]))
    have h1 := hw x (by simp)
    have h2 := hq q (by simp)
    simp only [combination, List.zipWith_cons_cons, List.sum_cons] at ih ⊢
    nlinarith [mul_le_mul_of_nonneg_left h2 h1]
  | [], _ :: _, hl, _, _ => by simp at hl
  | _ :: _, [], hl, _, _ => by simp at hl

/-- Strict version: some vertex is strictly below and all weights are positive. -/
theorem comb_lt (a b c : K) : ∀ (w : List K) (pts : List (K × K)), w.length = pts.length →
    (∀ x ∈ w, 0 < x) → (∀ q ∈ pts, a * q.1 + b * q.2 ≤ c) →
    (∃ q ∈ pts, a * q.1 + b * q.2 < c) →
    a * (combination w pts).1 + b * (combination w pts).2 < c * w.sum
  | [], [], _, _, _, ⟨q, hq, _⟩ => by simp at hq
  | x :: w, q :: pts, hl, hw, hq, ⟨q', hq', hlt⟩ => by
    have h1 := hw x (by simp)
    have h2 := hq q (by simp)
    rcases List.mem_cons.1 hq' with rfl | hq'
    · have ih := comb_le a b c w pts (by simpa using hl) (fun y hy => (hw y (by simp [hy])).le)
        (fun y hy => hq y (by simp [hy]))
      simp only [combination, List.zipWith_cons_cons, List.sum_cons] at ih ⊢
      nlinarith [mul_lt_mul_of_pos_left hlt h1]
    · have ih := comb_lt a b c w pts (by simpa using hl) (fun y hy => hw y (by simp [hy]))
        (fun y hy => hq y (by simp [hy])) ⟨q', hq', hlt⟩
      simp only [combination, List.zipWith_cons_cons, List.sum_cons] at ih ⊢
      nlinarith [mul_le_mul_of_nonneg_left h2 h1.le]
  | [], _ :: _, hl, _, _, _ => by simp at hl
  | _ :: _, [], hl, _, _, _ => by simp at hl

theorem InPolygon.le {pts : List (K × K)} {p : K × K} (h : InPolygon pts p) (a b c : K)
    (hq : ∀ q ∈ pts, a * q.1 + b * q.2 ≤ c) : a * p.1 + b * p.2 ≤ c := by
  obtain ⟨w, h1, h2, h3, rfl⟩ := h
  have := comb_le a b c w pts h1 h2 hq
  rwa [h3, mul_one] at this

theorem InInterior.lt {pts : List (K × K)} {p : K × K} (h : InInterior pts p) (a b c : K)
    (hq : ∀ q ∈ pts, a * q.1 + b * q.2 ≤ c) (hs : ∃ q ∈ pts, a * q.1 + b * q.2 < c) :
    a * p.1 + b * p.2 < c := by
  obtain ⟨w, h1, h2, h3, rfl⟩ := h
  have := comb_lt a b c w pts h1 h2 hq hs
  rwa [h3, mul_one] at this

omit [IsStrictOrderedRing K] in
theorem InInterior.inPolygon {pts : List (K × K)} {p : K × K} (h : InInterior pts p) : InPolygon pts p := by
  obtain ⟨w, h1, h2, h3, h4⟩ := h
  exact ⟨w, h1, fun x hx => (h2 x hx).le, h3, h4⟩

/-- Two polygons on different sides of a line have no common interior points. -/
theorem not_both_interior {P Q : List (K × K)} {p : K × K} (a b c : K)
    (hP : ∀ q ∈ P, a * q.1 + b * q.2 ≤ c) (hs : ∃ q ∈ P, a * q.1 + b * q.2 < c)
    (hQ : ∀ q ∈ Q, c ≤ a * q.1 + b * q.2) : ¬ (InInterior P p ∧ InInterior Q p) := by
  rintro ⟨h1, h2⟩
  have e1 := h1.lt a b c hP hs
  have e2 := h2.inPolygon.le (-a) (-b) (-c) (fun q hq => by have := hQ q hq; linarith)
  linarith

/-- Value of an integer functional at a lattice point. -/
def lval (ab : ℤ × ℤ) (col : List ℤ) : ℤ := ab.1 * col.getD 0 0 + ab.2 * col.getD 1 0

theorem lval_point (ab : ℤ × ℤ) (col : List ℤ) :
    (ab.1 : K) * (latticePoint col : K × K).1 + (ab.2 : K) * (latticePoint col : K × K).2 = (lval ab col : K) / 6 := by
  simp only [latticePoint, lval]; push_cast; ring

/-- Directions used to separate children. -/
def normals : List (ℤ × ℤ) :=
  [(1, 0), (0, 1), (1, 1), (1, -1), (1, 2), (2, 1), (2, -1), (1, -2),
   (-1, 0), (0, -1), (-1, -1), (-1, 1), (-1, -2), (-2, -1), (-2, 1), (-1, 2)]

/-- Lattice polygons `P` and `Q` are separated by a line. -/
def separated (P Q : List (List ℤ)) : Bool :=
  normals.any fun ab => Q.any fun q0 =>
    (P.all fun q => decide (lval ab q ≤ lval ab q0)) && (P.any fun q => decide (lval ab q < lval ab q0)) &&
    (Q.all fun q => decide (lval ab q0 ≤ lval ab q))

theorem separated_sound {P Q : List (List ℤ)} (h : separated P Q = true) (p : K × K) :
    ¬ (InInterior (P.map latticePoint) p ∧ InInterior (Q.map latticePoint) p) := by
  unfold separated at h
  simp only [List.any_eq_true, Bool.and_eq_true, List.all_eq_true, decide_eq_true_eq] at h
  obtain ⟨ab, _, q0, _, ⟨h1, q1, h2, h3⟩, h4⟩ := h
  refine not_both_interior (ab.1 : K) (ab.2 : K) ((lval ab q0 : K) / 6) ?_ ?_ ?_
  · intro q hq
    obtain ⟨col, hc, rfl⟩ := List.mem_map.1 hq
    rw [lval_point]
    have : ((lval ab col : ℤ) : K) ≤ (lval ab q0 : K) := Int.cast_le.2 (h1 col hc)
    linarith
  · refine ⟨latticePoint q1, List.mem_map.2 ⟨q1, h2, rfl⟩, ?_⟩
    rw [lval_point]
    have : ((lval ab q1 : ℤ) : K) < (lval ab q0 : K) := Int.cast_lt.2 h3
    linarith
  · intro q hq
    obtain ⟨col, hc, rfl⟩ := List.mem_map.1 hq
    rw [lval_point]
    have : ((lval ab q0 : ℤ) : K) ≤ (lval ab col : K) := Int.cast_le.2 (h4 col hc)
    linarith

/-- Integer version of `cross` (36 times the area form). -/
def icross (a b c : List ℤ) : ℤ :=
  (b.getD 0 0 - a.getD 0 0) * (c.getD 1 0 - a.getD 1 0) - (b.getD 1 0 - a.getD 1 0) * (c.getD 0 0 - a.getD 0 0)

theorem cross_lattice (a b c : List ℤ) :
    cross (latticePoint a : K × K) (latticePoint b) (latticePoint c) = (icross a b c : K) / 36 := by
  simp only [cross, latticePoint, icross]; push_cast; ring

/-- Strict convexity of a lattice polygon, as a Boolean. -/
def convexOk (P : List (List ℤ)) : Bool :=
  decide (3 ≤ P.length) &&
  ((List.range P.length).all (fun i => decide (0 < icross (P.getD i []) (P.getD ((i + 1) % P.length) [])
      (P.getD ((i + 2) % P.length) []))) ||
   (List.range P.length).all (fun i => decide (icross (P.getD i []) (P.getD ((i + 1) % P.length) [])
      (P.getD ((i + 2) % P.length) []) < 0)))

theorem convexOk_sound {P : List (List ℤ)} (h : convexOk P = true) :
    StrictlyConvex (P.map (latticePoint : List ℤ → K × K)) := by
  have h0 : (latticePoint [] : K × K) = 0 := by simp [latticePoint]
  have hg : ∀ i, (P.map (latticePoint : List ℤ → K × K)).getD i 0 = latticePoint (P.getD i []) := by
    intro i
    rw [List.getD_eq_getElem?_getD, List.getD_eq_getElem?_getD, List.getElem?_map]
    cases P[i]? <;> simp [h0]
  unfold convexOk at h
  simp only [Bool.and_eq_true, decide_eq_true_eq, Bool.or_eq_true, List.all_eq_true, List.mem_range] at h
  refine ⟨by simpa using h.1, ?_⟩
  simp only [hg, List.length_map, cross_lattice]
  rcases h.2 with h2 | h2
  · left
    intro i hi
    have : (0 : K) < (icross _ _ _ : ℤ) := Int.cast_pos.2 (h2 i hi)
    exact div_pos this (by norm_num)
  · right
    intro i hi
    exact div_neg_of_neg_of_pos (Int.cast_lt_zero.2 (h2 i hi)) (by norm_num)

/-- Points of a non-degenerate triangle by barycentric coordinates. -/
theorem inPolygon_tri (A B C q : K × K) (hD : cross A B C ≠ 0)
    (h1 : 0 ≤ cross q B C * cross A B C) (h2 : 0 ≤ cross A q C * cross A B C)
    (h3 : 0 ≤ cross A B q * cross A B C) : InPolygon [A, B, C] q := by
  have hpos : 0 < cross A B C * cross A B C := mul_self_pos.2 hD
  have key : ∀ x, 0 ≤ x * cross A B C → 0 ≤ x / cross A B C := by
    intro x hx
    rw [show x / cross A B C = (x * cross A B C) / (cross A B C * cross A B C) by field_simp]
    exact div_nonneg hx hpos.le
  refine ⟨[cross q B C / cross A B C, cross A q C / cross A B C, cross A B q / cross A B C], rfl, ?_, ?_, ?_⟩
  · intro x hx
    simp only [List.mem_cons, List.not_mem_nil, or_false] at hx
    rcases hx with rfl | rfl | rfl
    · exact key _ h1
    · exact key _ h2
    · exact key _ h3
  · simp only [List.sum_cons, List.sum_nil, add_zero]
    rw [← add_div, ← add_div, div_eq_one_iff_eq hD]
    simp only [cross]; ring
  · ext
    · simp only [combination, List.zipWith_cons_cons, List.zipWith_nil_right, List.sum_cons, List.sum_nil, add_zero]
      rw [div_mul_eq_mul_div, div_mul_eq_mul_div, div_mul_eq_mul_div, ← add_div, ← add_div, eq_div_iff hD]
      simp only [cross]; ring
    · simp only [combination, List.zipWith_cons_cons, List.zipWith_nil_right, List.sum_cons, List.sum_nil, add_zero]
      rw [div_mul_eq_mul_div, div_mul_eq_mul_div, div_mul_eq_mul_div, ← add_div, ← add_div, eq_div_iff hD]
      simp only [cross]; ring

/-- Points of a parallelogram. -/
theorem inPolygon_par (A B C D q : K × K) (hp1 : A.1 + C.1 = B.1 + D.1) (hp2 : A.2 + C.2 = B.2 + D.2)
    (hD : cross A B D ≠ 0)
    (h1 : 0 ≤ cross A q D * cross A B D) (h1' : cross A q D * cross A B D ≤ cross A B D * cross A B D)
    (h2 : 0 ≤ cross A B q * cross A B D) (h2' : cross A B q * cross A B D ≤ cross A B D * cross A B D) :
    InPolygon [A, B, C, D] q := by
  have hpos : 0 < cross A B D * cross A B D := mul_self_pos.2 hD
  have key : ∀ x, 0 ≤ x * cross A B D → x * cross A B D ≤ cross A B D * cross A B D →
      0 ≤ x / cross A B D ∧ x / cross A B D ≤ 1 := by
    intro x hx hx'
    rw [show x / cross A B D = (x * cross A B D) / (cross A B D * cross A B D) by field_simp]
    exact ⟨div_nonneg hx hpos.le, (div_le_one hpos).2 hx'⟩
  obtain ⟨s0, s1⟩ := key _ h1 h1'
  obtain ⟨t0, t1⟩ := key _ h2 h2'
  set s := cross A q D / cross A B D with hs
  set t := cross A B q / cross A B D with ht
  refine ⟨[(1 - s) * (1 - t), s * (1 - t), s * t, (1 - s) * t], rfl, ?_, ?_, ?_⟩
  · intro x hx
    simp only [List.mem_cons, List.not_mem_nil, or_false] at hx
    rcases hx with rfl | rfl | rfl | rfl
    · exact mul_nonneg (by linarith) (by linarith)
    · exact mul_nonneg s0 (by linarith)
    · exact mul_nonneg s0 t0
    · exact mul_nonneg (by linarith) t0
  · simp only [List.sum_cons, List.sum_nil, add_zero]; ring
  · have es : s * cross A B D = cross A q D := by rw [hs]; field_simp
    have et : t * cross A B D = cross A B q := by rw [ht]; field_simp
    have c1 : C.1 = B.1 + D.1 - A.1 := by linarith
    have c2 : C.2 = B.2 + D.2 - A.2 := by linarith
    ext
    · simp only [combination, List.zipWith_cons_cons, List.zipWith_nil_right, List.sum_cons, List.sum_nil, add_zero]
      apply mul_right_cancel₀ hD
      rw [c1]
      have : q.1 * cross A B D = A.1 * cross A B D + cross A q D * (B.1 - A.1) + cross A B q * (D.1 - A.1) := by
        simp only [cross]; ring
      rw [this, ← es, ← et]; ring
    · simp only [combination, List.zipWith_cons_cons, List.zipWith_nil_right, List.sum_cons, List.sum_nil, add_zero]
      apply mul_right_cancel₀ hD
      rw [c2]
      have : q.2 * cross A B D = A.2 * cross A B D + cross A q D * (B.2 - A.2) + cross A B q * (D.2 - A.2) := by
        simp only [cross]; ring
      rw [this, ← es, ← et]; ring

/-- Half-plane description of the closed lattice triangles and parallelograms. -/
def InHalfPlanes (P : List (List ℤ)) (q : K × K) : Prop :=
  match P with
  | [A, B, C] => icross A B C ≠ 0 ∧
    0 ≤ cross q (latticePoint B) (latticePoint C) * (icross A B C : K) ∧
    0 ≤ cross (latticePoint A) q (latticePoint C) * (icross A B C : K) ∧
    0 ≤ cross (latticePoint A) (latticePoint B) q * (icross A B C : K)
  | [A, B, C, D] => A.getD 0 0 + C.getD 0 0 = B.getD 0 0 + D.getD 0 0 ∧
    A.getD 1 0 + C.getD 1 0 = B.getD 1 0 + D.getD 1 0 ∧ icross A B D ≠ 0 ∧
    0 ≤ cross (latticePoint A) q (latticePoint D) * (icross A B D : K) ∧
    cross (latticePoint A) q (latticePoint D) * (icross A B D : K) * 36 ≤ (icross A B D : K) * (icross A B D : K) ∧
    0 ≤ cross (latticePoint A) (latticePoint B) q * (icross A B D : K) ∧
    cross (latticePoint A) (latticePoint B) q * (icross A B D : K) * 36 ≤ (icross A B D : K) * (icross A B D : K)
  | _ => False

theorem InHalfPlanes.inPolygon {P : List (List ℤ)} {q : K × K} (h : InHalfPlanes P q) :
    InPolygon (P.map latticePoint) q := by
  unfold InHalfPlanes at h
  split at h
  · rename_i A B C
    obtain ⟨h0, h1, h2, h3⟩ := h
    have hc : cross (latticePoint A : K × K) (latticePoint B) (latticePoint C) ≠ 0 := by
      rw [cross_lattice]
      exact div_ne_zero (Int.cast_ne_zero.2 h0) (by norm_num)
    refine inPolygon_tri _ _ _ q hc ?_ ?_ ?_ <;> rw [cross_lattice A B C, mul_div_assoc'] <;>
      exact div_nonneg (by assumption) (by norm_num)
  · rename_i A B C D
    obtain ⟨p1, p2, h0, h1, h2, h3, h4⟩ := h
    have hc : cross (latticePoint A : K × K) (latticePoint B) (latticePoint D) ≠ 0 := by
      rw [cross_lattice]
      exact div_ne_zero (Int.cast_ne_zero.2 h0) (by norm_num)
    refine inPolygon_par _ _ _ _ q ?_ ?_ hc ?_ ?_ ?_ ?_
    · simp only [latticePoint]
      rw [← add_div, ← add_div, ← Int.cast_add, ← Int.cast_add, p1]
    · simp only [latticePoint]
      rw [← add_div, ← add_div, ← Int.cast_add, ← Int.cast_add, p2]
    · rw [cross_lattice A B D, mul_div_assoc']
      exact div_nonneg h1 (by norm_num)
    · rw [cross_lattice A B D]; linarith
    · rw [cross_lattice A B D, mul_div_assoc']
      exact div_nonneg h3 (by norm_num)
    · rw [cross_lattice A B D]; linarith
  · exact h.elim

end Verif
