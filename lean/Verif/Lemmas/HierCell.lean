import Verif.Lemmas.HierFace
import Verif.Lemmas.HierConform
import Verif.Lemmas.Lagrange

/-!
# Linear combinations of hierarchic shape functions on cells
-/

namespace Verif
open HierQuad Geo

theorem dotRow_eq_sum {n : ℕ} {c v : List ℝ} (hc : c.length = n) (hv : v.length = n) :
    ∑ i ∈ Finset.range n, c.getD i 0 * v.getD i 0 = dotRow c v := by
  induction c generalizing v n with
  | nil => subst hc; simp [dotRow]
  | cons a c ih =>
    subst hc
    cases v with
    | nil => simp at hv
    | cons b v =>
      rw [List.length_cons, Finset.sum_range_succ']
      simp only [List.getD_cons_succ, List.getD_cons_zero]
      rw [ih rfl (by simpa using hv)]
      simp [dotRow, add_comm]

theorem RefFE.sum_shape {fe : RefFE ℝ} {x v : List ℝ} (h : fe.eval x = some v) (hv : v.length = fe.num)
    {c : List ℝ} (hc : c.length = fe.num) :
    ∑ i ∈ Finset.range fe.num, c.getD i 0 * fe.shape i x = dotRow c v := by
  rw [← dotRow_eq_sum hc hv]
  simp [RefFE.shape, h]

theorem oriented_oriented {α : Type} (o : Bool) (l : List α) : oriented o (oriented o l) = l := by
  cases o <;> simp [oriented]

theorem block_repr (o : Bool) (n : ℕ) (b : List ℝ) (h : b.length = n) :
    ∃ E : ℕ → ℝ, b = oriented o ((List.range n).map E) := by
  refine ⟨fun i => (oriented o b).getD i 0, ?_⟩
  have := list_eq_range_map (oriented o b)
  rw [oriented_length, h] at this
  rw [← this, oriented_oriented]

theorem list_split {α : Type} (l : List α) (m n : ℕ) (h : l.length = m + n) :
    ∃ a b, l = a ++ b ∧ a.length = m ∧ b.length = n :=
  ⟨l.take m, l.drop m, (List.take_append_drop m l).symm, by simp; omega, by simp; omega⟩

/-- Coefficients on an edge. -/
def edgeCoef (a b : ℝ) (E : ℕ → ℝ) : ℕ → ℝ
  | 0 => a
  | 1 => b
  | i + 2 => E i

theorem dotRow_map_range (n : ℕ) (f g : ℕ → ℝ) :
    dotRow ((List.range n).map f) ((List.range n).map g) = ∑ i ∈ Finset.range n, f i * g i := by
  rw [← dotRow_eq_sum (n := n) (by simp) (by simp)]
  refine Finset.sum_congr rfl fun i hi => ?_
  rw [Finset.mem_range] at hi
  simp [hi]

theorem dotRow_segShapes (p : ℕ) (hp : 1 ≤ p) (a b : ℝ) (E : ℕ → ℝ) (t : ℝ) :
    dotRow ([a, b] ++ (List.range (p - 1)).map E) (segShapes p t) = lin1 (p + 1) (edgeCoef a b E) t := by
  obtain ⟨p, rfl⟩ : ∃ k, p = k + 1 := ⟨p - 1, by omega⟩
  rw [lin1, Finset.sum_range_succ', Finset.sum_range_succ', segShapes, dotRow_append _ _ (by rfl),
    Nat.add_sub_cancel, dotRow_map_range]
  simp only [edgeCoef, fn1, dotRow]
  simp
  ring

theorem segment_append {α : Type} (a b c : List α) (s n : ℕ) (hs : s = a.length) (hn : n = b.length) :
    segment (a ++ b ++ c) s n = some b := by
  subst hs hn
  rw [segment, if_pos (by simp), List.append_assoc, List.drop_left, List.take_left]

/-- The values at the points of the edge and at its ends. -/
noncomputable def edgeVals (d : ℕ) (q : QuadRule ℝ) (c : ℕ → ℝ) : List ℝ :=
  if 1 < d then q.points.map fun s => lin1 (d + 1) c (s.getD 0 0) else []

theorem edgeVals_length (d : ℕ) (q : QuadRule ℝ) (c : ℕ → ℝ) :
    (edgeVals d q c).length = if 1 < d then q.numPoints else 0 := by
  unfold edgeVals; split <;> simp [QuadRule.numPoints]

/-- The rules of an element. -/
def QuadRule.Good (q : QuadRule ℝ) (r : RefEl) (d : ℕ) : Prop := q.ref = r ∧ q.WellFormed ∧ q.ExactFor d

theorem segDual_edge (d : ℕ) (q : QuadRule ℝ) (hq : q.Good .segment (2 * (d - 1))) (a b : ℝ) (E : ℕ → ℝ)
    (i : ℕ) (hi : i < d - 1) :
    segDual q (i + 2) a b (edgeVals d q (edgeCoef a b E)) = E i := by
  have := segDual_lin1 q hq.1 _ hq.2.2 d i (by omega) (by omega) (edgeCoef a b E)
  rw [lin1_zero, lin1_one d (by omega)] at this
  rw [edgeVals, if_pos (by omega)]
  exact this

end Verif
