import Verif.Model.DpgTools
import Verif.Spec.DpgTools
import Mathlib.Tactic.Linarith
import Mathlib.Tactic.LinearCombination
import Mathlib.Tactic.FieldSimp
import Mathlib.Tactic.Ring

namespace Verif
namespace Dpg
open Geo

/-- One column of the result of `outerNormals`. -/
noncomputable def normalOf (o : ℝ) (p0 p1 : Vec ℝ 2) : Vec ℝ 2 :=
  normalize ![(p1 - p0) 1 * o, -(p1 - p0) 0 * o]

theorem dot2 (a b : Vec ℝ 2) : dot a b = a 0 * b 0 + a 1 * b 1 := by
  simp [dot, Fin.sum_univ_two]

theorem det2_eq (a b : Vec ℝ 2) : det2 a b = a 0 * b 1 - b 0 * a 1 := by
  simp [det2, entry]

theorem dot_smul2 (r : ℝ) (v x : Vec ℝ 2) : dot (r • v) x = r * dot v x := by
  rw [dot2, dot2]
  show r * v 0 * x 0 + r * v 1 * x 1 = _
  ring

theorem dot_comm2 (v x : Vec ℝ 2) : dot v x = dot x v := by
  rw [dot2, dot2]; ring

theorem normal_len (o : ℝ) (ho : o * o = 1) (p0 p1 : Vec ℝ 2) :
    dot (![(p1 - p0) 1 * o, -(p1 - p0) 0 * o] : Vec ℝ 2) ![(p1 - p0) 1 * o, -(p1 - p0) 0 * o] =
      dot (p1 - p0) (p1 - p0) := by
  rw [dot2, dot2]
  simp only [Matrix.cons_val_zero, Matrix.cons_val_one]
  linear_combination ((p1 - p0) 0 * (p1 - p0) 0 + (p1 - p0) 1 * (p1 - p0) 1) * ho

/-- The normal, multiplied with the length of the side. -/
theorem normalOf_scaled (o : ℝ) (ho : o * o = 1) (p0 p1 v : Vec ℝ 2) :
    Real.sqrt (dot (p1 - p0) (p1 - p0)) * dot (normalOf o p0 p1) v = -(o * det2 (p1 - p0) v) := by
  unfold normalOf normalize
  rw [normal_len o ho]
  by_cases h : 0 < dot (p1 - p0) (p1 - p0)
  · rw [if_pos h]
    have hs : Real.sqrt (dot (p1 - p0) (p1 - p0)) ≠ 0 := (Real.sqrt_pos.2 h).ne'
    rw [dot_smul2, ← mul_assoc, mul_inv_cancel₀ hs, one_mul, dot2, det2_eq]
    simp only [Matrix.cons_val_zero, Matrix.cons_val_one]
    ring
  · have h0 : dot (p1 - p0) (p1 - p0) = 0 := by
      refine le_antisymm (not_lt.1 h) ?_
      rw [dot2]; nlinarith [mul_self_nonneg ((p1 - p0) 0), mul_self_nonneg ((p1 - p0) 1)]
    rw [h0, Real.sqrt_zero, zero_mul]
    rw [dot2] at h0
    have e0 : (p1 - p0) 0 = 0 := by nlinarith [mul_self_nonneg ((p1 - p0) 0), mul_self_nonneg ((p1 - p0) 1)]
    have e1 : (p1 - p0) 1 = 0 := by nlinarith [mul_self_nonneg ((p1 - p0) 0), mul_self_nonneg ((p1 - p0) 1)]
    rw [det2_eq, e0, e1]
    simp

theorem normalOf_unit (o : ℝ) (ho : o * o = 1) (p0 p1 : Vec ℝ 2) (h : 0 < dot (p1 - p0) (p1 - p0)) :
    dot (normalOf o p0 p1) (normalOf o p0 p1) = 1 := by
  unfold normalOf normalize
  have hl := normal_len o ho p0 p1
  rw [hl, if_pos h]
  rw [dot_smul2, dot_comm2 _ (_ • _), dot_smul2, hl]
  have hs := Real.mul_self_sqrt h.le
  have hs0 : Real.sqrt (dot (p1 - p0) (p1 - p0)) ≠ 0 := (Real.sqrt_pos.2 h).ne'
  rw [← hs]
  simp only [Real.sqrt_mul_self (Real.sqrt_nonneg _)]
  field_simp

theorem pos_of_det {e u : Vec ℝ 2} (h : det2 e u ≠ 0) : 0 < dot e e := by
  rw [dot2]
  rw [det2_eq] at h
  rcases (add_nonneg (mul_self_nonneg (e 0)) (mul_self_nonneg (e 1))).lt_or_eq with h' | h'
  · exact h'
  · exfalso
    have e0 : e 0 = 0 := by nlinarith [mul_self_nonneg (e 0), mul_self_nonneg (e 1)]
    have e1 : e 1 = 0 := by nlinarith [mul_self_nonneg (e 0), mul_self_nonneg (e 1)]
    rw [e0, e1] at h
    simp at h

theorem sign_of_scaled {o : ℝ} (ho : o * o = 1) {p0 p1 v : Vec ℝ 2} (h : 0 < dot (p1 - p0) (p1 - p0)) :
    (0 < o * det2 (p1 - p0) v → dot (normalOf o p0 p1) v < 0) ∧
    (o * det2 (p1 - p0) v = 0 → dot (normalOf o p0 p1) v = 0) := by
  have hs := normalOf_scaled o ho p0 p1 v
  have hp := Real.sqrt_pos.2 h
  constructor
  · intro h1
    by_contra h2
    nlinarith [mul_nonneg hp.le (not_lt.1 h2)]
  · intro h1
    rw [h1, neg_zero] at hs
    exact (mul_eq_zero.1 hs).resolve_left hp.ne'

/-- The situation at one side: `u` and `v` are on the inner side. -/
theorem outer_side {o : ℝ} (ho : o * o = 1) {p0 p1 u v x : Vec ℝ 2} {s l k : ℝ}
    (hu : 0 < o * det2 (p1 - p0) u) (hv : 0 < o * det2 (p1 - p0) v) (hl : 0 ≤ l) (hk : 0 ≤ k)
    (hlk : l ≠ 0 ∨ k ≠ 0) (hx : x = s • (p1 - p0) + l • u + k • v) : dot (normalOf o p0 p1) x < 0 := by
  refine (sign_of_scaled ho (pos_of_det (u := u) ?_)).1 ?_
  · intro h; rw [h] at hu; simp at hu
  · have : o * det2 (p1 - p0) x = l * (o * det2 (p1 - p0) u) + k * (o * det2 (p1 - p0) v) := by
      rw [hx]; simp only [det2_eq, Pi.add_apply, Pi.smul_apply, smul_eq_mul]; ring
    rw [this]
    rcases hlk with h | h
    · have : 0 < l := lt_of_le_of_ne hl (Ne.symm h)
      nlinarith [mul_pos this hu, mul_nonneg hk hv.le]
    · have : 0 < k := lt_of_le_of_ne hk (Ne.symm h)
      nlinarith [mul_pos this hv, mul_nonneg hl hu.le]

theorem normals_tria (a b c : Vec ℝ 2) :
    outerNormals (.triaO1 a b c) = some
      (let o := if det2 (b - a) (c - a) > 0 then (1 : ℝ) else -1
       [normalOf o a b, normalOf o b c, normalOf o c a]) := by
  have e0 : (1 - 0 - 0 : ℝ) • a + (0 : ℝ) • b + (0 : ℝ) • c = a := by simp
  have e1 : (1 - 1 - 0 : ℝ) • a + (1 : ℝ) • b + (0 : ℝ) • c = b := by simp
  have e2 : (1 - 0 - 1 : ℝ) • a + (0 : ℝ) • b + (1 : ℝ) • c = c := by simp
  simp only [outerNormals, Geo.kind, true_or, if_true, refNodeCoords, List.mapM_cons, List.mapM_nil, Geo.global,
    e0, e1, e2, orientation, jacDet, Geo.jacobian, Option.map_some, Option.bind_some, Option.pure_def,
    Option.bind_eq_bind, List.length_cons, List.length_nil, Nat.reduceAdd]
  rfl

theorem normals_quad (a b c d : Vec ℝ 2) :
    outerNormals (.quadO1 a b c d) = some
      (let ds := [det2 (b - a) (d - a), det2 (b - a) (c - b), det2 (c - d) (c - b), det2 (c - d) (d - a)]
       let o := if ds.countP (fun d => decide (d > 0)) ≥ 3 then (1 : ℝ) else -1
       [normalOf o a b, normalOf o b c, normalOf o c d, normalOf o d a]) := by
  have e0 : ((1 - 0) * (1 - 0) : ℝ) • a + (0 * (1 - 0) : ℝ) • b + (0 * 0 : ℝ) • c + ((1 - 0) * 0 : ℝ) • d = a := by simp
  have e1 : ((1 - 1) * (1 - 0) : ℝ) • a + (1 * (1 - 0) : ℝ) • b + (1 * 0 : ℝ) • c + ((1 - 1) * 0 : ℝ) • d = b := by simp
  have e2 : ((1 - 1) * (1 - 1) : ℝ) • a + (1 * (1 - 1) : ℝ) • b + (1 * 1 : ℝ) • c + ((1 - 1) * 1 : ℝ) • d = c := by simp
  have e3 : ((1 - 0) * (1 - 1) : ℝ) • a + (0 * (1 - 1) : ℝ) • b + (0 * 1 : ℝ) • c + ((1 - 0) * 1 : ℝ) • d = d := by simp
  have f0 (u v : Vec ℝ 2) : (1 - 0 : ℝ) • u + (0 : ℝ) • v = u := by simp
  have f1 (u v : Vec ℝ 2) : (1 - 1 : ℝ) • u + (1 : ℝ) • v = v := by simp
  simp only [outerNormals, Geo.kind, or_true, if_true, refNodeCoords, List.mapM_cons, List.mapM_nil, Geo.global,
    e0, e1, e2, e3, f0, f1, orientation, jacDet, Geo.jacobian, Option.map_some, Option.bind_some, Option.pure_def,
    Option.bind_eq_bind, List.length_cons, List.length_nil, Nat.reduceAdd]
  rfl

theorem normals_para (a b c d : Vec ℝ 2) (h : d - c + b - a = 0) :
    outerNormals (.parallelogram a b c d) = some
      (let o := if det2 (b - a) (d - a) > 0 then (1 : ℝ) else -1
       [normalOf o a b, normalOf o b c, normalOf o c d, normalOf o d a]) := by
  have hc : c = b + d - a := by
    have : c = (b + d - a) - (d - c + b - a) := by abel
    rw [this, h, sub_zero]
  have e0 : (1 - 0 - 0 : ℝ) • a + (0 : ℝ) • b + (0 : ℝ) • d = a := by simp
  have e1 : (1 - 1 - 0 : ℝ) • a + (1 : ℝ) • b + (0 : ℝ) • d = b := by simp
  have e2 : (1 - 1 - 1 : ℝ) • a + (1 : ℝ) • b + (1 : ℝ) • d = c := by rw [hc]; ext i; simp; ring
  have e3 : (1 - 0 - 1 : ℝ) • a + (0 : ℝ) • b + (1 : ℝ) • d = d := by simp
  have hcount : (if [det2 (b - a) (d - a), det2 (b - a) (d - a), det2 (b - a) (d - a), det2 (b - a) (d - a)].countP
      (fun d => decide (d > 0)) ≥ 3 then (1 : ℝ) else -1) = if det2 (b - a) (d - a) > 0 then (1 : ℝ) else -1 := by
    by_cases h : det2 (b - a) (d - a) > 0 <;> simp [h]
  simp only [outerNormals, Geo.kind, or_true, if_true, refNodeCoords, List.mapM_cons, List.mapM_nil, Geo.global,
    e0, e1, e2, e3, orientation, jacDet, Geo.jacobian, Option.map_some, Option.bind_some, Option.pure_def,
    Option.bind_eq_bind, List.length_cons, List.length_nil, Nat.reduceAdd, hcount]
  rfl

end Dpg
end Verif

namespace Verif
namespace Dpg
open Geo

theorem sgn_sq (P : Prop) [Decidable P] : (if P then (1 : ℝ) else -1) * (if P then (1 : ℝ) else -1) = 1 := by
  split <;> norm_num

theorem sgn_det {x : ℝ} (h : x ≠ 0) : 0 < (if x > 0 then (1 : ℝ) else -1) * x := by
  split
  · linarith
  · rename_i h'
    have := lt_of_le_of_ne (not_lt.1 h') h
    linarith

theorem outer_tria (a b c : Vec ℝ 2) (h : det2 (b - a) (c - a) ≠ 0) :
    ∃ ns, outerNormals (.triaO1 a b c) = some ns ∧ ns.length = 3 ∧
      ∀ i n, ns[i]? = some n → IsOuterNormal (.triaO1 a b c) i n := by
  refine ⟨_, normals_tria a b c, rfl, ?_⟩
  have hsq := sgn_sq (det2 (b - a) (c - a) > 0)
  have hpos := sgn_det h
  generalize (if det2 (b - a) (c - a) > 0 then (1 : ℝ) else -1) = o at hsq hpos
  have e1 : det2 (c - b) (a - b) = det2 (b - a) (c - a) := by
    simp only [det2_eq, Pi.sub_apply]; ring
  have e2 : det2 (a - c) (b - c) = det2 (b - a) (c - a) := by
    simp only [det2_eq, Pi.sub_apply]; ring
  have d0 : ∀ p0 p1 u : Vec ℝ 2, 0 < o * det2 (p1 - p0) u → 0 < dot (p1 - p0) (p1 - p0) := fun p0 p1 u h' =>
    pos_of_det (u := u) (by intro h; rw [h] at h'; simp at h')
  have key : ∀ p0 p1 p2 : Vec ℝ 2, 0 < o * det2 (p1 - p0) (p2 - p0) → ∀ i : ℕ,
      (∀ t p, (triaO1 a b c).global (sidePoint .tria i t) = some p → p = p0 + t • (p1 - p0)) →
      (∀ x q, RefEl.tria.Contains x → (∀ s, 0 ≤ s → s ≤ 1 → x ≠ sidePoint .tria i s) →
        (triaO1 a b c).global x = some q → ∃ s l : ℝ, 0 < l ∧ q = p0 + s • (p1 - p0) + l • (p2 - p0)) →
      IsOuterNormal (.triaO1 a b c) i (normalOf o p0 p1) := by
    intro p0 p1 p2 hp i hside hin
    refine ⟨normalOf_unit o hsq _ _ (d0 _ _ _ hp), ?_, ?_⟩
    · intro s t p q h1 h2
      rw [hside s p h1, hside t q h2]
      refine (sign_of_scaled hsq (d0 _ _ _ hp)).2 ?_
      simp only [det2_eq, Pi.sub_apply, Pi.add_apply, Pi.smul_apply, smul_eq_mul]; ring
    · intro x t p q hx hne h1 h2
      obtain ⟨s, l, hl, hq⟩ := hin x q hx hne h2
      rw [hside t p h1, hq]
      refine outer_side hsq hp hp hl.le le_rfl (.inl hl.ne') (s := s - t) (k := 0) ?_
      ext j; simp; ring
  intro i n hn
  match i, hn with
  | 0, hn =>
    obtain rfl : normalOf o a b = n := by simpa using hn
    refine key a b c hpos 0 ?_ ?_
    · intro t p hp
      obtain rfl := Option.some.inj hp
      ext j; simp; ring
    · intro x q hx hne hq
      match x, hx with
      | [x, y], ⟨hx1, hx2, hx3⟩ =>
        obtain rfl := Option.some.inj hq
        refine ⟨x, y, lt_of_le_of_ne hx2 ?_, ?_⟩
        · rintro rfl
          exact hne x hx1 (by linarith) (by simp [sidePoint, RefEl.corners, RefEl.numNodes])
        · ext j; simp; ring
  | 1, hn =>
    obtain rfl : normalOf o b c = n := by simpa using hn
    refine key b c a (by rw [e1]; exact hpos) 1 ?_ ?_
    · intro t p hp
      obtain rfl := Option.some.inj hp
      ext j; simp; ring
    · intro x q hx hne hq
      match x, hx with
      | [x, y], ⟨hx1, hx2, hx3⟩ =>
        obtain rfl := Option.some.inj hq
        refine ⟨y, 1 - x - y, lt_of_le_of_ne (by linarith) ?_, ?_⟩
        · intro h0
          refine hne y hx2 (by linarith) ?_
          have : x = 1 - y := by linarith
          simp [sidePoint, RefEl.corners, RefEl.numNodes, this]
        · ext j; simp; ring
  | 2, hn =>
    obtain rfl : normalOf o c a = n := by simpa using hn
    refine key c a b (by rw [e2]; exact hpos) 2 ?_ ?_
    · intro t p hp
      obtain rfl := Option.some.inj hp
      ext j; simp; ring
    · intro x q hx hne hq
      match x, hx with
      | [x, y], ⟨hx1, hx2, hx3⟩ =>
        obtain rfl := Option.some.inj hq
        refine ⟨1 - x - y, x, lt_of_le_of_ne hx1 ?_, ?_⟩
        · rintro rfl
          exact hne (1 - y) (by linarith) (by linarith) (by simp [sidePoint, RefEl.corners, RefEl.numNodes])
        · ext j; simp; ring
  | i + 3, hn => simp at hn

/-- Quadrilaterals whose map is bilinear, with normals of the sides of `a b c d` for the orientation `o`. -/
theorem outer_quad_aux (g : Geo ℝ 2) (hk : g.kind = .quad) (a b c d : Vec ℝ 2)
    (hg : ∀ x y : ℝ, g.global [x, y] =
      some (((1 - x) * (1 - y)) • a + (x * (1 - y)) • b + (x * y) • c + ((1 - x) * y) • d))
    (o : ℝ) (hsq : o * o = 1)
    (h0 : 0 < o * det2 (b - a) (c - b)) (h1 : 0 < o * det2 (c - b) (d - c))
    (h2 : 0 < o * det2 (d - c) (a - d)) (h3 : 0 < o * det2 (a - d) (b - a)) :
    ∀ i n, [normalOf o a b, normalOf o b c, normalOf o c d, normalOf o d a][i]? = some n → IsOuterNormal g i n := by
  have d0 : ∀ p0 p1 u : Vec ℝ 2, 0 < o * det2 (p1 - p0) u → 0 < dot (p1 - p0) (p1 - p0) := fun p0 p1 u h' =>
    pos_of_det (u := u) (by intro h; rw [h] at h'; simp at h')
  have key : ∀ p0 p1 p2 p3 : Vec ℝ 2, 0 < o * det2 (p1 - p0) (p2 - p1) → 0 < o * det2 (p0 - p3) (p1 - p0) → ∀ i : ℕ,
      (∀ t p, g.global (sidePoint .quad i t) = some p → p = p0 + t • (p1 - p0)) →
      (∀ x q, RefEl.quad.Contains x → (∀ s, 0 ≤ s → s ≤ 1 → x ≠ sidePoint .quad i s) →
        g.global x = some q → ∃ s l k : ℝ, 0 ≤ l ∧ 0 ≤ k ∧ (l ≠ 0 ∨ k ≠ 0) ∧
          q = p0 + s • (p1 - p0) + l • (p2 - p1) + k • (p3 - p0)) →
      IsOuterNormal g i (normalOf o p0 p1) := by
    intro p0 p1 p2 p3 hp hp' i hside hin
    have hp3 : 0 < o * det2 (p1 - p0) (p3 - p0) := by
      have : det2 (p1 - p0) (p3 - p0) = det2 (p0 - p3) (p1 - p0) := by
        simp only [det2_eq, Pi.sub_apply]; ring
      rw [this]; exact hp'
    refine ⟨normalOf_unit o hsq _ _ (d0 _ _ _ hp), ?_, ?_⟩
    · intro s t p q h1 h2
      rw [hk] at h1 h2
      rw [hside s p h1, hside t q h2]
      refine (sign_of_scaled hsq (d0 _ _ _ hp)).2 ?_
      simp only [det2_eq, Pi.sub_apply, Pi.add_apply, Pi.smul_apply, smul_eq_mul]; ring
    · intro x t p q hx hne h1 h2
      rw [hk] at hx hne h1
      obtain ⟨s, l, k, hl, hk', hlk, hq⟩ := hin x q hx hne h2
      rw [hside t p h1, hq]
      refine outer_side hsq hp hp3 hl hk' hlk (s := s - t) ?_
      ext j; simp; ring
  intro i n hn
  match i, hn with
  | 0, hn =>
    obtain rfl : normalOf o a b = n := by simpa using hn
    refine key a b c d h0 h3 0 ?_ ?_
    · intro t p hp
      obtain rfl := Option.some.inj ((hg _ _).symm.trans hp)
      ext j; simp; ring
    · intro x q hx hne hq
      match x, hx with
      | [x, y], ⟨hx1, hx2, hx3, hx4⟩ =>
        obtain rfl := Option.some.inj ((hg _ _).symm.trans hq)
        have hy : y ≠ 0 := by
          rintro rfl
          exact hne x hx1 hx2 (by simp [sidePoint, RefEl.corners, RefEl.numNodes])
        refine ⟨x, x * y, (1 - x) * y, mul_nonneg hx1 hx3, mul_nonneg (by linarith) hx3, ?_, ?_⟩
        · by_contra hc
          push Not at hc
          apply hy
          linarith [hc.1, hc.2]
        · ext j; simp; ring
  | 1, hn =>
    obtain rfl : normalOf o b c = n := by simpa using hn
    refine key b c d a h1 h0 1 ?_ ?_
    · intro t p hp
      obtain rfl := Option.some.inj ((hg _ _).symm.trans hp)
      ext j; simp; ring
    · intro x q hx hne hq
      match x, hx with
      | [x, y], ⟨hx1, hx2, hx3, hx4⟩ =>
        obtain rfl := Option.some.inj ((hg _ _).symm.trans hq)
        have hy : 1 - x ≠ 0 := by
          intro h
          obtain rfl : x = 1 := by linarith
          exact hne y hx3 hx4 (by simp [sidePoint, RefEl.corners, RefEl.numNodes])
        refine ⟨y, (1 - x) * y, (1 - x) * (1 - y), mul_nonneg (by linarith) hx3,
          mul_nonneg (by linarith) (by linarith), ?_, ?_⟩
        · by_contra hc
          push Not at hc
          apply hy
          linarith [hc.1, hc.2]
        · ext j; simp; ring
  | 2, hn =>
    obtain rfl : normalOf o c d = n := by simpa using hn
    refine key c d a b h2 h1 2 ?_ ?_
    · intro t p hp
      obtain rfl := Option.some.inj ((hg _ _).symm.trans hp)
      ext j; simp; ring
    · intro x q hx hne hq
      match x, hx with
      | [x, y], ⟨hx1, hx2, hx3, hx4⟩ =>
        obtain rfl := Option.some.inj ((hg _ _).symm.trans hq)
        have hy : 1 - y ≠ 0 := by
          intro h
          obtain rfl : y = 1 := by linarith
          exact hne (1 - x) (by linarith) (by linarith) (by simp [sidePoint, RefEl.corners, RefEl.numNodes])
        refine ⟨1 - x, (1 - x) * (1 - y), x * (1 - y), mul_nonneg (by linarith) (by linarith),
          mul_nonneg (by linarith) (by linarith), ?_, ?_⟩
        · by_contra hc
          push Not at hc
          apply hy
          linarith [hc.1, hc.2]
        · ext j; simp; ring
  | 3, hn =>
    obtain rfl : normalOf o d a = n := by simpa using hn
    refine key d a b c h3 h2 3 ?_ ?_
    · intro t p hp
      obtain rfl := Option.some.inj ((hg _ _).symm.trans hp)
      ext j; simp; ring
    · intro x q hx hne hq
      match x, hx with
      | [x, y], ⟨hx1, hx2, hx3, hx4⟩ =>
        obtain rfl := Option.some.inj ((hg _ _).symm.trans hq)
        have hy : x ≠ 0 := by
          rintro rfl
          exact hne (1 - y) (by linarith) (by linarith) (by simp [sidePoint, RefEl.corners, RefEl.numNodes])
        refine ⟨1 - y, x * (1 - y), x * y, mul_nonneg (by linarith) (by linarith),
          mul_nonneg (by linarith) (by linarith), ?_, ?_⟩
        · by_contra hc
          push Not at hc
          apply hy
          linarith [hc.1, hc.2]
        · ext j; simp; ring
  | i + 4, hn => simp at hn

theorem outer_quad (a b c d : Vec ℝ 2) (h : (Geo.quadO1 a b c d).StrictlyConvex) :
    ∃ ns, outerNormals (.quadO1 a b c d) = some ns ∧ ns.length = 4 ∧
      ∀ i n, ns[i]? = some n → IsOuterNormal (.quadO1 a b c d) i n := by
  refine ⟨_, normals_quad a b c d, rfl, ?_⟩
  have f0 : det2 (b - a) (d - a) = det2 (a - d) (b - a) := by simp only [det2_eq, Pi.sub_apply]; ring
  have f1 : det2 (c - d) (c - b) = det2 (c - b) (d - c) := by simp only [det2_eq, Pi.sub_apply]; ring
  have f2 : det2 (c - d) (d - a) = det2 (d - c) (a - d) := by simp only [det2_eq, Pi.sub_apply]; ring
  rw [f0, f1, f2]
  rcases h with ⟨g0, g1, g2, g3⟩ | ⟨g0, g1, g2, g3⟩
  · have ho : (if [det2 (a - d) (b - a), det2 (b - a) (c - b), det2 (c - b) (d - c), det2 (d - c) (a - d)].countP
        (fun d => decide (d > 0)) ≥ 3 then (1 : ℝ) else -1) = 1 := by simp [g0, g1, g2, g3]
    simp only [ho]
    exact outer_quad_aux _ rfl a b c d (fun _ _ => rfl) 1 (by norm_num) (by linarith) (by linarith) (by linarith) (by linarith)
  · have ho : (if [det2 (a - d) (b - a), det2 (b - a) (c - b), det2 (c - b) (d - c), det2 (d - c) (a - d)].countP
        (fun d => decide (d > 0)) ≥ 3 then (1 : ℝ) else -1) = -1 := by
      simp [not_lt.2 g0.le, not_lt.2 g1.le, not_lt.2 g2.le, not_lt.2 g3.le]
    simp only [ho]
    exact outer_quad_aux _ rfl a b c d (fun _ _ => rfl) (-1) (by norm_num) (by linarith) (by linarith) (by linarith) (by linarith)

theorem outer_para (a b c d : Vec ℝ 2) (h : det2 (b - a) (d - a) ≠ 0) (hp : d - c + b - a = 0) :
    ∃ ns, outerNormals (.parallelogram a b c d) = some ns ∧ ns.length = 4 ∧
      ∀ i n, ns[i]? = some n → IsOuterNormal (.parallelogram a b c d) i n := by
  refine ⟨_, normals_para a b c d hp, rfl, ?_⟩
  have hc : c = b + d - a := by
    have : c = (b + d - a) - (d - c + b - a) := by abel
    rw [this, hp, sub_zero]
  have hsq := sgn_sq (det2 (b - a) (d - a) > 0)
  have hpos := sgn_det h
  generalize (if det2 (b - a) (d - a) > 0 then (1 : ℝ) else -1) = o at hsq hpos
  have f0 : det2 (b - a) (c - b) = det2 (b - a) (d - a) := by rw [hc]; simp only [det2_eq, Pi.sub_apply, Pi.add_apply]; ring
  have f1 : det2 (c - b) (d - c) = det2 (b - a) (d - a) := by rw [hc]; simp only [det2_eq, Pi.sub_apply, Pi.add_apply]; ring
  have f2 : det2 (d - c) (a - d) = det2 (b - a) (d - a) := by rw [hc]; simp only [det2_eq, Pi.sub_apply, Pi.add_apply]; ring
  have f3 : det2 (a - d) (b - a) = det2 (b - a) (d - a) := by simp only [det2_eq, Pi.sub_apply]; ring
  refine outer_quad_aux _ rfl a b c d (fun x y => ?_) o hsq (by rw [f0]; exact hpos) (by rw [f1]; exact hpos)
    (by rw [f2]; exact hpos) (by rw [f3]; exact hpos)
  rw [hc]
  simp only [Geo.global]
  congr 1
  ext j; simp; ring

end Dpg
end Verif

namespace Verif
namespace Dpg
open Geo

theorem normal_unique2 {n n' e z : Vec ℝ 2} (he : e ≠ 0) (h1 : dot n n = 1) (h1' : dot n' n' = 1)
    (h2 : dot n e = 0) (h2' : dot n' e = 0) (h3 : dot n z < 0) (h3' : dot n' z < 0) : n = n' := by
  simp only [dot2] at *
  have hee : 0 < e 0 * e 0 + e 1 * e 1 := by
    rcases (add_nonneg (mul_self_nonneg (e 0)) (mul_self_nonneg (e 1))).lt_or_eq with h | h
    · exact h
    · exfalso
      apply he
      have e0 : e 0 = 0 := by nlinarith [mul_self_nonneg (e 0), mul_self_nonneg (e 1)]
      have e1 : e 1 = 0 := by nlinarith [mul_self_nonneg (e 0), mul_self_nonneg (e 1)]
      ext j; fin_cases j <;> assumption
  -- both are multiples of the rotated vector
  have hrep : ∀ v : Vec ℝ 2, v 0 * e 0 + v 1 * e 1 = 0 → ∃ s : ℝ, v 0 = s * e 1 ∧ v 1 = -(s * e 0) := by
    intro v hv
    refine ⟨(v 0 * e 1 - v 1 * e 0) / (e 0 * e 0 + e 1 * e 1), ?_, ?_⟩
    · rw [div_mul_eq_mul_div, eq_div_iff hee.ne']
      linear_combination e 0 * hv
    · rw [div_mul_eq_mul_div, eq_comm, neg_eq_iff_eq_neg, div_eq_iff hee.ne']
      linear_combination e 1 * hv
  obtain ⟨s, a0, a1⟩ := hrep n h2
  obtain ⟨s', b0, b1⟩ := hrep n' h2'
  rw [a0, a1] at h1 h3
  rw [b0, b1] at h1' h3'
  have hsq : s * s = s' * s' := by
    have : (s * s - s' * s') * (e 0 * e 0 + e 1 * e 1) = 0 := by linear_combination h1 - h1'
    rcases mul_eq_zero.1 this with h | h
    · linarith
    · exact absurd h hee.ne'
  have hss : s = s' := by
    rcases mul_self_eq_mul_self_iff.1 hsq with h | h
    · exact h
    · exfalso
      rw [h] at h3
      linarith
  ext j
  fin_cases j
  · show n 0 = n' 0
    rw [a0, b0, hss]
  · show n 1 = n' 1
    rw [a1, b1, hss]

theorem third_tria : ∀ i < 3, ∃ x : List ℝ, (∃ u v, x = [u, v]) ∧ RefEl.tria.Contains x ∧
    ∀ s : ℝ, 0 ≤ s → s ≤ 1 → x ≠ Geo.sidePoint .tria i s := by
  intro i hi
  match i, hi with
  | 0, _ => exact ⟨[0, 1], ⟨_, _, rfl⟩, by simp [RefEl.Contains], by
      intro s _ _ h; simp [Geo.sidePoint, RefEl.corners, RefEl.numNodes] at h⟩
  | 1, _ => exact ⟨[0, 0], ⟨_, _, rfl⟩, by simp [RefEl.Contains], by
      intro s _ _ h; simp [Geo.sidePoint, RefEl.corners, RefEl.numNodes] at h; linarith [h.1, h.2]⟩
  | 2, _ => exact ⟨[1, 0], ⟨_, _, rfl⟩, by simp [RefEl.Contains], by
      intro s _ _ h; simp [Geo.sidePoint, RefEl.corners, RefEl.numNodes] at h⟩

theorem third_quad : ∀ i < 4, ∃ x : List ℝ, (∃ u v, x = [u, v]) ∧ RefEl.quad.Contains x ∧
    ∀ s : ℝ, 0 ≤ s → s ≤ 1 → x ≠ Geo.sidePoint .quad i s := by
  intro i hi
  match i, hi with
  | 0, _ => exact ⟨[0, 1], ⟨_, _, rfl⟩, by simp [RefEl.Contains], by
      intro s _ _ h; simp [Geo.sidePoint, RefEl.corners, RefEl.numNodes] at h⟩
  | 1, _ => exact ⟨[0, 0], ⟨_, _, rfl⟩, by simp [RefEl.Contains], by
      intro s _ _ h; simp [Geo.sidePoint, RefEl.corners, RefEl.numNodes] at h⟩
  | 2, _ => exact ⟨[1, 0], ⟨_, _, rfl⟩, by simp [RefEl.Contains], by
      intro s _ _ h; simp [Geo.sidePoint, RefEl.corners, RefEl.numNodes] at h⟩
  | 3, _ => exact ⟨[1, 0], ⟨_, _, rfl⟩, by simp [RefEl.Contains], by
      intro s _ _ h; simp [Geo.sidePoint, RefEl.corners, RefEl.numNodes] at h⟩

theorem sub_ne {p q u : Vec ℝ 2} (h : det2 (q - p) u ≠ 0) : q - p ≠ 0 := by
  intro h0
  rw [h0] at h
  simp [det2_eq] at h

/-- The end points of the sides are different. -/
theorem side_ends (g : Geo ℝ 2) (h : g.StrictlyConvex) (i : ℕ) (hi : i < g.kind.numNodes) :
    ∃ p q, g.global (sidePoint g.kind i 0) = some p ∧ g.global (sidePoint g.kind i 1) = some q ∧ q - p ≠ 0 := by
  match g, h with
  | .triaO1 a b c, h =>
    have h : det2 (b - a) (c - a) ≠ 0 := h
    have h1 : det2 (c - b) (a - b) ≠ 0 := by
      have : det2 (c - b) (a - b) = det2 (b - a) (c - a) := by simp only [det2_eq, Pi.sub_apply]; ring
      rw [this]; exact h
    have h2 : det2 (a - c) (b - c) ≠ 0 := by
      have : det2 (a - c) (b - c) = det2 (b - a) (c - a) := by simp only [det2_eq, Pi.sub_apply]; ring
      rw [this]; exact h
    match i, hi with
    | 0, _ => exact ⟨a, b, by simp [Geo.kind, sidePoint, RefEl.corners, RefEl.numNodes, Geo.global],
        by simp [Geo.kind, sidePoint, RefEl.corners, RefEl.numNodes, Geo.global], sub_ne h⟩
    | 1, _ => exact ⟨b, c, by simp [Geo.kind, sidePoint, RefEl.corners, RefEl.numNodes, Geo.global],
        by simp [Geo.kind, sidePoint, RefEl.corners, RefEl.numNodes, Geo.global], sub_ne h1⟩
    | 2, _ => exact ⟨c, a, by simp [Geo.kind, sidePoint, RefEl.corners, RefEl.numNodes, Geo.global],
        by simp [Geo.kind, sidePoint, RefEl.corners, RefEl.numNodes, Geo.global], sub_ne h2⟩
  | .quadO1 a b c d, h =>
    have h' : det2 (b - a) (c - b) ≠ 0 ∧ det2 (c - b) (d - c) ≠ 0 ∧ det2 (d - c) (a - d) ≠ 0 ∧ det2 (a - d) (b - a) ≠ 0 := by
      rcases h with ⟨h1, h2, h3, h4⟩ | ⟨h1, h2, h3, h4⟩
      · exact ⟨h1.ne', h2.ne', h3.ne', h4.ne'⟩
      · exact ⟨h1.ne, h2.ne, h3.ne, h4.ne⟩
    match i, hi with
    | 0, _ => exact ⟨a, b, by simp [Geo.kind, sidePoint, RefEl.corners, RefEl.numNodes, Geo.global],
        by simp [Geo.kind, sidePoint, RefEl.corners, RefEl.numNodes, Geo.global], sub_ne h'.1⟩
    | 1, _ => exact ⟨b, c, by simp [Geo.kind, sidePoint, RefEl.corners, RefEl.numNodes, Geo.global],
        by simp [Geo.kind, sidePoint, RefEl.corners, RefEl.numNodes, Geo.global], sub_ne h'.2.1⟩
    | 2, _ => exact ⟨c, d, by simp [Geo.kind, sidePoint, RefEl.corners, RefEl.numNodes, Geo.global],
        by simp [Geo.kind, sidePoint, RefEl.corners, RefEl.numNodes, Geo.global], sub_ne h'.2.2.1⟩
    | 3, _ => exact ⟨d, a, by simp [Geo.kind, sidePoint, RefEl.corners, RefEl.numNodes, Geo.global],
        by simp [Geo.kind, sidePoint, RefEl.corners, RefEl.numNodes, Geo.global], sub_ne h'.2.2.2⟩
  | .parallelogram a b c d, h =>
    obtain ⟨h, hp⟩ := h
    have hc : c = b + d - a := by
      have : c = (b + d - a) - (d - c + b - a) := by abel
      rw [this, hp, sub_zero]
    have e2 : -a + b + d = c := by rw [hc]; abel
    have h1 : det2 (c - b) (b - a) ≠ 0 := by
      have : det2 (c - b) (b - a) = -det2 (b - a) (d - a) := by
        rw [hc]; simp only [det2_eq, Pi.sub_apply, Pi.add_apply]; ring
      rw [this]; exact neg_ne_zero.2 h
    have h2 : det2 (d - c) (a - d) ≠ 0 := by
      have : det2 (d - c) (a - d) = det2 (b - a) (d - a) := by
        rw [hc]; simp only [det2_eq, Pi.sub_apply, Pi.add_apply]; ring
      rw [this]; exact h
    have h3 : det2 (a - d) (b - a) ≠ 0 := by
      have : det2 (a - d) (b - a) = det2 (b - a) (d - a) := by simp only [det2_eq, Pi.sub_apply]; ring
      rw [this]; exact h
    match i, hi with
    | 0, _ => exact ⟨a, b, by simp [Geo.kind, sidePoint, RefEl.corners, RefEl.numNodes, Geo.global],
        by simp [Geo.kind, sidePoint, RefEl.corners, RefEl.numNodes, Geo.global], sub_ne h⟩
    | 1, _ => exact ⟨b, c, by simp [Geo.kind, sidePoint, RefEl.corners, RefEl.numNodes, Geo.global],
        by simp [Geo.kind, sidePoint, RefEl.corners, RefEl.numNodes, Geo.global, e2], sub_ne h1⟩
    | 2, _ => exact ⟨c, d, by simp [Geo.kind, sidePoint, RefEl.corners, RefEl.numNodes, Geo.global, e2],
        by simp [Geo.kind, sidePoint, RefEl.corners, RefEl.numNodes, Geo.global], sub_ne h2⟩
    | 3, _ => exact ⟨d, a, by simp [Geo.kind, sidePoint, RefEl.corners, RefEl.numNodes, Geo.global],
        by simp [Geo.kind, sidePoint, RefEl.corners, RefEl.numNodes, Geo.global], sub_ne h3⟩

theorem outer_unique (g : Geo ℝ 2) (h : g.StrictlyConvex) (i : ℕ) (hi : i < g.kind.numNodes) (n n' : Vec ℝ 2)
    (hn : g.IsOuterNormal i n) (hn' : g.IsOuterNormal i n') : n = n' := by
  obtain ⟨p, q, hp, hq, hpq⟩ := side_ends g h i hi
  obtain ⟨x, z, hx, hx2, hz⟩ : ∃ x z, g.kind.Contains x ∧
      (∀ s : ℝ, 0 ≤ s → s ≤ 1 → x ≠ Geo.sidePoint g.kind i s) ∧ g.global x = some z := by
    match g, h with
    | .triaO1 a b c, _ =>
      obtain ⟨x, ⟨u, v, rfl⟩, h1, h2⟩ := third_tria i hi
      exact ⟨[u, v], _, h1, h2, rfl⟩
    | .quadO1 a b c d, _ =>
      obtain ⟨x, ⟨u, v, rfl⟩, h1, h2⟩ := third_quad i hi
      exact ⟨[u, v], _, h1, h2, rfl⟩
    | .parallelogram a b c d, _ =>
      obtain ⟨x, ⟨u, v, rfl⟩, h1, h2⟩ := third_quad i hi
      exact ⟨[u, v], _, h1, h2, rfl⟩
  exact normal_unique2 hpq hn.unit hn'.unit (hn.orthogonal 0 1 p q hp hq) (hn'.orthogonal 0 1 p q hp hq)
    (hn.outer x 0 p z hx hx2 hp hz) (hn'.outer x 0 p z hx hx2 hp hz)

end Dpg
end Verif
