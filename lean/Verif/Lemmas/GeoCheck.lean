import Verif.Spec.GeoCheck
import Mathlib.Tactic.Linarith
import Mathlib.Tactic.NormNum
import Mathlib.Tactic.FieldSimp
import Mathlib.Tactic.LinearCombination
import Mathlib.LinearAlgebra.Matrix.Determinant.Basic

/-! The degeneracy checks of the constructors of cells. -/

namespace Verif
namespace Geo
variable {w : ℕ}

/-- Gram determinant. -/
noncomputable def gramDet (u v : Vec ℝ w) : ℝ := dot u u * dot v v - dot u v * dot u v

theorem gc_dot_comm (u v : Vec ℝ w) : dot u v = dot v u := Finset.sum_congr rfl fun i _ => mul_comm _ _

theorem gc_dot_self_nonneg (u : Vec ℝ w) : 0 ≤ dot u u := Finset.sum_nonneg fun i _ => mul_self_nonneg _

theorem gc_dot_add_left (u v x : Vec ℝ w) : dot (u + v) x = dot u x + dot v x := by
  simp [dot, add_mul, Finset.sum_add_distrib]

theorem gc_dot_sub_left (u v x : Vec ℝ w) : dot (u - v) x = dot u x - dot v x := by
  simp [dot, sub_mul, Finset.sum_sub_distrib]

theorem gc_dot_smul_left (t : ℝ) (u x : Vec ℝ w) : dot (t • u) x = t * dot u x := by
  simp [dot, Finset.mul_sum, mul_assoc]

theorem gc_dot_neg_left (u x : Vec ℝ w) : dot (-u) x = - dot u x := by
  simp [dot]

theorem gc_dot_add_right (u v x : Vec ℝ w) : dot x (u + v) = dot x u + dot x v := by
  rw [gc_dot_comm, gc_dot_add_left, gc_dot_comm u, gc_dot_comm v]

theorem gc_dot_sub_right (u v x : Vec ℝ w) : dot x (u - v) = dot x u - dot x v := by
  rw [gc_dot_comm, gc_dot_sub_left, gc_dot_comm u, gc_dot_comm v]

theorem gc_dot_smul_right (t : ℝ) (u x : Vec ℝ w) : dot x (t • u) = t * dot x u := by
  rw [gc_dot_comm, gc_dot_smul_left, gc_dot_comm u]

theorem gc_dot_neg_right (u x : Vec ℝ w) : dot x (-u) = - dot x u := by
  rw [gc_dot_comm, gc_dot_neg_left, gc_dot_comm u]

theorem gc_dot_self_eq_zero {u : Vec ℝ w} (h : dot u u = 0) : u = 0 := by
  funext i
  have := (Finset.sum_eq_zero_iff_of_nonneg (fun i _ => mul_self_nonneg (u i))).1 h i (Finset.mem_univ i)
  exact mul_self_eq_zero.1 this

theorem gramDet_nonneg (u v : Vec ℝ w) : 0 ≤ gramDet u v := by
  unfold gramDet
  have h : ∀ t : ℝ, 0 ≤ dot (v - t • u) (v - t • u) := fun t => gc_dot_self_nonneg _
  simp only [gc_dot_sub_left, gc_dot_sub_right, gc_dot_smul_left, gc_dot_smul_right, gc_dot_comm v u] at h
  rcases (gc_dot_self_nonneg u).lt_or_eq with hu | hu
  · have := h (dot u v / dot u u)
    have e : dot v v - dot u v / dot u u * dot u v - dot u v / dot u u * (dot u v - dot u v / dot u u * dot u u) =
        (dot u u * dot v v - dot u v * dot u v) / dot u u := by
      field_simp
      ring
    have h2 : 0 ≤ (dot u u * dot v v - dot u v * dot u v) / dot u u := by
      rw [← e]
      nlinarith [this]
    by_contra h3
    push Not at h3
    have := div_neg_of_neg_of_pos h3 hu
    linarith
  · have hz := gc_dot_self_eq_zero hu.symm
    subst hz
    simp [dot]

theorem spannedArea_eq (u v : Vec ℝ w) : spannedArea u v = Real.sqrt (gramDet u v) := by
  unfold spannedArea gramDet
  congr 1
  rw [Matrix.det_fin_two]
  simp only [Matrix.mul_apply, Matrix.transpose_apply, matrix, dot]
  simp
  left
  exact Finset.sum_congr rfl fun i _ => mul_comm _ _

theorem lengthSq_eq (p q : Vec ℝ w) : lengthSq p q = dot (p - q) (p - q) :=
  Finset.sum_congr rfl fun i _ => by simp [pow_two]

theorem sqDist_eq (p q : Vec ℝ w) : sqDist p q = lengthSq p q := (lengthSq_eq p q).symm

theorem lengthSq_comm (p q : Vec ℝ w) : lengthSq p q = lengthSq q p :=
  Finset.sum_congr rfl fun i _ => by ring

theorem lengthSq_nonneg (p q : Vec ℝ w) : 0 ≤ lengthSq p q := Finset.sum_nonneg fun i _ => sq_nonneg _

theorem abs_det_eq (u v : Vec ℝ 2) : |u 0 * v 1 - u 1 * v 0| = Real.sqrt (gramDet u v) := by
  rw [← Real.sqrt_sq_eq_abs]
  congr 1
  simp [gramDet, dot, Fin.sum_univ_two]
  ring

theorem crossNorm_eq (u v : Vec ℝ 3) : crossNorm u v = Real.sqrt (gramDet u v) := by
  unfold crossNorm
  congr 1
  simp [gramDet, dot, Fin.sum_univ_three, entry]
  ring

theorem assertTria_eq (tol : ℝ) (a b c : Vec ℝ w) :
    assertNonDegenerateTriangle tol a b c = some true ↔ (w = 2 ∨ w = 3) ∧ WellShapedTria tol a b c := by
  unfold assertNonDegenerateTriangle WellShapedTria
  simp only [sqDist_eq, gt_iff_lt, lengthSq_comm b a, lengthSq_comm c b, lengthSq_comm a c]
  match w with
  | 0 => simp
  | 1 => simp
  | 2 =>
    have e : (entry b 0 - entry a 0) * (entry c 1 - entry a 1) - (entry b 1 - entry a 1) * (entry c 0 - entry a 0) =
        (b - a) 0 * (c - a) 1 - (b - a) 1 * (c - a) 0 := by simp [entry]
    simp only [e, abs_det_eq, spannedArea_eq]
    split_ifs <;> simp_all
  | 3 =>
    simp only [crossNorm_eq, spannedArea_eq]
    split_ifs <;> simp_all
  | n + 4 => simp

theorem assertQuad_eq (tol : ℝ) (a b c d : Vec ℝ w) :
    assertNonDegenerateQuad tol a b c d = some true ↔ (w = 2 ∨ w = 3) ∧ WellShapedQuad tol a b c d := by
  unfold assertNonDegenerateQuad WellShapedQuad
  simp only [sqDist_eq, gt_iff_lt, lengthSq_comm b a, lengthSq_comm c b, lengthSq_comm d c, lengthSq_comm a d]
  match w with
  | 0 => simp
  | 1 => simp
  | 2 =>
    have e : ∀ b : Vec ℝ 2, (entry b 0 - entry a 0) * (entry c 1 - entry a 1) -
        (entry b 1 - entry a 1) * (entry c 0 - entry a 0) = (b - a) 0 * (c - a) 1 - (b - a) 1 * (c - a) 0 := by
      intro b
      simp [entry]
    simp only [e, abs_det_eq, spannedArea_eq]
    split_ifs <;> simp_all
  | 3 =>
    simp only [crossNorm_eq, spannedArea_eq]
    split_ifs <;> simp_all
  | n + 4 => simp

theorem assertTria_cases (tol : ℝ) (a b c : Vec ℝ w) :
    assertNonDegenerateTriangle tol a b c = some true ∨ assertNonDegenerateTriangle tol a b c = none := by
  unfold assertNonDegenerateTriangle
  match w with
  | 0 => simp
  | 1 => simp
  | 2 => simp only []; split_ifs <;> simp
  | 3 => simp only []; split_ifs <;> simp
  | n + 4 => simp

theorem assertQuad_cases (tol : ℝ) (a b c d : Vec ℝ w) :
    assertNonDegenerateQuad tol a b c d = some true ∨ assertNonDegenerateQuad tol a b c d = none := by
  unfold assertNonDegenerateQuad
  match w with
  | 0 => simp
  | 1 => simp
  | 2 => simp only []; split_ifs <;> simp
  | 3 => simp only []; split_ifs <;> simp
  | n + 4 => simp

theorem newTria_iff (a b c : Vec ℝ w) (g : Geo ℝ w) : newTriaO1 [a, b, c] = some g ↔
    (w = 2 ∨ w = 3) ∧ WellShapedTria (1 / 10 ^ 8) a b c ∧ g = triaO1 a b c := by
  unfold newTriaO1
  rw [← and_assoc, ← assertTria_eq]
  rcases assertTria_cases defaultTol a b c with h | h
  · have h' : assertNonDegenerateTriangle (1 / 10 ^ 8) a b c = some true := h
    try dsimp only
    rw [h, h', Option.bind_some]
    constructor
    · rintro ⟨⟩
      exact ⟨rfl, rfl⟩
    · rintro ⟨_, rfl⟩
      rfl
  · have h' : assertNonDegenerateTriangle (1 / 10 ^ 8) a b c = none := h
    try dsimp only
    rw [h, h']
    constructor
    · intro hh
      cases hh
    · rintro ⟨hh, _⟩
      cases hh

theorem newQuad_iff (a b c d : Vec ℝ w) (g : Geo ℝ w) : newQuadO1 [a, b, c, d] = some g ↔
    (w = 2 ∨ w = 3) ∧ WellShapedQuad (1 / 10 ^ 8) a b c d ∧ g = quadO1 a b c d := by
  unfold newQuadO1
  rw [← and_assoc, ← assertQuad_eq]
  rcases assertQuad_cases defaultTol a b c d with h | h
  · have h' : assertNonDegenerateQuad (1 / 10 ^ 8) a b c d = some true := h
    try dsimp only
    rw [h, h', Option.bind_some]
    constructor
    · rintro ⟨⟩
      exact ⟨rfl, rfl⟩
    · rintro ⟨_, rfl⟩
      rfl
  · have h' : assertNonDegenerateQuad (1 / 10 ^ 8) a b c d = none := h
    try dsimp only
    rw [h, h']
    constructor
    · intro hh
      cases hh
    · rintro ⟨hh, _⟩
      cases hh

theorem newParallelogram_iff (a b c d : Vec ℝ w) (g : Geo ℝ w) : newParallelogram [a, b, c, d] = some g ↔
    (w = 2 ∨ w = 3) ∧ WellShapedQuad (1 / 10 ^ 8) a b c d ∧
      Real.sqrt (lengthSq (d + b) (c + a)) < 1 / 10 ^ 8 * Real.sqrt (lengthSq c a) ∧ g = parallelogram a b c d := by
  unfold newParallelogram
  rw [← and_assoc, ← assertQuad_eq, lengthSq_eq, lengthSq_eq, show d + b - (c + a) = d - c + b - a by abel]
  rcases assertQuad_cases defaultTol a b c d with h | h
  · have h' : assertNonDegenerateQuad (1 / 10 ^ 8) a b c d = some true := h
    simp only [h, h', mkParallelogram, Option.bind_some, true_and]
    split_ifs with h1
    · simp only [h1, true_and, Option.some.injEq, eq_comm]
    · simp only [h1, false_and, reduceCtorEq]
  · have h' : assertNonDegenerateQuad (1 / 10 ^ 8) a b c d = none := h
    try dsimp only
    rw [h, h']
    constructor
    · intro hh
      cases hh
    · rintro ⟨hh, _⟩
      cases hh

theorem newSpanned_iff (a b d : Vec ℝ w) (g : Geo ℝ w) : newSpanned a b d = some g ↔
    (w = 2 ∨ w = 3) ∧ WellShapedQuad (1 / 10 ^ 8) a b (b + (d - a)) d ∧ g = parallelogram a b (b + (d - a)) d := by
  unfold newSpanned
  rw [← and_assoc, ← assertQuad_eq]
  rcases assertQuad_cases defaultTol a b (b + (d - a)) d with h | h
  · have h' : assertNonDegenerateQuad (1 / 10 ^ 8) a b (b + (d - a)) d = some true := h
    try dsimp only
    rw [h, h', Option.map_some]
    constructor
    · rintro ⟨⟩
      exact ⟨rfl, rfl⟩
    · rintro ⟨_, rfl⟩
      rfl
  · have h' : assertNonDegenerateQuad (1 / 10 ^ 8) a b (b + (d - a)) d = none := h
    try dsimp only
    rw [h, h']
    constructor
    · intro hh
      cases hh
    · rintro ⟨hh, _⟩
      cases hh

/-! ### Regular parametrizations -/

/-- Cells with two columns in their Jacobians. -/
theorem regular_of {g : Geo ℝ w} (hw : w = 2 ∨ w = 3) (hg : (∃ a b c, g = triaO1 a b c) ∨ (∃ a b c d, g = quadO1 a b c d) ∨
      ∃ a b c d, g = parallelogram a b c d)
    (h : ∀ x y, g.kind.Contains [x, y] → ∃ u v, g.jacobian [x, y] = some [u, v] ∧ 0 < gramDet u v) : g.Regular := by
  intro l hl
  obtain ⟨x, y, rfl⟩ : ∃ x y, l = [x, y] := by
    rcases hg with ⟨a, b, c, rfl⟩ | ⟨a, b, c, d, rfl⟩ | ⟨a, b, c, d, rfl⟩ <;>
    · match l, hl with
      | [x, y], _ => exact ⟨x, y, rfl⟩
  obtain ⟨u, v, h1, h2⟩ := h x y hl
  have e1 : g.jacobianInverseGramian [x, y] = if w = 2 then invTranspose2 u v else gramInv2 u v := by
    rcases hg with ⟨a, b, c, rfl⟩ | ⟨a, b, c, d, rfl⟩ | ⟨a, b, c, d, rfl⟩ <;> simp [jacobianInverseGramian, h1]
  have e2 : g.integrationElement [x, y] =
      some (if w = 2 then |det2 u v| else Real.sqrt (dot u u * dot v v - dot u v * dot u v)) := by
    rcases hg with ⟨a, b, c, rfl⟩ | ⟨a, b, c, d, rfl⟩ | ⟨a, b, c, d, rfl⟩ <;> simp [integrationElement, h1]
  rw [e1, e2]
  rcases hw with rfl | rfl
  · have hd : det2 u v * det2 u v = gramDet u v := by
      simp [det2, gramDet, dot, Fin.sum_univ_two, entry]
      ring
    have hd0 : det2 u v ≠ 0 := by
      intro h0
      rw [h0] at hd
      linarith
    refine ⟨?_, |det2 u v|, abs_pos.2 hd0, by simp⟩
    simp [invTranspose2, hd0]
  · have h2' : 0 < dot u u * dot v v - dot u v * dot u v := h2
    refine ⟨?_, _, Real.sqrt_pos.2 h2', by simp⟩
    simp [gramInv2, h2'.ne']

theorem wellShapedTria_pos {tol : ℝ} (ht : 0 ≤ tol) {a b c : Vec ℝ w} (h : WellShapedTria tol a b c) :
    0 < gramDet (b - a) (c - a) := by
  obtain ⟨_, _, _, h4⟩ := h
  rw [spannedArea_eq] at h4
  have h1 := lengthSq_nonneg a b
  have h2 := lengthSq_nonneg b c
  have h3 := lengthSq_nonneg c a
  refine Real.sqrt_pos.1 (lt_of_le_of_lt ?_ h4)
  exact mul_nonneg ht (by linarith)

end Geo
end Verif
