import Verif.Model.Ipdg
import Verif.Spec.Ipdg
import Verif.Lemmas.DpgNormals
import Mathlib.Tactic.LinearCombination
import Mathlib.Tactic.FinCases

/-!
# Lemmas: geometry of triangles for the interior penalty method
-/

namespace Verif.Ipdg
open Verif Geo Dpg

theorem area2_shift (p : Fin 3 → Vec ℝ 2) (k : Fin 3) : det2 (p (k + 1) - p k) (p (k + 2) - p k) = area2 p := by
  unfold area2
  fin_cases k <;> simp only [det2_eq, Pi.sub_apply, Fin.zero_eta, Fin.mk_one, Fin.reduceFinMk, Fin.reduceAdd, zero_add] <;> ring

theorem corners_tria (a b c : Vec ℝ 2) : corners (.triaO1 a b c) = some (a, b, c) := by
  have e0 : (1 - 0 - 0 : ℝ) • a + (0 : ℝ) • b + (0 : ℝ) • c = a := by simp
  have e1 : (1 - 1 - 0 : ℝ) • a + (1 : ℝ) • b + (0 : ℝ) • c = b := by simp
  have e2 : (1 - 0 - 1 : ℝ) • a + (0 : ℝ) • b + (1 : ℝ) • c = c := by simp
  simp only [corners, Geo.kind, refNodeCoords, List.mapM_cons, List.mapM_nil, Geo.global,
    e0, e1, e2, Option.bind_some, Option.pure_def, Option.bind_eq_bind]

/-- The outward normal of the edge from `p` to `q` in a triangle with signed area of sign `s`. -/
noncomputable def outNormal (s : ℝ) (p q : Vec ℝ 2) : Vec ℝ 2 :=
  (s / Real.sqrt (dot (q - p) (q - p))) • ![q 1 - p 1, p 0 - q 0]

theorem dot_rot (p q : Vec ℝ 2) : dot (![q 1 - p 1, p 0 - q 0] : Vec ℝ 2) ![q 1 - p 1, p 0 - q 0] = dot (q - p) (q - p) := by
  rw [dot2, dot2]
  simp only [Matrix.cons_val_zero, Matrix.cons_val_one, Pi.sub_apply]
  ring

theorem orientedNormal_eq (p q r : Vec ℝ 2) (test : Vec ℝ 2) (ht : det2 (q - p) test = det2 (q - p) (r - p))
    (h : det2 (q - p) (r - p) ≠ 0) :
    orientedNormal p q test = some (outNormal (Real.sign (det2 (q - p) (r - p))) p q) := by
  have hl : 0 < dot (q - p) (q - p) := pos_of_det h
  have hf : dot (![q 1 - p 1, p 0 - q 0] : Vec ℝ 2) test = -det2 (q - p) (r - p) := by
    rw [← ht, dot2, det2_eq]
    simp only [Matrix.cons_val_zero, Matrix.cons_val_one, Pi.sub_apply]
    ring
  set d := det2 (q - p) (r - p) with hd
  set n : Vec ℝ 2 := ![q 1 - p 1, p 0 - q 0] with hn
  have hnn : dot ((-d) • n) ((-d) • n) = d ^ 2 * dot (q - p) (q - p) := by
    rw [dot_smul2, dot_comm2, dot_smul2, hn, dot_rot]; ring
  unfold orientedNormal unitVec outNormal
  simp only [← hn, hf, hnn]
  have h2 : d ^ 2 * dot (q - p) (q - p) ≠ 0 := mul_ne_zero (pow_ne_zero 2 h) hl.ne'
  rw [if_neg h2, Option.map_some]
  congr 1
  rw [Real.sqrt_mul (sq_nonneg d), Real.sqrt_sq_eq_abs, smul_smul, ← neg_smul]
  congr 1
  rcases lt_or_gt_of_ne h with h' | h'
  · rw [Real.sign_of_neg h', abs_of_neg h']; field_simp
  · rw [Real.sign_of_pos h', abs_of_pos h']; field_simp

/-- Normals of a triangle. -/
noncomputable def normalAt (p : Fin 3 → Vec ℝ 2) (k : Fin 3) : Vec ℝ 2 := outNormal (Real.sign (area2 p)) (p k) (p (k + 1))

theorem normals_eq (p : Fin 3 → Vec ℝ 2) (h : area2 p ≠ 0) :
    computeOutwardNormals (.triaO1 (p 0) (p 1) (p 2)) = some (normalAt p) := by
  have h0 := area2_shift p 0
  have h1 := area2_shift p 1
  have h2 := area2_shift p 2
  simp only [Fin.reduceAdd, zero_add] at h0 h1 h2
  unfold computeOutwardNormals
  rw [corners_tria, Option.bind_some]
  simp only []
  rw [orientedNormal_eq (p 0) (p 1) (p 2) _ rfl (h0 ▸ h), Option.bind_some,
    orientedNormal_eq (p 1) (p 2) (p 0) _ rfl (h1 ▸ h), Option.bind_some,
    orientedNormal_eq (p 2) (p 0) (p 1) _ rfl (h2 ▸ h), Option.bind_some, h0, h1, h2]
  congr 1
  ext k i
  fin_cases k <;> rfl

theorem turn_normalAt (p : Fin 3 → Vec ℝ 2) (k : Fin 3) : turn (normalAt p k) = tangent p k := by
  unfold turn normalAt outNormal tangent
  ext i
  fin_cases i
  · simp
    ring
  · simp

theorem normalAt_eq (p : Fin 3 → Vec ℝ 2) (k : Fin 3) : normalAt p k = ![tangent p k 1, -tangent p k 0] := by
  rw [← turn_normalAt]
  ext i
  fin_cases i <;> simp [turn]

theorem sign_sq {d : ℝ} (h : d ≠ 0) : Real.sign d * Real.sign d = 1 := by
  rcases lt_or_gt_of_ne h with h' | h'
  · rw [Real.sign_of_neg h']; norm_num
  · rw [Real.sign_of_pos h']; norm_num

theorem sign_mul_pos {d : ℝ} (h : d ≠ 0) : 0 < Real.sign d * d := by
  rcases lt_or_gt_of_ne h with h' | h'
  · rw [Real.sign_of_neg h']; linarith
  · rw [Real.sign_of_pos h']; linarith

theorem side_pos {p : Fin 3 → Vec ℝ 2} (h : area2 p ≠ 0) (k : Fin 3) : 0 < dot (p (k + 1) - p k) (p (k + 1) - p k) :=
  pos_of_det (u := p (k + 2) - p k) (by rw [area2_shift]; exact h)

theorem det2_smul (r : ℝ) (a b : Vec ℝ 2) : det2 (r • a) b = r * det2 a b := by
  rw [det2_eq, det2_eq]; simp only [Pi.smul_apply, smul_eq_mul]; ring

theorem isTangent_tangent {p : Fin 3 → Vec ℝ 2} (h : area2 p ≠ 0) (k : Fin 3) : IsTangent p k (tangent p k) := by
  have hl := side_pos h k
  have hs := Real.sqrt_pos.2 hl
  refine ⟨?_, ?_, ?_⟩
  · unfold tangent
    rw [dot_smul2, dot_comm2 (p (k + 1) - p k) (_ • _), dot_smul2]
    have h1 := Real.mul_self_sqrt hl.le
    have h2 := sign_sq h
    set r := Real.sqrt (dot (p (k + 1) - p k) (p (k + 1) - p k))
    rw [← h1]
    field_simp
    rw [pow_two]; exact h2
  · unfold tangent
    rw [det2_smul, det2_eq]; ring
  · unfold tangent
    rw [det2_smul, area2_shift, div_mul_eq_mul_div]
    exact div_pos (sign_mul_pos h) hs

theorem isTangent_unique {p : Fin 3 → Vec ℝ 2} (h : area2 p ≠ 0) {k : Fin 3} {t s : Vec ℝ 2} (ht : IsTangent p k t)
    (hs : IsTangent p k s) : t = s := by
  have hl := side_pos h k
  set e := p (k + 1) - p k with he
  set u := p (k + 2) - p k
  -- both are multiples of `e`
  have key : ∀ t : Vec ℝ 2, det2 t e = 0 → (dot e e) • t = (dot t e) • e := by
    intro t ht
    rw [det2_eq] at ht
    ext i
    simp only [Pi.smul_apply, smul_eq_mul, dot2]
    fin_cases i
    · simp only [Fin.zero_eta]; linear_combination (e 1) * ht
    · simp only [Fin.mk_one]; linear_combination (-e 0) * ht
  have h1 := key t ht.parallel
  have h2 := key s hs.parallel
  have hA : det2 e u ≠ 0 := by rw [he, area2_shift]; exact h
  have a1 : dot e e * det2 t u = dot t e * det2 e u := by rw [← det2_smul, h1, det2_smul]
  have a2 : dot e e * det2 s u = dot s e * det2 e u := by rw [← det2_smul, h2, det2_smul]
  have b1 : dot t e * dot t e = dot e e := by
    have : dot (dot e e • t) t = dot (dot t e • e) t := by rw [h1]
    rw [dot_smul2, ht.unit, dot_smul2, dot_comm2 e t] at this
    linarith
  have b2 : dot s e * dot s e = dot e e := by
    have : dot (dot e e • s) s = dot (dot s e • e) s := by rw [h2]
    rw [dot_smul2, hs.unit, dot_smul2, dot_comm2 e s] at this
    linarith
  have hpos : 0 < (dot t e) * (dot s e) := by
    have : 0 < (dot e e * det2 t u) * (dot e e * det2 s u) := mul_pos (mul_pos hl ht.left) (mul_pos hl hs.left)
    rw [a1, a2] at this
    have hq : 0 < det2 e u * det2 e u := mul_self_pos.2 hA
    by_contra hc
    have := mul_nonneg (neg_nonneg.2 (not_lt.1 hc)) hq.le
    nlinarith
  have hts : dot t e = dot s e := by
    have : (dot t e - dot s e) * (dot t e + dot s e) = 0 := by linear_combination b1 - b2
    rcases mul_eq_zero.1 this with h' | h'
    · linarith
    · exfalso
      have : dot t e = -dot s e := by linarith
      rw [this] at hpos
      nlinarith [mul_self_nonneg (dot s e)]
  have : (dot e e) • t = (dot e e) • s := by rw [h1, h2, hts]
  exact smul_right_injective _ hl.ne' this

theorem basis_eq (p : Fin 3 → Vec ℝ 2) (h : area2 p ≠ 0) :
    basisFunct (.triaO1 (p 0) (p 1) (p 2)) = some fun k => (area2 p)⁻¹ • (p (k + 2) - p (k + 1)) := by
  have hA : det2 (p 1 - p 0) (p 2 - p 0) = area2 p := rfl
  simp only [basisFunct, lagrO1Tria, Option.bind_some, jacobianInverseGramian, Geo.jacobian, if_true, invTranspose2, hA, if_neg h]
  congr 1
  ext k i
  fin_cases k <;> fin_cases i <;> simp [vec2, entry] <;> ring

theorem basis_curl (p : Fin 3 → Vec ℝ 2) (v : Fin 3 → ℝ) :
    v 0 • ((area2 p)⁻¹ • (p (0 + 2) - p (0 + 1))) + v 1 • ((area2 p)⁻¹ • (p (1 + 2) - p (1 + 1))) +
      v 2 • ((area2 p)⁻¹ • (p (2 + 2) - p (2 + 1))) = curl p v := by
  unfold curl
  rw [Fin.sum_univ_three, smul_add, smul_add, smul_comm (v 0), smul_comm (v 1), smul_comm (v 2)]

theorem isCurl_curl {p : Fin 3 → Vec ℝ 2} (h : area2 p ≠ 0) (v : Fin 3 → ℝ) : IsCurl p v (curl p v) := by
  refine ⟨v 0 - dot ![-curl p v 1, curl p v 0] (p 0), ![-curl p v 1, curl p v 0], ?_, ?_⟩
  · have hA : area2 p = (p 1 0 - p 0 0) * (p 2 1 - p 0 1) - (p 2 0 - p 0 0) * (p 1 1 - p 0 1) := by
      unfold area2; rw [det2_eq]; rfl
    intro i
    simp only [dot2, Matrix.cons_val_zero, Matrix.cons_val_one, curl, Fin.sum_univ_three, Pi.smul_apply, Pi.add_apply, Pi.sub_apply, smul_eq_mul]
    set D := area2 p
    fin_cases i <;> simp only [Fin.reduceAdd, zero_add, Fin.zero_eta, Fin.mk_one, Fin.reduceFinMk] <;> field_simp
    · ring
    · linear_combination (v 0 - v 1) * hA
    · linear_combination (v 0 - v 2) * hA
  · ext i
    fin_cases i <;> simp

theorem isCurl_unique {p : Fin 3 → Vec ℝ 2} (h : area2 p ≠ 0) {v : Fin 3 → ℝ} {u w : Vec ℝ 2} (hu : IsCurl p v u)
    (hw : IsCurl p v w) : u = w := by
  obtain ⟨α, g, h1, rfl⟩ := hu
  obtain ⟨β, k, h2, rfl⟩ := hw
  have e0 := (h1 0).trans (h2 0).symm
  have e1 := (h1 1).trans (h2 1).symm
  have e2 := (h1 2).trans (h2 2).symm
  simp only [dot2] at e0 e1 e2
  have hA : area2 p = (p 1 0 - p 0 0) * (p 2 1 - p 0 1) - (p 2 0 - p 0 0) * (p 1 1 - p 0 1) := by
    unfold area2; rw [det2_eq]; rfl
  have a0 : area2 p * (g 0 - k 0) = 0 := by
    rw [hA]
    linear_combination (p 2 1 - p 0 1) * (e1 - e0) - (p 1 1 - p 0 1) * (e2 - e0)
  have a1 : area2 p * (g 1 - k 1) = 0 := by
    rw [hA]
    linear_combination (p 1 0 - p 0 0) * (e2 - e0) - (p 2 0 - p 0 0) * (e1 - e0)
  have b0 : g 0 = k 0 := by rcases mul_eq_zero.1 a0 with h' | h' <;> [exact absurd h' h; linarith]
  have b1 : g 1 = k 1 := by rcases mul_eq_zero.1 a1 with h' | h' <;> [exact absurd h' h; linarith]
  rw [b0, b1]

end Verif.Ipdg
