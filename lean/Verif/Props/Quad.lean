import Mathlib.Tactic.NormNum
import Mathlib.Tactic.FinCases
import Mathlib.Tactic.IntervalCases
import Verif.Lemmas.Quad

/-!
# C41, C42, C43: quadrature rules

`QuadRule.integrate q f` is the weighted sum a quadrature rule stands for, `refIntegral` the integral
over the reference element, `QuadRule.ExactFor q d` says that they agree for all polynomials of degree
`d` (see `Verif.Spec.Quad`).
-/

namespace Verif
open Finset

private theorem make_eq {K : Type} {ref : RefEl} {d : ℕ} {p : List (List K)} {w : List K}
    (h : (QuadRule.mk ref d p w).WellFormed) : QuadRule.make ref p w d = some ⟨ref, d, p, w⟩ :=
  if_pos h

/-! ## C41 -/

/-- **C41**, segments: `make_QuadRule` succeeds, and the rule is exact of the degree it reports, which is
at least the degree asked for. -/
theorem C41_segment (B : QuadBase ℝ) (degree : ℕ)
    (hB : IsGauss 0 1 (fun _ => 1) (degree / 2 + 1) (B.legendre (degree / 2 + 1))) :
    ∃ q, makeQuadRule B .segment degree = some q ∧ q.ref = .segment ∧ q.WellFormed ∧
      q.numPoints = degree / 2 + 1 ∧ q.degree = 2 * (degree / 2 + 1) - 1 ∧ degree ≤ q.degree ∧ q.ExactFor q.degree := by
  have hl : (B.legendre (degree / 2 + 1)).1.length = (B.legendre (degree / 2 + 1)).2.length := by
    rw [hB.1, hB.2.1]
  refine ⟨⟨.segment, 2 * (degree / 2 + 1) - 1, (B.legendre (degree / 2 + 1)).1.map fun x => [x],
    (B.legendre (degree / 2 + 1)).2⟩, ?_, rfl, ⟨by simp [RefEl.dimension], by simp [hl]⟩, ?_, rfl, ?_, ?_⟩
  · simp [makeQuadRule, QuadRule.make, RefEl.dimension, hl]
  · simp [QuadRule.numPoints, hB.1]
  · dsimp only; omega
  · refine seg_exact rfl _ (fun a ha f hf => ?_) ⟨by simp [RefEl.dimension], by simp [hl]⟩
    rw [← gauss_pow hB ha, QuadRule.integrate]
    dsimp only
    rw [List.zipWith_map_right, zipWith_swap]
    simp [hf]

private theorem tensor_rule (ref : RefEl) (hd : ref.dimension = 2) (r s : List ℝ × List ℝ) (n : ℕ)
    (F : ℝ → ℝ → ℝ) (G V : ℝ → ℝ) (d : ℕ)
    (hr1 : r.1.length = n) (hr2 : r.2.length = n) (hs1 : s.1.length = n) (hs2 : s.2.length = n)
    (row0 row1 wts : List ℝ)
    (h0 : row0 = r.1.flatMap fun a => s.1.map fun b => F a b)
    (h1 : row1 = replicateRow (s.1.map G) n) (hw : wts = kron r.2 (s.2.map V)) :
    ∃ q : QuadRule ℝ, ((fromRows (n * n) row0 row1).bind fun pts =>
        QuadRule.make ref pts wts d) = some q ∧
      q.ref = ref ∧ q.degree = d ∧ q.WellFormed ∧ q.numPoints = n ^ 2 ∧ ∀ f, q.integrate f =
        ((r.1.zip r.2).map fun a => ((s.1.zip s.2).map fun b =>
          a.2 * V b.2 * f [F a.1 b.1, G b.1]).sum).sum := by
  have hl : r.1.length = r.2.length := by rw [hr1, hr2]
  have hl' : s.1.length = s.2.length := by rw [hs1, hs2]
  obtain ⟨e1, e2⟩ := zip_unzip' hl
  obtain ⟨e3, e4⟩ := zip_unzip' hl'
  set P := r.1.zip r.2 with hP
  set Q := s.1.zip s.2 with hQ
  have lP : P.length = n := by simp [hP, hr1, hr2]
  have lQ : Q.length = n := by simp [hQ, hs1, hs2]
  have k0 : row0 = P.flatMap fun a => Q.map fun b => F a.1 b.1 := by
    rw [h0, e1, e3]; simp [List.flatMap_map, Function.comp_def]
  have k1 : row1 = P.flatMap fun _ => Q.map fun b => G b.1 := by
    rw [h1, e3, List.map_map, ← lP, replicateRow_map]; rfl
  have kw : wts = P.flatMap fun a => Q.map fun b => a.2 * V b.2 := by
    rw [hw, e2, e4, List.map_map, kron_map]; rfl
  rw [k0, k1, kw, tensor_points P Q (fun a b => F a.1 b.1) (fun b => G b.1) n n lP lQ]
  have wf : (QuadRule.mk ref d (P.flatMap fun a => Q.map fun b => [F a.1 b.1, G b.1])
      (P.flatMap fun a => Q.map fun b => a.2 * V b.2)).WellFormed := by
    constructor
    · intro c hc
      simp only [List.mem_flatMap, List.mem_map] at hc
      obtain ⟨a, -, b, -, rfl⟩ := hc
      simp [hd]
    · simp [List.length_flatMap]
  refine ⟨_, ?_, rfl, rfl, wf, by simp [QuadRule.numPoints, List.length_flatMap, lP, lQ, sq], fun f => ?_⟩
  · rw [Option.bind_some, QuadRule.make]
    exact if_pos wf
  · rw [QuadRule.integrate]
    dsimp only
    rw [tensor_sum P Q (fun a b => [F a.1 b.1, G b.1]) (fun a b => a.2 * V b.2) f]

/-- **C41**, quadrilaterals: the tensor product rule is exact for all polynomials of degree at most
`Degree()` in each variable, and `Degree()` is at least the degree asked for. -/
theorem C41_quad (B : QuadBase ℝ) (degree : ℕ)
    (hB : IsGauss 0 1 (fun _ => 1) (degree / 2 + 1) (B.legendre (degree / 2 + 1))) :
    ∃ q, makeQuadRule B .quad degree = some q ∧ q.ref = .quad ∧ q.WellFormed ∧
      q.numPoints = (degree / 2 + 1) ^ 2 ∧ q.degree = 2 * (degree / 2 + 1) - 1 ∧ degree ≤ q.degree ∧ q.ExactFor q.degree := by
  set n := degree / 2 + 1 with hn
  obtain ⟨q, hq, hr, hd, hw, hn2, hi⟩ := tensor_rule .quad rfl (B.legendre n) (B.legendre n) n
    (fun a _ => a) id id (2 * n - 1) hB.1 hB.2.1 hB.1 hB.2.1
    (kron (B.legendre n).1 (List.replicate n 1)) (replicateRow (B.legendre n).1 n)
    (kron (B.legendre n).2 (B.legendre n).2)
    (by simp [kron, List.map_const', hB.1]) (by simp) (by simp)
  refine ⟨q, by simpa [makeQuadRule, ← hn] using hq, hr, hw, hn2, hd, by omega, ?_⟩
  refine quad_exact hr _ (fun a ha b hb f hf => ?_) hw
  rw [hi]
  simp only [hf, id]
  rw [hd] at ha hb
  rw [← gauss_pow hB ha, ← gauss_pow hB hb, ← sum_prod]
  congr 2; funext c; congr 2; funext c'; ring

/-- **C41**, triangles beyond the hard-coded rules (degree 0 and degrees above 50): the rule obtained
from the Duffy transformation is exact for all polynomials of total degree at most `Degree()`, and
`Degree()` is at least the degree asked for. -/
theorem C41_tria (B : QuadBase ℝ) (degree : ℕ) (hdeg : degree = 0 ∨ 50 < degree)
    (hB : B.Exact (degree / 2 + 1)) :
    ∃ q, makeQuadRule B .tria degree = some q ∧ q.ref = .tria ∧ q.WellFormed ∧
      q.numPoints = (degree / 2 + 1) ^ 2 ∧ q.degree = 2 * (degree / 2 + 1) - 1 ∧ degree ≤ q.degree ∧ q.ExactFor q.degree := by
  set n := degree / 2 + 1 with hn
  obtain ⟨hL, hJ⟩ := hB
  obtain ⟨q, hq, hr, hd, hw, hn2, hi⟩ := tensor_rule .tria rfl (B.legendre n) (B.jacobi10 n) n
    (fun a b => a * (1 - (b + 1) / 2)) (fun b => (b + 1) / 2) (fun w => w * (1 / 4)) (2 * n - 1)
    hL.1 hL.2.1 hJ.1 hJ.2.1
    (kron (B.legendre n).1 (((B.jacobi10 n).1.map fun x => (x + 1) / 2).map fun y => 1 - y))
    (replicateRow ((B.jacobi10 n).1.map fun x => (x + 1) / 2) n)
    (kron (B.legendre n).2 ((B.jacobi10 n).2.map fun w => w * (1 / 4)))
    (by simp [kron, Function.comp_def]) rfl rfl
  refine ⟨q, ?_, hr, hw, hn2, hd, by omega, ?_⟩
  · rw [makeQuadRule]
    rw [← hn]
    rw [if_neg (by omega), if_neg (by omega)]
    exact hq
  refine tria_exact hr _ (fun a b hab f hf => ?_) hw
  rw [hi]
  simp only [hf]
  rw [hd] at hab
  rw [triaMoment, ← gauss_pow hL (by omega : a ≤ 2 * n - 1), ← jacobi_moment hJ hab, ← sum_prod]
  congr 2; funext c; congr 2; funext c'; rw [mul_pow]; ring

/-- **C41**: whatever the one-dimensional and hard-coded rules are, `Degree()` of the result is never
smaller than the degree asked for, provided the hard-coded rules report the degree in their name. -/
theorem C41_degree {K : Type} [Field K] (B : QuadBase K) (hB : ∀ d, 1 ≤ d → d ≤ 50 → (B.hard d).degree = d)
    (ref : RefEl) (degree : ℕ) (q : QuadRule K) (h : makeQuadRule B ref degree = some q) :
    degree ≤ q.degree := by
  cases ref with
  | point => simp [makeQuadRule] at h
  | segment =>
    obtain ⟨rfl, -⟩ := make_some h
    dsimp only; omega
  | quad =>
    simp only [makeQuadRule, Option.bind_eq_some_iff] at h
    obtain ⟨_, -, h⟩ := h
    obtain ⟨rfl, -⟩ := make_some h
    dsimp only; omega
  | tria =>
    simp only [makeQuadRule] at h
    split at h
    next h3 => simp at h; rw [← h, hB 4 (by omega) (by omega)]; omega
    next =>
      split at h
      next hd => simp at h; rw [← h, hB degree hd.1 hd.2]
      next =>
        simp only [Option.bind_eq_some_iff] at h
        obtain ⟨_, -, h⟩ := h
        obtain ⟨rfl, -⟩ := make_some h
        dsimp only; omega

/-- **C41**: there is no rule for points. -/
theorem C41_point {K : Type} [Field K] (B : QuadBase K) (degree : ℕ) :
    makeQuadRule B .point degree = none := rfl

/-- Gauss rules with one point. -/
noncomputable def onePoint : QuadBase ℝ where
  legendre _ := ([1 / 2], [1])
  jacobi10 _ := ([-1 / 3], [2])
  hard _ := QuadRule.empty

/-- The hypotheses of the theorems of C41 can be met: the one-point rules are Gauss rules. -/
theorem onePoint_exact : onePoint.Exact 1 := by
  have hp : ∀ p : Polynomial ℝ, p.natDegree ≤ 2 * 1 - 1 →
      ∀ x, p.eval x = p.coeff 1 * x + p.coeff 0 := by
    intro p hp x
    conv_lhs => rw [Polynomial.eq_X_add_C_of_natDegree_le_one (p := p) (by omega)]
    simp
  refine ⟨⟨rfl, rfl, fun p h => ?_⟩, ⟨rfl, rfl, fun p h => ?_⟩⟩
  · simp only [hp p h]
    rw [intervalIntegral.integral_const_mul, intervalIntegral.integral_add
      ((by fun_prop : Continuous _).intervalIntegrable _ _)
      ((by fun_prop : Continuous _).intervalIntegrable _ _), intervalIntegral.integral_const_mul,
      integral_id, intervalIntegral.integral_const]
    simp [onePoint]
  · simp only [hp p h]
    have : ∀ x : ℝ, (1 - x) ^ 1 * (1 + x) ^ 0 * (p.coeff 1 * x + p.coeff 0) =
        p.coeff 0 + ((p.coeff 1 - p.coeff 0) * x - p.coeff 1 * x ^ 2) := by intro x; ring
    simp only [this]
    rw [intervalIntegral.integral_add
      ((by fun_prop : Continuous _).intervalIntegrable _ _)
      ((by fun_prop : Continuous _).intervalIntegrable _ _), intervalIntegral.integral_sub
      ((by fun_prop : Continuous _).intervalIntegrable _ _)
      ((by fun_prop : Continuous _).intervalIntegrable _ _), intervalIntegral.integral_const_mul,
      intervalIntegral.integral_const_mul, integral_pow, integral_id, intervalIntegral.integral_const]
    simp [onePoint]
    ring

example : ∃ q, makeQuadRule onePoint .tria 0 = some q ∧ q.ref = .tria ∧ q.WellFormed ∧
    q.numPoints = 1 ∧ q.degree = 1 ∧ 0 ≤ q.degree ∧ q.ExactFor q.degree := C41_tria onePoint 0 (Or.inl rfl) onePoint_exact

example : ∃ q, makeQuadRule onePoint .quad 1 = some q ∧ q.ref = .quad ∧ q.WellFormed ∧
    q.numPoints = 1 ∧ q.degree = 1 ∧ 1 ≤ q.degree ∧ q.ExactFor q.degree := C41_quad onePoint 1 onePoint_exact.legendre

/-! ## C42 -/

private theorem tria_of_moments {q : QuadRule ℝ} (hq : q.ref = .tria) (hw : q.WellFormed) (d : ℕ)
    (h : ∀ a b, a + b ≤ d → q.integrate (fun p => (p.getD 0 0) ^ a * (p.getD 1 0) ^ b) =
      (a.factorial * b.factorial : ℝ) / (a + b + 2).factorial) : q.ExactFor d := by
  refine tria_exact hq d (fun a b hab f hf => ?_) hw
  rw [triaMoment_eq, ← h a b hab]
  refine integrate_congr q fun p hp => ?_
  have := hw.1 p hp
  rw [hq] at this
  obtain ⟨x, y, rfl⟩ := two_coords this
  simp [hf]

private theorem quad_of_moments {q : QuadRule ℝ} (hq : q.ref = .quad) (hw : q.WellFormed) (d : ℕ)
    (h : ∀ a b, a ≤ d → b ≤ d → q.integrate (fun p => (p.getD 0 0) ^ a * (p.getD 1 0) ^ b) =
      1 / (a + 1) * (1 / (b + 1))) : q.ExactFor d := by
  refine quad_exact hq d (fun a ha b hb f hf => ?_) hw
  rw [← h a b ha hb]
  refine integrate_congr q fun p hp => ?_
  have := hw.1 p hp
  rw [hq] at this
  obtain ⟨x, y, rfl⟩ := two_coords this
  simp [hf]

private theorem tria_inexact {q : QuadRule ℝ} (hq : q.ref = .tria) (a b : ℕ)
    (h : q.integrate (fun p => (p.getD 0 0) ^ a * (p.getD 1 0) ^ b) ≠
      (a.factorial * b.factorial : ℝ) / (a + b + 2).factorial) : ¬ q.ExactFor (a + b) := by
  intro he
  have hp : ∀ x y : ℝ, x ^ a * y ^ b = ∑ i ∈ range (a + b + 1), ∑ j ∈ range (a + b + 1 - i),
      (if i = a ∧ j = b then (1 : ℝ) else 0) * (x ^ i * y ^ j) := by
    intro x y
    rw [Finset.sum_eq_single a, Finset.sum_eq_single b]
    · simp
    · intro j _ hj; simp [hj]
    · intro hb; simp at hb; omega
    · intro i _ hi; simp [hi]
    · intro ha; simp at ha
  have := he (fun p => (p.getD 0 0) ^ a * (p.getD 1 0) ^ b) (by
    rw [hq]
    exact ⟨fun i j => if i = a ∧ j = b then 1 else 0, fun x y => by simpa using hp x y⟩)
  rw [hq] at this
  refine h (this.trans ?_)
  rw [← triaMoment_eq]
  simp only [refIntegral, List.getD_cons_zero, List.getD_cons_succ]
  simp_rw [hp]
  rw [tria_int_sum, Finset.sum_eq_single a, Finset.sum_eq_single b]
  · simp
  · intro j _ hj; simp [hj]
  · intro hb; simp at hb; omega
  · intro i _ hi; simp [hi]
  · intro ha; simp at ha

private theorem quad_inexact {q : QuadRule ℝ} (hq : q.ref = .quad) (a b d : ℕ) (ha : a ≤ d) (hb : b ≤ d)
    (h : q.integrate (fun p => (p.getD 0 0) ^ a * (p.getD 1 0) ^ b) ≠
      1 / (a + 1) * (1 / (b + 1))) : ¬ q.ExactFor d := by
  intro he
  have hp : ∀ x y : ℝ, x ^ a * y ^ b = ∑ i ∈ range (d + 1), ∑ j ∈ range (d + 1),
      (if i = a ∧ j = b then (1 : ℝ) else 0) * (x ^ i * y ^ j) := by
    intro x y
    rw [Finset.sum_eq_single a, Finset.sum_eq_single b]
    · simp
    · intro j _ hj; simp [hj]
    · intro hb; simp at hb; omega
    · intro i _ hi; simp [hi]
    · intro ha; simp at ha; omega
  have := he (fun p => (p.getD 0 0) ^ a * (p.getD 1 0) ^ b) (by
    rw [hq]
    exact ⟨fun i j => if i = a ∧ j = b then 1 else 0, fun x y => by simpa using hp x y⟩)
  rw [hq] at this
  refine h (this.trans ?_)
  simp only [refIntegral, List.getD_cons_zero, List.getD_cons_succ]
  simp_rw [hp]
  rw [quad_int_sum, Finset.sum_eq_single a, Finset.sum_eq_single b]
  · simp
  · intro j _ hj; simp [hj]
  · intro hb; simp at hb; omega
  · intro i _ hi; simp [hi]
  · intro ha; simp at ha; omega

/-- **C42**: `make_TriaQR_MidpointRule` and `make_TriaQR_P1O2` integrate all polynomials of total degree
one exactly, and not all of degree two: the degree they report is the degree of exactness. -/
theorem C42_triaMidpoint : ∃ q : QuadRule ℝ, triaMidpoint = some q ∧ q.ref = .tria ∧ q.WellFormed ∧
    q.degree = 1 ∧ q.ExactFor 1 ∧ ¬ q.ExactFor 2 := by
  have hw : (QuadRule.mk .tria 1 [[1 / 3, 1 / 3]] [1 / 2] : QuadRule ℝ).WellFormed := by
    simp [QuadRule.WellFormed, RefEl.dimension]
  refine ⟨_, make_eq hw, rfl, hw, rfl, tria_of_moments rfl hw 1 fun a b hab => ?_,
    tria_inexact rfl 2 0 ?_⟩
  · have ha : a ≤ 1 := by omega
    have hb : b ≤ 1 := by omega
    interval_cases a <;> interval_cases b <;>
      first | omega | norm_num [QuadRule.integrate, Nat.factorial]
  · norm_num [QuadRule.integrate, Nat.factorial]

/-- **C42**: `make_TriaQR_EdgeMidpointRule` and `make_TriaQR_P3O3`, with the weight 1/6 of the
documentation, integrate all polynomials of total degree two exactly, and not all of degree three. -/
theorem C42_triaEdgeMidpoint : ∃ q : QuadRule ℝ, triaEdgeMidpoint (1 / 6) = some q ∧ q.ref = .tria ∧
    q.WellFormed ∧ q.degree = 2 ∧ q.ExactFor 2 ∧ ¬ q.ExactFor 3 := by
  have hw : (QuadRule.mk .tria 2 [[1 / 2, 0], [1 / 2, 1 / 2], [0, 1 / 2]] [1 / 6, 1 / 6, 1 / 6] :
      QuadRule ℝ).WellFormed := by
    simp [QuadRule.WellFormed, RefEl.dimension]
  refine ⟨_, make_eq hw, rfl, hw, rfl, tria_of_moments rfl hw 2 fun a b hab => ?_,
    tria_inexact rfl 3 0 ?_⟩
  · have ha : a ≤ 2 := by omega
    have hb : b ≤ 2 := by omega
    interval_cases a <;> interval_cases b <;>
      first | omega | norm_num [QuadRule.integrate, Nat.factorial]
  · norm_num [QuadRule.integrate, Nat.factorial]

/-- **C42**: with the weight as it is written in the code, `0.16666666666666665741`, the value for a
polynomial of total degree two is the integral up to the factor `1 - 5.554 * 10⁻¹⁷` (half a unit in the
last place of a `double`). -/
theorem C42_triaEdgeMidpoint_literal : ∃ q : QuadRule ℝ,
    triaEdgeMidpoint (edgeMidpointLiteral : ℝ) = some q ∧ q.degree = 2 ∧
    ∀ f, IsPolyOn .tria 2 f → q.integrate f = (1 - 5554 / 10 ^ 20) * refIntegral .tria f := by
  obtain ⟨q, hq, hr, hw, hd, he, -⟩ := C42_triaEdgeMidpoint
  unfold triaEdgeMidpoint at hq
  obtain ⟨rfl, -⟩ := make_some hq
  refine ⟨⟨.tria, 2, [[1 / 2, 0], [1 / 2, 1 / 2], [0, 1 / 2]],
    [(edgeMidpointLiteral : ℝ), (edgeMidpointLiteral : ℝ), (edgeMidpointLiteral : ℝ)]⟩, ?_, rfl,
    fun f hf => ?_⟩
  · simp [triaEdgeMidpoint, QuadRule.make, RefEl.dimension]
  · rw [← he f hf]
    simp only [QuadRule.integrate, edgeMidpointLiteral]
    norm_num
    ring

/-- **C42**: `make_QuadQR_EdgeMidpointRule` and `make_QuadQR_P4O2` integrate all bilinear polynomials
exactly, and not all polynomials of degree two in each variable. -/
theorem C42_quadEdgeMidpoint : ∃ q : QuadRule ℝ, quadEdgeMidpoint = some q ∧ q.ref = .quad ∧
    q.WellFormed ∧ q.degree = 1 ∧ q.ExactFor 1 ∧ ¬ q.ExactFor 2 := by
  have hw : (QuadRule.mk .quad 1 [[1 / 2, 0], [1, 1 / 2], [1 / 2, 1], [0, 1 / 2]]
      [1 / 4, 1 / 4, 1 / 4, 1 / 4] : QuadRule ℝ).WellFormed := by
    simp [QuadRule.WellFormed, RefEl.dimension]
  refine ⟨_, make_eq hw, rfl, hw, rfl, quad_of_moments rfl hw 1 fun a b ha hb => ?_,
    quad_inexact rfl 2 0 2 le_rfl (by omega) ?_⟩
  · interval_cases a <;> interval_cases b <;> norm_num [QuadRule.integrate]
  · norm_num [QuadRule.integrate]

/-- **C42**: `make_TriaQR_P6O4` integrates all polynomials of total degree three exactly, and not all of
degree four. -/
theorem C42_triaP6O4 : ∃ q : QuadRule ℝ, triaP6O4 = some q ∧ q.ref = .tria ∧
    q.WellFormed ∧ q.degree = 3 ∧ q.numPoints = 6 ∧ q.ExactFor 3 ∧ ¬ q.ExactFor 4 := by
  have hw : (QuadRule.mk .tria 3
      [[1 / 2, 0], [1 / 2, 1 / 2], [0, 1 / 2], [1 / 6, 1 / 6], [1 / 6, 2 / 3], [2 / 3, 1 / 6]]
      (([1, 1, 1, 9, 9, 9] : List ℝ).map fun w => w / 60) : QuadRule ℝ).WellFormed := by
    simp [QuadRule.WellFormed, RefEl.dimension]
  refine ⟨_, make_eq hw, rfl, hw, rfl, rfl, tria_of_moments rfl hw 3 fun a b hab => ?_,
    tria_inexact rfl 4 0 ?_⟩
  · have ha : a ≤ 3 := by omega
    have hb : b ≤ 3 := by omega
    interval_cases a <;> interval_cases b <;>
      first | omega | norm_num [QuadRule.integrate, Nat.factorial]
  · norm_num [QuadRule.integrate, Nat.factorial]

/-- **C42**: `make_QuadRuleNodal` reports degree one and integrates all polynomials of degree one
exactly, on every reference element; on segments, triangles and quadrilaterals not all of degree two. -/
theorem C42_nodal (ref : RefEl) : ∃ q : QuadRule ℝ, quadRuleNodal ref = some q ∧ q.ref = ref ∧
    q.WellFormed ∧ q.degree = 1 ∧ q.points = refNodeCoords ref ∧ q.ExactFor 1 ∧
    (ref.dimension ≠ 0 → ¬ q.ExactFor 2) := by
  cases ref with
  | point =>
    have hw : (QuadRule.mk .point 1 [[]] [1] : QuadRule ℝ).WellFormed := by
      simp [QuadRule.WellFormed, RefEl.dimension]
    refine ⟨⟨.point, 1, [[]], [1]⟩, ?_, rfl, hw, rfl, rfl, ?_, fun h => absurd rfl h⟩
    · simp [quadRuleNodal, QuadRule.make, RefEl.dimension, RefEl.numNodes, refNodeCoords]
    · intro f _
      simp [QuadRule.integrate, refIntegral]
  | segment =>
    have hw : (QuadRule.mk .segment 1 [[0], [1]] [1 / 2, 1 / 2] : QuadRule ℝ).WellFormed := by
      simp [QuadRule.WellFormed, RefEl.dimension]
    refine ⟨⟨.segment, 1, [[0], [1]], [1 / 2, 1 / 2]⟩, ?_, rfl, hw, rfl, rfl, ?_, fun _ h => ?_⟩
    · simp [quadRuleNodal, QuadRule.make, RefEl.dimension, RefEl.numNodes, refNodeCoords,
        List.replicate]
    · refine seg_exact rfl 1 (fun a ha f hf => ?_) hw
      interval_cases a <;> norm_num [QuadRule.integrate, hf]
    · have := h (fun p => (p.getD 0 0) ^ 2)
        ⟨fun i => if i = 2 then 1 else 0, fun x => by simp⟩
      norm_num [QuadRule.integrate, refIntegral] at this
  | tria =>
    have hw : (QuadRule.mk .tria 1 [[0, 0], [1, 0], [0, 1]] [1 / 6, 1 / 6, 1 / 6] :
        QuadRule ℝ).WellFormed := by
      simp [QuadRule.WellFormed, RefEl.dimension]
    refine ⟨⟨.tria, 1, [[0, 0], [1, 0], [0, 1]], [1 / 6, 1 / 6, 1 / 6]⟩, ?_, rfl, hw, rfl, rfl,
      tria_of_moments rfl hw 1 fun a b hab => ?_, fun _ => tria_inexact rfl 2 0 ?_⟩
    · norm_num [quadRuleNodal, QuadRule.make, RefEl.dimension, RefEl.numNodes, refNodeCoords]
      simp [List.replicate]
    · have ha : a ≤ 1 := by omega
      have hb : b ≤ 1 := by omega
      interval_cases a <;> interval_cases b <;>
        first | omega | norm_num [QuadRule.integrate, Nat.factorial]
    · norm_num [QuadRule.integrate, Nat.factorial]
  | quad =>
    have hw : (QuadRule.mk .quad 1 [[0, 0], [1, 0], [1, 1], [0, 1]] [1 / 4, 1 / 4, 1 / 4, 1 / 4] :
        QuadRule ℝ).WellFormed := by
      simp [QuadRule.WellFormed, RefEl.dimension]
    refine ⟨⟨.quad, 1, [[0, 0], [1, 0], [1, 1], [0, 1]], [1 / 4, 1 / 4, 1 / 4, 1 / 4]⟩, ?_, rfl, hw,
      rfl, rfl, quad_of_moments rfl hw 1 fun a b ha hb => ?_, fun _ =>
      quad_inexact rfl 2 0 2 le_rfl (by omega) ?_⟩
    · norm_num [quadRuleNodal, QuadRule.make, RefEl.dimension, RefEl.numNodes, refNodeCoords]
      simp [List.replicate]
    · interval_cases a <;> interval_cases b <;> norm_num [QuadRule.integrate]
    · norm_num [QuadRule.integrate]

/-- **C42**: `make_QuadQR_MidpointRule` (`P1O2`) is the one-point rule at the centre and exact for
bilinear polynomials; `make_QuadQR_P4O4` is exact for polynomials of degree three in each variable. -/
theorem C42_quadGauss (B : QuadBase ℝ) (h1 : IsGauss 0 1 (fun _ => 1) 1 (B.legendre 1))
    (h2 : IsGauss 0 1 (fun _ => 1) 2 (B.legendre 2)) :
    (∃ q, quadMidpoint B = some q ∧ q.points = [[1 / 2, 1 / 2]] ∧ q.weights = [1] ∧ q.degree = 1 ∧
      q.ExactFor 1) ∧
    ∃ q, quadP4O4 B = some q ∧ q.numPoints = 4 ∧ q.degree = 3 ∧ q.ExactFor 3 := by
  constructor
  · obtain ⟨q, hq, -, -, -, hd, -, he⟩ := C41_quad B 1 h1
    have e0 := gauss_pow h1 (a := 0) (by omega)
    have e1 := gauss_pow h1 (a := 1) (by omega)
    obtain ⟨hp, hw, -⟩ := h1
    obtain ⟨x, hx⟩ := List.length_eq_one_iff.1 hp
    obtain ⟨w, hw'⟩ := List.length_eq_one_iff.1 hw
    simp only [hx, hw', List.zip_cons_cons, List.zip_nil_right, List.map_cons, List.map_nil,
      List.sum_cons, List.sum_nil, pow_zero, pow_one] at e0 e1
    norm_num at e0 e1
    subst e0
    have hq' := hq
    simp [makeQuadRule, QuadRule.make, fromRows, kron, replicateRow, hx, hw', RefEl.dimension] at hq'
    rw [one_mul] at e1
    subst e1
    refine ⟨q, hq, ?_, ?_, hd, by rw [hd] at he; exact he⟩ <;> simp [← hq']
  · obtain ⟨q, hq, -, -, hn, hd, -, he⟩ := C41_quad B 3 h2
    exact ⟨q, hq, hn, hd, by rw [hd] at he; exact he⟩

/-- The two-point Gauss-Legendre rule shows that the hypotheses can be met. -/
theorem twoPoint_exact : IsGauss 0 1 (fun _ => 1) 2
    ([1 / 2 - √3 / 6, 1 / 2 + √3 / 6], [1 / 2, 1 / 2]) := by
  refine ⟨rfl, rfl, fun p hp => ?_⟩
  have h3 : √3 ^ 2 = (3 : ℝ) := Real.sq_sqrt (by norm_num)
  have e : ∀ x, p.eval x = ∑ a ∈ range (3 + 1), p.coeff a * x ^ a := fun x =>
    Polynomial.eval_eq_sum_range' (by omega) x
  simp only [e, one_mul]
  rw [seg_int_sum]
  simp only [Finset.sum_range_succ, Finset.sum_range_zero, List.zipWith_cons_cons,
    List.zipWith_nil_right, List.sum_cons, List.sum_nil]
  push_cast
  have h33 : √3 ^ 3 = 3 * √3 := by rw [pow_succ, h3]
  ring_nf
  rw [h3]
  ring

/-- Gauss rules with at most two points. -/
noncomputable def twoPoint : QuadBase ℝ where
  legendre n := if n = 1 then ([1 / 2], [1]) else
    ([1 / 2 - √3 / 6, 1 / 2 + √3 / 6], [1 / 2, 1 / 2])
  jacobi10 _ := ([], [])
  hard _ := QuadRule.empty

example : ∃ q, quadP4O4 twoPoint = some q ∧ q.numPoints = 4 ∧ q.degree = 3 ∧ q.ExactFor 3 :=
  (C42_quadGauss twoPoint onePoint_exact.legendre twoPoint_exact).2

/-! ## C43 -/

namespace QuadCache

/-- What is stored is what `make_QuadRule` returns, or nothing. -/
private def Inv {K : Type} (mk : RefEl → ℕ → Option (QuadRule K)) (c : QuadCache K) : Prop :=
  c.cache.length = 5 ∧ ∀ ref v j q, c.cache[ref.id]? = some v → v[j]? = some q →
    q.numPoints = 0 ∨ mk ref j = some q

private theorem id_inj {r s : RefEl} (h : r.id = s.id) : r = s := by
  cases r <;> cases s <;> simp [RefEl.id] at h ⊢

private theorem id_lt (r : RefEl) : r.id < 5 := by cases r <;> simp [RefEl.id]

variable {K : Type} {mk : RefEl → ℕ → Option (QuadRule K)}

/-- One call, in a state in which only results of `mk` are stored. -/
private theorem get_step {c : QuadCache K} (hc : Inv mk c) {ref : RefEl} {d : ℕ} {q : QuadRule K}
    (hq : mk ref d = some q) (hd : d ≤ q.degree) :
    ∃ c', c.get mk ref d = some (c', (ref.id, d)) ∧ Inv mk c' ∧ c'.deref (ref.id, d) = some q ∧
      ∀ r' d' q', mk r' d' = some q' → c.deref (r'.id, d') = some q' →
        c'.deref (r'.id, d') = some q' := by
  obtain ⟨hlen, hinv⟩ := hc
  have hlt : ref.id < c.cache.length := by rw [hlen]; exact id_lt ref
  obtain ⟨v, hv⟩ : ∃ v, c.cache[ref.id]? = some v := ⟨_, List.getElem?_eq_getElem hlt⟩
  set v' := if v.length < d + 1 then grow v (d + 1) else v with hv'
  have hl' : d < v'.length := by
    rw [hv']; split
    · simp [grow]; omega
    · omega
  have hentry : ∀ (j : ℕ) x, v'[j]? = some x → x.numPoints = 0 ∨ mk ref j = some x := by
    intro j x hx
    rw [hv'] at hx
    split at hx
    · unfold grow at hx
      rw [List.getElem?_append] at hx
      split at hx
      · exact hinv ref v j x hv hx
      · have := List.mem_of_getElem? hx
        rw [List.mem_replicate] at this
        rw [this.2]; exact Or.inl rfl
    · exact hinv ref v j x hv hx
  have hold : ∀ (j : ℕ) x, v[j]? = some x → v'[j]? = some x := by
    intro j x hx
    rw [hv']; split
    · unfold grow
      rw [List.getElem?_append_left (List.getElem?_eq_some_iff.1 hx).1, hx]
    · exact hx
  have hsel : (if (v'[d]'hl').numPoints = 0 then mk ref d else some (v'[d]'hl')) = some q := by
    split
    · exact hq
    · next hne =>
      rcases hentry d _ (List.getElem?_eq_getElem hl') with h | h
      · exact absurd h hne
      · rw [← h, hq]
  refine ⟨⟨c.cache.set ref.id (v'.set d q)⟩, ?_, ⟨by simp [hlen], ?_⟩, ?_, ?_⟩
  · simp only [get, rules, hv, Option.bind_some]
    rw [← hv', List.getElem?_eq_getElem hl', Option.bind_some, hsel, Option.bind_some, if_pos hd]
  · intro r w j x hw hx
    simp only [List.getElem?_set] at hw
    split at hw
    · next hid =>
      have := id_inj hid
      subst this
      cases hw
      rw [List.getElem?_set] at hx
      split at hx
      · next hj => subst hj; cases hx; exact Or.inr hq
      · exact hentry j x hx
    · exact hinv r w j x hw hx
  · simp [deref, hlt, hl']
  · intro r' d' q' hmk hder
    simp only [deref, Option.bind_eq_some_iff] at hder ⊢
    obtain ⟨w, hw, hx⟩ := hder
    by_cases hid : ref.id = r'.id
    · have := id_inj hid
      subst this
      rw [hv] at hw
      cases hw
      refine ⟨v'.set d q, by simp [hlt], ?_⟩
      rw [List.getElem?_set]
      split
      · next hj => subst hj; rw [← hq, hmk]
      · exact hold d' q' hx
    · exact ⟨w, by rw [List.getElem?_set, if_neg hid]; exact hw, hx⟩

private theorem run_inv {calls : List (RefEl × ℕ)} :
    ∀ {c : QuadCache K}, Inv mk c →
      (∀ x ∈ calls, ∃ q, mk x.1 x.2 = some q ∧ x.2 ≤ q.degree) →
      ∃ c' refs, c.run mk calls = some (c', refs) ∧ Inv mk c' ∧ refs.length = calls.length ∧
        (∀ (i : ℕ) ref d, calls[i]? = some (ref, d) → ∃ r q, refs[i]? = some r ∧ mk ref d = some q ∧
          c'.deref r = some q) ∧
        ∀ r' d' q', mk r' d' = some q' → c.deref (r'.id, d') = some q' →
          c'.deref (r'.id, d') = some q' := by
  induction calls with
  | nil => intro c hc _; exact ⟨c, [], rfl, hc, rfl, by simp, fun _ _ _ _ h => h⟩
  | cons x t ih =>
    intro c hc hx
    obtain ⟨ref, d⟩ := x
    obtain ⟨q, hq, hd⟩ := hx (ref, d) (by simp)
    obtain ⟨c1, hg, hc1, hder, hkeep⟩ := get_step hc hq hd
    obtain ⟨c2, refs, hrun, hc2, hlen, hall, hkeep2⟩ := ih hc1 fun y hy => hx y (by simp [hy])
    refine ⟨c2, (ref.id, d) :: refs, by simp [run, hg, hrun], hc2, by simp [hlen], ?_, ?_⟩
    · intro i ref' d' hi
      cases i with
      | zero =>
        simp only [List.getElem?_cons_zero, Option.some.injEq, Prod.mk.injEq] at hi
        obtain ⟨rfl, rfl⟩ := hi
        exact ⟨_, q, rfl, hq, hkeep2 _ _ _ hq hder⟩
      | succ i => exact hall i ref' d' (by simpa using hi)
    · intro r' d' q' hm h
      exact hkeep2 _ _ _ hm (hkeep _ _ _ hm h)

private theorem inv_new : Inv mk (new : QuadCache K) := by
  refine ⟨rfl, fun ref v j q hv hq => ?_⟩
  have := List.mem_of_getElem? hv
  simp only [new, List.mem_replicate] at this
  rw [this.2] at hq
  simp at hq

end QuadCache

/-- **C43**: after any history of calls of `Get` on a fresh cache, reading through the reference the
`i`-th call returned gives what `make_QuadRule` returns for the arguments of the `i`-th call.  As the
history is arbitrary this holds right after the call (take the history that ends with it) and after any
later calls.  Only histories for which `make_QuadRule` succeeds and keeps its promise on the degree
(`C41_degree`) are considered. -/
theorem C43_transparent {K : Type} (mk : RefEl → ℕ → Option (QuadRule K)) (calls : List (RefEl × ℕ))
    (h : ∀ x ∈ calls, ∃ q, mk x.1 x.2 = some q ∧ x.2 ≤ q.degree) :
    ∃ c refs, QuadCache.new.run mk calls = some (c, refs) ∧ refs.length = calls.length ∧
      ∀ (i : ℕ) ref d, calls[i]? = some (ref, d) → ∃ r q, refs[i]? = some r ∧ mk ref d = some q ∧
        c.deref r = some q := by
  obtain ⟨c, refs, h1, -, h2, h3, -⟩ := QuadCache.run_inv QuadCache.inv_new h
  exact ⟨c, refs, h1, h2, h3⟩

/-- **C43**: a call for which `make_QuadRule` fails is not answered from the cache, whatever was called
before. -/
theorem C43_fails {K : Type} (mk : RefEl → ℕ → Option (QuadRule K)) (calls : List (RefEl × ℕ))
    (h : ∀ x ∈ calls, ∃ q, mk x.1 x.2 = some q ∧ x.2 ≤ q.degree) (ref : RefEl) (d : ℕ)
    (hf : mk ref d = none) (c : QuadCache K) (refs : List (ℕ × ℕ))
    (hrun : QuadCache.new.run mk calls = some (c, refs)) : c.get mk ref d = none := by
  obtain ⟨c', refs', h1, hinv, -⟩ := QuadCache.run_inv QuadCache.inv_new h
  rw [h1] at hrun
  cases hrun
  rw [Option.eq_none_iff_forall_ne_some]
  intro x hx
  simp only [QuadCache.get, QuadCache.rules, Option.bind_eq_some_iff] at hx
  obtain ⟨v, hv, e, he, q, hq, -⟩ := hx
  split at hq
  · rw [hf] at hq; cases hq
  · next hne =>
    split at he
    · unfold QuadCache.grow at he
      rw [List.getElem?_append] at he
      split at he
      · rcases hinv.2 ref v d e hv he with h | h
        · exact hne h
        · rw [hf] at h; cases h
      · have := List.mem_of_getElem? he
        rw [List.mem_replicate] at this
        rw [this.2] at hne; exact hne rfl
    · rcases hinv.2 ref v d e hv he with h | h
      · exact hne h
      · rw [hf] at h; cases h

/-- **C43**: a rule with at least one point is constructed only once: asking again does not consult
`make_QuadRule` (the result is the same for every `mk'` in its place), does not change the cache and
returns the same reference. -/
theorem C43_cached {K : Type} (mk mk' : RefEl → ℕ → Option (QuadRule K)) (c c' : QuadCache K)
    (ref : RefEl) (d : ℕ) (r : ℕ × ℕ) (h : c.get mk ref d = some (c', r))
    (hq : ∀ q, mk ref d = some q → q.numPoints ≠ 0) : c'.get mk' ref d = some (c', r) := by
  simp only [QuadCache.get, QuadCache.rules, Option.bind_eq_some_iff] at h
  obtain ⟨v, hv, e, he, q, hs, h⟩ := h
  split at h
  next hd =>
    simp only [Option.some.injEq, Prod.mk.injEq] at h
    obtain ⟨rfl, rfl⟩ := h
    have hne : q.numPoints ≠ 0 := by
      split at hs
      · exact hq q hs
      · next h => cases hs; exact h
    set v' := if v.length < d + 1 then QuadCache.grow v (d + 1) else v with hv'
    have hl : d < v'.length := (List.getElem?_eq_some_iff.1 he).1
    have hlt := (List.getElem?_eq_some_iff.1 hv).1
    simp [QuadCache.get, QuadCache.rules, hlt, Nat.not_le.2 hl,
      hl, hne, hd]
  next => simp at h

/-- The hypotheses of `C43_transparent` can be met, with repeated calls and different elements. -/
example : ∀ x ∈ [(RefEl.tria, 1), (RefEl.quad, 3), (RefEl.tria, 0), (RefEl.tria, 1)],
    ∃ q : QuadRule ℚ, (fun r d => some (QuadRule.mk r (d + 1) [[1 / 3, 1 / 3]] [1 / 2])) x.1 x.2 = some q ∧
      x.2 ≤ q.degree := by
  intro x _
  exact ⟨_, rfl, Nat.le_succ _⟩

end Verif
