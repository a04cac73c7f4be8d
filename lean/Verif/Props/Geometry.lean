import Verif.Lemmas.Geometry
import Mathlib.Tactic.IntervalCases
import Mathlib.Tactic.LinearCombination

/-!
# C37 - C39, C57: geometries
-/

namespace Verif
open Geo

section Field
variable {K : Type} [Field K] [LinearOrder K] [IsStrictOrderedRing K] {w : ℕ}

/-- **C37**: `Global` maps the corners of the reference element and, for second order geometries, the
midpoints of its sides to the coordinates passed to the constructor, in this order. -/
theorem C37_interpolation (g : Geo K w) (hg : g.Proper) : g.nodes.mapM g.global = some g.coords := by
  have h2 : (2 : K)⁻¹ ≤ 1 := by norm_num
  cases g <;> simp only [Proper] at hg <;>
    simp only [nodes, kind, RefEl.corners, RefEl.sideMids, quadratic, if_true, Bool.false_eq_true, if_false, List.append_nil,
      List.cons_append, List.nil_append, List.mapM_cons, List.mapM_nil, global, inUnit_one, inUnit_two, coords,
      triaCoef, quadCoef, segCoef]
  · rfl
  · simp
  · norm_num [h2]
    refine ⟨?_, ?_⟩ <;> (ext i; simp; ring)
  · simp
  · norm_num [h2]
    refine ⟨?_, ?_, ?_, ?_, ?_⟩ <;> (ext i; simp; ring)
  · simp
  · simp
    rename_i a b c d
    ext i
    have := congrFun hg i
    simp at this ⊢
    linarith
  · norm_num [h2]
    refine ⟨?_, ?_, ?_, ?_, ?_, ?_, ?_⟩ <;> (ext i; simp; ring)

/-- A planar second order quadrilateral with curved sides. -/
example : (quadO2 (K := ℚ) ![0, 0] ![2, 0] ![2, 2] ![0, 2] ![1, -1] ![3, 1] ![1, 3] ![0, 1]).Proper ∧
    (quadO2 (K := ℚ) ![0, 0] ![2, 0] ![2, 2] ![0, 2] ![1, -1] ![3, 1] ![1, 3] ![0, 1]).nodes.length = 8 ∧
    (parallelogram (K := ℚ) ![0, 0] ![2, 0] ![3, 1] ![1, 1]).Proper := by
  refine ⟨trivial, rfl, ?_⟩
  simp only [Proper]
  ext i
  fin_cases i <;> simp <;> norm_num

/-! ### Jacobians -/

/-- **C38**, second part: where the Jacobian `J` has full rank, `JacobianInverseGramian` is `J (J^T J)⁻¹`. -/
theorem C38_inverse_gramian (g : Geo K w) (hk : g.kind ≠ .point) (x : List K) (cols : List (Vec K w))
    (hJ : g.jacobian x = some cols)
    (hr : ((matrix g.kind.dimension cols).transpose * matrix g.kind.dimension cols).det ≠ 0) :
    ∃ C, g.jacobianInverseGramian x = some C ∧ C.length = g.kind.dimension ∧
      matrix g.kind.dimension C = matrix g.kind.dimension cols *
        ((matrix g.kind.dimension cols).transpose * matrix g.kind.dimension cols)⁻¹ := by
  have two : ∀ A B : Vec K w, ((matrix 2 [A, B]).transpose * matrix 2 [A, B]).det ≠ 0 →
      ∃ C, (if w = 2 then invTranspose2 A B else gramInv2 A B) = some C ∧ C.length = 2 ∧
        matrix 2 C = matrix 2 [A, B] * ((matrix 2 [A, B]).transpose * matrix 2 [A, B])⁻¹ := by
    intro A B h
    rw [gram_two] at h
    by_cases hw : w = 2
    · subst hw
      rw [if_pos rfl]
      exact invTranspose2_spec A B h
    · rw [if_neg hw]
      exact gramInv2_spec A B h
  have one : ∀ A : Vec K w, ((matrix 1 [A]).transpose * matrix 1 [A]).det ≠ 0 →
      (if w = 1 then if entry A 0 = 0 then none else some [fun i => (A i)⁻¹]
       else if dot A A = 0 then none else some [(dot A A)⁻¹ • A]) = some [(dot A A)⁻¹ • A] := by
    intro A h
    rw [gram_one] at h
    by_cases hw : w = 1
    · subst hw
      obtain ⟨h1, h2⟩ := seg1_spec A h
      rw [if_pos rfl, if_neg h1, h2]
    · rw [if_neg hw, if_neg h]
  cases g with
  | point a => exact absurd rfl hk
  | segO1 a b =>
    rcases x with _ | ⟨x, _ | ⟨y, x'⟩⟩ <;> simp only [jacobian, reduceCtorEq, Option.some.injEq] at hJ
    subst hJ
    refine ⟨_, one _ hr, rfl, segJIG_spec _ ?_⟩
    rw [← gram_one]; exact hr
  | segO2 a b m =>
    rcases x with _ | ⟨x, _ | ⟨y, x'⟩⟩ <;> simp only [jacobian, reduceCtorEq] at hJ
    split_ifs at hJ with hu
    cases hJ
    refine ⟨_, ?_, rfl, segJIG_spec _ ?_⟩
    · simp only [jacobianInverseGramian, if_pos hu]
      rw [segGram_eq]
      exact one _ hr
    · rw [← gram_one]; exact hr
  | triaO1 a b c =>
    rcases x with _ | ⟨x, _ | ⟨y, _ | ⟨z, x'⟩⟩⟩ <;> simp only [jacobian, reduceCtorEq, Option.some.injEq] at hJ
    subst hJ
    exact two _ _ hr
  | triaO2 a b c d e f =>
    rcases x with _ | ⟨x, _ | ⟨y, _ | ⟨z, x'⟩⟩⟩ <;> simp only [jacobian, reduceCtorEq] at hJ
    split_ifs at hJ with hu
    cases hJ
    simp only [jacobianInverseGramian, jacobian, if_pos hu]
    exact two _ _ hr
  | quadO1 a b c d =>
    rcases x with _ | ⟨x, _ | ⟨y, _ | ⟨z, x'⟩⟩⟩ <;> simp only [jacobian, reduceCtorEq, Option.some.injEq] at hJ
    subst hJ
    exact two _ _ hr
  | parallelogram a b c d =>
    rcases x with _ | ⟨x, _ | ⟨y, _ | ⟨z, x'⟩⟩⟩ <;> simp only [jacobian, reduceCtorEq, Option.some.injEq] at hJ
    subst hJ
    exact two _ _ hr
  | quadO2 a b c d e f g h =>
    rcases x with _ | ⟨x, _ | ⟨y, _ | ⟨z, x'⟩⟩⟩ <;> simp only [jacobian, reduceCtorEq] at hJ
    split_ifs at hJ with hu
    cases hJ
    simp only [jacobianInverseGramian, jacobian, if_pos hu]
    exact two _ _ hr

/-! ### Sub-entities -/

/-- **C39**, sides: `SubGeometry(1, i)` of a cell is the restriction of the parametrization of the cell to
side `i` of the reference element. -/
theorem C39_sides (g : Geo K w) (hg : g.Proper) (hk : g.kind = .tria ∨ g.kind = .quad) (i : ℕ)
    (hi : i < g.kind.numNodes) (t : K) (h0 : 0 ≤ t) (h1 : t ≤ 1) :
    ∃ s v, g.sub 1 i = some s ∧ s.kind = .segment ∧ s.quadratic = g.quadratic ∧
      s.global [t] = some v ∧ g.global (sidePoint g.kind i t) = some v := by
  have hu : inUnit [t] := (inUnit_one t).2 ⟨h0, h1⟩
  have h01 : (0 : K) ≤ 1 - t := by linarith
  have h02 : (1 : K) - t ≤ 1 := by linarith
  cases g <;> simp only [kind, reduceCtorEq, or_false, false_or, or_self] at hk <;>
    simp only [kind, RefEl.numNodes] at hi <;> simp only [Proper] at hg
  · interval_cases i <;> refine ⟨_, _, rfl, rfl, rfl, rfl, ?_⟩ <;>
      simp [sidePoint, RefEl.corners, kind, RefEl.numNodes, global] <;> (ext i; simp; ring)
  · interval_cases i <;> refine ⟨_, _, rfl, rfl, rfl, if_pos hu, ?_⟩ <;>
      simp [sidePoint, RefEl.corners, kind, RefEl.numNodes, global, inUnit_two, h0, h1, h01, segCoef, triaCoef] <;>
      (ext i; simp; ring)
  · interval_cases i <;> refine ⟨_, _, rfl, rfl, rfl, rfl, ?_⟩ <;>
      simp [sidePoint, RefEl.corners, kind, RefEl.numNodes, global] <;> (ext i; simp; ring)
  · have hg' : ∀ i, _ := fun i => congrFun hg i
    simp only [Pi.add_apply, Pi.sub_apply, Pi.zero_apply] at hg'
    interval_cases i <;> refine ⟨_, _, rfl, rfl, rfl, rfl, ?_⟩ <;>
      simp [sidePoint, RefEl.corners, kind, RefEl.numNodes, global] <;>
      (ext i; have := hg' i; simp; first | linear_combination t * this | linear_combination (1 - t) * this | ring)
  · interval_cases i <;> refine ⟨_, _, rfl, rfl, rfl, if_pos hu, ?_⟩ <;>
      simp [sidePoint, RefEl.corners, kind, RefEl.numNodes, global, inUnit_two, h0, h1, h01, segCoef, quadCoef] <;>
      (ext i; simp; ring)

/-- **C39**, corners: `SubGeometry(dim, i)` is the image of corner `i` of the reference element. -/
theorem C39_corners (g : Geo K w) (hg : g.Proper) (i : ℕ) (hi : i < g.kind.numNodes) :
    ∃ v, g.sub g.kind.dimension i = some (.point v) ∧ g.global ((g.kind.corners : List (List K)).getD i []) = some v := by
  cases g <;> simp only [kind, RefEl.numNodes] at hi <;> simp only [Proper] at hg
  · interval_cases i; exact ⟨_, rfl, rfl⟩
  · interval_cases i <;> refine ⟨_, rfl, ?_⟩ <;> simp [kind, RefEl.corners, global]
  · interval_cases i <;> refine ⟨_, rfl, ?_⟩ <;> simp [kind, RefEl.corners, global, inUnit_one, segCoef] <;>
      (ext i; simp; ring)
  · interval_cases i <;> refine ⟨_, rfl, ?_⟩ <;> simp [kind, RefEl.corners, global]
  · interval_cases i <;> refine ⟨_, rfl, ?_⟩ <;> simp [kind, RefEl.corners, global, inUnit_two, triaCoef] <;>
      (ext i; simp; ring)
  · interval_cases i <;> refine ⟨_, rfl, ?_⟩ <;> simp [kind, RefEl.corners, global]
  · have hg' : ∀ i, _ := fun i => congrFun hg i
    simp only [Pi.add_apply, Pi.sub_apply, Pi.zero_apply] at hg'
    interval_cases i <;> refine ⟨_, rfl, ?_⟩ <;> simp [kind, RefEl.corners, global] <;>
      (ext i; have := hg' i; simp; linear_combination this)
  · interval_cases i <;> refine ⟨_, rfl, ?_⟩ <;> simp [kind, RefEl.corners, global, inUnit_two, quadCoef] <;>
      (ext i; simp; ring)

/-- The hypotheses of `C39_sides` and `C39_corners` are met by a curved triangle in space. -/
example : (triaO2 (K := ℚ) ![0, 0, 0] ![2, 0, 0] ![0, 2, 0] ![1, 0, 1] ![1, 1, 1] ![0, 1, 1]).Proper ∧
    2 < (triaO2 (K := ℚ) ![0, 0, 0] ![2, 0, 0] ![0, 2, 0] ![1, 0, 1] ![1, 1, 1] ![0, 1, 1]).kind.numNodes :=
  ⟨trivial, by decide⟩

/-- The code of `QuadO2::SubGeometry` accepts a ninth corner; the access is out of bounds. -/
example (a b c d e f g h : Vec K w) :
    (quadO2 a b c d e f g h).coords.length = 8 ∧ (quadO2 a b c d e f g h).sub 2 8 = none := ⟨rfl, rfl⟩

/-! ### `isAffine` -/

/-- **C57**, restricted to geometries of first order: where `isAffine()` returns `true`, `Jacobian` is
constant and `Global` is affine.  Missing from the full claim: the second order geometries, for which it
fails, see `C57_fails`. -/
theorem C57_affine_partial (g : Geo K w) (hq : g.quadratic = false) (ha : g.isAffine) (x y : List K)
    (hx : x.length = g.kind.dimension) (hy : y.length = g.kind.dimension) :
    (g.jacobian x).isSome ∧ g.jacobian x = g.jacobian y ∧
    ∀ t : K, ∃ u v, g.global x = some u ∧ g.global y = some v ∧
      g.global (List.zipWith (fun p q => (1 - t) * p + t * q) x y) = some ((1 - t) • u + t • v) := by
  cases g <;> simp only [quadratic, isAffine, reduceCtorEq, Bool.false_eq_true] at hq ha <;>
    simp only [kind, RefEl.dimension] at hx hy
  · obtain rfl := List.length_eq_zero_iff.1 hx
    obtain rfl := List.length_eq_zero_iff.1 hy
    refine ⟨rfl, rfl, fun t => ⟨_, _, rfl, rfl, ?_⟩⟩
    simp only [global, List.zipWith_nil_left]
    congr 1; ext i; simp; ring
  · obtain ⟨x, rfl⟩ := List.length_eq_one_iff.1 hx
    obtain ⟨y, rfl⟩ := List.length_eq_one_iff.1 hy
    refine ⟨rfl, rfl, fun t => ⟨_, _, rfl, rfl, ?_⟩⟩
    simp only [global, List.zipWith]
    congr 1; ext i; simp; ring
  · obtain ⟨x, x', rfl⟩ := List.length_eq_two.1 hx
    obtain ⟨y, y', rfl⟩ := List.length_eq_two.1 hy
    refine ⟨rfl, rfl, fun t => ⟨_, _, rfl, rfl, ?_⟩⟩
    simp only [global, List.zipWith]
    congr 1; ext i; simp; ring
  · obtain ⟨x, x', rfl⟩ := List.length_eq_two.1 hx
    obtain ⟨y, y', rfl⟩ := List.length_eq_two.1 hy
    refine ⟨rfl, rfl, fun t => ⟨_, _, rfl, rfl, ?_⟩⟩
    simp only [global, List.zipWith]
    congr 1; ext i; simp; ring

/-- The full claim of C57 fails: second order segments, triangles and quadrilaterals report `isAffine()`
although their Jacobian is not constant. -/
theorem C57_fails :
    (∃ g : Geo ℚ 1, g.kind = .segment ∧ g.isAffine = true ∧ g.jacobian [0] ≠ g.jacobian [1]) ∧
    (∃ g : Geo ℚ 2, g.kind = .tria ∧ g.isAffine = true ∧ g.jacobian [0, 0] ≠ g.jacobian [1, 0]) ∧
    (∃ g : Geo ℚ 2, g.kind = .quad ∧ g.isAffine = true ∧ g.jacobian [0, 0] ≠ g.jacobian [1, 0]) := by
  refine ⟨⟨segO2 ![0] ![1] ![1 / 4], rfl, rfl, ?_⟩,
    ⟨triaO2 ![0, 0] ![1, 0] ![0, 1] ![1 / 2, -1 / 4] ![1 / 2, 1 / 2] ![0, 1 / 2], rfl, rfl, ?_⟩,
    ⟨quadO2 ![0, 0] ![1, 0] ![1, 1] ![0, 1] ![1 / 2, -1 / 4] ![1, 1 / 2] ![1 / 2, 1] ![0, 1 / 2], rfl, rfl, ?_⟩⟩
  · decide +kernel
  · decide +kernel
  · decide +kernel

/-- The hypotheses of `C57_affine_partial` are met by a triangle. -/
example : (triaO1 (K := ℚ) ![0, 0] ![2, 0] ![0, 2]).quadratic = false ∧
    (triaO1 (K := ℚ) ![0, 0] ![2, 0] ![0, 2]).isAffine = true := ⟨rfl, rfl⟩

end Field

section Real
variable {w : ℕ}

/-- **C38**, third part: `IntegrationElement` is the non-negative square root of `det (J^T J)`. -/
theorem C38_integration_element (g : Geo ℝ w) (x : List ℝ) (cols : List (Vec ℝ w))
    (hJ : g.jacobian x = some cols) :
    ∃ t, g.integrationElement x = some t ∧ 0 ≤ t ∧
      t ^ 2 = ((matrix g.kind.dimension cols).transpose * matrix g.kind.dimension cols).det := by
  have two : ∀ A B : Vec ℝ w, 0 ≤ (if w = 2 then |det2 A B| else Real.sqrt (dot A A * dot B B - dot A B * dot A B)) ∧
      (if w = 2 then |det2 A B| else Real.sqrt (dot A A * dot B B - dot A B * dot A B)) ^ 2 =
        ((matrix 2 [A, B]).transpose * matrix 2 [A, B]).det := by
    intro A B
    rw [gram_two]
    by_cases hw : w = 2
    · subst hw
      rw [if_pos rfl, sq_abs, det2_sq]
      exact ⟨abs_nonneg _, sq _⟩
    · rw [if_neg hw, Real.sq_sqrt (gram_nonneg A B)]
      exact ⟨Real.sqrt_nonneg _, rfl⟩
  cases g with
  | point a =>
    simp only [jacobian, Option.some.injEq] at hJ
    subst hJ
    refine ⟨1, rfl, by norm_num, ?_⟩
    simp [kind, RefEl.dimension]
  | segO1 a b =>
    rcases x with _ | ⟨x, _ | ⟨y, x'⟩⟩ <;> simp only [jacobian, reduceCtorEq, Option.some.injEq] at hJ
    subst hJ
    refine ⟨_, rfl, Real.sqrt_nonneg _, ?_⟩
    rw [Real.sq_sqrt (dot_self_nonneg _)]
    exact (gram_one _).symm
  | segO2 a b m =>
    rcases x with _ | ⟨x, _ | ⟨y, x'⟩⟩ <;> simp only [jacobian, reduceCtorEq] at hJ
    split_ifs at hJ with hu
    cases hJ
    refine ⟨_, if_pos hu, Real.sqrt_nonneg _, ?_⟩
    rw [segGram_eq, Real.sq_sqrt (dot_self_nonneg _)]
    exact (gram_one _).symm
  | triaO1 a b c =>
    rcases x with _ | ⟨x, _ | ⟨y, _ | ⟨z, x'⟩⟩⟩ <;> simp only [jacobian, reduceCtorEq, Option.some.injEq] at hJ
    subst hJ
    exact ⟨_, rfl, two _ _⟩
  | triaO2 a b c d e f =>
    rcases x with _ | ⟨x, _ | ⟨y, _ | ⟨z, x'⟩⟩⟩ <;> simp only [jacobian, reduceCtorEq] at hJ
    split_ifs at hJ with hu
    cases hJ
    simp only [integrationElement, jacobian, if_pos hu, abs_of_nonneg (gram_nonneg _ _)]
    exact ⟨_, rfl, two _ _⟩
  | quadO1 a b c d =>
    rcases x with _ | ⟨x, _ | ⟨y, _ | ⟨z, x'⟩⟩⟩ <;> simp only [jacobian, reduceCtorEq, Option.some.injEq] at hJ
    subst hJ
    exact ⟨_, rfl, two _ _⟩
  | parallelogram a b c d =>
    rcases x with _ | ⟨x, _ | ⟨y, _ | ⟨z, x'⟩⟩⟩ <;> simp only [jacobian, reduceCtorEq, Option.some.injEq] at hJ
    subst hJ
    exact ⟨_, rfl, two _ _⟩
  | quadO2 a b c d e f g h =>
    rcases x with _ | ⟨x, _ | ⟨y, _ | ⟨z, x'⟩⟩⟩ <;> simp only [jacobian, reduceCtorEq] at hJ
    split_ifs at hJ with hu
    cases hJ
    simp only [integrationElement, jacobian, if_pos hu, abs_of_nonneg (gram_nonneg _ _)]
    exact ⟨_, rfl, two _ _⟩

/-- What **C38** says about the derivative, for a geometry over a reference element of dimension `n`. -/
private def DerivOk (n : ℕ) (g : Geo ℝ w) (p : Fin n → ℝ) : Prop :=
  ∃ cols, g.jacobian (List.ofFn p) = some cols ∧ cols.length = n ∧
    (∀ q : Fin n → ℝ, (∀ i, 0 ≤ q i ∧ q i ≤ 1) → (g.global (List.ofFn q)).isSome) ∧
    HasFDerivWithinAt (fun q : Fin n → ℝ => (g.global (List.ofFn q)).getD 0)
      (LinearMap.toContinuousLinearMap (matrix n cols).mulVecLin) {q | ∀ i, 0 ≤ q i ∧ q i ≤ 1} p

private theorem ofFn_two (p : Fin 2 → ℝ) : List.ofFn p = [p 0, p 1] := by simp [List.ofFn_succ]
private theorem ofFn_one (p : Fin 1 → ℝ) : List.ofFn p = [p 0] := by simp [List.ofFn_succ]

private theorem deriv_two {g : Geo ℝ w} {p : Fin 2 → ℝ} (hp : ∀ i, 0 ≤ p i ∧ p i ≤ 1) (q : Coef ℝ w)
    (hJ : ∀ x y, inUnit [x, y] → g.jacobian [x, y] = some
      [q.beta0 + x • ((2 : ℝ) • q.gamma0) + (y * y) • q.eps1 + (x * y) • ((2 : ℝ) • q.eps0) + y • q.delta,
        q.beta1 + y • ((2 : ℝ) • q.gamma1) + (x * x) • q.eps0 + (x * y) • ((2 : ℝ) • q.eps1) + x • q.delta])
    (hG : ∀ x y, inUnit [x, y] → g.global [x, y] = some
      ((x • q.beta0 + y • q.beta1) + ((x * x) • q.gamma0 + (y * y) • q.gamma1) + (x * y) • q.delta +
        ((x * x * y) • q.eps0 + (y * y * x) • q.eps1) + q.alpha)) : DerivOk 2 g p := by
  refine ⟨_, (congrArg g.jacobian (ofFn_two p)).trans (hJ _ _ ((inUnit_two _ _).2 ⟨hp 0, hp 1⟩)), rfl, ?_, ?_⟩
  · intro r hr
    rw [ofFn_two, hG _ _ ((inUnit_two _ _).2 ⟨hr 0, hr 1⟩)]
    rfl
  · refine (hasFDerivAt_poly q p _ ?_ ?_).hasFDerivWithinAt.congr ?_ ?_
    · intro i; simp [matrix]
    · intro i; simp [matrix]
    · intro r hr
      simp only
      rw [ofFn_two, hG _ _ ((inUnit_two _ _).2 ⟨hr 0, hr 1⟩)]
      rfl
    · rw [ofFn_two, hG _ _ ((inUnit_two _ _).2 ⟨hp 0, hp 1⟩)]
      rfl

private theorem deriv_one {g : Geo ℝ w} {p : Fin 1 → ℝ} (hp : ∀ i, 0 ≤ p i ∧ p i ≤ 1) (α β γ : Vec ℝ w)
    (hJ : ∀ x, inUnit [x] → g.jacobian [x] = some [x • ((2 : ℝ) • α) + β])
    (hG : ∀ x, inUnit [x] → g.global [x] = some (x • (x • α + β) + γ)) : DerivOk 1 g p := by
  refine ⟨_, (congrArg g.jacobian (ofFn_one p)).trans (hJ _ ((inUnit_one _).2 (hp 0))), rfl, ?_, ?_⟩
  · intro r hr
    rw [ofFn_one, hG _ ((inUnit_one _).2 (hr 0))]
    rfl
  · refine (hasFDerivAt_line α β γ p _ ?_).hasFDerivWithinAt.congr ?_ ?_
    · intro i; simp [matrix]
    · intro r hr
      simp only
      rw [ofFn_one, hG _ ((inUnit_one _).2 (hr 0))]
      rfl
    · rw [ofFn_one, hG _ ((inUnit_one _).2 (hp 0))]
      rfl

/-- **C38**, first part: on the unit interval or unit square, which contains the reference element, `Global`
is defined and differentiable, and its derivative is the matrix returned by `Jacobian`. -/
theorem C38_derivative (g : Geo ℝ w) (p : Fin g.kind.dimension → ℝ) (hp : ∀ i, 0 ≤ p i ∧ p i ≤ 1) :
    ∃ cols, g.jacobian (List.ofFn p) = some cols ∧ cols.length = g.kind.dimension ∧
      (∀ q : Fin g.kind.dimension → ℝ, (∀ i, 0 ≤ q i ∧ q i ≤ 1) → (g.global (List.ofFn q)).isSome) ∧
      HasFDerivWithinAt (fun q : Fin g.kind.dimension → ℝ => (g.global (List.ofFn q)).getD 0)
        (LinearMap.toContinuousLinearMap (matrix g.kind.dimension cols).mulVecLin)
        {q | ∀ i, 0 ≤ q i ∧ q i ≤ 1} p := by
  change DerivOk g.kind.dimension g p
  cases g with
  | point a =>
    refine ⟨[], rfl, rfl, fun _ _ => rfl, ?_⟩
    have h0 : (LinearMap.toContinuousLinearMap (matrix (RefEl.dimension .point) ([] : List (Vec ℝ w))).mulVecLin) = 0 := by
      ext v i
      simp [matrix, Matrix.mulVec, dotProduct]
    change HasFDerivWithinAt (fun _ : Fin 0 → ℝ => a) _ _ _
    refine (hasFDerivWithinAt_const a p _).congr_fderiv ?_
    exact h0.symm
  | segO1 a b =>
    refine deriv_one hp 0 (b - a) a ?_ ?_
    · intro x _; simp [jacobian]
    · intro x _; simp only [global]; congr 1; ext i; simp; ring
  | segO2 a b m =>
    refine deriv_one hp (segCoef a b m).1 (segCoef a b m).2.1 (segCoef a b m).2.2 ?_ ?_
    · intro x hx; simp only [jacobian, if_pos hx]
    · intro x hx; simp only [global, if_pos hx]
  | triaO1 a b c =>
    refine deriv_two hp ⟨a, b - a, c - a, 0, 0, 0, 0, 0⟩ ?_ ?_
    · intro x y _; simp [jacobian]
    · intro x y _; simp only [global]; congr 1; ext i; simp; ring
  | triaO2 a b c d e f =>
    refine deriv_two hp (triaCoef a b c d e f) ?_ ?_
    · intro x y hx; simp only [jacobian, if_pos hx]; simp [triaCoef]
    · intro x y hx; simp only [global, if_pos hx]; simp [triaCoef]
  | quadO1 a b c d =>
    refine deriv_two hp ⟨a, b - a, d - a, 0, 0, a - b + c - d, 0, 0⟩ ?_ ?_
    · intro x y _
      simp only [jacobian, Option.some.injEq, List.cons.injEq, and_true]
      constructor <;> (ext i; simp; ring)
    · intro x y _; simp only [global]; congr 1; ext i; simp; ring
  | parallelogram a b c d =>
    refine deriv_two hp ⟨a, b - a, d - a, 0, 0, 0, 0, 0⟩ ?_ ?_
    · intro x y _; simp [jacobian]
    · intro x y _; simp only [global]; congr 1; ext i; simp; ring
  | quadO2 a b c d e f g h =>
    refine deriv_two hp (quadCoef a b c d e f g h) ?_ ?_
    · intro x y hx; simp only [jacobian, if_pos hx]
    · intro x y hx; simp only [global, if_pos hx]

/-- A bilinear quadrilateral in space at an interior point: `C38_derivative`, `C38_inverse_gramian` and
`C38_integration_element` apply. -/
example : ((matrix 2 [![(1 : ℚ), 0, 0], ![0, 1, 1]]).transpose * matrix 2 [![(1 : ℚ), 0, 0], ![0, 1, 1]]).det ≠ 0 ∧
    (quadO1 (K := ℚ) ![0, 0, 0] ![1, 0, 0] ![1, 1, 1] ![0, 1, 1]).jacobian [1 / 2, 1 / 3] =
      some [![1, 0, 0], ![0, 1, 1]] := by
  constructor
  · decide +kernel
  · decide +kernel

end Real
end Verif
