import Verif.Lemmas.GeoCheck

/-! Degeneracy checks: parallelograms, similar triangles, convex quadrilaterals. -/

namespace Verif
namespace Geo
variable {w : ℕ}

/-! ### Similar triangles -/

/-- Heron's formula. -/
theorem gramDet_heron (a b c : Vec ℝ w) : gramDet (b - a) (c - a) =
    (2 * (lengthSq a b * lengthSq b c + lengthSq b c * lengthSq c a + lengthSq c a * lengthSq a b) -
      lengthSq a b ^ 2 - lengthSq b c ^ 2 - lengthSq c a ^ 2) / 4 := by
  have h1 : lengthSq a b = dot (b - a) (b - a) := by rw [lengthSq_comm, lengthSq_eq]
  have h2 : lengthSq c a = dot (c - a) (c - a) := lengthSq_eq c a
  have h3 : lengthSq b c = dot (b - a) (b - a) + dot (c - a) (c - a) - 2 * dot (b - a) (c - a) := by
    rw [lengthSq_eq, show b - c = (b - a) - (c - a) by abel]
    generalize b - a = u
    generalize c - a = v
    rw [gc_dot_sub_left, gc_dot_sub_right, gc_dot_sub_right, gc_dot_comm v u]
    ring
  rw [h1, h2, h3]
  unfold gramDet
  ring

theorem wellShaped_similar {w' : ℕ} {tol s : ℝ} (hs : 0 < s) {a b c : Vec ℝ w} {a' b' c' : Vec ℝ w'}
    (h1 : lengthSq a' b' = s * lengthSq a b) (h2 : lengthSq b' c' = s * lengthSq b c)
    (h3 : lengthSq c' a' = s * lengthSq c a) : WellShapedTria tol a' b' c' ↔ WellShapedTria tol a b c := by
  have hA : spannedArea (b' - a') (c' - a') = s * spannedArea (b - a) (c - a) := by
    rw [spannedArea_eq, spannedArea_eq, gramDet_heron a' b' c', h1, h2, h3,
      show (2 * (s * lengthSq a b * (s * lengthSq b c) + s * lengthSq b c * (s * lengthSq c a) +
        s * lengthSq c a * (s * lengthSq a b)) - (s * lengthSq a b) ^ 2 - (s * lengthSq b c) ^ 2 -
        (s * lengthSq c a) ^ 2) / 4 = s ^ 2 * gramDet (b - a) (c - a) by rw [gramDet_heron]; ring,
      Real.sqrt_mul (sq_nonneg s), Real.sqrt_sq hs.le]
  unfold WellShapedTria
  simp only [h1, h2, h3, hA]
  rw [show tol * (s * lengthSq a b + s * lengthSq b c + s * lengthSq c a) =
    s * (tol * (lengthSq a b + lengthSq b c + lengthSq c a)) by ring]
  simp only [mul_lt_mul_iff_right₀ hs]

theorem wellShaped_rotate {tol : ℝ} {a b c : Vec ℝ w} : WellShapedTria tol b c a ↔ WellShapedTria tol a b c := by
  have hA : spannedArea (c - b) (a - b) = spannedArea (b - a) (c - a) := by
    rw [spannedArea_eq, spannedArea_eq, gramDet_heron b c a, gramDet_heron a b c]
    congr 1
    ring
  unfold WellShapedTria
  simp only [hA]
  rw [show lengthSq b c + lengthSq c a + lengthSq a b = lengthSq a b + lengthSq b c + lengthSq c a by ring]
  tauto

theorem wellShaped_swap {tol : ℝ} {a b c : Vec ℝ w} : WellShapedTria tol a c b ↔ WellShapedTria tol a b c := by
  have hA : spannedArea (c - a) (b - a) = spannedArea (b - a) (c - a) := by
    rw [spannedArea_eq, spannedArea_eq, gramDet_heron a c b, gramDet_heron a b c, lengthSq_comm a c, lengthSq_comm c b,
      lengthSq_comm b a]
    congr 1
    ring
  unfold WellShapedTria
  simp only [hA, lengthSq_comm a c, lengthSq_comm c b, lengthSq_comm b a]
  rw [show lengthSq c a + lengthSq b c + lengthSq a b = lengthSq a b + lengthSq b c + lengthSq c a by ring]
  tauto

/-! ### Parallelograms -/

/-- The estimate behind the check for parallelograms. -/
theorem parallelogram_bound {k p q : ℝ}
    (h : p ^ 2 + q ^ 2 < (1 / 10 ^ 8) ^ 2 * ((1 + k - p) ^ 2 + q ^ 2)) :
    (1 + |k|) * q ≤ 1 / 10 ^ 8 * (1 + ((k - p) ^ 2 + q ^ 2) + ((1 - p) ^ 2 + q ^ 2) + k ^ 2) := by
  rcases le_total 0 k with hk | hk
  · rw [abs_of_nonneg hk]
    nlinarith [sq_nonneg (1 / 10 ^ 8 * (1 + k) - q), sq_nonneg (p - 1 / 10 ^ 16 * (1 + k)), sq_nonneg (1 - k), h]
  · rw [abs_of_nonpos hk]
    nlinarith [sq_nonneg (1 / 10 ^ 8 * (1 - k) - q), sq_nonneg (p - 1 / 10 ^ 16 * (1 + k)), sq_nonneg (1 + k),
      sq_nonneg (1 - k), h]

/-- Parallel vectors. -/
theorem parallel_of_gramDet {u v : Vec ℝ w} (hu : 0 < dot u u) (h : gramDet u v = 0) : ∃ k : ℝ, v = k • u := by
  refine ⟨dot u v / dot u u, ?_⟩
  have h0 : dot (v - (dot u v / dot u u) • u) (v - (dot u v / dot u u) • u) = 0 := by
    simp only [gc_dot_sub_left, gc_dot_sub_right, gc_dot_smul_left, gc_dot_smul_right, gc_dot_comm v u]
    unfold gramDet at h
    field_simp
    linear_combination h
  exact sub_eq_zero.1 (gc_dot_self_eq_zero h0)

theorem wellShapedQuad_nonneg {tol : ℝ} (ht : 0 ≤ tol) (a b c d : Vec ℝ w) :
    0 ≤ tol * (lengthSq a b + lengthSq b c + lengthSq c d + lengthSq d a) :=
  mul_nonneg ht (by
    have h1 := lengthSq_nonneg a b
    have h2 := lengthSq_nonneg b c
    have h3 := lengthSq_nonneg c d
    have h4 := lengthSq_nonneg d a
    linarith)

/-- The columns of the Jacobian of an accepted `Parallelogram` are linearly independent. -/
theorem parallelogram_pos {a b c d : Vec ℝ w} (h : WellShapedQuad (1 / 10 ^ 8) a b c d)
    (hp : Real.sqrt (lengthSq (d + b) (c + a)) < 1 / 10 ^ 8 * Real.sqrt (lengthSq c a)) :
    0 < gramDet (b - a) (d - a) := by
  refine lt_of_le_of_ne (gramDet_nonneg _ _) fun h0 => ?_
  obtain ⟨h1, _, _, _, h5⟩ := h
  have hn := wellShapedQuad_nonneg (tol := 1 / 10 ^ 8) (by norm_num) a b c d
  have hu : 0 < dot (b - a) (b - a) := by
    rw [← lengthSq_eq, lengthSq_comm]
    exact lt_of_le_of_lt hn h1
  obtain ⟨k, hk⟩ := parallel_of_gramDet hu h0.symm
  have hp2 : lengthSq (d + b) (c + a) < (1 / 10 ^ 8) ^ 2 * lengthSq c a := by
    have h6 := mul_self_lt_mul_self (Real.sqrt_nonneg _) hp
    rw [Real.mul_self_sqrt (lengthSq_nonneg _ _)] at h6
    have h7 := Real.mul_self_sqrt (lengthSq_nonneg c a)
    nlinarith
  rw [lengthSq_comm d a] at h5
  rw [spannedArea_eq, spannedArea_eq, lengthSq_comm a b, lengthSq_comm b c, lengthSq_comm c d, lengthSq_comm a d] at h5
  simp only [lengthSq_eq] at h5 hp2
  set u := b - a with hu'
  set δ := d + b - (c + a) with hδ
  have ed : d - a = k • u := hk
  have ec : c - a = u + k • u - δ := by rw [← ed, hu', hδ]; abel
  have ecb : c - b = k • u - δ := by rw [← ed, hδ]; abel
  have edc : d - c = δ - u := by rw [hu', hδ]; abel
  rw [ec] at hp2 h5
  rw [ed, ecb, edc] at h5
  set U := dot u u with hU
  set P := dot δ u with hP
  set D := dot δ δ with hD
  have hcom : dot u δ = P := gc_dot_comm _ _
  have hg : 0 ≤ gramDet u δ := gramDet_nonneg _ _
  have hg' : gramDet u δ = U * D - P * P := by
    unfold gramDet
    rw [hcom]
  have g1 : gramDet u (u + k • u - δ) = gramDet u δ := by
    unfold gramDet
    simp only [gc_dot_sub_left, gc_dot_sub_right, gc_dot_add_left, gc_dot_add_right, gc_dot_smul_left, gc_dot_smul_right, ← hU,
      hcom, ← hP, ← hD]
    ring
  have g2 : gramDet (k • u) (u + k • u - δ) = k ^ 2 * gramDet u δ := by
    unfold gramDet
    simp only [gc_dot_sub_left, gc_dot_sub_right, gc_dot_add_left, gc_dot_add_right, gc_dot_smul_left, gc_dot_smul_right, ← hU,
      hcom, ← hP, ← hD]
    ring
  rw [g1, g2, Real.sqrt_mul (sq_nonneg k), Real.sqrt_sq_eq_abs] at h5
  simp only [gc_dot_sub_left, gc_dot_sub_right, gc_dot_add_left, gc_dot_add_right, gc_dot_smul_left, gc_dot_smul_right, ← hU,
      hcom, ← hP, ← hD] at h5 hp2
  have hUs : 0 < U := hu
  set p := P / U with hp'
  set q := Real.sqrt (gramDet u δ) / U with hq'
  have eP : P = p * U := by rw [hp']; field_simp
  have eq1 : Real.sqrt (gramDet u δ) = q * U := by rw [hq']; field_simp
  have eD : D = (p ^ 2 + q ^ 2) * U := by
    have e1 : gramDet u δ = (q * U) * (q * U) := by rw [← eq1, Real.mul_self_sqrt hg]
    rw [hg', eP] at e1
    have : U * (D - (p ^ 2 + q ^ 2) * U) = 0 := by linear_combination e1
    rcases mul_eq_zero.1 this with h | h
    · exact absurd h hUs.ne'
    · linarith
  rw [eq1, eP, eD] at h5
  rw [eP, eD] at hp2
  have hb := parallelogram_bound (k := k) (p := p) (q := q) (by
    refine lt_of_mul_lt_mul_right (a := U) ?_ hUs.le
    nlinarith [hp2])
  have := mul_le_mul_of_nonneg_right hb hUs.le
  nlinarith [this, h5]

/-- An exact parallelogram in terms of the vectors which span it. -/
theorem wellShaped_parallelogram {tol : ℝ} (a x y : Vec ℝ w) :
    WellShapedQuad tol a (a + x) (a + x + y) (a + y) ↔
      tol * (2 * (dot x x + dot y y)) < dot x x ∧ tol * (2 * (dot x x + dot y y)) < dot y y ∧
      tol * (2 * (dot x x + dot y y)) < 2 * Real.sqrt (gramDet x y) := by
  unfold WellShapedQuad
  have l1 : lengthSq a (a + x) = dot x x := by
    rw [lengthSq_comm, lengthSq_eq]
    congr 1 <;> abel
  have l2 : lengthSq (a + x) (a + x + y) = dot y y := by
    rw [lengthSq_comm, lengthSq_eq]
    congr 1 <;> abel
  have l3 : lengthSq (a + x + y) (a + y) = dot x x := by
    rw [lengthSq_eq]
    congr 1 <;> abel
  have l4 : lengthSq (a + y) a = dot y y := by
    rw [lengthSq_eq]
    congr 1 <;> abel
  have g1 : gramDet x (x + y) = gramDet x y := by
    unfold gramDet
    simp only [gc_dot_add_left, gc_dot_add_right, gc_dot_comm y x]
    ring
  have g2 : gramDet y (x + y) = gramDet x y := by
    unfold gramDet
    simp only [gc_dot_add_left, gc_dot_add_right, gc_dot_comm y x]
    ring
  simp only [l1, l2, l3, l4, spannedArea_eq, show a + x - a = x by abel, show a + x + y - a = x + y by abel,
    show a + y - a = y by abel, g1, g2]
  rw [show dot x x + dot y y + dot x x + dot y y = 2 * (dot x x + dot y y) by ring, ← two_mul]
  tauto

/-! ### Quadrilaterals in the plane -/

theorem quad_det (a b c d : Vec ℝ 2) (x y : ℝ) :
    det2 ((1 - y) • (b - a) + y • (c - d)) ((1 - x) • (d - a) + x • (c - b)) =
      (1 - x) * (1 - y) * cornerTurn d a b + x * (1 - y) * cornerTurn a b c + x * y * cornerTurn b c d + (1 - x) * y * cornerTurn c d a := by
  simp [det2, cornerTurn, entry]
  ring

theorem quad_regular_iff (a b c d : Vec ℝ 2) : (quadO1 a b c d).Regular ↔
    ∀ x y : ℝ, 0 ≤ x → x ≤ 1 → 0 ≤ y → y ≤ 1 →
      (1 - x) * (1 - y) * cornerTurn d a b + x * (1 - y) * cornerTurn a b c + x * y * cornerTurn b c d + (1 - x) * y * cornerTurn c d a ≠ 0 := by
  constructor
  · intro h x y h1 h2 h3 h4 h0
    have := (h [x, y] ⟨h1, h2, h3, h4⟩).1
    simp only [jacobianInverseGramian, jacobian, if_true, invTranspose2, quad_det, h0, Option.isSome_none] at this
    cases this
  · intro h
    refine regular_of (Or.inl rfl) (Or.inr (Or.inl ⟨a, b, c, d, rfl⟩)) fun x y hxy => ⟨_, _, rfl, ?_⟩
    obtain ⟨h1, h2, h3, h4⟩ : 0 ≤ x ∧ x ≤ 1 ∧ 0 ≤ y ∧ y ≤ 1 := hxy
    have h5 := h x y h1 h2 h3 h4
    rw [← quad_det] at h5
    generalize (1 - y) • (b - a) + y • (c - d) = u at *
    generalize (1 - x) • (d - a) + x • (c - b) = v at *
    have hd : gramDet u v = det2 u v * det2 u v := by
      simp [det2, gramDet, dot, Fin.sum_univ_two, entry]
      ring
    rw [hd]
    exact mul_self_pos.2 h5

/-- An affine function on an interval without zeros has one sign. -/
theorem gc_same_sign {s t : ℝ} (h : ∀ x : ℝ, 0 ≤ x → x ≤ 1 → (1 - x) * s + x * t ≠ 0) :
    (0 < s ∧ 0 < t) ∨ (s < 0 ∧ t < 0) := by
  have hs : s ≠ 0 := by simpa using h 0 le_rfl zero_le_one
  have ht : t ≠ 0 := by simpa using h 1 zero_le_one le_rfl
  rcases hs.lt_or_gt with h1 | h1 <;> rcases ht.lt_or_gt with h2 | h2
  · exact Or.inr ⟨h1, h2⟩
  · refine absurd ?_ (h (s / (s - t)) (div_nonneg_of_nonpos h1.le (by linarith)) ((div_le_one_of_neg (by linarith)).2 (by linarith)))
    have : s - t ≠ 0 := by linarith
    field_simp
    ring
  · refine absurd ?_ (h (s / (s - t)) (div_nonneg h1.le (by linarith)) ((div_le_one (by linarith)).2 (by linarith)))
    have : s - t ≠ 0 := by linarith
    field_simp
    ring
  · exact Or.inl ⟨h1, h2⟩

theorem quad_regular_convex (a b c d : Vec ℝ 2) : (quadO1 a b c d).Regular ↔ ConvexQuad a b c d := by
  rw [quad_regular_iff]
  unfold ConvexQuad
  generalize cornerTurn d a b = p
  generalize cornerTurn a b c = q
  generalize cornerTurn b c d = r
  generalize cornerTurn c d a = s
  constructor
  · intro h
    have h1 : (0 < p ∧ 0 < q) ∨ (p < 0 ∧ q < 0) := gc_same_sign fun x hx hx' => by
      have := h x 0 hx hx' le_rfl zero_le_one
      simpa using this
    have h2 : (0 < q ∧ 0 < r) ∨ (q < 0 ∧ r < 0) := gc_same_sign fun x hx hx' => by
      have := h 1 x zero_le_one le_rfl hx hx'
      simpa using this
    have h3 : (0 < p ∧ 0 < s) ∨ (p < 0 ∧ s < 0) := gc_same_sign fun x hx hx' => by
      have := h 0 x le_rfl zero_le_one hx hx'
      simpa using this
    rcases h1 with ⟨p1, q1⟩ | ⟨p1, q1⟩
    · left
      refine ⟨p1, q1, ?_, ?_⟩
      · rcases h2 with h | h <;> linarith
      · rcases h3 with h | h <;> linarith
    · right
      refine ⟨p1, q1, ?_, ?_⟩
      · rcases h2 with h | h <;> linarith
      · rcases h3 with h | h <;> linarith
  · have key : ∀ p q r s : ℝ, 0 < p → 0 < q → 0 < r → 0 < s → ∀ x y : ℝ, 0 ≤ x → x ≤ 1 → 0 ≤ y → y ≤ 1 →
        0 < (1 - x) * (1 - y) * p + x * (1 - y) * q + x * y * r + (1 - x) * y * s := by
      intro p q r s hp hq hr hs x y h1 h2 h3 h4
      have hx : 0 ≤ 1 - x := by linarith
      have hy : 0 ≤ 1 - y := by linarith
      obtain ⟨m, hm, m1, m2, m3, m4⟩ : ∃ m : ℝ, 0 < m ∧ m ≤ p ∧ m ≤ q ∧ m ≤ r ∧ m ≤ s :=
        ⟨min (min p q) (min r s), by simp [hp, hq, hr, hs], by simp, by simp, by simp, by simp⟩
      have e1 := mul_le_mul_of_nonneg_left m1 (mul_nonneg hx hy)
      have e2 := mul_le_mul_of_nonneg_left m2 (mul_nonneg h1 hy)
      have e3 := mul_le_mul_of_nonneg_left m3 (mul_nonneg h1 h3)
      have e4 := mul_le_mul_of_nonneg_left m4 (mul_nonneg hx h3)
      nlinarith
    rintro (⟨h1, h2, h3, h4⟩ | ⟨h1, h2, h3, h4⟩) x y hx hx' hy hy'
    · exact (key p q r s h1 h2 h3 h4 x y hx hx' hy hy').ne'
    · have := key (-p) (-q) (-r) (-s) (by linarith) (by linarith) (by linarith) (by linarith) x y hx hx' hy hy'
      intro h0
      linarith

end Geo
end Verif
