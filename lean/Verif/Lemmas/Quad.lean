import Mathlib.Analysis.SpecialFunctions.Integrals.Basic
import Mathlib.Tactic.Ring
import Mathlib.Tactic.Linarith
import Mathlib.Tactic.FieldSimp
import Verif.Spec.Quad

/-!
# Quadrature rules: sums over tensor products, integrals of monomials
-/

namespace Verif
open Finset

section lists
variable {α β γ K : Type}

theorem zipWith_flatMap {δ : Type} (f : β → γ → δ) (l : List α) (g : α → List β) (h : α → List γ)
    (hl : ∀ a ∈ l, (g a).length = (h a).length) :
    List.zipWith f (l.flatMap g) (l.flatMap h) = l.flatMap fun a => List.zipWith f (g a) (h a) := by
  induction l with
  | nil => rfl
  | cons a t ih =>
    simp only [List.flatMap_cons]
    rw [List.zipWith_append (hl a (by simp)), ih fun b hb => hl b (by simp [hb])]

theorem kron_map [Mul K] (P : List α) (Q : List β) (g : α → K) (h : β → K) :
    kron (P.map g) (Q.map h) = P.flatMap fun a => Q.map fun b => g a * h b := by
  simp [kron, List.flatMap_map, Function.comp_def]

theorem replicateRow_map (P : List α) (Q : List β) (h : β → K) :
    replicateRow (Q.map h) P.length = P.flatMap fun _ => Q.map h := by
  rw [replicateRow, List.flatMap_def, List.map_const']

/-- The points of a rule with `x`-coordinates `F a b`, `y`-coordinates `G b`. -/
theorem tensor_points (P : List α) (Q : List β) (F : α → β → K) (G : β → K) (n m : ℕ)
    (hP : P.length = n) (hQ : Q.length = m) :
    fromRows (n * m) (P.flatMap fun a => Q.map fun b => F a b) (P.flatMap fun _ => Q.map G) =
      some (P.flatMap fun a => Q.map fun b => [F a b, G b]) := by
  rw [fromRows, if_pos, zipWith_flatMap _ _ _ _ (by simp)]
  · simp [List.zipWith_map_left, List.zipWith_map_right, List.zipWith_self]
  · simp [List.length_flatMap, hP, hQ]

theorem tensor_sum (P : List α) (Q : List β) (p : α → β → List ℝ) (w : α → β → ℝ) (f : List ℝ → ℝ) :
    (List.zipWith (fun w p => w * f p) (P.flatMap fun a => Q.map fun b => w a b)
      (P.flatMap fun a => Q.map fun b => p a b)).sum =
      (P.map fun a => (Q.map fun b => w a b * f (p a b)).sum).sum := by
  rw [zipWith_flatMap _ _ _ _ (by simp)]
  simp [List.zipWith_map_left, List.zipWith_map_right, List.zipWith_self, List.flatMap_def,
    List.sum_flatten, Function.comp_def]

theorem sum_prod (P : List α) (Q : List β) (u : α → ℝ) (v : β → ℝ) :
    (P.map fun a => (Q.map fun b => u a * v b).sum).sum = (P.map u).sum * (Q.map v).sum := by
  simp_rw [List.sum_map_mul_left]
  rw [List.sum_map_mul_right]

theorem zipWith_swap {δ : Type} (f : β → α → δ) (l : List α) (m : List β) :
    List.zipWith f m l = (l.zip m).map fun c => f c.2 c.1 := by
  induction l generalizing m with
  | nil => simp
  | cons a t ih => cases m <;> simp [ih]

theorem zip_unzip' {r : List α × List β} (h : r.1.length = r.2.length) :
    r.1 = (r.1.zip r.2).map Prod.fst ∧ r.2 = (r.1.zip r.2).map Prod.snd :=
  ⟨(List.map_fst_zip h.le).symm, (List.map_snd_zip h.ge).symm⟩

end lists

section linear

theorem integrate_add (q : QuadRule ℝ) (f g : List ℝ → ℝ) :
    q.integrate (fun x => f x + g x) = q.integrate f + q.integrate g := by
  unfold QuadRule.integrate
  generalize q.weights = w
  generalize q.points = p
  induction w generalizing p with
  | nil => simp
  | cons a t ih =>
    cases p with
    | nil => simp
    | cons b s => simp [ih]; ring

theorem integrate_smul (q : QuadRule ℝ) (c : ℝ) (f : List ℝ → ℝ) :
    q.integrate (fun x => c * f x) = c * q.integrate f := by
  unfold QuadRule.integrate
  generalize q.weights = w
  generalize q.points = p
  induction w generalizing p with
  | nil => simp
  | cons a t ih =>
    cases p with
    | nil => simp
    | cons b s => simp [ih]; ring

theorem integrate_zero (q : QuadRule ℝ) : q.integrate (fun _ => 0) = 0 := by
  have := integrate_smul q 0 (fun _ => 0)
  simpa using this

theorem integrate_sum (q : QuadRule ℝ) {ι : Type} (s : Finset ι) (f : ι → List ℝ → ℝ) :
    q.integrate (fun x => ∑ i ∈ s, f i x) = ∑ i ∈ s, q.integrate (f i) := by
  classical
  induction s using Finset.induction_on with
  | empty => simpa using integrate_zero q
  | insert a s ha ih => simp [Finset.sum_insert ha, integrate_add, ih]

theorem integrate_congr (q : QuadRule ℝ) {f g : List ℝ → ℝ} (h : ∀ p ∈ q.points, f p = g p) :
    q.integrate f = q.integrate g := by
  unfold QuadRule.integrate
  revert h
  generalize q.weights = w
  generalize q.points = p
  intro h
  induction w generalizing p with
  | nil => simp
  | cons a t ih =>
    cases p with
    | nil => simp
    | cons b s => simp [ih s fun p hp => h p (by simp [hp]), h b (by simp)]

end linear

section integrals
open intervalIntegral

theorem int_pow (a : ℕ) : ∫ x in (0 : ℝ)..1, x ^ a = 1 / (a + 1) := by
  rw [integral_pow]; simp

theorem quad_int_sum (d : ℕ) (c : ℕ → ℕ → ℝ) :
    ∫ y in (0 : ℝ)..1, ∫ x in (0 : ℝ)..1,
      ∑ a ∈ range (d + 1), ∑ b ∈ range (d + 1), c a b * (x ^ a * y ^ b) =
    ∑ a ∈ range (d + 1), ∑ b ∈ range (d + 1), c a b * ((1 / (a + 1)) * (1 / (b + 1))) := by
  have h1 : ∀ y : ℝ, ∫ x in (0 : ℝ)..1,
      ∑ a ∈ range (d + 1), ∑ b ∈ range (d + 1), c a b * (x ^ a * y ^ b) =
      ∑ a ∈ range (d + 1), ∑ b ∈ range (d + 1), (c a b * (1 / (a + 1))) * y ^ b := by
    intro y
    rw [integral_finset_sum fun a _ => (by fun_prop : Continuous _).intervalIntegrable _ _]
    refine Finset.sum_congr rfl fun a _ => ?_
    rw [integral_finset_sum fun a _ => (by fun_prop : Continuous _).intervalIntegrable _ _]
    refine Finset.sum_congr rfl fun b _ => ?_
    rw [integral_const_mul, integral_mul_const, int_pow]; ring
  simp_rw [h1]
  rw [integral_finset_sum fun a _ => (by fun_prop : Continuous _).intervalIntegrable _ _]
  refine Finset.sum_congr rfl fun a _ => ?_
  rw [integral_finset_sum fun a _ => (by fun_prop : Continuous _).intervalIntegrable _ _]
  refine Finset.sum_congr rfl fun b _ => ?_
  rw [integral_const_mul, int_pow]; ring

/-- `∫_T x^a y^b` as a one-dimensional integral. -/
noncomputable def triaMoment (a b : ℕ) : ℝ :=
  1 / (a + 1) * ∫ y in (0 : ℝ)..1, (1 - y) ^ (a + 1) * y ^ b

theorem tria_int_sum (d : ℕ) (c : ℕ → ℕ → ℝ) :
    ∫ y in (0 : ℝ)..1, ∫ x in (0 : ℝ)..(1 - y),
      ∑ a ∈ range (d + 1), ∑ b ∈ range (d + 1 - a), c a b * (x ^ a * y ^ b) =
    ∑ a ∈ range (d + 1), ∑ b ∈ range (d + 1 - a), c a b * triaMoment a b := by
  have h1 : ∀ y : ℝ, ∫ x in (0 : ℝ)..(1 - y),
      ∑ a ∈ range (d + 1), ∑ b ∈ range (d + 1 - a), c a b * (x ^ a * y ^ b) =
      ∑ a ∈ range (d + 1), ∑ b ∈ range (d + 1 - a),
        c a b * (1 / (a + 1) * ((1 - y) ^ (a + 1) * y ^ b)) := by
    intro y
    rw [integral_finset_sum fun a _ => (by fun_prop : Continuous _).intervalIntegrable _ _]
    refine Finset.sum_congr rfl fun a _ => ?_
    rw [integral_finset_sum fun a _ => (by fun_prop : Continuous _).intervalIntegrable _ _]
    refine Finset.sum_congr rfl fun b _ => ?_
    rw [integral_const_mul, integral_mul_const, integral_pow]
    rw [zero_pow (Nat.succ_ne_zero a)]; ring
  simp_rw [h1]
  rw [integral_finset_sum fun a _ => (by fun_prop : Continuous _).intervalIntegrable _ _]
  refine Finset.sum_congr rfl fun a _ => ?_
  rw [integral_finset_sum fun a _ => (by fun_prop : Continuous _).intervalIntegrable _ _]
  refine Finset.sum_congr rfl fun b _ => ?_
  rw [integral_const_mul, integral_const_mul]; rfl

theorem seg_int_sum (d : ℕ) (c : ℕ → ℝ) :
    ∫ x in (0 : ℝ)..1, ∑ a ∈ range (d + 1), c a * x ^ a =
    ∑ a ∈ range (d + 1), c a * (1 / (a + 1)) := by
  rw [integral_finset_sum fun a _ => (by fun_prop : Continuous _).intervalIntegrable _ _]
  refine Finset.sum_congr rfl fun a _ => ?_
  rw [integral_const_mul, int_pow]

/-- Closed form of the moments, by integration by parts. -/
theorem triaMoment_eq (a b : ℕ) :
    triaMoment a b = (a.factorial * b.factorial : ℝ) / (a + b + 2).factorial := by
  have key : ∀ b a : ℕ, ∫ y in (0 : ℝ)..1, (1 - y) ^ (a + 1) * y ^ b =
      ((a + 1).factorial * b.factorial : ℝ) / (a + b + 2).factorial := by
    intro b
    induction b with
    | zero =>
      intro a
      have : ∫ y in (0 : ℝ)..1, (1 - y) ^ (a + 1) * y ^ 0 = ∫ y in (0 : ℝ)..1, y ^ (a + 1) := by
        have := intervalIntegral.integral_comp_sub_left (a := (0 : ℝ)) (b := 1)
          (fun y : ℝ => y ^ (a + 1)) 1
        simpa using this
      rw [this, integral_pow]
      rw [Nat.factorial_succ (a + 0 + 1)]
      have h := Nat.factorial_ne_zero (a + 1)
      push_cast
      rw [show a + 0 + 1 = a + 1 from rfl]
      have h' : ((a + 1).factorial : ℝ) ≠ 0 := by exact_mod_cast h
      simp only [Nat.factorial_zero, Nat.cast_one, mul_one, one_pow]
      rw [zero_pow (Nat.succ_ne_zero _)]
      field_simp
      push_cast; ring
    | succ b ih =>
      intro a
      have hparts := intervalIntegral.integral_mul_deriv_eq_deriv_mul (a := (0 : ℝ)) (b := 1)
        (u := fun y => y ^ (b + 1)) (v := fun y => -((1 - y) ^ (a + 2) / (a + 2)))
        (u' := fun y => (b + 1) * y ^ b) (v' := fun y => (1 - y) ^ (a + 1))
        (fun y _ => by simpa using hasDerivAt_pow (b + 1) y)
        (fun y _ => by
          have h := (((hasDerivAt_id y).const_sub 1).pow (a + 2)).div_const ((a : ℝ) + 2) |>.neg
          refine h.congr_deriv ?_
          have : (a : ℝ) + 2 ≠ 0 := by positivity
          simp only [id]
          field_simp
          push_cast
          ring)
        ((by fun_prop : Continuous fun y : ℝ => ((b : ℝ) + 1) * y ^ b).intervalIntegrable _ _)
        ((by fun_prop : Continuous fun y : ℝ => (1 - y) ^ (a + 1)).intervalIntegrable _ _)
      have e1 : ∫ y in (0 : ℝ)..1, (1 - y) ^ (a + 1) * y ^ (b + 1) =
          ∫ y in (0 : ℝ)..1, y ^ (b + 1) * (1 - y) ^ (a + 1) := by
        congr 1; ext y; ring
      have e2 : ∫ y in (0 : ℝ)..1, ((b : ℝ) + 1) * y ^ b * -((1 - y) ^ (a + 2) / (a + 2)) =
          -((b + 1) / (a + 2)) * ∫ y in (0 : ℝ)..1, (1 - y) ^ (a + 1 + 1) * y ^ b := by
        rw [← integral_const_mul]
        congr 1; ext y; ring
      rw [e1, hparts, e2, ih (a + 1)]
      have h0 : (0 : ℝ) ^ (b + 1) = 0 := zero_pow (Nat.succ_ne_zero _)
      have h2 : (a : ℝ) + 2 ≠ 0 := by positivity
      have hf : ((a + (b + 1) + 2).factorial : ℝ) ≠ 0 := by exact_mod_cast Nat.factorial_ne_zero _
      have hf' : ((a + 1 + b + 2).factorial : ℝ) = (a + (b + 1) + 2).factorial := by
        congr 2; omega
      rw [hf', Nat.factorial_succ (a + 1), Nat.factorial_succ b]
      simp only [sub_self, h0]
      rw [zero_pow (by omega : a + 2 ≠ 0)]
      push_cast
      field_simp
      ring
  rw [triaMoment, key b a, Nat.factorial_succ]
  have h1 : (a : ℝ) + 1 ≠ 0 := by positivity
  push_cast
  field_simp

end integrals

section exactness

theorem seg_exact {q : QuadRule ℝ} (hq : q.ref = .segment) (d : ℕ)
    (h : ∀ a ≤ d, ∀ f : List ℝ → ℝ, (∀ x, f [x] = x ^ a) → q.integrate f = 1 / (a + 1))
    (hw : q.WellFormed) : q.ExactFor d := by
  rintro f hf
  rw [hq] at hf ⊢
  obtain ⟨c, hc⟩ := hf
  simp only [refIntegral, hc]
  rw [seg_int_sum]
  rw [integrate_congr q (g := fun p => ∑ a ∈ range (d + 1), c a * (p.headD 0) ^ a), integrate_sum]
  · refine Finset.sum_congr rfl fun a ha => ?_
    rw [integrate_smul, h a (by simpa [Nat.lt_succ_iff] using ha) _ (fun x => rfl)]
  · intro p hp
    have := hw.1 p hp
    rw [hq] at this
    obtain ⟨x, rfl⟩ : ∃ x, p = [x] := by
      rcases p with _ | ⟨x, _ | ⟨y, t⟩⟩ <;> simp [RefEl.dimension] at this
      exact ⟨x, rfl⟩
    simp [hc]

theorem two_coords {p : List ℝ} (h : p.length = 2) : ∃ x y, p = [x, y] := by
  rcases p with _ | ⟨x, _ | ⟨y, _ | ⟨z, t⟩⟩⟩ <;> simp at h
  exact ⟨x, y, rfl⟩

theorem quad_exact {q : QuadRule ℝ} (hq : q.ref = .quad) (d : ℕ)
    (h : ∀ a ≤ d, ∀ b ≤ d, ∀ f : List ℝ → ℝ, (∀ x y, f [x, y] = x ^ a * y ^ b) →
      q.integrate f = 1 / (a + 1) * (1 / (b + 1)))
    (hw : q.WellFormed) : q.ExactFor d := by
  rintro f hf
  rw [hq] at hf ⊢
  obtain ⟨c, hc⟩ := hf
  simp only [refIntegral, hc]
  rw [quad_int_sum]
  rw [integrate_congr q (g := fun p => ∑ a ∈ range (d + 1), ∑ b ∈ range (d + 1),
    c a b * ((p.getD 0 0) ^ a * (p.getD 1 0) ^ b)), integrate_sum]
  · refine Finset.sum_congr rfl fun a ha => ?_
    rw [integrate_sum]
    refine Finset.sum_congr rfl fun b hb => ?_
    rw [integrate_smul, h a (by simpa [Nat.lt_succ_iff] using ha) b
      (by simpa [Nat.lt_succ_iff] using hb) _ (fun x y => rfl)]
  · intro p hp
    have := hw.1 p hp
    rw [hq] at this
    obtain ⟨x, y, rfl⟩ := two_coords this
    simp [hc]

theorem tria_exact {q : QuadRule ℝ} (hq : q.ref = .tria) (d : ℕ)
    (h : ∀ a b, a + b ≤ d → ∀ f : List ℝ → ℝ, (∀ x y, f [x, y] = x ^ a * y ^ b) →
      q.integrate f = triaMoment a b)
    (hw : q.WellFormed) : q.ExactFor d := by
  rintro f hf
  rw [hq] at hf ⊢
  obtain ⟨c, hc⟩ := hf
  simp only [refIntegral, hc]
  rw [tria_int_sum]
  rw [integrate_congr q (g := fun p => ∑ a ∈ range (d + 1), ∑ b ∈ range (d + 1 - a),
    c a b * ((p.getD 0 0) ^ a * (p.getD 1 0) ^ b)), integrate_sum]
  · refine Finset.sum_congr rfl fun a ha => ?_
    rw [integrate_sum]
    refine Finset.sum_congr rfl fun b hb => ?_
    rw [integrate_smul, h a b (by simp at ha hb; omega) _ (fun x y => rfl)]
  · intro p hp
    have := hw.1 p hp
    rw [hq] at this
    obtain ⟨x, y, rfl⟩ := two_coords this
    simp [hc]

theorem make_some {K : Type} {ref : RefEl} {p : List (List K)} {w : List K} {d : ℕ} {q : QuadRule K}
    (h : QuadRule.make ref p w d = some q) :
    q = ⟨ref, d, p, w⟩ ∧ q.WellFormed := by
  unfold QuadRule.make at h
  split at h
  next hc => simp at h; subst h; exact ⟨rfl, hc⟩
  next => simp at h

/-- What the one-dimensional Gauss rule gives for the monomial `x^a`. -/
theorem gauss_pow {n : ℕ} {r : List ℝ × List ℝ} (h : IsGauss 0 1 (fun _ => 1) n r) {a : ℕ}
    (ha : a ≤ 2 * n - 1) :
    ((r.1.zip r.2).map fun c => c.2 * c.1 ^ a).sum = 1 / (a + 1) := by
  have := h.2.2 (Polynomial.X ^ a) (by simpa using ha)
  simp only [Polynomial.eval_pow, Polynomial.eval_X, one_mul, int_pow] at this
  rw [← this, zipWith_swap]

theorem jacobi_moment {n : ℕ} {r : List ℝ × List ℝ}
    (h : IsGauss (-1) 1 (fun x => (1 - x) ^ 1 * (1 + x) ^ 0) n r) {a b : ℕ} (hab : a + b ≤ 2 * n - 1) :
    ((r.1.zip r.2).map fun c => c.2 * (1 / 4) * ((1 - (c.1 + 1) / 2) ^ a * ((c.1 + 1) / 2) ^ b)).sum =
      ∫ y in (0 : ℝ)..1, (1 - y) ^ (a + 1) * y ^ b := by
  let L : Polynomial ℝ := Polynomial.C (1 / 2) * Polynomial.X + Polynomial.C (1 / 2)
  let M : Polynomial ℝ := Polynomial.C (-1 / 2) * Polynomial.X + Polynomial.C (1 / 2)
  have hL : L.natDegree ≤ 1 := Polynomial.natDegree_linear_le
  have hM : M.natDegree ≤ 1 := Polynomial.natDegree_linear_le
  have hd : (Polynomial.C (1 / 4) * (M ^ a * L ^ b)).natDegree ≤ 2 * n - 1 := by
    refine (Polynomial.natDegree_C_mul_le _ _).trans ?_
    refine Polynomial.natDegree_mul_le.trans ?_
    have h1 := (Polynomial.natDegree_pow_le (p := M) (n := a)).trans (Nat.mul_le_mul_left a hM)
    have h2 := (Polynomial.natDegree_pow_le (p := L) (n := b)).trans (Nat.mul_le_mul_left b hL)
    omega
  have := h.2.2 _ hd
  rw [zipWith_swap] at this
  have e3 : ∀ x : ℝ, (Polynomial.C (1 / 4) * (M ^ a * L ^ b)).eval x =
      1 / 4 * ((1 - (x + 1) / 2) ^ a * ((x + 1) / 2) ^ b) := by
    intro x
    simp only [L, M, Polynomial.eval_mul, Polynomial.eval_C, Polynomial.eval_pow, Polynomial.eval_add,
      Polynomial.eval_X]
    ring
  simp only [e3] at this
  have e4 : ((r.1.zip r.2).map fun c =>
      c.2 * (1 / 4) * ((1 - (c.1 + 1) / 2) ^ a * ((c.1 + 1) / 2) ^ b)).sum =
      ((r.1.zip r.2).map fun c =>
      c.2 * (1 / 4 * ((1 - (c.1 + 1) / 2) ^ a * ((c.1 + 1) / 2) ^ b))).sum := by
    congr 2; funext c; ring
  rw [e4, this]
  have sub := intervalIntegral.integral_comp_mul_add (a := (0 : ℝ)) (b := 1)
    (fun x : ℝ => (1 - x) ^ 1 * (1 + x) ^ 0 * (1 / 4 * ((1 - (x + 1) / 2) ^ a * ((x + 1) / 2) ^ b)))
    (two_ne_zero) (-1)
  rw [show (2 : ℝ) * 0 + -1 = -1 by norm_num, show (2 : ℝ) * 1 + -1 = 1 by norm_num, smul_eq_mul] at sub
  have e6 : (∫ x in (0 : ℝ)..1, (1 - (2 * x + -1)) ^ 1 * (1 + (2 * x + -1)) ^ 0 *
      (1 / 4 * ((1 - (2 * x + -1 + 1) / 2) ^ a * ((2 * x + -1 + 1) / 2) ^ b))) =
      1 / 2 * ∫ y in (0 : ℝ)..1, (1 - y) ^ (a + 1) * y ^ b := by
    rw [← intervalIntegral.integral_const_mul]
    congr 1; funext x
    rw [show (2 * x + -1 + 1) / 2 = x by ring]; ring
  rw [e6] at sub
  linarith

end exactness

end Verif
