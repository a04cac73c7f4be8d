import Verif.Lemmas.TriaChkBase
import Verif.Lemmas.Quad
import Verif.Spec.TriaTable

/-! From integer arithmetic to integrals. -/

namespace Verif
open Finset

theorem tabFact_eq (n : ℕ) : tabFact n = n.factorial := by
  induction n with
  | zero => rfl
  | succ n ih =>
    rw [Nat.factorial_succ, ← ih]
    rfl

theorem tabMoment_nil (a b : ℕ) : tabMoment a b [] = 0 := rfl

theorem tabMoment_cons (a b : ℕ) (r : TabRow) (t : List TabRow) :
    tabMoment a b (r :: t) = r.w * r.x ^ a * r.y ^ b + tabMoment a b t := rfl

theorem tabScale_pos : (0 : ℝ) < tabScale := by norm_num [tabScale]

theorem tab_integrate (d a b : ℕ) (t : List TabRow) :
    (hardRule d t : QuadRule ℝ).integrate (fun p => p.getD 0 0 ^ a * p.getD 1 0 ^ b) =
      tabMoment a b t / (tabScale : ℝ) ^ (a + b + 1) := by
  have hS := tabScale_pos
  induction t with
  | nil => simp [hardRule, QuadRule.integrate, tabMoment_nil]
  | cons r t ih =>
    have : (hardRule d (r :: t) : QuadRule ℝ).integrate (fun p => p.getD 0 0 ^ a * p.getD 1 0 ^ b) =
        (r.w : ℝ) / tabScale * (((r.x : ℝ) / tabScale) ^ a * ((r.y : ℝ) / tabScale) ^ b) +
        (hardRule d t : QuadRule ℝ).integrate (fun p => p.getD 0 0 ^ a * p.getD 1 0 ^ b) := by
      simp [hardRule, QuadRule.integrate]
    rw [this, ih, tabMoment_cons]
    push_cast
    rw [div_pow, div_pow, pow_succ, pow_add]
    field_simp

theorem tabChk_spec {t : List TabRow} {a b : ℕ} (h : tabChk t a b = true) (d : ℕ) :
    |(hardRule d t : QuadRule ℝ).integrate (fun p => p.getD 0 0 ^ a * p.getD 1 0 ^ b) - triaMoment a b| ≤
      1 / 10 ^ 15 := by
  rw [tab_integrate, triaMoment_eq]
  have hS := tabScale_pos
  have hP : (0 : ℝ) < (tabScale : ℝ) ^ (a + b + 1) := pow_pos hS _
  have hF : (0 : ℝ) < ((a + b + 2).factorial : ℝ) := by exact_mod_cast Nat.factorial_pos _
  unfold tabChk at h
  have h1 := Nat.le_of_ble_eq_true h
  rw [tabFact_eq, tabFact_eq, tabFact_eq] at h1
  generalize hm : tabMoment a b t = m at h1
  simp only [Nat.add_eq, Nat.mul_eq, Nat.sub_eq, Nat.pow_eq] at h1
  set u : ℕ := m * (a + b + 2).factorial with hu
  set v : ℕ := a.factorial * b.factorial * tabScale ^ (a + b + 1) with hv
  have key : (10 : ℝ) ^ 15 * |(u : ℝ) - v| ≤ (a + b + 2).factorial * (tabScale : ℝ) ^ (a + b + 1) := by
    have h2 : (10 : ℝ) ^ 15 * ((u - v : ℕ) + (v - u : ℕ) : ℝ) ≤ (a + b + 2).factorial * (tabScale : ℝ) ^ (a + b + 1) := by
      exact_mod_cast h1
    have h3 : |(u : ℝ) - v| = ((u - v : ℕ) + (v - u : ℕ) : ℝ) := by
      rcases le_total u v with h | h
      · rw [Nat.sub_eq_zero_of_le h, Nat.cast_sub h, abs_of_nonpos (by simpa using (by exact_mod_cast h : (u : ℝ) ≤ v))]
        simp
      · rw [Nat.sub_eq_zero_of_le h, Nat.cast_sub h, abs_of_nonneg (by simpa using (by exact_mod_cast h : (v : ℝ) ≤ u))]
        simp
    rw [h3]
    exact h2
  have e : (m : ℝ) / (tabScale : ℝ) ^ (a + b + 1) - (a.factorial * b.factorial : ℝ) / (a + b + 2).factorial =
      ((u : ℝ) - v) / ((a + b + 2).factorial * (tabScale : ℝ) ^ (a + b + 1)) := by
    rw [hu, hv]
    push_cast
    field_simp
  rw [e, abs_div, abs_of_pos (mul_pos hF hP), div_le_div_iff₀ (mul_pos hF hP) (by norm_num)]
  linarith

theorem allB_spec {f : ℕ → Bool} {n : ℕ} (h : allB f n = true) : ∀ b < n, f b = true := by
  induction n with
  | zero => intro b hb; omega
  | succ n ih =>
    have h' : (Bool.rec false (allB f n) (f n) : Bool) = true := h
    rcases hc : f n with _ | _
    · rw [hc] at h'; cases h'
    · rw [hc] at h'
      intro b hb
      rcases Nat.lt_succ_iff_lt_or_eq.1 hb with hb | rfl
      · exact ih h' b hb
      · exact hc

theorem tabCol_spec {t : List TabRow} {a n : ℕ} (h : tabCol t a n = true) : ∀ b < n, tabChk t a b = true :=
  allB_spec h

theorem tabRows_spec {t : List TabRow} (h : tabRows t = true) : ∀ r ∈ t, 1 ≤ r.w ∧ r.x + r.y ≤ tabScale := by
  induction t with
  | nil => simp
  | cons r t ih =>
    have h' : (Bool.rec false (Bool.rec false (tabRows t) (Nat.ble (Nat.add r.x r.y) tabScale)) (Nat.ble 1 r.w) : Bool) =
      true := h
    rcases h1 : Nat.ble 1 r.w with _ | _
    · rw [h1] at h'; cases h'
    rcases h2 : Nat.ble (Nat.add r.x r.y) tabScale with _ | _
    · rw [h1, h2] at h'; cases h'
    rw [h1, h2] at h'
    intro s hs
    rcases List.mem_cons.1 hs with rfl | hs
    · exact ⟨Nat.le_of_ble_eq_true h1, Nat.le_of_ble_eq_true h2⟩
    · exact ih h' s hs

/-- Moments up to `ε` imply integrals of polynomials. -/
theorem exactUpTo_of_moments {q : QuadRule ℝ} {ε : ℝ} {d : ℕ}
    (h : ∀ a b, a + b ≤ d → |q.integrate (fun p => p.getD 0 0 ^ a * p.getD 1 0 ^ b) - triaMoment a b| ≤ ε) :
    q.ExactUpTo ε d := by
  intro c
  have h1 : q.integrate (polyXY d c) = ∑ a ∈ range (d + 1), ∑ b ∈ range (d + 1 - a),
      c a b * q.integrate (fun p => p.getD 0 0 ^ a * p.getD 1 0 ^ b) := by
    unfold polyXY
    rw [integrate_sum]
    refine sum_congr rfl fun a _ => ?_
    rw [integrate_sum]
    exact sum_congr rfl fun b _ => integrate_smul _ _ _
  have h2 : refIntegral .tria (polyXY d c) = ∑ a ∈ range (d + 1), ∑ b ∈ range (d + 1 - a), c a b * triaMoment a b := by
    rw [← tria_int_sum]
    simp [refIntegral, polyXY]
  rw [h1, h2, ← sum_sub_distrib]
  unfold coeffSum
  rw [mul_sum]
  refine (abs_sum_le_sum_abs _ _).trans (sum_le_sum fun a ha => ?_)
  rw [← sum_sub_distrib, mul_sum]
  refine (abs_sum_le_sum_abs _ _).trans (sum_le_sum fun b hb => ?_)
  rw [← mul_sub, abs_mul, mul_comm ε]
  simp only [mem_range] at ha hb
  exact mul_le_mul_of_nonneg_left (h a b (by omega)) (abs_nonneg _)

/-! ### Rounding -/

theorem Near.mul {s t x x' y y' : ℝ} (hs : 0 ≤ s) (hx : Near s x x') (hy : Near t y y') :
    Near ((1 + s) * (1 + t) - 1) (x * y) (x' * y') := by
  unfold Near at *
  have hx' : |x'| ≤ (1 + s) * |x| := by
    have := abs_add_le (x' - x) x
    rw [sub_add_cancel] at this
    linarith
  have e : x' * y' - x * y = x' * (y' - y) + (x' - x) * y := by ring
  rw [e, abs_mul]
  refine (abs_add_le _ _).trans ?_
  rw [abs_mul, abs_mul]
  have h1 : |x'| * |y' - y| ≤ ((1 + s) * |x|) * (t * |y|) :=
    mul_le_mul hx' hy (abs_nonneg _) (by positivity)
  have h2 : |x' - x| * |y| ≤ (s * |x|) * |y| := mul_le_mul_of_nonneg_right hx (abs_nonneg _)
  nlinarith

theorem Near.one (x : ℝ) : Near 0 x x := by simp [Near]

theorem Near.pow {u x x' : ℝ} (hu : 0 ≤ u) (h : Near u x x') (n : ℕ) : Near ((1 + u) ^ n - 1) (x ^ n) (x' ^ n) := by
  induction n with
  | zero => simp [Near]
  | succ n ih =>
    rw [pow_succ, pow_succ, pow_succ]
    have h1 : 0 ≤ (1 + u) ^ n - 1 := by
      have := one_le_pow₀ (M₀ := ℝ) (a := 1 + u) (by linarith) (n := n)
      linarith
    have := Near.mul h1 ih h
    rwa [add_sub_cancel] at this

theorem Near.weaken {s t x y : ℝ} (h : Near s x y) (hst : s ≤ t) : Near t x y :=
  h.trans (mul_le_mul_of_nonneg_right hst (abs_nonneg _))

theorem Near.pos {u x y : ℝ} (h : Near u x y) (hu : u < 1) (hx : 0 < x) : 0 < y := by
  unfold Near at h
  rw [abs_of_pos hx] at h
  have := (abs_le.1 h).1
  nlinarith

theorem Near.nonneg {u x y : ℝ} (h : Near u x y) (hu : u < 1) (hx : 0 ≤ x) : 0 ≤ y := by
  unfold Near at h
  rw [abs_of_nonneg hx] at h
  have := (abs_le.1 h).1
  nlinarith

/-- Sums of nearby products. -/
theorem near_sum {u : ℝ} (hu : 0 ≤ u) (a b : ℕ) {w w' : List ℝ} (hw : List.Forall₂ (Near u) w w') :
    ∀ {p p' : List (List ℝ)}, List.Forall₂ (List.Forall₂ (Near u)) p p' → (∀ x ∈ w, 0 < x) →
      (∀ x ∈ p, RefEl.tria.Contains x) →
      |(List.zipWith (fun w p => w * (p.getD 0 0 ^ a * p.getD 1 0 ^ b)) w' p').sum -
        (List.zipWith (fun w p => w * (p.getD 0 0 ^ a * p.getD 1 0 ^ b)) w p).sum| ≤
      ((1 + u) ^ (a + b + 1) - 1) * (List.zipWith (fun w p => w * (p.getD 0 0 ^ a * p.getD 1 0 ^ b)) w p).sum := by
  induction hw with
  | nil => intro p p' _ _ _; simp
  | cons h0 hw ih =>
    intro p p' hp hpos hin
    cases hp with
    | nil => simp
    | cons hx hp =>
      rename_i w w' ws ws' x x' xs xs'
      have hc := hin x (by simp)
      obtain ⟨x0, y0, rfl⟩ : ∃ x0 y0, x = [x0, y0] := by
        match x, hc with
        | [x0, y0], _ => exact ⟨x0, y0, rfl⟩
      cases hx with
      | cons hx1 hx2 =>
        cases hx2 with
        | cons hy1 hy2 =>
          cases hy2
          rename_i x1 y1
          obtain ⟨c1, c2, -⟩ := hc
          have hw0 := hpos w (by simp)
          have h1 : 0 ≤ (1 + u) ^ a - 1 := by
            have := one_le_pow₀ (M₀ := ℝ) (a := 1 + u) (by linarith) (n := a)
            linarith
          have h2 : 0 ≤ (1 + u) ^ b - 1 := by
            have := one_le_pow₀ (M₀ := ℝ) (a := 1 + u) (by linarith) (n := b)
            linarith
          have hab := (hx1.pow hu a).mul h1 (hy1.pow hu b)
          rw [add_sub_cancel, add_sub_cancel, ← pow_add] at hab
          have h3 : 0 ≤ (1 + u) ^ (a + b) - 1 := by
            have := one_le_pow₀ (M₀ := ℝ) (a := 1 + u) (by linarith) (n := a + b)
            linarith
          have hall := h0.mul hu hab
          rw [add_sub_cancel, mul_comm (1 + u), ← pow_succ] at hall
          unfold Near at hall
          rw [abs_of_nonneg (a := w * (x0 ^ a * y0 ^ b)) (by positivity)] at hall
          have hr := ih hp (fun x hx => hpos x (by simp [hx])) (fun x hx => hin x (by simp [hx]))
          simp only [List.zipWith_cons_cons, List.sum_cons, List.getD_cons_zero, List.getD_cons_succ]
          rw [mul_add, add_sub_add_comm]
          exact (abs_add_le _ _).trans (add_le_add hall hr)

end Verif
