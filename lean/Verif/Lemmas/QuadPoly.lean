import Verif.Lemmas.TriaPoly
import Mathlib.Analysis.Calculus.Deriv.Pow
import Mathlib.Analysis.Calculus.Deriv.Add
import Mathlib.Analysis.Calculus.Deriv.Mul

/-!
# Polynomials of bounded degree in each of two variables, products and derivatives
-/

namespace Verif
open Finset

/-- `f` is a polynomial of degree at most `d` in each variable. -/
def QP (d : ℕ) (f : ℝ → ℝ → ℝ) : Prop := ∃ c : ℕ → ℕ → ℝ, ∀ x y,
  f x y = ∑ a ∈ range (d + 1), ∑ b ∈ range (d + 1), c a b * (x ^ a * y ^ b)

namespace QP

theorem isPolyOn {d : ℕ} {f : List ℝ → ℝ} (h : QP d fun x y => f [x, y]) : IsPolyOn .quad d f := h

theorem zero (d : ℕ) : QP d fun _ _ => 0 := ⟨fun _ _ => 0, fun x y => by simp⟩

theorem add {d : ℕ} {f g : ℝ → ℝ → ℝ} (hf : QP d f) (hg : QP d g) : QP d fun x y => f x y + g x y := by
  obtain ⟨c, hc⟩ := hf
  obtain ⟨c', hc'⟩ := hg
  refine ⟨fun a b => c a b + c' a b, fun x y => ?_⟩
  simp only [hc, hc', ← sum_add_distrib, add_mul]

theorem smul {d : ℕ} {f : ℝ → ℝ → ℝ} (k : ℝ) (hf : QP d f) : QP d fun x y => k * f x y := by
  obtain ⟨c, hc⟩ := hf
  refine ⟨fun a b => k * c a b, fun x y => ?_⟩
  simp only [hc, mul_sum, mul_assoc]

theorem sum {d : ℕ} {ι : Type} (s : Finset ι) {f : ι → ℝ → ℝ → ℝ} (hf : ∀ i ∈ s, QP d (f i)) :
    QP d fun x y => ∑ i ∈ s, f i x y := by
  classical
  induction s using Finset.induction_on with
  | empty => simpa using zero d
  | insert a s ha ih =>
    simp only [sum_insert ha]
    exact (hf a (by simp)).add (ih fun i hi => hf i (by simp [hi]))

theorem monomial {d a b : ℕ} (ha : a ≤ d) (hb : b ≤ d) : QP d fun x y => x ^ a * y ^ b := by
  refine ⟨fun i j => if i = a ∧ j = b then 1 else 0, fun x y => ?_⟩
  rw [sum_eq_single a, sum_eq_single b]
  · simp
  · intro j _ hj; simp [hj]
  · intro hb; rw [mem_range] at hb; omega
  · intro i _ hi; simp [hi]
  · intro ha; rw [mem_range] at ha; omega

theorem mul {d e n : ℕ} {f g : ℝ → ℝ → ℝ} (hf : QP d f) (hg : QP e g) (h : d + e ≤ n) :
    QP n fun x y => f x y * g x y := by
  obtain ⟨c, hc⟩ := hf
  obtain ⟨c', hc'⟩ := hg
  have : (fun x y => f x y * g x y) = fun x y => ∑ a ∈ range (d + 1), ∑ b ∈ range (d + 1),
      ∑ a' ∈ range (e + 1), ∑ b' ∈ range (e + 1), c a b * c' a' b' * (x ^ (a + a') * y ^ (b + b')) := by
    funext x y
    rw [hc, hc', sum_mul]
    refine sum_congr rfl fun a _ => ?_
    rw [sum_mul]
    refine sum_congr rfl fun b _ => ?_
    rw [mul_sum]
    refine sum_congr rfl fun a' _ => ?_
    rw [mul_sum]
    refine sum_congr rfl fun b' _ => ?_
    ring
  rw [this]
  refine sum _ fun a ha => sum _ fun b hb => sum _ fun a' ha' => sum _ fun b' hb' => smul _ (monomial ?_ ?_) <;>
    simp only [mem_range] at * <;> omega

theorem mono {d e : ℕ} {f : ℝ → ℝ → ℝ} (hf : QP d f) (h : d ≤ e) : QP e f := by
  have := hf.mul (g := fun _ _ => 1) (e := 0) (by simpa using monomial (d := 0) (a := 0) (b := 0) le_rfl le_rfl)
    (n := e) (by omega)
  simpa using this

theorem const (d : ℕ) (k : ℝ) : QP d fun _ _ => k := by
  simpa using (monomial (d := d) (a := 0) (b := 0) (by omega) (by omega)).smul k

end QP

/-- The derivative of a double sum of monomials with respect to one of the variables. -/
theorem hasDerivAt_sum {ι : Type} (s : Finset ι) (c : ι → ℝ) (m n : ι → ℕ) (x y : ℝ) :
    HasDerivAt (fun t => ∑ i ∈ s, c i * (t ^ m i * y ^ n i))
      (∑ i ∈ s, c i * ((m i * x ^ (m i - 1)) * y ^ n i)) x ∧
    HasDerivAt (fun t => ∑ i ∈ s, c i * (x ^ m i * t ^ n i))
      (∑ i ∈ s, c i * (x ^ m i * (n i * y ^ (n i - 1)))) y := by
  constructor
  · exact HasDerivAt.fun_sum fun i _ => HasDerivAt.const_mul _ ((hasDerivAt_pow _ _).mul_const _)
  · exact HasDerivAt.fun_sum fun i _ => HasDerivAt.const_mul _ ((hasDerivAt_pow _ _).const_mul _)

/-- Partial derivatives of polynomials are polynomials. -/
theorem IsPolyOn.deriv {r : RefEl} (hr : r = .tria ∨ r = .quad) {d : ℕ} {f D : List ℝ → ℝ} (hf : IsPolyOn r d f)
    {k : ℕ} (hk : k < 2)
    (hD : ∀ x : List ℝ, x.length = 2 → HasDerivAt (fun t => f (x.set k t)) (D x) (x.getD k 0)) :
    IsPolyOn r d D := by
  have hsplit : k = 0 ∨ k = 1 := by omega
  rcases hr with rfl | rfl
  · obtain ⟨c, hc⟩ := hf
    have hσ : ∀ x y, f [x, y] = ∑ p ∈ (range (d + 1)).sigma fun a => range (d + 1 - a),
        c p.1 p.2 * (x ^ p.1 * y ^ p.2) := fun x y => by rw [hc, Finset.sum_sigma]
    refine TP.isPolyOn ?_
    rcases hsplit with rfl | rfl
    · have : (fun x y => D [x, y]) = fun x y => ∑ p ∈ (range (d + 1)).sigma fun a => range (d + 1 - a),
          (c p.1 p.2 * p.1) * (x ^ (p.1 - 1) * y ^ p.2) := by
        funext x y
        have h1 := hD [x, y] rfl
        simp only [List.set_cons_zero, List.getD_cons_zero, hσ] at h1
        rw [h1.unique (hasDerivAt_sum _ _ _ _ x y).1]
        exact sum_congr rfl fun p _ => by ring
      rw [this]
      refine TP.sum _ fun p hp => (TP.monomial ?_).smul _
      simp only [mem_sigma, mem_range] at hp
      omega
    · have : (fun x y => D [x, y]) = fun x y => ∑ p ∈ (range (d + 1)).sigma fun a => range (d + 1 - a),
          (c p.1 p.2 * p.2) * (x ^ p.1 * y ^ (p.2 - 1)) := by
        funext x y
        have h1 := hD [x, y] rfl
        simp only [List.set_cons_succ, List.set_cons_zero, List.getD_cons_succ, List.getD_cons_zero, hσ] at h1
        rw [h1.unique (hasDerivAt_sum _ _ _ _ x y).2]
        exact sum_congr rfl fun p _ => by ring
      rw [this]
      refine TP.sum _ fun p hp => (TP.monomial ?_).smul _
      simp only [mem_sigma, mem_range] at hp
      omega
  · obtain ⟨c, hc⟩ := hf
    have hσ : ∀ x y, f [x, y] = ∑ p ∈ range (d + 1) ×ˢ range (d + 1),
        c p.1 p.2 * (x ^ p.1 * y ^ p.2) := fun x y => by rw [hc, Finset.sum_product]
    refine QP.isPolyOn ?_
    rcases hsplit with rfl | rfl
    · have : (fun x y => D [x, y]) = fun x y => ∑ p ∈ range (d + 1) ×ˢ range (d + 1),
          (c p.1 p.2 * p.1) * (x ^ (p.1 - 1) * y ^ p.2) := by
        funext x y
        have h1 := hD [x, y] rfl
        simp only [List.set_cons_zero, List.getD_cons_zero, hσ] at h1
        rw [h1.unique (hasDerivAt_sum _ _ _ _ x y).1]
        exact sum_congr rfl fun p _ => by ring
      rw [this]
      refine QP.sum _ fun p hp => (QP.monomial ?_ ?_).smul _ <;>
        simp only [mem_product, mem_range] at hp <;> omega
    · have : (fun x y => D [x, y]) = fun x y => ∑ p ∈ range (d + 1) ×ˢ range (d + 1),
          (c p.1 p.2 * p.2) * (x ^ p.1 * y ^ (p.2 - 1)) := by
        funext x y
        have h1 := hD [x, y] rfl
        simp only [List.set_cons_succ, List.set_cons_zero, List.getD_cons_succ, List.getD_cons_zero, hσ] at h1
        rw [h1.unique (hasDerivAt_sum _ _ _ _ x y).2]
        exact sum_congr rfl fun p _ => by ring
      rw [this]
      refine QP.sum _ fun p hp => (QP.monomial ?_ ?_).smul _ <;>
        simp only [mem_product, mem_range] at hp <;> omega

section closure
variable {r : RefEl} (hr : r = .tria ∨ r = .quad)
include hr

theorem IsPolyOn.mul {d e n : ℕ} {f g : List ℝ → ℝ} (hf : IsPolyOn r d f) (hg : IsPolyOn r e g) (h : d + e ≤ n) :
    IsPolyOn r n fun x => f x * g x := by
  rcases hr with rfl | rfl
  · exact TP.mul (f := fun x y => f [x, y]) (g := fun x y => g [x, y]) hf hg h
  · exact QP.mul (f := fun x y => f [x, y]) (g := fun x y => g [x, y]) hf hg h

theorem IsPolyOn.smul {d : ℕ} {f : List ℝ → ℝ} (k : ℝ) (hf : IsPolyOn r d f) : IsPolyOn r d fun x => k * f x := by
  rcases hr with rfl | rfl
  · exact TP.smul (f := fun x y => f [x, y]) k hf
  · exact QP.smul (f := fun x y => f [x, y]) k hf

theorem IsPolyOn.add {d : ℕ} {f g : List ℝ → ℝ} (hf : IsPolyOn r d f) (hg : IsPolyOn r d g) :
    IsPolyOn r d fun x => f x + g x := by
  rcases hr with rfl | rfl
  · exact TP.add (f := fun x y => f [x, y]) (g := fun x y => g [x, y]) hf hg
  · exact QP.add (f := fun x y => f [x, y]) (g := fun x y => g [x, y]) hf hg

theorem IsPolyOn.congr {d : ℕ} {f g : List ℝ → ℝ} (hf : IsPolyOn r d f) (h : ∀ x : List ℝ, x.length = 2 → g x = f x) :
    IsPolyOn r d g := by
  rcases hr with rfl | rfl
  · obtain ⟨c, hc⟩ := hf
    exact ⟨c, fun x y => (h [x, y] rfl).trans (hc x y)⟩
  · obtain ⟨c, hc⟩ := hf
    exact ⟨c, fun x y => (h [x, y] rfl).trans (hc x y)⟩

end closure
end Verif
