import Verif.Lemmas.PolyFn
import Verif.Lemmas.Quad

/-!
# Polynomials of bounded total degree in two variables
-/

namespace Verif
open Finset

/-- `f` is a polynomial of total degree at most `d`. -/
def TP (d : ℕ) (f : ℝ → ℝ → ℝ) : Prop := ∃ c : ℕ → ℕ → ℝ, ∀ x y,
  f x y = ∑ a ∈ range (d + 1), ∑ b ∈ range (d + 1 - a), c a b * (x ^ a * y ^ b)

namespace TP

theorem isPolyOn {d : ℕ} {f : List ℝ → ℝ} (h : TP d fun x y => f [x, y]) : IsPolyOn .tria d f := h

theorem zero (d : ℕ) : TP d fun _ _ => 0 := ⟨fun _ _ => 0, fun x y => by simp⟩

theorem add {d : ℕ} {f g : ℝ → ℝ → ℝ} (hf : TP d f) (hg : TP d g) : TP d fun x y => f x y + g x y := by
  obtain ⟨c, hc⟩ := hf
  obtain ⟨c', hc'⟩ := hg
  refine ⟨fun a b => c a b + c' a b, fun x y => ?_⟩
  simp only [hc, hc', ← sum_add_distrib, add_mul]

theorem smul {d : ℕ} {f : ℝ → ℝ → ℝ} (k : ℝ) (hf : TP d f) : TP d fun x y => k * f x y := by
  obtain ⟨c, hc⟩ := hf
  refine ⟨fun a b => k * c a b, fun x y => ?_⟩
  simp only [hc, mul_sum, mul_assoc]

theorem sum {d : ℕ} {ι : Type} (s : Finset ι) {f : ι → ℝ → ℝ → ℝ} (hf : ∀ i ∈ s, TP d (f i)) :
    TP d fun x y => ∑ i ∈ s, f i x y := by
  classical
  induction s using Finset.induction_on with
  | empty => simpa using zero d
  | insert a s ha ih =>
    simp only [sum_insert ha]
    exact (hf a (by simp)).add (ih fun i hi => hf i (by simp [hi]))

theorem monomial {d a b : ℕ} (h : a + b ≤ d) : TP d fun x y => x ^ a * y ^ b := by
  refine ⟨fun i j => if i = a ∧ j = b then 1 else 0, fun x y => ?_⟩
  rw [sum_eq_single a, sum_eq_single b]
  · simp
  · intro j _ hj; simp [hj]
  · intro hb; rw [mem_range] at hb; omega
  · intro i _ hi; simp [hi]
  · intro ha; rw [mem_range] at ha; omega

theorem mul {d e n : ℕ} {f g : ℝ → ℝ → ℝ} (hf : TP d f) (hg : TP e g) (h : d + e ≤ n) :
    TP n fun x y => f x y * g x y := by
  obtain ⟨c, hc⟩ := hf
  obtain ⟨c', hc'⟩ := hg
  have : (fun x y => f x y * g x y) = fun x y => ∑ a ∈ range (d + 1), ∑ b ∈ range (d + 1 - a),
      ∑ a' ∈ range (e + 1), ∑ b' ∈ range (e + 1 - a'), c a b * c' a' b' * (x ^ (a + a') * y ^ (b + b')) := by
    funext x y
    rw [hc, hc', sum_mul]
    refine sum_congr rfl fun a _ => ?_
    rw [sum_mul]
    refine sum_congr rfl fun b _ => ?_
    rw [mul_sum]
    refine sum_congr rfl fun a' _ => ?_
    rw [mul_sum]
    refine sum_congr rfl fun b' _ => ?_
    ring
  rw [this]
  refine sum _ fun a ha => sum _ fun b hb => sum _ fun a' ha' => sum _ fun b' hb' => smul _ (monomial ?_)
  simp only [mem_range] at *
  omega

theorem mono {d e : ℕ} {f : ℝ → ℝ → ℝ} (hf : TP d f) (h : d ≤ e) : TP e f := by
  have := hf.mul (g := fun _ _ => 1) (e := 0) (by simpa using monomial (d := 0) (a := 0) (b := 0) le_rfl)
    (n := e) (by omega)
  simpa using this

theorem const (d : ℕ) (k : ℝ) : TP d fun _ _ => k := by
  simpa using (monomial (d := d) (a := 0) (b := 0) (by omega)).smul k

theorem fst (d : ℕ) (h : 1 ≤ d) : TP d fun x _ => x := by
  simpa using monomial (d := d) (a := 1) (b := 0) (by omega)

theorem snd (d : ℕ) (h : 1 ≤ d) : TP d fun _ y => y := by
  simpa using monomial (d := d) (a := 0) (b := 1) (by omega)

theorem neg {d : ℕ} {f : ℝ → ℝ → ℝ} (hf : TP d f) : TP d fun x y => -f x y := by
  simpa using hf.smul (-1)

theorem sub {d : ℕ} {f g : ℝ → ℝ → ℝ} (hf : TP d f) (hg : TP d g) : TP d fun x y => f x y - g x y := by
  simpa [sub_eq_add_neg] using hf.add hg.neg

theorem of_polyFn {d : ℕ} {f : ℝ → ℝ} (hf : PolyFn d f) : TP d fun _ y => f y := by
  obtain ⟨p, hp, hfp⟩ := hf
  have : (fun (_ y : ℝ) => f y) = fun x y => ∑ i ∈ range (d + 1), p.coeff i * (x ^ 0 * y ^ i) := by
    funext x y
    rw [hfp, Polynomial.eval_eq_sum_range' (n := d + 1) (by omega)]
    simp
  rw [this]
  exact sum _ fun i hi => smul _ (monomial (by rw [mem_range] at hi; omega))

section
variable {u v : ℝ → ℝ → ℝ} (hu : TP 1 u) (hv : TP 1 v)
include hu hv

theorem legendre (n : ℕ) : TP n fun x y => legendre n (u x y) (v x y) := by
  induction n using Nat.strong_induction_on with
  | _ n ih =>
    match n with
    | 0 => simpa [legendre_zero] using const 0 1
    | 1 =>
      simp only [legendre_one]
      exact (hu.smul 2).sub hv
    | n + 2 =>
      have h1 := ih (n + 1) (by omega)
      have h0 := ih n (by omega)
      have hf : (fun x y => Verif.legendre (n + 2) (u x y) (v x y)) = fun x y => ((n : ℝ) + 2)⁻¹ *
          ((2 * n + 3) * ((2 * u x y - v x y) * Verif.legendre (n + 1) (u x y) (v x y)) -
            (n + 1) * (v x y * (v x y * Verif.legendre n (u x y) (v x y)))) := by
        funext x y
        rw [eq_inv_mul_iff_mul_eq₀ (by positivity), legendre_rec]
        ring
      rw [hf]
      exact smul _ (((((hu.smul 2).sub hv).mul h1 (by omega)).smul _).sub
        ((hv.mul (hv.mul h0 le_rfl) (by omega)).smul _))

theorem legendreDx (n : ℕ) : TP (n - 1) fun x y => legendreDx n (u x y) (v x y) := by
  induction n with
  | zero => simpa [Verif.legendreDx] using const 0 0
  | succ n ih =>
    simp only [legendreDx_succ]
    refine add ?_ ?_
    · exact ((TP.legendre hu hv n).smul _).mono (by omega)
    · cases n with
      | zero => simpa [Verif.legendreDx] using const 0 0
      | succ n => exact ((hu.smul 2).sub hv).mul ih (by omega)

theorem iLegendre (n : ℕ) : TP (n + 2) fun x y => iLegendre (n + 2) (u x y) (v x y) := by
  have h := two_mul_add_three_ne (K := ℝ) n
  have hf : (fun x y => Verif.iLegendre (n + 2) (u x y) (v x y)) = fun x y => (2 * (2 * (n : ℝ) + 3))⁻¹ *
      (Verif.legendre (n + 2) (u x y) (v x y) - v x y * (v x y * Verif.legendre n (u x y) (v x y))) := by
    funext x y
    rw [eq_inv_mul_iff_mul_eq₀ h, iLegendre_eq]
    ring
  rw [hf]
  exact smul _ ((TP.legendre hu hv _).sub (hv.mul (hv.mul (TP.legendre hu hv n) le_rfl) (by omega)))

end

end TP
end Verif
