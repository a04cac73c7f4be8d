import Verif.Props.DpgExact
import Verif.Lemmas.LinFEQuad

/-!
# Lemmas: the divergence theorem on reference elements and on affine cells
-/

namespace Verif.Dpg
open Verif Geo Finset

/-- The order of integration on the reference triangle does not matter. -/
theorem tria_swap {d : ℕ} {f : List ℝ → ℝ} (hf : IsPolyOn .tria d f) :
    refIntegral .tria f = refIntegral .tria fun x => f [x.getD 1 0, x.getD 0 0] := by
  obtain ⟨c, hc⟩ := hf
  have e1 : refIntegral .tria f = ∑ a ∈ range (d + 1), ∑ b ∈ range (d + 1 - a), c a b * triaMoment a b := by
    rw [← tria_int_sum]
    simp only [refIntegral, hc]
  have e2 : ∀ x y, f [y, x] = ∑ a ∈ range (d + 1), ∑ b ∈ range (d + 1 - a), c b a * (x ^ a * y ^ b) := by
    intro x y
    rw [hc, Finset.sum_comm' (t' := range (d + 1)) (s' := fun b => range (d + 1 - b))
      (by intro a b; simp only [mem_range]; omega)]
    exact sum_congr rfl fun a _ => sum_congr rfl fun b _ => by ring
  have e3 : refIntegral .tria (fun x => f [x.getD 1 0, x.getD 0 0]) =
      ∑ a ∈ range (d + 1), ∑ b ∈ range (d + 1 - a), c b a * triaMoment a b := by
    rw [← tria_int_sum]
    simp only [refIntegral, List.getD_cons_zero, List.getD_cons_succ, e2]
  rw [e1, e3, Finset.sum_comm' (t' := range (d + 1)) (s' := fun b => range (d + 1 - b))
      (by intro a b; simp only [mem_range]; omega)]
  refine sum_congr rfl fun a _ => sum_congr rfl fun b _ => ?_
  rw [triaMoment_eq, triaMoment_eq, Nat.add_comm a b, mul_comm (a.factorial : ℝ)]

theorem quad_swap {d : ℕ} {f : List ℝ → ℝ} (hf : IsPolyOn .quad d f) :
    refIntegral .quad f = refIntegral .quad fun x => f [x.getD 1 0, x.getD 0 0] := by
  obtain ⟨c, hc⟩ := hf
  have e1 : refIntegral .quad f = ∑ a ∈ range (d + 1), ∑ b ∈ range (d + 1), c a b * ((1 / (a + 1)) * (1 / (b + 1))) := by
    rw [← quad_int_sum]
    simp only [refIntegral, hc]
  have e2 : ∀ x y, f [y, x] = ∑ a ∈ range (d + 1), ∑ b ∈ range (d + 1), c b a * (x ^ a * y ^ b) := by
    intro x y
    rw [hc, Finset.sum_comm]
    exact sum_congr rfl fun a _ => sum_congr rfl fun b _ => by ring
  have e3 : refIntegral .quad (fun x => f [x.getD 1 0, x.getD 0 0]) =
      ∑ a ∈ range (d + 1), ∑ b ∈ range (d + 1), c b a * ((1 / (a + 1)) * (1 / (b + 1))) := by
    rw [← quad_int_sum]
    simp only [refIntegral, List.getD_cons_zero, List.getD_cons_succ, e2]
  rw [e1, e3, Finset.sum_comm]
  exact sum_congr rfl fun a _ => sum_congr rfl fun b _ => by ring

theorem poly_cont {r : RefEl} (hr : r = .tria ∨ r = .quad) {d : ℕ} {f : List ℝ → ℝ} (hf : IsPolyOn r d f) :
    Continuous fun p : ℝ × ℝ => f [p.1, p.2] := by
  rcases hr with rfl | rfl <;> obtain ⟨c, hc⟩ := hf <;> simp only [hc] <;> fun_prop

/-- The integral over side `s` of a reference element, as a function of the parameter. -/
noncomputable def sideInt (r : RefEl) (f : List ℝ → ℝ) (s : ℕ) : ℝ := ∫ t in (0 : ℝ)..1, f (sidePoint r s t)

theorem ftc_fst {f D : List ℝ → ℝ} (hD : ∀ x : List ℝ, x.length = 2 → HasDerivAt (fun t => f (x.set 0 t)) (D x) (x.getD 0 0))
    (hc : Continuous fun p : ℝ × ℝ => D [p.1, p.2]) (y b : ℝ) : ∫ x in (0 : ℝ)..b, D [x, y] = f [b, y] - f [0, y] := by
  have hd : ∀ x : ℝ, HasDerivAt (fun t => f [t, y]) (D [x, y]) x := fun x => hD [x, y] rfl
  exact intervalIntegral.integral_eq_sub_of_hasDerivAt (fun x _ => hd x)
    ((hc.comp (by fun_prop : Continuous fun x : ℝ => (x, y))).intervalIntegrable _ _)

theorem tria_fst {d : ℕ} {f D : List ℝ → ℝ} (hf : IsPolyOn .tria d f)
    (hD : ∀ x : List ℝ, x.length = 2 → HasDerivAt (fun t => f (x.set 0 t)) (D x) (x.getD 0 0)) :
    refIntegral .tria D = sideInt .tria f 1 - sideInt .tria f 2 := by
  have hc := poly_cont (.inl rfl) (IsPolyOn.deriv (.inl rfl) hf (k := 0) (by norm_num) hD)
  have hcf := poly_cont (.inl rfl) hf
  change ∫ y in (0 : ℝ)..1, ∫ x in (0 : ℝ)..(1 - y), D [x, y] = _
  simp only [ftc_fst hD hc]
  have i1 : IntervalIntegrable (fun y : ℝ => f [1 - y, y]) MeasureTheory.volume 0 1 :=
    (hcf.comp (by fun_prop : Continuous fun y : ℝ => (((1 - y, y) : ℝ × ℝ)))).intervalIntegrable _ _
  have i2 : IntervalIntegrable (fun y : ℝ => f [0, y]) MeasureTheory.volume 0 1 :=
    (hcf.comp (by fun_prop : Continuous fun y : ℝ => (((0, y) : ℝ × ℝ)))).intervalIntegrable _ _
  rw [intervalIntegral.integral_sub i1 i2]
  congr 1
  · refine intervalIntegral.integral_congr fun t _ => ?_
    simp [sidePoint, RefEl.corners, RefEl.numNodes]
  · rw [sideInt]
    have := intervalIntegral.integral_comp_sub_left (a := (0 : ℝ)) (b := 1) (fun y => f [0, y]) 1
    rw [sub_self, sub_zero] at this
    rw [← this]
    refine intervalIntegral.integral_congr fun t _ => ?_
    simp [sidePoint, RefEl.corners, RefEl.numNodes]

theorem tria_snd {d : ℕ} {f D : List ℝ → ℝ} (hf : IsPolyOn .tria d f)
    (hD : ∀ x : List ℝ, x.length = 2 → HasDerivAt (fun t => f (x.set 1 t)) (D x) (x.getD 1 0)) :
    refIntegral .tria D = sideInt .tria f 1 - sideInt .tria f 0 := by
  have hDp := IsPolyOn.deriv (.inl rfl) hf (k := 1) (by norm_num) hD
  have hcD := poly_cont (.inl rfl) hDp
  have hcf := poly_cont (.inl rfl) hf
  rw [tria_swap hDp]
  change ∫ y in (0 : ℝ)..1, ∫ x in (0 : ℝ)..(1 - y), D [y, x] = _
  have hd : ∀ y x : ℝ, HasDerivAt (fun t => f [y, t]) (D [y, x]) x := fun y x => hD [y, x] rfl
  have key : ∀ y b : ℝ, ∫ x in (0 : ℝ)..b, D [y, x] = f [y, b] - f [y, 0] := fun y b =>
    intervalIntegral.integral_eq_sub_of_hasDerivAt (fun x _ => hd y x)
      ((hcD.comp (by fun_prop : Continuous fun x : ℝ => (y, x))).intervalIntegrable _ _)
  simp only [key]
  have i1 : IntervalIntegrable (fun y : ℝ => f [y, 1 - y]) MeasureTheory.volume 0 1 :=
    (hcf.comp (by fun_prop : Continuous fun y : ℝ => (((y, 1 - y) : ℝ × ℝ)))).intervalIntegrable _ _
  have i2 : IntervalIntegrable (fun y : ℝ => f [y, 0]) MeasureTheory.volume 0 1 :=
    (hcf.comp (by fun_prop : Continuous fun y : ℝ => (((y, 0) : ℝ × ℝ)))).intervalIntegrable _ _
  rw [intervalIntegral.integral_sub i1 i2]
  congr 1
  · rw [sideInt]
    have := intervalIntegral.integral_comp_sub_left (a := (0 : ℝ)) (b := 1) (fun y => f [y, 1 - y]) 1
    rw [sub_self, sub_zero] at this
    rw [← this]
    refine intervalIntegral.integral_congr fun t _ => ?_
    simp [sidePoint, RefEl.corners, RefEl.numNodes]
  · refine intervalIntegral.integral_congr fun t _ => ?_
    simp [sidePoint, RefEl.corners, RefEl.numNodes]

theorem quad_fst {d : ℕ} {f D : List ℝ → ℝ} (hf : IsPolyOn .quad d f)
    (hD : ∀ x : List ℝ, x.length = 2 → HasDerivAt (fun t => f (x.set 0 t)) (D x) (x.getD 0 0)) :
    refIntegral .quad D = sideInt .quad f 1 - sideInt .quad f 3 := by
  have hc := poly_cont (.inr rfl) (IsPolyOn.deriv (.inr rfl) hf (k := 0) (by norm_num) hD)
  have hcf := poly_cont (.inr rfl) hf
  change ∫ y in (0 : ℝ)..1, ∫ x in (0 : ℝ)..1, D [x, y] = _
  simp only [ftc_fst hD hc]
  have i1 : IntervalIntegrable (fun y : ℝ => f [1, y]) MeasureTheory.volume 0 1 :=
    (hcf.comp (by fun_prop : Continuous fun y : ℝ => (((1, y) : ℝ × ℝ)))).intervalIntegrable _ _
  have i2 : IntervalIntegrable (fun y : ℝ => f [0, y]) MeasureTheory.volume 0 1 :=
    (hcf.comp (by fun_prop : Continuous fun y : ℝ => (((0, y) : ℝ × ℝ)))).intervalIntegrable _ _
  rw [intervalIntegral.integral_sub i1 i2]
  congr 1
  · refine intervalIntegral.integral_congr fun t _ => ?_
    simp [sidePoint, RefEl.corners, RefEl.numNodes]
  · rw [sideInt]
    have := intervalIntegral.integral_comp_sub_left (a := (0 : ℝ)) (b := 1) (fun y => f [0, y]) 1
    rw [sub_self, sub_zero] at this
    rw [← this]
    refine intervalIntegral.integral_congr fun t _ => ?_
    simp [sidePoint, RefEl.corners, RefEl.numNodes]

theorem quad_snd {d : ℕ} {f D : List ℝ → ℝ} (hf : IsPolyOn .quad d f)
    (hD : ∀ x : List ℝ, x.length = 2 → HasDerivAt (fun t => f (x.set 1 t)) (D x) (x.getD 1 0)) :
    refIntegral .quad D = sideInt .quad f 2 - sideInt .quad f 0 := by
  have hDp := IsPolyOn.deriv (.inr rfl) hf (k := 1) (by norm_num) hD
  have hcD := poly_cont (.inr rfl) hDp
  have hcf := poly_cont (.inr rfl) hf
  rw [quad_swap hDp]
  change ∫ y in (0 : ℝ)..1, ∫ x in (0 : ℝ)..1, D [y, x] = _
  have hd : ∀ y x : ℝ, HasDerivAt (fun t => f [y, t]) (D [y, x]) x := fun y x => hD [y, x] rfl
  have key : ∀ y b : ℝ, ∫ x in (0 : ℝ)..b, D [y, x] = f [y, b] - f [y, 0] := fun y b =>
    intervalIntegral.integral_eq_sub_of_hasDerivAt (fun x _ => hd y x)
      ((hcD.comp (by fun_prop : Continuous fun x : ℝ => (y, x))).intervalIntegrable _ _)
  simp only [key]
  have i1 : IntervalIntegrable (fun y : ℝ => f [y, 1]) MeasureTheory.volume 0 1 :=
    (hcf.comp (by fun_prop : Continuous fun y : ℝ => (((y, 1) : ℝ × ℝ)))).intervalIntegrable _ _
  have i2 : IntervalIntegrable (fun y : ℝ => f [y, 0]) MeasureTheory.volume 0 1 :=
    (hcf.comp (by fun_prop : Continuous fun y : ℝ => (((y, 0) : ℝ × ℝ)))).intervalIntegrable _ _
  rw [intervalIntegral.integral_sub i1 i2]
  congr 1
  · rw [sideInt]
    have := intervalIntegral.integral_comp_sub_left (a := (0 : ℝ)) (b := 1) (fun y => f [y, 1]) 1
    rw [sub_self, sub_zero] at this
    rw [← this]
    refine intervalIntegral.integral_congr fun t _ => ?_
    simp [sidePoint, RefEl.corners, RefEl.numNodes]
  · refine intervalIntegral.integral_congr fun t _ => ?_
    simp [sidePoint, RefEl.corners, RefEl.numNodes]

/-- Integrals are linear for polynomials. -/
theorem ref_lin {r : RefEl} (hr : r = .tria ∨ r = .quad) {d : ℕ} {f g : List ℝ → ℝ} (hf : IsPolyOn r d f) (hg : IsPolyOn r d g)
    (a b : ℝ) : refIntegral r (fun x => a * f x + b * g x) = a * refIntegral r f + b * refIntegral r g := by
  rcases hr with rfl | rfl
  · obtain ⟨c, hc⟩ := hf
    obtain ⟨c', hc'⟩ := hg
    have e : ∀ x y, a * f [x, y] + b * g [x, y] = ∑ i ∈ range (d + 1), ∑ j ∈ range (d + 1 - i), (a * c i j + b * c' i j) * (x ^ i * y ^ j) := by
      intro x y
      rw [hc, hc', mul_sum, mul_sum, ← sum_add_distrib]
      refine sum_congr rfl fun i _ => ?_
      rw [mul_sum, mul_sum, ← sum_add_distrib]
      exact sum_congr rfl fun j _ => by ring
    simp only [refIntegral, e]
    simp only [hc, hc']
    rw [tria_int_sum, tria_int_sum, tria_int_sum, mul_sum, mul_sum, ← sum_add_distrib]
    refine sum_congr rfl fun i _ => ?_
    rw [mul_sum, mul_sum, ← sum_add_distrib]
    exact sum_congr rfl fun j _ => by ring
  · obtain ⟨c, hc⟩ := hf
    obtain ⟨c', hc'⟩ := hg
    have e : ∀ x y, a * f [x, y] + b * g [x, y] = ∑ i ∈ range (d + 1), ∑ j ∈ range (d + 1), (a * c i j + b * c' i j) * (x ^ i * y ^ j) := by
      intro x y
      rw [hc, hc', mul_sum, mul_sum, ← sum_add_distrib]
      refine sum_congr rfl fun i _ => ?_
      rw [mul_sum, mul_sum, ← sum_add_distrib]
      exact sum_congr rfl fun j _ => by ring
    simp only [refIntegral, e]
    simp only [hc, hc']
    rw [quad_int_sum, quad_int_sum, quad_int_sum, mul_sum, mul_sum, ← sum_add_distrib]
    refine sum_congr rfl fun i _ => ?_
    rw [mul_sum, mul_sum, ← sum_add_distrib]
    exact sum_congr rfl fun j _ => by ring

/-- The length of a side times the outer normal is the side, rotated by a right angle. -/
theorem normal_flux {n d o b : Vec ℝ 2} {len : ℝ} (h1 : dot n n = 1) (h2 : dot n d = 0) (h3 : 0 ≤ len) (h4 : len ^ 2 = dot d d)
    (h5 : dot n o < 0) : |det2 d o| * (len * dot n b) = det2 d o * det2 b d := by
  simp only [dot, Fin.sum_univ_two, det2_eq] at *
  set X := n 0 * d 1 - n 1 * d 0 with hX
  have hd0 : d 0 = -X * n 1 := by rw [hX]; linear_combination (-(d 0)) * h1 + n 0 * h2
  have hd1 : d 1 = X * n 0 := by rw [hX]; linear_combination (-(d 1)) * h1 + n 1 * h2
  have hD : d 0 * o 1 - o 0 * d 1 = -X * (n 0 * o 0 + n 1 * o 1) := by rw [hd0, hd1]; ring
  have hb : b 0 * d 1 - d 0 * b 1 = X * (n 0 * b 0 + n 1 * b 1) := by rw [hd0, hd1]; ring
  have hlen : len ^ 2 = X ^ 2 := by rw [h4, hd0, hd1]; linear_combination X ^ 2 * h1
  have hl : len = |X| := by rw [← abs_of_nonneg h3]; exact (sq_eq_sq_iff_abs_eq_abs _ _).mp hlen
  rw [hD, hb, hl]
  rcases le_total 0 X with hx | hx
  · rw [abs_of_nonneg hx, abs_of_nonneg (by nlinarith)]
  · rw [abs_of_nonpos hx, abs_of_nonpos (by nlinarith)]; ring

/-- Cells with straight sides and a constant Jacobian are affine images. -/
theorem affine_global {g : Geo ℝ 2} (hgc : g.StrictlyConvex) {A B : Vec ℝ 2} (hJ : g.ConstJacobian A B) :
    ∃ P, ∀ x y, g.global [x, y] = some (P + x • A + y • B) := by
  match g, hgc with
  | .triaO1 a b c, _ =>
    have h0 := hJ [0, 0] rfl
    simp only [Geo.jacobian, Option.some.injEq, List.cons.injEq, and_true] at h0
    obtain ⟨rfl, rfl⟩ := h0
    refine ⟨a, fun x y => ?_⟩
    simp only [Geo.global, Option.some.injEq]
    module
  | .quadO1 a b c d, _ =>
    have h0 := hJ [0, 0] rfl
    have h1 := hJ [1, 1] rfl
    simp only [Geo.jacobian, Option.some.injEq, List.cons.injEq, and_true] at h0 h1
    obtain ⟨h00, h01⟩ := h0
    obtain ⟨h10, h11⟩ := h1
    refine ⟨a, fun x y => ?_⟩
    simp only [Geo.global, Option.some.injEq]
    rw [← h00, ← h01]
    have e : c = b + d - a := by
      have : (1 - 1 : ℝ) • (b - a) + (1 : ℝ) • (c - d) = (1 - 0 : ℝ) • (b - a) + (0 : ℝ) • (c - d) := by rw [h10, h00]
      have h : c - d = b - a := by simpa using this
      rw [sub_eq_iff_eq_add.mp h]; abel
    rw [e]
    module
  | .parallelogram a b c d, _ =>
    have h0 := hJ [0, 0] rfl
    simp only [Geo.jacobian, Option.some.injEq, List.cons.injEq, and_true] at h0
    obtain ⟨rfl, rfl⟩ := h0
    refine ⟨a, fun x y => ?_⟩
    simp only [Geo.global, Option.some.injEq]
    module

theorem affine_det {g : Geo ℝ 2} (hgc : g.StrictlyConvex) {A B : Vec ℝ 2} (hJ : g.ConstJacobian A B) : det2 A B ≠ 0 := by
  match g, hgc with
  | .triaO1 a b c, h =>
    have h0 := hJ [0, 0] rfl
    simp only [Geo.jacobian, Option.some.injEq, List.cons.injEq, and_true] at h0
    obtain ⟨rfl, rfl⟩ := h0
    exact h
  | .quadO1 a b c d, h =>
    have h0 := hJ [0, 0] rfl
    simp only [Geo.jacobian, Option.some.injEq, List.cons.injEq, and_true] at h0
    obtain ⟨h00, h01⟩ := h0
    obtain rfl : b - a = A := by simpa using h00
    obtain rfl : d - a = B := by simpa using h01
    have : det2 (a - d) (b - a) = det2 (b - a) (d - a) := by simp only [det2_eq, Pi.sub_apply]; ring
    rcases h with h | h
    · exact this ▸ h.2.2.2.ne'
    · exact this ▸ h.2.2.2.ne
  | .parallelogram a b c d, h =>
    have h0 := hJ [0, 0] rfl
    simp only [Geo.jacobian, Option.some.injEq, List.cons.injEq, and_true] at h0
    obtain ⟨rfl, rfl⟩ := h0
    exact h.1

/-- The flux of a constant vector field through a side of an affine cell. -/
theorem side_flux {g : Geo ℝ 2} {s : ℕ} {n : Vec ℝ 2} (hn : g.IsOuterNormal s n) {p₀ p₁ p : Vec ℝ 2} {len : ℝ}
    (h0 : g.global (sidePoint g.kind s 0) = some p₀) (h1 : g.global (sidePoint g.kind s 1) = some p₁)
    (hl : 0 ≤ len) (hl2 : len ^ 2 = dot (p₁ - p₀) (p₁ - p₀)) {x : List ℝ} (hx : g.kind.Contains x)
    (hx' : ∀ t, 0 ≤ t → t ≤ 1 → x ≠ sidePoint g.kind s t) (hp : g.global x = some p) {A B d o : Vec ℝ 2}
    (hd : p₁ - p₀ = d) (ho : p - p₀ = o) (hD : det2 d o = det2 A B) (b : Vec ℝ 2) :
    |det2 A B| * (len * dot n b) = det2 A B * det2 b d := by
  subst hd ho
  rw [← hD]
  exact normal_flux hn.unit (hn.orthogonal 0 1 _ _ h0 h1) hl hl2 (hn.outer x 0 _ _ hx hx' h0 hp)

theorem sideFlux_tria {g : Geo ℝ 2} (hk : g.kind = .tria) {P A B : Vec ℝ 2} (hg : ∀ x y, g.global [x, y] = some (P + x • A + y • B))
    {n : ℕ → Vec ℝ 2} {len : ℕ → ℝ}
    (h : ∀ s < 3, g.IsOuterNormal s (n s) ∧ ∃ p₀ p₁, g.global (sidePoint .tria s 0) = some p₀ ∧
        g.global (sidePoint .tria s 1) = some p₁ ∧ 0 ≤ len s ∧ len s ^ 2 = dot (p₁ - p₀) (p₁ - p₀)) (b : Vec ℝ 2) :
    |det2 A B| * (len 0 * dot (n 0) b) = det2 A B * det2 b A ∧ |det2 A B| * (len 1 * dot (n 1) b) = det2 A B * det2 b (B - A) ∧
    |det2 A B| * (len 2 * dot (n 2) b) = det2 A B * det2 b (-B) := by
  refine ⟨?_, ?_, ?_⟩
  · obtain ⟨h1, p₀, p₁, h2, h3, h4, h5⟩ := h 0 (by norm_num)
    have e2 := h2
    have e3 := h3
    simp [sidePoint, RefEl.corners, RefEl.numNodes, hg] at e2 e3
    refine side_flux h1 (hk ▸ h2) (hk ▸ h3) h4 h5 (x := [0, 1]) (by rw [hk]; norm_num [RefEl.Contains]) ?_ (hg 0 1) (o := B) ?_ ?_ ?_ b
    · intro t _ _; rw [hk]; simp [sidePoint, RefEl.corners, RefEl.numNodes]
    · rw [← e2, ← e3]; simp
    · rw [← e2]; simp
    · rfl
  · obtain ⟨h1, p₀, p₁, h2, h3, h4, h5⟩ := h 1 (by norm_num)
    have e2 := h2
    have e3 := h3
    simp [sidePoint, RefEl.corners, RefEl.numNodes, hg] at e2 e3
    refine side_flux h1 (hk ▸ h2) (hk ▸ h3) h4 h5 (x := [0, 0]) (by rw [hk]; norm_num [RefEl.Contains]) ?_ (hg 0 0) (o := -A) ?_ ?_ ?_ b
    · intro t _ _; rw [hk]; simp [sidePoint, RefEl.corners, RefEl.numNodes]; intro h1 h2; linarith
    · rw [← e2, ← e3]; simp
    · rw [← e2]; simp
    · simp only [det2_eq, Pi.sub_apply, Pi.neg_apply]; ring
  · obtain ⟨h1, p₀, p₁, h2, h3, h4, h5⟩ := h 2 (by norm_num)
    have e2 := h2
    have e3 := h3
    simp [sidePoint, RefEl.corners, RefEl.numNodes, hg] at e2 e3
    refine side_flux h1 (hk ▸ h2) (hk ▸ h3) h4 h5 (x := [1, 0]) (by rw [hk]; norm_num [RefEl.Contains]) ?_ (hg 1 0) (o := A - B) ?_ ?_ ?_ b
    · intro t _ _; rw [hk]; simp [sidePoint, RefEl.corners, RefEl.numNodes]
    · rw [← e2, ← e3]; simp
    · rw [← e2]; simp
    · simp only [det2_eq, Pi.sub_apply, Pi.neg_apply]; ring

theorem sideFlux_quad {g : Geo ℝ 2} (hk : g.kind = .quad) {P A B : Vec ℝ 2} (hg : ∀ x y, g.global [x, y] = some (P + x • A + y • B))
    {n : ℕ → Vec ℝ 2} {len : ℕ → ℝ}
    (h : ∀ s < 4, g.IsOuterNormal s (n s) ∧ ∃ p₀ p₁, g.global (sidePoint .quad s 0) = some p₀ ∧
        g.global (sidePoint .quad s 1) = some p₁ ∧ 0 ≤ len s ∧ len s ^ 2 = dot (p₁ - p₀) (p₁ - p₀)) (b : Vec ℝ 2) :
    |det2 A B| * (len 0 * dot (n 0) b) = det2 A B * det2 b A ∧ |det2 A B| * (len 1 * dot (n 1) b) = det2 A B * det2 b B ∧
    |det2 A B| * (len 2 * dot (n 2) b) = det2 A B * det2 b (-A) ∧ |det2 A B| * (len 3 * dot (n 3) b) = det2 A B * det2 b (-B) := by
  refine ⟨?_, ?_, ?_, ?_⟩
  · obtain ⟨h1, p₀, p₁, h2, h3, h4, h5⟩ := h 0 (by norm_num)
    have e2 := h2
    have e3 := h3
    simp [sidePoint, RefEl.corners, RefEl.numNodes, hg] at e2 e3
    refine side_flux h1 (hk ▸ h2) (hk ▸ h3) h4 h5 (x := [0, 1]) (by rw [hk]; norm_num [RefEl.Contains]) ?_ (hg 0 1) (o := B) ?_ ?_ ?_ b
    · intro t _ _; rw [hk]; simp [sidePoint, RefEl.corners, RefEl.numNodes]
    · rw [← e2, ← e3]; simp
    · rw [← e2]; simp
    · rfl
  · obtain ⟨h1, p₀, p₁, h2, h3, h4, h5⟩ := h 1 (by norm_num)
    have e2 := h2
    have e3 := h3
    simp [sidePoint, RefEl.corners, RefEl.numNodes, hg] at e2 e3
    refine side_flux h1 (hk ▸ h2) (hk ▸ h3) h4 h5 (x := [0, 0]) (by rw [hk]; norm_num [RefEl.Contains]) ?_ (hg 0 0) (o := -A) ?_ ?_ ?_ b
    · intro t _ _; rw [hk]; simp [sidePoint, RefEl.corners, RefEl.numNodes]
    · rw [← e2, ← e3]; simp
    · rw [← e2]; simp
    · simp only [det2_eq, Pi.neg_apply]; ring
  · obtain ⟨h1, p₀, p₁, h2, h3, h4, h5⟩ := h 2 (by norm_num)
    have e2 := h2
    have e3 := h3
    simp [sidePoint, RefEl.corners, RefEl.numNodes, hg] at e2 e3
    refine side_flux h1 (hk ▸ h2) (hk ▸ h3) h4 h5 (x := [1, 0]) (by rw [hk]; norm_num [RefEl.Contains]) ?_ (hg 1 0) (o := -B) ?_ ?_ ?_ b
    · intro t _ _; rw [hk]; simp [sidePoint, RefEl.corners, RefEl.numNodes]
    · rw [← e2, ← e3]; simp
    · rw [← e2]; simp
    · simp only [det2_eq, Pi.neg_apply]; ring
  · obtain ⟨h1, p₀, p₁, h2, h3, h4, h5⟩ := h 3 (by norm_num)
    have e2 := h2
    have e3 := h3
    simp [sidePoint, RefEl.corners, RefEl.numNodes, hg] at e2 e3
    refine side_flux h1 (hk ▸ h2) (hk ▸ h3) h4 h5 (x := [1, 1]) (by rw [hk]; norm_num [RefEl.Contains]) ?_ (hg 1 1) (o := A) ?_ ?_ ?_ b
    · intro t _ _; rw [hk]; simp [sidePoint, RefEl.corners, RefEl.numNodes]
    · rw [← e2, ← e3]; simp
    · rw [← e2]; simp
    · simp only [det2_eq, Pi.neg_apply]; ring

/-- The divergence theorem on affine cells: for a polynomial on the reference element and a constant vector field. -/
theorem gauss_affine {g : Geo ℝ 2} {r : RefEl} (hr : r = .tria ∨ r = .quad) (hk : g.kind = r) (hgc : g.StrictlyConvex) {A B : Vec ℝ 2}
    (hJ : g.ConstJacobian A B) {d : ℕ} {W : List ℝ → ℝ} {G : List ℝ → List ℝ} (hW : IsPolyOn r d W)
    (hG : ∀ k < 2, ∀ x : List ℝ, x.length = 2 → HasDerivAt (fun t => W (x.set k t)) ((G x).getD k 0) (x.getD k 0))
    {n : ℕ → Vec ℝ 2} {len : ℕ → ℝ}
    (h : ∀ s < r.numNodes, g.IsOuterNormal s (n s) ∧ ∃ p₀ p₁, g.global (sidePoint r s 0) = some p₀ ∧
        g.global (sidePoint r s 1) = some p₁ ∧ 0 ≤ len s ∧ len s ^ 2 = dot (p₁ - p₀) (p₁ - p₀)) (b : Vec ℝ 2) :
    refIntegral r (fun x => |det2 A B| * dot b (g.pushGrad x (G x))) =
      ∑ s ∈ range r.numNodes, len s * dot (n s) b * sideInt r W s := by
  obtain ⟨P, hP⟩ := affine_global hgc hJ
  have hD := affine_det hgc hJ
  have hA : |det2 A B| ≠ 0 := abs_ne_zero.mpr hD
  have p0 := IsPolyOn.deriv hr hW (k := 0) (by norm_num) (hG 0 (by norm_num))
  have p1 := IsPolyOn.deriv hr hW (k := 1) (by norm_num) (hG 1 (by norm_num))
  have hdim : g.kind.dimension = 2 := by rw [hk]; rcases hr with rfl | rfl <;> rfl
  have e : ∀ x y, |det2 A B| * dot b (g.pushGrad [x, y] (G [x, y])) =
      (|det2 A B| * (det2 A B)⁻¹ * det2 b B) * (G [x, y]).getD 0 0 + (|det2 A B| * (det2 A B)⁻¹ * det2 A b) * (G [x, y]).getD 1 0 := by
    intro x y
    rw [pushGrad_two hdim (hJ [x, y] rfl) hD]
    simp [dot, Fin.sum_univ_two, vec2, entry, det2]
    ring
  have e' : refIntegral r (fun x => |det2 A B| * dot b (g.pushGrad x (G x))) = refIntegral r (fun x =>
      (|det2 A B| * (det2 A B)⁻¹ * det2 b B) * (G x).getD 0 0 + (|det2 A B| * (det2 A B)⁻¹ * det2 A b) * (G x).getD 1 0) := by
    rcases hr with rfl | rfl <;> simp only [refIntegral, e]
  rw [e', ref_lin hr p0 p1]
  refine mul_left_cancel₀ hA ?_
  have habs : |det2 A B| * (|det2 A B| * (det2 A B)⁻¹) = det2 A B := by
    rw [← mul_assoc, abs_mul_abs_self, mul_assoc, mul_inv_cancel₀ hD, mul_one]
  have hre : ∀ p q x y : ℝ, |det2 A B| * (|det2 A B| * (det2 A B)⁻¹ * p * x + |det2 A B| * (det2 A B)⁻¹ * q * y) =
      det2 A B * p * x + det2 A B * q * y := fun p q x y => by linear_combination (p * x + q * y) * habs
  rw [hre]
  rcases hr with rfl | rfl
  · obtain ⟨f0, f1, f2⟩ := sideFlux_tria hk hP h b
    rw [tria_fst hW (hG 0 (by norm_num)), tria_snd hW (hG 1 (by norm_num))]
    change _ = _ * ∑ s ∈ range 3, _
    simp only [Finset.sum_range_succ, Finset.sum_range_zero, zero_add]
    have eA : det2 b A = -det2 A b := by simp only [det2_eq]; ring
    have eBA : det2 b (B - A) = det2 b B + det2 A b := by simp only [det2_eq, Pi.sub_apply]; ring
    have eB : det2 b (-B) = -det2 b B := by simp only [det2_eq, Pi.neg_apply]; ring
    rw [eA] at f0
    rw [eBA] at f1
    rw [eB] at f2
    linear_combination (-sideInt .tria W 0) * f0 - sideInt .tria W 1 * f1 - sideInt .tria W 2 * f2
  · obtain ⟨f0, f1, f2, f3⟩ := sideFlux_quad hk hP h b
    rw [quad_fst hW (hG 0 (by norm_num)), quad_snd hW (hG 1 (by norm_num))]
    change _ = _ * ∑ s ∈ range 4, _
    simp only [Finset.sum_range_succ, Finset.sum_range_zero, zero_add]
    have eA : det2 b A = -det2 A b := by simp only [det2_eq]; ring
    have eA' : det2 b (-A) = det2 A b := by simp only [det2_eq, Pi.neg_apply]; ring
    have eB : det2 b (-B) = -det2 b B := by simp only [det2_eq, Pi.neg_apply]; ring
    rw [eA] at f0
    rw [eA'] at f2
    rw [eB] at f3
    linear_combination (-sideInt .quad W 0) * f0 - sideInt .quad W 1 * f1 - sideInt .quad W 2 * f2 - sideInt .quad W 3 * f3

end Verif.Dpg
