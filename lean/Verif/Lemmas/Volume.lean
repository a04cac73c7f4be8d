import Verif.Lemmas.Geometry
import Mathlib.MeasureTheory.Function.Jacobian
import Mathlib.MeasureTheory.Measure.Hausdorff
import Mathlib.MeasureTheory.Measure.Lebesgue.VolumeOfBalls
import Mathlib.Analysis.SpecialFunctions.Integrals.Basic
import Mathlib.MeasureTheory.Integral.Prod

/-!
# Lemmas on volumes of geometries
-/

namespace Verif
open Geo MeasureTheory Set

/-- The unit square in the plane. -/
def unitSquare : Set (Fin 2 → ℝ) := {p | ∀ i, 0 ≤ p i ∧ p i ≤ 1}

/-- The unit triangle in the plane. -/
def unitTriangle : Set (Fin 2 → ℝ) := {p | 0 ≤ p 0 ∧ 0 ≤ p 1 ∧ p 0 + p 1 ≤ 1}

theorem unitSquare_eq : unitSquare = (MeasurableEquiv.finTwoArrow (α := ℝ)) ⁻¹' (Icc 0 1 ×ˢ Icc 0 1) := by
  ext p
  simp [unitSquare, MeasurableEquiv.finTwoArrow, Fin.forall_fin_two]
  tauto

theorem unitTriangle_eq : unitTriangle = (MeasurableEquiv.finTwoArrow (α := ℝ)) ⁻¹'
    {p : ℝ × ℝ | 0 ≤ p.1 ∧ 0 ≤ p.2 ∧ p.1 + p.2 ≤ 1} := by
  ext p
  simp [unitTriangle, MeasurableEquiv.finTwoArrow]

theorem measurable_square : MeasurableSet unitSquare := by
  rw [unitSquare_eq]
  exact (MeasurableEquiv.measurable _) (measurableSet_Icc.prod measurableSet_Icc)

theorem lintegral_square (α β γ : ℝ) (h : ∀ p ∈ unitSquare, 0 ≤ α + β * p 0 + γ * p 1) :
    ∫⁻ p in unitSquare, ENNReal.ofReal (α + β * p 0 + γ * p 1) = ENNReal.ofReal (α + β * (1 / 2) + γ * (1 / 2)) := by
  have hmp := volume_preserving_finTwoArrow ℝ
  have h1 : ∫⁻ p in unitSquare, ENNReal.ofReal (α + β * p 0 + γ * p 1) =
      ∫⁻ q in Icc (0 : ℝ) 1 ×ˢ Icc (0 : ℝ) 1, ENNReal.ofReal (α + β * q.1 + γ * q.2) := by
    rw [unitSquare_eq]
    exact (hmp.setLIntegral_comp_preimage (measurableSet_Icc.prod measurableSet_Icc)
      (f := fun q => ENNReal.ofReal (α + β * q.1 + γ * q.2)) (by fun_prop))
  have hcont : Continuous fun q : ℝ × ℝ => α + β * q.1 + γ * q.2 := by fun_prop
  have hint : IntegrableOn (fun q : ℝ × ℝ => α + β * q.1 + γ * q.2) (Icc (0 : ℝ) 1 ×ˢ Icc (0 : ℝ) 1)
      (volume.prod volume) :=
    hcont.continuousOn.integrableOn_compact (isCompact_Icc.prod isCompact_Icc)
  rw [h1, ← ofReal_integral_eq_lintegral_ofReal]
  · congr 1
    rw [Measure.volume_eq_prod, setIntegral_prod _ hint]
    simp only [integral_Icc_eq_integral_Ioc]
    simp only [← intervalIntegral.integral_of_le zero_le_one]
    have h2 : ∀ x : ℝ, ∫ y in (0 : ℝ)..1, (α + β * x + γ * y) = (α + β * x) + γ * (1 / 2) := by
      intro x
      rw [intervalIntegral.integral_add (Continuous.intervalIntegrable (by fun_prop) _ _) (Continuous.intervalIntegrable (by fun_prop) _ _)]
      rw [intervalIntegral.integral_const_mul, integral_id]
      simp
    simp only [h2]
    rw [intervalIntegral.integral_add (Continuous.intervalIntegrable (by fun_prop) _ _) (Continuous.intervalIntegrable (by fun_prop) _ _), intervalIntegral.integral_add (Continuous.intervalIntegrable (by fun_prop) _ _) (Continuous.intervalIntegrable (by fun_prop) _ _),
      intervalIntegral.integral_const_mul, integral_id]
    simp
  · exact hint
  · refine (ae_restrict_iff' (measurableSet_Icc.prod measurableSet_Icc)).2 (Filter.Eventually.of_forall ?_)
    rintro ⟨x, y⟩ ⟨hx, hy⟩
    simpa using h ![x, y] (by simp [unitSquare, Fin.forall_fin_two]; exact ⟨hx, hy⟩)

theorem volume_square : volume unitSquare = 1 := by
  have := lintegral_square 1 0 0 (fun _ _ => by norm_num)
  simpa using this

theorem volume_triangle : volume unitTriangle = ENNReal.ofReal (1 / 2) := by
  have hm : MeasurableSet {p : ℝ × ℝ | 0 ≤ p.1 ∧ 0 ≤ p.2 ∧ p.1 + p.2 ≤ 1} := by
    refine IsClosed.measurableSet ?_
    refine (isClosed_le continuous_const continuous_fst).inter ((isClosed_le continuous_const continuous_snd).inter
      (isClosed_le (continuous_fst.add continuous_snd) continuous_const))
  rw [unitTriangle_eq, (volume_preserving_finTwoArrow ℝ).measure_preimage hm.nullMeasurableSet,
    Measure.volume_eq_prod, Measure.prod_apply hm]
  have h1 : ∀ x : ℝ, volume (Prod.mk x ⁻¹' {p : ℝ × ℝ | 0 ≤ p.1 ∧ 0 ≤ p.2 ∧ p.1 + p.2 ≤ 1}) =
      (Icc (0 : ℝ) 1).indicator (fun x => ENNReal.ofReal (1 - x)) x := by
    intro x
    by_cases hx : x ∈ Icc (0 : ℝ) 1
    · rw [indicator_of_mem hx]
      have : Prod.mk x ⁻¹' {p : ℝ × ℝ | 0 ≤ p.1 ∧ 0 ≤ p.2 ∧ p.1 + p.2 ≤ 1} = Icc 0 (1 - x) := by
        ext y
        simp only [mem_preimage, mem_ofPred_eq, mem_Icc]
        constructor
        · rintro ⟨_, h2, h3⟩; exact ⟨h2, by linarith⟩
        · rintro ⟨h2, h3⟩; exact ⟨hx.1, h2, by linarith⟩
      rw [this, Real.volume_Icc]
      simp
    · rw [indicator_of_notMem hx]
      have : Prod.mk x ⁻¹' {p : ℝ × ℝ | 0 ≤ p.1 ∧ 0 ≤ p.2 ∧ p.1 + p.2 ≤ 1} = ∅ := by
        ext y
        simp only [mem_preimage, mem_ofPred_eq, mem_empty_iff_false, iff_false]
        rintro ⟨h1, h2, h3⟩
        exact hx ⟨h1, by linarith⟩
      rw [this, measure_empty]
  simp only [h1]
  rw [lintegral_indicator measurableSet_Icc, ← ofReal_integral_eq_lintegral_ofReal]
  · congr 1
    rw [integral_Icc_eq_integral_Ioc, ← intervalIntegral.integral_of_le zero_le_one,
      intervalIntegral.integral_sub (Continuous.intervalIntegrable (by fun_prop) _ _) (Continuous.intervalIntegrable (by fun_prop) _ _)]
    simp
    norm_num
  · exact (by fun_prop : Continuous fun x : ℝ => 1 - x).continuousOn.integrableOn_compact isCompact_Icc
  · refine (ae_restrict_iff' measurableSet_Icc).2 (Filter.Eventually.of_forall ?_)
    rintro x ⟨_, hx⟩
    simpa using hx

/-- Measure of the image of a set under an affine map with the columns `u`, `v`. -/
theorem volume_affine (a u v : Vec ℝ 2) (s : Set (Fin 2 → ℝ)) :
    volume ((fun p : Fin 2 → ℝ => a + (p 0 • u + p 1 • v)) '' s) = ENNReal.ofReal |det2 u v| * volume s := by
  have h1 : (fun p : Fin 2 → ℝ => a + (p 0 • u + p 1 • v)) '' s =
      (fun q => a + q) '' ((matrix 2 [u, v]).mulVecLin '' s) := by
    rw [image_image]
    refine image_congr fun p _ => ?_
    ext i
    simp [Geo.matrix, Matrix.mulVec, dotProduct, Fin.sum_univ_two, mul_comm]
  rw [h1, image_add_left, measure_preimage_add, Measure.addHaar_image_linearMap]
  congr 3
  rw [← Matrix.toLin'_apply', LinearMap.det_toLin', Matrix.det_fin_two]
  simp [Geo.matrix, det2, entry]

/-- The two formulas for the area of a parallelogram agree. -/
theorem area_eq (A B : Vec ℝ w) :
    (if w = 2 then |det2 A B| else Real.sqrt (dot A A * dot B B - dot A B * dot A B)) =
      Real.sqrt (dot A A * dot B B - dot A B * dot A B) := by
  by_cases hw : w = 2
  · subst hw
    rw [if_pos rfl, det2_sq, Real.sqrt_mul_self_eq_abs]
  · rw [if_neg hw]

/-- Area of the parallelogram spanned by linear combinations. -/
theorem area_comb (u v : Vec ℝ w) (p q r s : ℝ) :
    Real.sqrt (dot (p • u + q • v) (p • u + q • v) * dot (r • u + s • v) (r • u + s • v) -
      dot (p • u + q • v) (r • u + s • v) * dot (p • u + q • v) (r • u + s • v)) =
    |p * s - q * r| * Real.sqrt (dot u u * dot v v - dot u v * dot u v) := by
  have e : ∀ a b c d : ℝ, dot (a • u + b • v) (c • u + d • v) =
      a * c * dot u u + (a * d + b * c) * dot u v + b * d * dot v v := by
    intro a b c d
    simp only [dot, Finset.mul_sum, ← Finset.sum_add_distrib]
    refine Finset.sum_congr rfl fun i _ => ?_
    simp only [Pi.add_apply, Pi.smul_apply, smul_eq_mul]
    ring
  have : dot (p • u + q • v) (p • u + q • v) * dot (r • u + s • v) (r • u + s • v) -
      dot (p • u + q • v) (r • u + s • v) * dot (p • u + q • v) (r • u + s • v) =
      (p * s - q * r) * (p * s - q * r) * (dot u u * dot v v - dot u v * dot u v) := by
    simp only [e]
    ring
  rw [this, Real.sqrt_mul (mul_self_nonneg _), Real.sqrt_mul_self_eq_abs]

end Verif
