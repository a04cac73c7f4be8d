import Verif.Lemmas.LinFEQuad
import Verif.Lemmas.Gram
import Verif.Lemmas.FeTools
import Verif.Props.Lagrange
import Verif.Props.Geometry

/-!
# C52: the element matrix of `LinearFELaplaceElementMatrix`
-/

namespace Verif
open Geo Matrix

theorem corners_tria {g : Geo ℝ 2} {v : Fin 3 → Vec ℝ 2} (hk : g.kind = .tria)
    (hv : g.kind.corners.mapM g.global = some [v 0, v 1, v 2]) : linearFELaplace g = laplaceTria v := by
  have : v = ![v 0, v 1, v 2] := by
    funext i
    fin_cases i <;> rfl
  rw [linearFELaplace, hv, hk, Option.bind_some]
  show laplaceTria ![v 0, v 1, v 2] = _
  rw [← this]

theorem corners_quad {g : Geo ℝ 2} {a b c d : Vec ℝ 2} (hk : g.kind = .quad)
    (hv : g.kind.corners.mapM g.global = some [a, b, c, d]) :
    linearFELaplace g = laplaceQuad ![a, b, c, d] := by
  rw [linearFELaplace, hv, hk, Option.bind_some]

/-- **C52**, triangles: for all cells which are triangles with corners `v` that do not lie on a line, the
matrix holds the Dirichlet form of the barycentric coordinates of these corners: the integral, transformed to
the reference triangle, of the scalar product of their gradients.  The last row and column, for which there is
no shape function, are zero. -/
theorem C52_tria (g : Geo ℝ 2) (hk : g.kind = .tria) (v : Fin 3 → Vec ℝ 2)
    (hv : g.kind.corners.mapM g.global = some [v 0, v 1, v 2]) (hd : det2 (v 1 - v 0) (v 2 - v 0) ≠ 0) :
    ∃ M k gr, linearFELaplace g = some M ∧ IsBary v k gr ∧
      (∀ i j : Fin 3, M i.castSucc j.castSucc =
        refIntegral .tria fun _ => |det2 (v 1 - v 0) (v 2 - v 0)| * dot (gr i) (gr j)) ∧
      ∀ i, M i 3 = 0 ∧ M 3 i = 0 := by
  rw [← triaX_det] at hd ⊢
  obtain ⟨k, gr, h⟩ := isBary_exists v hd
  refine ⟨_, k, gr, (corners_tria hk hv).trans (laplaceTria_bary h hd), h, fun i j => ?_, fun i => block33_last _ i⟩
  rw [block33_cast]
  simp only [refIntegral, intervalIntegral.integral_const, sub_zero, smul_eq_mul,
    intervalIntegral.integral_mul_const, int_one_sub, Matrix.of_apply]

/-- **C52**, triangles: the matrix is symmetric and positive semi-definite, and its kernel consists of the
coefficient vectors of constants (the last component of the vector is not used). -/
theorem C52_tria_form (g : Geo ℝ 2) (hk : g.kind = .tria) (v : Fin 3 → Vec ℝ 2)
    (hv : g.kind.corners.mapM g.global = some [v 0, v 1, v 2]) (hd : det2 (v 1 - v 0) (v 2 - v 0) ≠ 0) :
    ∃ M, linearFELaplace g = some M ∧ M.transpose = M ∧ (∀ x, 0 ≤ x ⬝ᵥ M.mulVec x) ∧
      (∀ x, x ⬝ᵥ M.mulVec x = 0 ↔ x 0 = x 1 ∧ x 1 = x 2) ∧ ∀ x, M.mulVec x = 0 ↔ x 0 = x 1 ∧ x 1 = x 2 := by
  rw [← triaX_det] at hd
  obtain ⟨k, gr, h⟩ := isBary_exists v hd
  refine ⟨_, (corners_tria hk hv).trans (laplaceTria_bary h hd), ?_, fun x => ?_, ?_⟩
  · ext i j
    simp only [Matrix.transpose_apply, block33, Matrix.of_apply]
    by_cases hi : i.val < 3 <;> by_cases hj : j.val < 3 <;> simp [hi, hj, dot_comm' (gr ⟨i.val, _⟩)]
  · rw [gram_form]
    exact mul_nonneg (by positivity) (dot_self_nonneg' _)
  · have hpos : 0 < 1 / 2 * |(triaX v).det| := by positivity
    have hker := fun x : Fin 4 → ℝ => h.kernel fun i => x i.castSucc
    have hform : ∀ x : Fin 4 → ℝ, x ⬝ᵥ (block33 (.of fun i j => 1 / 2 * |(triaX v).det| * dot (gr i) (gr j))).mulVec x
        = 0 ↔ x 0 = x 1 ∧ x 1 = x 2 := by
      intro x
      rw [gram_form, mul_eq_zero, or_iff_right hpos.ne']
      exact dot_self_zero.trans (hker x)
    refine ⟨hform, fun x => ⟨fun h0 => (hform x).mp (by rw [h0]; simp), fun hx => ?_⟩⟩
    have h0 := (hker x).mpr hx
    funext i
    rw [Matrix.mulVec, dotProduct, sum_four]
    refine Fin.lastCases ?_ (fun i => ?_) i
    · show (∑ j : Fin 3, block33 _ 3 j.castSucc * x j.castSucc) + block33 _ 3 3 * x 3 = 0
      simp [(block33_last _ _).2]
    · simp only [block33_cast, (block33_last _ _).1, Matrix.of_apply, zero_mul, add_zero]
      have : ∀ S : Vec ℝ 2, S = ∑ j : Fin 3, x j.castSucc • gr j →
          ∑ j : Fin 3, 1 / 2 * |(triaX v).det| * dot (gr i) (gr j) * x j.castSucc =
          1 / 2 * |(triaX v).det| * dot (gr i) S := by
        rintro S rfl
        simp only [dot_two, Fin.sum_univ_three, Pi.add_apply, Pi.smul_apply, smul_eq_mul]
        ring
      rw [this 0 h0.symm]
      simp [dot]

/-- **C52**, triangles: renumbering the corners renumbers rows and columns. -/
theorem C52_tria_renumber (v : Fin 3 → Vec ℝ 2) (hd : det2 (v 1 - v 0) (v 2 - v 0) ≠ 0) (σ : Equiv.Perm (Fin 3)) :
    ∃ M M', linearFELaplace (.triaO1 (v 0) (v 1) (v 2)) = some M ∧
      linearFELaplace (.triaO1 (v (σ 0)) (v (σ 1)) (v (σ 2))) = some M' ∧
      ∀ i j : Fin 3, M' i.castSucc j.castSucc = M (σ i).castSucc (σ j).castSucc := by
  rw [← triaX_det] at hd
  obtain ⟨k, gr, h⟩ := isBary_exists v hd
  have h' : IsBary (v ∘ σ) (k ∘ σ) (gr ∘ σ) := fun i j => by
    rw [Function.comp_apply, Function.comp_apply, Function.comp_apply, h]
    simp
  have hX : triaX (v ∘ σ) = (triaX v).submatrix σ id := by
    ext i j
    simp [triaX]
  have hdet : |(triaX (v ∘ σ)).det| = |(triaX v).det| := by
    rw [hX, Matrix.det_permute, abs_mul]
    rcases Int.units_eq_one_or (Equiv.Perm.sign σ) with e | e <;> simp [e]
  have e1 := corners_tria (g := .triaO1 (v 0) (v 1) (v 2)) (v := v) rfl (by simp [kind, RefEl.corners, global])
  have e2 := corners_tria (g := .triaO1 (v (σ 0)) (v (σ 1)) (v (σ 2))) (v := v ∘ σ) rfl
    (by simp [kind, RefEl.corners, global])
  refine ⟨_, _, e1.trans (laplaceTria_bary h hd), e2.trans (laplaceTria_bary h' h'.det_ne), fun i j => ?_⟩
  rw [block33_cast, block33_cast, hdet]
  rfl

/-- **C52**, triangles: translations, rotations, reflections and scalings of the triangle do not change the
matrix. -/
theorem C52_tria_similar (v : Fin 3 → Vec ℝ 2) (hd : det2 (v 1 - v 0) (v 2 - v 0) ≠ 0)
    (R : Matrix (Fin 2) (Fin 2) ℝ) (hR : R.transpose * R = 1) (s : ℝ) (hs : s ≠ 0) (t : Vec ℝ 2) :
    (linearFELaplace (.triaO1 (v 0) (v 1) (v 2))).isSome ∧
    linearFELaplace (.triaO1 (s • R.mulVec (v 0) + t) (s • R.mulVec (v 1) + t) (s • R.mulVec (v 2) + t)) =
      linearFELaplace (.triaO1 (v 0) (v 1) (v 2)) := by
  rw [← triaX_det] at hd
  obtain ⟨k, gr, h⟩ := isBary_exists v hd
  have hdot : ∀ x y : Vec ℝ 2, dot (R.mulVec x) (R.mulVec y) = dot x y := by
    intro x y
    show R.mulVec x ⬝ᵥ R.mulVec y = x ⬝ᵥ y
    rw [Matrix.dotProduct_mulVec, ← Matrix.mulVec_transpose, Matrix.mulVec_mulVec, hR, Matrix.one_mulVec]
  have hlin : ∀ (x y : Vec ℝ 2), dot (s⁻¹ • R.mulVec x) (s • R.mulVec y + t) =
      dot x y + dot (s⁻¹ • R.mulVec x) t := by
    intro x y
    rw [← hdot x y]
    simp only [dot_two, Pi.add_apply, Pi.smul_apply, smul_eq_mul]
    field_simp
    ring
  have h' : IsBary (fun i => s • R.mulVec (v i) + t) (fun i => k i - dot (s⁻¹ • R.mulVec (gr i)) t)
      (fun i => s⁻¹ • R.mulVec (gr i)) := fun i j => by
    rw [hlin, ← h i j]
    ring
  have e1 := corners_tria (g := .triaO1 (v 0) (v 1) (v 2)) (v := v) rfl (by simp [kind, RefEl.corners, global])
  have e2 := corners_tria (g := .triaO1 (s • R.mulVec (v 0) + t) (s • R.mulVec (v 1) + t) (s • R.mulVec (v 2) + t))
    (v := fun i => s • R.mulVec (v i) + t) rfl (by simp [kind, RefEl.corners, global])
  rw [e1, e2, laplaceTria_bary h hd, laplaceTria_bary h' h'.det_ne]
  refine ⟨rfl, ?_⟩
  congr 2
  ext i j
  simp only [Matrix.of_apply]
  have hdetR : R.det * R.det = 1 := by
    have := congrArg Matrix.det hR
    rwa [Matrix.det_mul, Matrix.det_transpose, Matrix.det_one] at this
  have habs : |R.det| = 1 := by
    have : |R.det| * |R.det| = 1 := by rw [abs_mul_abs_self, hdetR]
    nlinarith [abs_nonneg R.det]
  have hX : (triaX fun i => s • R.mulVec (v i) + t).det = s * s * R.det * (triaX v).det := by
    rw [triaX_det, triaX_det, Matrix.det_fin_two R]
    simp [det2, entry, Matrix.mulVec, dotProduct, Fin.sum_univ_two]
    ring
  rw [hX, abs_mul, abs_mul, habs, abs_mul_self]
  have : dot (s⁻¹ • R.mulVec (gr i)) (s⁻¹ • R.mulVec (gr j)) = s⁻¹ * s⁻¹ * dot (gr i) (gr j) := by
    rw [← hdot (gr i) (gr j)]
    simp only [dot_two, Pi.smul_apply, smul_eq_mul]
    ring
  rw [this]
  field_simp

/-- On degenerate triangles, for which the inverse does not exist, there is no result. -/
theorem C52_tria_degenerate (g : Geo ℝ 2) (hk : g.kind = .tria) (v : Fin 3 → Vec ℝ 2)
    (hv : g.kind.corners.mapM g.global = some [v 0, v 1, v 2]) (hd : det2 (v 1 - v 0) (v 2 - v 0) = 0) :
    linearFELaplace g = none := by
  rw [← triaX_det] at hd
  rw [corners_tria hk hv, laplaceTria]
  exact if_pos hd

section Quad
variable (g : Geo ℝ 2) (hk : g.kind = .quad) (a b c d : Vec ℝ 2)
  (hv : g.kind.corners.mapM g.global = some [a, b, c, d])
  (hd : ∀ p ∈ gauss22.points, (quadO1 a b c d).integrationElement p ≠ some 0)
include hk hv hd

/-- **C52**, quadrilaterals: for all quadrilateral cells with corners `a`, `b`, `c`, `d` the matrix holds the
values of the tensor product Gauss rule with four points for the Dirichlet form of the bilinear shape
functions on the quadrilateral with these corners. -/
theorem C52_quad : ∃ M, linearFELaplace g = some M ∧ ∀ i j : Fin 4,
    M i j = gauss22.integrate ((quadO1 a b c d).dirichlet lagrO1Quad i.val j.val) :=
  ⟨_, (corners_quad hk hv).trans (laplaceQuad_eq a b c d hd), fun _ _ => rfl⟩

/-- **C52**, quadrilaterals: the matrix is symmetric and positive semi-definite and its kernel consists of the
coefficient vectors of constants. -/
theorem C52_quad_form : ∃ M, linearFELaplace g = some M ∧ M.transpose = M ∧ (∀ x, 0 ≤ x ⬝ᵥ M.mulVec x) ∧
    (∀ x, x ⬝ᵥ M.mulVec x = 0 ↔ x 0 = x 1 ∧ x 1 = x 2 ∧ x 2 = x 3) ∧
    ∀ x, M.mulVec x = 0 ↔ x 0 = x 1 ∧ x 1 = x 2 ∧ x 2 = x 3 := by
  obtain ⟨M, hM, hij⟩ := C52_quad g hk a b c d hv hd
  set P : ℕ → Fin 4 → Vec ℝ 2 := fun k i => (quadO1 a b c d).pushGrad (gauss22.points.getD k [])
    ((((lagrO1Quad : RefFE ℝ).grad (gauss22.points.getD k [])).getD []).getD i.val []) with hP
  set e : ℕ → ℝ := fun k => gauss22.weights.getD k 0 *
    ((quadO1 a b c d).integrationElement (gauss22.points.getD k [])).getD 0 with he
  have hsum : ∀ i j, M i j = ∑ k ∈ Finset.range 4, e k * dot (P k i) (P k j) := by
    intro i j
    rw [hij, integrate_eq_sum gauss22 rfl]
    exact Finset.sum_congr rfl fun k _ => by simp only [dirichlet, he, hP]; ring
  have hpt : ∀ k < 4, ∃ x y, gauss22.points.getD k [] = [x, y] ∧ [x, y] ∈ gauss22.points := by
    intro k hk
    interval_cases k <;> exact ⟨_, _, rfl, by simp [gauss22]⟩
  have hdet : ∀ x y, [x, y] ∈ gauss22.points → det2 (quadA a b c d y) (quadB a b c d x) ≠ 0 := by
    intro x y hxy h0
    exact hd _ hxy (by rw [integrationElement_quadO1, h0, abs_zero])
  have hpos : ∀ k < 4, 0 < e k := by
    intro k hk
    obtain ⟨x, y, hxy, hm⟩ := hpt k hk
    rw [he]
    simp only
    rw [hxy, integrationElement_quadO1, Option.getD_some]
    have h1 : gauss22.weights.getD k 0 = 1 / 4 := by interval_cases k <;> rfl
    rw [h1]
    have := abs_pos.mpr (hdet x y hm)
    positivity
  have hform := gram_sum (Finset.range 4) e P P M hsum
  have hsymm : M.transpose = M := by
    ext i j
    rw [Matrix.transpose_apply, hsum, hsum]
    exact Finset.sum_congr rfl fun k _ => by rw [dot_comm']
  -- the gradient of a linear combination
  have hgrad : ∀ k < 4, ∀ x y, gauss22.points.getD k [] = [x, y] → [x, y] ∈ gauss22.points → ∀ u : Fin 4 → ℝ,
      (∑ i, u i • P k i = 0 ↔ (u 1 - u 0) + y * (u 0 - u 1 + u 2 - u 3) = 0 ∧
        (u 3 - u 0) + x * (u 0 - u 1 + u 2 - u 3) = 0) := by
    intro k _ x y hxy hm u
    have hJ : (quadO1 a b c d).jacobian [x, y] = some [quadA a b c d y, quadB a b c d x] := rfl
    have hd' := hdet x y hm
    simp only [hP, hxy, pushGrad_two rfl hJ hd']
    set A := quadA a b c d y
    set B := quadB a b c d x
    have e0 : ∀ i : Fin 4, _ := fun i => derv_eq x y i 0
    have e1 : ∀ i : Fin 4, _ := fun i => derv_eq x y i 1
    simp only [Fin.val_zero, Fin.val_one] at e0 e1
    simp only [e0, e1]
    set s := (u 1 - u 0) + y * (u 0 - u 1 + u 2 - u 3) with hs
    set t := (u 3 - u 0) + x * (u 0 - u 1 + u 2 - u 3) with ht
    have hS : (∑ i, u i • (dervRefShapFncts x y i 0 • ((det2 A B)⁻¹ • vec2 (entry B 1) (-entry B 0)) +
        dervRefShapFncts x y i 1 • ((det2 A B)⁻¹ • (vec2 (-entry A 1) (entry A 0) : Vec ℝ 2)))) =
        (det2 A B)⁻¹ • (s • vec2 (entry B 1) (-entry B 0) + t • (vec2 (-entry A 1) (entry A 0) : Vec ℝ 2)) := by
      rw [Fin.sum_univ_four, hs, ht]
      funext r
      simp [dervRefShapFncts]
      ring
    rw [hS, smul_eq_zero, or_iff_right (inv_ne_zero hd')]
    constructor
    · intro h0
      have h00 := congrFun h0 0
      have h01 := congrFun h0 1
      simp [vec2] at h00 h01
      have hD : entry A 0 * entry B 1 - entry B 0 * entry A 1 ≠ 0 := hd'
      constructor
      · refine (mul_eq_zero.mp ?_).resolve_right hD
        linear_combination (entry A 0) * h00 + (entry A 1) * h01
      · refine (mul_eq_zero.mp ?_).resolve_right hD
        linear_combination (entry B 0) * h00 + (entry B 1) * h01
    · rintro ⟨h0, h1⟩
      rw [h0, h1]
      simp
  have hzero : ∀ u : Fin 4 → ℝ, (∀ k ∈ Finset.range 4, ∑ i, u i • P k i = 0) ↔ u 0 = u 1 ∧ u 1 = u 2 ∧ u 2 = u 3 := by
    intro u
    constructor
    · intro h
      have h0 := (hgrad 0 (by norm_num) _ _ rfl (by simp [gauss22]) u).mp (h 0 (by simp))
      have h1 := (hgrad 1 (by norm_num) _ _ rfl (by simp [gauss22]) u).mp (h 1 (by simp))
      have hz := sub_ne_zero.mpr zeta_ne
      have hr : u 0 - u 1 + u 2 - u 3 = 0 := by
        refine (mul_eq_zero.mp ?_).resolve_left hz
        linear_combination h0.1 - h1.1
      rw [hr] at h0
      simp only [mul_zero, add_zero] at h0
      refine ⟨by linarith [h0.1], by linarith [h0.1, h0.2], by linarith [h0.1, h0.2]⟩
    · rintro ⟨h0, h1, h2⟩ k hk
      obtain ⟨x, y, hxy, hm⟩ := hpt k (Finset.mem_range.mp hk)
      rw [hgrad k (Finset.mem_range.mp hk) x y hxy hm, h0, h1, h2]
      simp
  have hker : ∀ x : Fin 4 → ℝ, x ⬝ᵥ M.mulVec x = 0 ↔ x 0 = x 1 ∧ x 1 = x 2 ∧ x 2 = x 3 := by
    intro x
    rw [hform, ← hzero x, Finset.sum_eq_zero_iff_of_nonneg
      fun k hk => mul_nonneg (hpos k (Finset.mem_range.mp hk)).le (dot_self_nonneg' _)]
    refine forall₂_congr fun k hk => ?_
    rw [mul_eq_zero, or_iff_right (hpos k (Finset.mem_range.mp hk)).ne', dot_self_zero]
  refine ⟨M, hM, hsymm, fun x => ?_, hker, fun x => ⟨fun h => (hker x).mp (by rw [h]; simp), fun h => ?_⟩⟩
  · rw [hform]
    exact Finset.sum_nonneg fun k hk => mul_nonneg (hpos k (Finset.mem_range.mp hk)).le (dot_self_nonneg' _)
  · have h0 := (hzero x).mpr h
    funext i
    have : (Pi.single i 1 : Fin 4 → ℝ) ⬝ᵥ M.mulVec x = M.mulVec x i := by simp
    rw [← this, hform]
    refine Finset.sum_eq_zero fun k hk => ?_
    rw [h0 k hk]
    simp [dot]

end Quad

theorem isPolyOn_quad_two {f : List ℝ → ℝ} (c : ℕ → ℕ → ℝ)
    (h : ∀ x y, f [x, y] = c 0 0 + c 1 0 * x + c 0 1 * y + c 1 1 * (x * y) + c 2 0 * x ^ 2 + c 0 2 * y ^ 2) :
    IsPolyOn .quad 3 f := by
  refine ⟨fun a b => if a + b ≤ 2 then c a b else 0, fun x y => ?_⟩
  rw [h]
  simp [Finset.sum_range_succ]
  ring

/-- **C52**, quadrilaterals: on all parallelograms the matrix holds the exact Dirichlet form. -/
theorem C52_parallelogram (g : Geo ℝ 2) (hk : g.kind = .quad) (a b d : Vec ℝ 2)
    (hv : g.kind.corners.mapM g.global = some [a, b, b + (d - a), d]) (hd : det2 (b - a) (d - a) ≠ 0) :
    ∃ M, linearFELaplace g = some M ∧ ∀ i j : Fin 4,
      M i j = refIntegral .quad ((quadO1 a b (b + (d - a)) d).dirichlet lagrO1Quad i.val j.val) := by
  have hA : ∀ y, quadA a b (b + (d - a)) d y = b - a := fun y => by
    funext i; simp [quadA]; ring
  have hB : ∀ x, quadB a b (b + (d - a)) d x = d - a := fun x => by
    funext i; simp [quadB]; ring
  obtain ⟨M, hM, hij⟩ := C52_quad g hk a b _ d hv (fun p hp h0 => by
    obtain ⟨x, y, rfl⟩ := two_coords (gauss22_wf.1 p hp)
    rw [integrationElement_quadO1, hA, hB, Option.some_inj, abs_eq_zero] at h0
    exact hd h0)
  refine ⟨M, hM, fun i j => (hij i j).trans (gauss22_exact _ ?_)⟩
  set A := b - a with hAdef
  set B := d - a with hBdef
  set P : Vec ℝ 2 := (det2 A B)⁻¹ • vec2 (entry B 1) (-(entry B 0)) with hP
  set Q : Vec ℝ 2 := (det2 A B)⁻¹ • vec2 (-(entry A 1)) (entry A 0) with hQ
  let al : Fin 4 → ℝ := ![-1, 1, 0, 0]
  let be : Fin 4 → ℝ := ![1, -1, 1, -1]
  let ga : Fin 4 → ℝ := ![-1, 0, 0, 1]
  have hder0 : ∀ (i : Fin 4) x y, dervRefShapFncts x y i 0 = al i + be i * y := by
    intro i x y
    fin_cases i <;> simp [dervRefShapFncts, al, be] <;> ring
  have hder1 : ∀ (i : Fin 4) x y, dervRefShapFncts x y i 1 = ga i + be i * x := by
    intro i x y
    fin_cases i <;> simp [dervRefShapFncts, ga, be] <;> ring
  let pp := |det2 A B| * dot P P
  let pq := |det2 A B| * dot P Q
  let qq := |det2 A B| * dot Q Q
  refine isPolyOn_quad_two (fun m n => match m, n with
    | 0, 0 => pp * al i * al j + pq * (al i * ga j + ga i * al j) + qq * ga i * ga j
    | 1, 0 => pq * (al i * be j + be i * al j) + qq * (ga i * be j + be i * ga j)
    | 0, 1 => pp * (al i * be j + be i * al j) + pq * (be i * ga j + ga i * be j)
    | 1, 1 => pq * (be i * be j + be i * be j)
    | 2, 0 => qq * be i * be j
    | 0, 2 => pp * be i * be j
    | _, _ => 0) fun x y => ?_
  have hJ : (quadO1 a b (b + (d - a)) d).jacobian [x, y] = some [A, B] := by
    have : (quadO1 a b (b + (d - a)) d).jacobian [x, y] =
        some [quadA a b (b + (d - a)) d y, quadB a b (b + (d - a)) d x] := rfl
    rw [this, hA, hB]
  rw [dirichlet, integrationElement_quadO1, hA, hB, Option.getD_some, pushGrad_two rfl hJ hd,
    pushGrad_two rfl hJ hd]
  have e0 : ∀ i : Fin 4, _ := fun i => derv_eq x y i 0
  have e1 : ∀ i : Fin 4, _ := fun i => derv_eq x y i 1
  simp only [Fin.val_zero, Fin.val_one] at e0 e1
  rw [e0, e1, e0, e1, ← hP, ← hQ, hder0, hder1, hder0, hder1]
  simp only [dot_two, Pi.add_apply, Pi.smul_apply, smul_eq_mul, pp, pq, qq]
  ring

/-- The unit square meets the hypotheses of the theorems on quadrilaterals, as does a cell which is not a
parallelogram. -/
example : (quadO1 ![0, 0] ![1, 0] ![1, 1] ![0, 1] : Geo ℝ 2).kind = .quad ∧
    (quadO1 ![0, 0] ![1, 0] ![1, 1] ![0, 1] : Geo ℝ 2).kind.corners.mapM
      (quadO1 ![0, 0] ![1, 0] ![1, 1] ![0, 1] : Geo ℝ 2).global =
      some [![0, 0], ![1, 0], ![1, 0] + (![0, 1] - ![0, 0]), ![0, 1]] ∧
    det2 (![1, 0] - ![0, 0] : Vec ℝ 2) (![0, 1] - ![0, 0]) ≠ 0 := by
  refine ⟨rfl, ?_, ?_⟩
  · simp [kind, RefEl.corners, global]
  · simp [det2, entry]

example : ∀ p ∈ gauss22.points,
    (quadO1 ![0, 0] ![2, 0] ![1, 1] ![0, 1] : Geo ℝ 2).integrationElement p ≠ some 0 := by
  intro p hp h0
  obtain ⟨x, y, rfl⟩ := two_coords (gauss22_wf.1 p hp)
  rw [integrationElement_quadO1, Option.some_inj, abs_eq_zero] at h0
  simp [det2, entry, quadA, quadB] at h0
  have h1 : zeta0 ≤ 1 := by
    have : (0 : ℝ) ≤ 1 / Real.sqrt 3 := by positivity
    simp only [zeta0]; linarith
  have h2 : zeta1 ≤ 1 := by
    have : (1 : ℝ) / Real.sqrt 3 ≤ 1 := by
      rw [div_le_one (by positivity)]
      exact Real.one_le_sqrt.mpr (by norm_num)
    simp only [zeta1]; linarith
  simp [gauss22] at hp
  rcases hp with ⟨rfl, rfl⟩ | ⟨rfl, rfl⟩ | ⟨rfl, rfl⟩ | ⟨rfl, rfl⟩ <;> linarith

/-- A triangle meets the hypotheses of the theorems on triangles. -/
example : (triaO1 ![0, 0] ![2, 0] ![1, 1] : Geo ℝ 2).kind.corners.mapM
      (triaO1 ![0, 0] ![2, 0] ![1, 1] : Geo ℝ 2).global = some [![0, 0], ![2, 0], ![1, 1]] ∧
    det2 (![2, 0] - ![0, 0] : Vec ℝ 2) (![1, 1] - ![0, 0]) ≠ 0 := by
  refine ⟨by simp [kind, RefEl.corners, global], by simp [det2, entry]⟩

end Verif
