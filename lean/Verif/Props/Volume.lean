import Verif.Props.Tiling
import Verif.Props.Geometry
import Verif.Lemmas.Volume

/-!
# C40: volumes
-/

namespace Verif
open Geo MeasureTheory

variable {w : ℕ}

private theorem contains_two {r : RefEl} {x : List ℝ} (h : r.Contains x) (hd : r.dimension = 2) :
    ∃ p : Fin 2 → ℝ, x = [p 0, p 1] := by
  cases r <;> simp [RefEl.dimension] at hd
  · rcases x with _ | ⟨x, _ | ⟨y, _ | ⟨z, t⟩⟩⟩ <;> simp [RefEl.Contains] at h
    exact ⟨![x, y], rfl⟩
  · rcases x with _ | ⟨x, _ | ⟨y, _ | ⟨z, t⟩⟩⟩ <;> simp [RefEl.Contains] at h
    exact ⟨![x, y], rfl⟩

private theorem image_two {g : Geo ℝ w} (hd : g.kind.dimension = 2) (F : (Fin 2 → ℝ) → Vec ℝ w)
    (hF : ∀ p : Fin 2 → ℝ, g.global [p 0, p 1] = some (F p)) :
    g.image = F '' {p | g.kind.Contains [p 0, p 1]} := by
  ext v
  constructor
  · rintro ⟨x, hx, hv⟩
    obtain ⟨p, rfl⟩ := contains_two hx hd
    rw [hF] at hv
    exact ⟨p, hx, Option.some.inj hv⟩
  · rintro ⟨p, hp, rfl⟩
    exact ⟨_, hp, hF p⟩

private theorem quad_set : {p : Fin 2 → ℝ | RefEl.quad.Contains [p 0, p 1]} = unitSquare := by
  ext p
  simp [RefEl.Contains, unitSquare, Fin.forall_fin_two, and_assoc]

/-- **C40**, planar affine cells: `Volume` is the Lebesgue measure of the cell. -/
theorem C40_planar (g : Geo ℝ 2) (hd : g.kind.dimension = 2) (ha : g.isAffine) (hq : g.quadratic = false) :
    ∃ V, g.volume = some V ∧ 0 ≤ V ∧ MeasureTheory.volume g.image = ENNReal.ofReal V := by
  cases g with
  | triaO1 a b c =>
    refine ⟨_, rfl, by positivity, ?_⟩
    rw [image_two rfl (fun p => a + (p 0 • (b - a) + p 1 • (c - a))) (by
      intro p; simp only [global]; congr 1; ext i; simp; ring)]
    rw [volume_affine]
    have : {p : Fin 2 → ℝ | (triaO1 a b c).kind.Contains [p 0, p 1]} = unitTriangle := rfl
    rw [this, volume_triangle, ← ENNReal.ofReal_mul (abs_nonneg _), if_pos rfl, mul_comm]
  | parallelogram a b c d =>
    refine ⟨_, rfl, by positivity, ?_⟩
    rw [image_two rfl (fun p => a + (p 0 • (b - a) + p 1 • (d - a))) (by
      intro p; simp only [global]; congr 1; ext i; simp; ring)]
    rw [volume_affine]
    have : {p : Fin 2 → ℝ | (parallelogram a b c d).kind.Contains [p 0, p 1]} = unitSquare := quad_set
    rw [this, volume_square, if_pos rfl, mul_one]
    simp only [one_mul]
  | point a => simp [kind, RefEl.dimension] at hd
  | segO1 a b => simp [kind, RefEl.dimension] at hd
  | segO2 a b m => simp [kind, RefEl.dimension] at hd
  | triaO2 a b c d e f => simp [quadratic] at hq
  | quadO1 a b c d => simp [isAffine] at ha
  | quadO2 a b c d e f g h => simp [quadratic] at hq

example : (triaO1 (![0, 0] : Vec ℝ 2) ![1, 0] ![1, 3]).isAffine ∧
    (triaO1 (![0, 0] : Vec ℝ 2) ![1, 0] ![1, 3]).quadratic = false := ⟨rfl, rfl⟩

/-- **C40**, planar quadrilaterals: where the Jacobian determinant is positive on the whole reference
square, the one point formula used by `Volume` gives the area of the cell, which is also the area given by
the shoelace formula. -/
theorem C40_quad (a b c d : Vec ℝ 2)
    (hJ : ∀ x y, 0 ≤ x → x ≤ 1 → 0 ≤ y → y ≤ 1 → ∀ A B, (quadO1 a b c d).jacobian [x, y] = some [A, B] →
      0 < A 0 * B 1 - A 1 * B 0) :
    ∃ V, (quadO1 a b c d).volume = some V ∧ MeasureTheory.volume (quadO1 a b c d).image = ENNReal.ofReal V ∧
      V = (a 0 * b 1 - b 0 * a 1 + (b 0 * c 1 - c 0 * b 1) + (c 0 * d 1 - d 0 * c 1) + (d 0 * a 1 - a 0 * d 1)) / 2 := by
  let α : ℝ := (b 0 - a 0) * (d 1 - a 1) - (b 1 - a 1) * (d 0 - a 0)
  let β : ℝ := (b 0 - a 0) * (c 1 - d 1) - (b 1 - a 1) * (c 0 - d 0)
  let γ : ℝ := (c 0 - b 0) * (d 1 - a 1) - (c 1 - b 1) * (d 0 - a 0)
  let J (p : Fin 2 → ℝ) : Matrix (Fin 2) (Fin 2) ℝ :=
    Geo.matrix 2 [(1 - p 1) • (b - a) + p 1 • (c - d), (1 - p 0) • (d - a) + p 0 • (c - b)]
  have hdet : ∀ p : Fin 2 → ℝ, (J p).det = α + β * p 0 + γ * p 1 := by
    intro p
    rw [Matrix.det_fin_two]
    simp [J, Geo.matrix, α, β, γ]
    ring
  have hpos : ∀ p ∈ unitSquare, 0 < α + β * p 0 + γ * p 1 := by
    intro p hp
    have := hJ (p 0) (p 1) (hp 0).1 (hp 0).2 (hp 1).1 (hp 1).2 _ _ rfl
    rw [← hdet, Matrix.det_fin_two]
    simp [J, Geo.matrix]
    simp at this
    linarith
  let F (p : Fin 2 → ℝ) : Vec ℝ 2 :=
    ((1 - p 0) * (1 - p 1)) • a + (p 0 * (1 - p 1)) • b + (p 0 * p 1) • c + ((1 - p 0) * p 1) • d
  have him : (quadO1 a b c d).image = F '' unitSquare := by
    rw [image_two rfl F (fun p => rfl)]
    exact congrArg (F '' ·) quad_set
  have hder : ∀ p ∈ unitSquare, HasFDerivWithinAt F (LinearMap.toContinuousLinearMap (J p).mulVecLin) unitSquare p := by
    intro p hp
    obtain ⟨cols, h1, -, -, h2⟩ := C38_derivative (quadO1 a b c d) p hp
    have e : List.ofFn p = [p 0, p 1] := by simp [List.ofFn_succ]
    have h1' : (quadO1 a b c d).jacobian [p 0, p 1] = some cols := e ▸ h1
    obtain rfl : _ = cols := Option.some.inj h1'
    have hF : F = fun q : Fin 2 → ℝ => ((quadO1 a b c d).global (List.ofFn q)).getD 0 := by
      funext q
      have e : List.ofFn q = [q 0, q 1] := by simp [List.ofFn_succ]
      rw [e]
      rfl
    rw [hF]
    exact h2
  have hinj : Set.InjOn F unitSquare := by
    intro p hp q hq hpq
    let m : Fin 2 → ℝ := fun i => (p i + q i) / 2
    have hm : m ∈ unitSquare := fun i => ⟨by have := (hp i).1; have := (hq i).1; simp only [m]; linarith,
      by have := (hp i).2; have := (hq i).2; simp only [m]; linarith⟩
    have h0 : (J m).mulVec (p - q) = 0 := by
      have : (J m).mulVec (p - q) = F p - F q := by
        ext i
        simp [J, F, m, Geo.matrix, Matrix.mulVec, dotProduct, Fin.sum_univ_two]
        ring
      rw [this, hpq, sub_self]
    by_contra hne
    exact (hpos m hm).ne' ((hdet m) ▸ Matrix.exists_mulVec_eq_zero_iff.1 ⟨p - q, sub_ne_zero.2 hne, h0⟩)
  have hmeas : MeasureTheory.volume (F '' unitSquare) = ENNReal.ofReal (α + β * (1 / 2) + γ * (1 / 2)) := by
    rw [← lintegral_abs_det_fderiv_eq_addHaar_image _ measurable_square hder hinj,
      ← lintegral_square α β γ (fun p hp => (hpos p hp).le)]
    refine setLIntegral_congr_fun measurable_square ?_
    intro p hp
    have e : (LinearMap.toContinuousLinearMap (J p).mulVecLin).det = (J p).det := by
      change LinearMap.det (J p).mulVecLin = _
      rw [← Matrix.toLin'_apply', LinearMap.det_toLin']
    simp only
    rw [e, hdet, abs_of_pos (hpos p hp)]
  have hV : (quadO1 a b c d).volume = some (α + β * (1 / 2) + γ * (1 / 2)) := by
    have hmid : (fun _ => 1 / 2 : Fin 2 → ℝ) ∈ unitSquare := fun i => by norm_num
    have := hpos _ hmid
    change some (1 * (if (2 : ℕ) = 2 then |det2 ((1 - (1 / 2 : ℝ)) • (b - a) + (1 / 2 : ℝ) • (c - d))
      ((1 - (1 / 2 : ℝ)) • (d - a) + (1 / 2 : ℝ) • (c - b))| else _)) = _
    rw [if_pos rfl, one_mul]
    congr 1
    rw [← abs_of_pos this]
    congr 1
    simp [det2, entry, α, β, γ]
    ring
  refine ⟨_, hV, him ▸ hmeas, ?_⟩
  simp only [α, β, γ]
  ring

/-- A trapezoid meets the hypotheses of `C40_quad`. -/
example : ∀ x y : ℝ, 0 ≤ x → x ≤ 1 → 0 ≤ y → y ≤ 1 → ∀ A B,
    (quadO1 (![0, 0] : Vec ℝ 2) ![3, 0] ![2, 1] ![1, 1]).jacobian [x, y] = some [A, B] →
      0 < A 0 * B 1 - A 1 * B 0 := by
  intro x y _ _ _ hy A B h
  simp only [jacobian, Option.some.injEq, List.cons.injEq, and_true] at h
  obtain ⟨rfl, rfl⟩ := h
  simp
  linarith

/-- **C40**, segments in any dimension: `Volume` is the Euclidean distance of the end points and the length
(one-dimensional Hausdorff measure) of the segment. -/
theorem C40_segment (a b : Vec ℝ w) :
    ∃ V, (segO1 a b).volume = some V ∧ V = dist (WithLp.toLp 2 a : EuclideanSpace ℝ (Fin w)) (WithLp.toLp 2 b) ∧
      μH[1] ((WithLp.toLp 2 : Vec ℝ w → EuclideanSpace ℝ (Fin w)) '' (segO1 a b).image) = ENNReal.ofReal V := by
  have hV : (segO1 a b).volume = some (dist (WithLp.toLp 2 a : EuclideanSpace ℝ (Fin w)) (WithLp.toLp 2 b)) := by
    change some (1 * Real.sqrt (dot (b - a) (b - a))) = _
    rw [one_mul, EuclideanSpace.dist_eq]
    congr 2
    refine Finset.sum_congr rfl fun i _ => ?_
    simp only [Pi.sub_apply, Real.dist_eq, sq_abs]
    ring
  refine ⟨_, hV, rfl, ?_⟩
  have him : (WithLp.toLp 2 : Vec ℝ w → EuclideanSpace ℝ (Fin w)) '' (segO1 a b).image =
      segment ℝ (WithLp.toLp 2 a) (WithLp.toLp 2 b) := by
    rw [segment_eq_image]
    ext v
    constructor
    · rintro ⟨u, ⟨x, hx, hu⟩, rfl⟩
      rcases x with _ | ⟨x, _ | ⟨y, t⟩⟩ <;> simp [kind, RefEl.Contains] at hx
      obtain rfl := Option.some.inj hu
      refine ⟨x, hx, ?_⟩
      ext i
      simp
      ring
    · rintro ⟨x, hx, rfl⟩
      refine ⟨_, ⟨[x], hx, rfl⟩, ?_⟩
      ext i
      simp
      ring
  rw [him, hausdorffMeasure_segment, edist_dist]

/-! ### Children -/

private theorem convex_four {a b c d : ℝ × ℝ} (h : StrictlyConvex [a, b, c, d]) :
    polyArea [a, b, c, d] = |(cross a b c + cross a c d) / 2| := by
  have e : cross c d a = cross a c d := by simp only [cross]; ring
  simp only [polyArea]
  rcases h.2 with h | h
  · have h0 := h 0 (by simp)
    have h2 := h 2 (by simp)
    simp at h0 h2
    rw [e] at h2
    rw [abs_of_pos h0, abs_of_pos h2, abs_of_pos (by linarith)]
    ring
  · have h0 := h 0 (by simp)
    have h2 := h 2 (by simp)
    simp at h0 h2
    rw [e] at h2
    rw [abs_of_neg h0, abs_of_neg h2, abs_of_neg (by linarith)]
    ring

private theorem tria_volume (a u v : Vec ℝ w) (x0 y0 x1 y1 x2 y2 : ℝ) :
    (triaO1 (a + (x0 • u + y0 • v)) (a + (x1 • u + y1 • v)) (a + (x2 • u + y2 • v))).volume =
      some (polyArea [(x0, y0), (x1, y1), (x2, y2)] * Real.sqrt (dot u u * dot v v - dot u v * dot u v)) := by
  have e1 : (a + (x1 • u + y1 • v)) - (a + (x0 • u + y0 • v)) = (x1 - x0) • u + (y1 - y0) • v := by
    ext i; simp; ring
  have e2 : (a + (x2 • u + y2 • v)) - (a + (x0 • u + y0 • v)) = (x2 - x0) • u + (y2 - y0) • v := by
    ext i; simp; ring
  change some (1 / 2 * (if w = 2 then |det2 _ _| else Real.sqrt (dot _ _ * dot _ _ - dot _ _ * dot _ _))) = _
  rw [area_eq, e1, e2, area_comb]
  simp only [polyArea, cross]
  congr 1
  ring

private theorem quad_volume (a u v : Vec ℝ w) (x0 y0 x1 y1 x2 y2 x3 y3 : ℝ)
    (hc : StrictlyConvex [(x0, y0), (x1, y1), (x2, y2), (x3, y3)]) :
    (quadO1 (a + (x0 • u + y0 • v)) (a + (x1 • u + y1 • v)) (a + (x2 • u + y2 • v)) (a + (x3 • u + y3 • v))).volume =
      some (polyArea [(x0, y0), (x1, y1), (x2, y2), (x3, y3)] * Real.sqrt (dot u u * dot v v - dot u v * dot u v)) := by
  change some (1 * (if w = 2 then |det2 ((1 - (1 / 2 : ℝ)) • ((a + (x1 • u + y1 • v)) - (a + (x0 • u + y0 • v))) +
    (1 / 2 : ℝ) • ((a + (x2 • u + y2 • v)) - (a + (x3 • u + y3 • v))))
    ((1 - (1 / 2 : ℝ)) • ((a + (x3 • u + y3 • v)) - (a + (x0 • u + y0 • v))) +
    (1 / 2 : ℝ) • ((a + (x2 • u + y2 • v)) - (a + (x1 • u + y1 • v))))| else
    Real.sqrt (dot _ _ * dot _ _ - dot _ _ * dot _ _))) = _
  have e1 : (1 - (1 / 2 : ℝ)) • ((a + (x1 • u + y1 • v)) - (a + (x0 • u + y0 • v))) +
    (1 / 2 : ℝ) • ((a + (x2 • u + y2 • v)) - (a + (x3 • u + y3 • v))) =
      ((x1 - x0 + x2 - x3) / 2) • u + ((y1 - y0 + y2 - y3) / 2) • v := by
    ext i; simp; ring
  have e2 : (1 - (1 / 2 : ℝ)) • ((a + (x3 • u + y3 • v)) - (a + (x0 • u + y0 • v))) +
    (1 / 2 : ℝ) • ((a + (x2 • u + y2 • v)) - (a + (x1 • u + y1 • v))) =
      ((x3 - x0 + x2 - x1) / 2) • u + ((y3 - y0 + y2 - y1) / 2) • v := by
    ext i; simp; ring
  rw [area_eq, e1, e2, area_comb, convex_four hc, one_mul]
  simp only [cross]
  congr 3
  ring

private theorem par_volume (a u v : Vec ℝ w) (x0 y0 x1 y1 x2 y2 x3 y3 : ℝ)
    (hx : x0 - x1 + x2 - x3 = 0) (hy : y0 - y1 + y2 - y3 = 0) :
    (parallelogram (a + (x0 • u + y0 • v)) (a + (x1 • u + y1 • v)) (a + (x2 • u + y2 • v)) (a + (x3 • u + y3 • v))).volume =
      some (polyArea [(x0, y0), (x1, y1), (x2, y2), (x3, y3)] * Real.sqrt (dot u u * dot v v - dot u v * dot u v)) := by
  have e1 : (a + (x1 • u + y1 • v)) - (a + (x0 • u + y0 • v)) = (x1 - x0) • u + (y1 - y0) • v := by
    ext i; simp; ring
  have e2 : (a + (x3 • u + y3 • v)) - (a + (x0 • u + y0 • v)) = (x3 - x0) • u + (y3 - y0) • v := by
    ext i; simp; ring
  change some (1 * (if w = 2 then |det2 _ _| else Real.sqrt (dot _ _ * dot _ _ - dot _ _ * dot _ _))) = _
  rw [area_eq, e1, e2, area_comb, one_mul]
  obtain rfl : x2 = x1 + x3 - x0 := by linarith
  obtain rfl : y2 = y1 + y3 - y0 := by linarith
  simp only [polyArea, cross]
  congr 2
  have h1 : (x1 - x0) * (y1 + y3 - y0 - y0) - (y1 - y0) * (x1 + x3 - x0 - x0) =
      (x1 - x0) * (y3 - y0) - (y1 - y0) * (x3 - x0) := by ring
  have h2 : (x1 + x3 - x0 - x0) * (y3 - y0) - (y1 + y3 - y0 - y0) * (x3 - x0) =
      (x1 - x0) * (y3 - y0) - (y1 - y0) * (x3 - x0) := by ring
  rw [h1, h2]
  ring

private theorem lattice_two {r : RefEl} (hd : r.dimension = 2) {col : List ℤ} (h : InLattice r col) :
    ∃ x y, col = [x, y] := by
  rcases col with _ | ⟨x, _ | ⟨y, _ | ⟨z, t⟩⟩⟩ <;> cases r <;> simp [InLattice, RefEl.dimension] at h hd
  all_goals exact ⟨x, y, rfl⟩

private theorem child_volume {g : Geo ℝ w} (hd : g.kind.dimension = 2) (ha : g.isAffine) (hq : g.quadratic = false)
    (a u v : Vec ℝ w) (hG : ∀ x y, g.global [x, y] = some (a + (x • u + y • v))) (P : List (List ℤ))
    (hl : P.length ∈ vertexCounts 2) (ht : g.kind = .tria → P.length = 3)
    (hP : ∀ col ∈ P, InLattice g.kind col) (hc : StrictlyConvex (P.map (latticePoint : List ℤ → ℝ × ℝ))) :
    ∃ c, buildChild g 0 P = some c ∧ c.volume =
      some (polyArea (P.map (latticePoint : List ℤ → ℝ × ℝ)) * Real.sqrt (dot u u * dot v v - dot u v * dot u v)) := by
  have pt : ∀ z : ℤ, (1 / 6 : ℝ) * (z : ℝ) = (z : ℝ) / 6 := fun z => by ring
  have h3 : ∀ x0 y0 x1 y1 x2 y2 : ℤ, ([[x0, y0], [x1, y1], [x2, y2]].map latRef).mapM g.global =
      some [a + (((x0 : ℝ) / 6) • u + ((y0 : ℝ) / 6) • v), a + (((x1 : ℝ) / 6) • u + ((y1 : ℝ) / 6) • v),
        a + (((x2 : ℝ) / 6) • u + ((y2 : ℝ) / 6) • v)] := by
    intro x0 y0 x1 y1 x2 y2
    simp only [List.map, latRef, pt, List.mapM_cons, List.mapM_nil, hG]
    rfl
  have h4 : ∀ x0 y0 x1 y1 x2 y2 x3 y3 : ℤ, ([[x0, y0], [x1, y1], [x2, y2], [x3, y3]].map latRef).mapM g.global =
      some [a + (((x0 : ℝ) / 6) • u + ((y0 : ℝ) / 6) • v), a + (((x1 : ℝ) / 6) • u + ((y1 : ℝ) / 6) • v),
        a + (((x2 : ℝ) / 6) • u + ((y2 : ℝ) / 6) • v), a + (((x3 : ℝ) / 6) • u + ((y3 : ℝ) / 6) • v)] := by
    intro x0 y0 x1 y1 x2 y2 x3 y3
    simp only [List.map, latRef, pt, List.mapM_cons, List.mapM_nil, hG]
    rfl
  rcases P with _ | ⟨p0, _ | ⟨p1, _ | ⟨p2, _ | ⟨p3, _ | ⟨p4, P⟩⟩⟩⟩⟩ <;> simp [vertexCounts] at hl
  · obtain ⟨x0, y0, rfl⟩ := lattice_two hd (hP p0 (by simp))
    obtain ⟨x1, y1, rfl⟩ := lattice_two hd (hP p1 (by simp))
    obtain ⟨x2, y2, rfl⟩ := lattice_two hd (hP p2 (by simp))
    refine ⟨_, ?_, tria_volume a u v _ _ _ _ _ _⟩
    cases g <;> simp [kind, RefEl.dimension, isAffine, quadratic] at hd ha hq <;>
      simp only [buildChild, h3, List.length_cons, List.length_nil, if_pos] <;> rfl
  · obtain ⟨x0, y0, rfl⟩ := lattice_two hd (hP p0 (by simp))
    obtain ⟨x1, y1, rfl⟩ := lattice_two hd (hP p1 (by simp))
    obtain ⟨x2, y2, rfl⟩ := lattice_two hd (hP p2 (by simp))
    obtain ⟨x3, y3, rfl⟩ := lattice_two hd (hP p3 (by simp))
    cases g <;> simp [kind, RefEl.dimension, isAffine, quadratic] at hd ha hq ht
    by_cases hl : latParallelogram [[x0, y0], [x1, y1], [x2, y2], [x3, y3]] = true
    · have hl' := hl
      simp [latParallelogram] at hl'
      refine ⟨_, ?_, par_volume a u v _ _ _ _ _ _ _ _ ?_ ?_⟩
      · simp only [buildChild, h4, List.length_cons, List.length_nil, hl]
        rfl
      · have : ((x0 - x1 + x2 - x3 : ℤ) : ℝ) = 0 := by rw [hl'.1]; simp
        push_cast at this
        simp
        linarith
      · have : ((y0 - y1 + y2 - y3 : ℤ) : ℝ) = 0 := by rw [hl'.2]; simp
        push_cast at this
        simp
        linarith
    · refine ⟨_, ?_, quad_volume a u v _ _ _ _ _ _ _ _ hc⟩
      simp only [buildChild, h4, List.length_cons, List.length_nil, hl]
      rfl

private theorem mapM_mapM {A B C : Type} (f : A → Option B) (h : B → Option C) (F : A → C) :
    ∀ l : List A, (∀ x ∈ l, ∃ y, f x = some y ∧ h y = some (F x)) →
      ∃ ys, l.mapM f = some ys ∧ ys.mapM h = some (l.map F)
  | [], _ => ⟨[], rfl, rfl⟩
  | x :: l, hl => by
    obtain ⟨y, h1, h2⟩ := hl x (by simp)
    obtain ⟨ys, h3, h4⟩ := mapM_mapM f h F l (fun z hz => hl z (by simp [hz]))
    exact ⟨y :: ys, by simp [List.mapM_cons, h1, h3], by simp [List.mapM_cons, h2, h4]⟩

/-- **C40**, children: for an affine geometry and every admissible refinement pattern except "no refinement",
`ChildGeometry` is defined and the volumes of the children add up to the volume of the parent. -/
theorem C40_children (g : Geo ℝ w) (ha : g.isAffine) (hq : g.quadratic = false) (p : Pattern)
    (hr : p.Reachable) (had : p.Admissible) (hk : p.ref = g.kind) (hn : p.pat ≠ .nil) :
    ∃ cs vols V, g.child p 0 = some cs ∧ cs.mapM Geo.volume = some vols ∧ g.volume = some V ∧ vols.sum = V := by
  obtain ⟨n, polys, h1, h2, rfl, h4⟩ := C26_contract p hr had 0 (Nat.zero_le _)
  have cells : ∀ (a u v : Vec ℝ w), g.kind.dimension = 2 →
      (∀ x y, g.global [x, y] = some (a + (x • u + y • v))) →
      g.volume = some ((if g.kind = .tria then 1 / 2 else 1) * Real.sqrt (dot u u * dot v v - dot u v * dot u v)) →
      ∃ cs vols V, g.child p 0 = some cs ∧ cs.mapM Geo.volume = some vols ∧ g.volume = some V ∧ vols.sum = V := by
    intro a u v hd hG hV
    obtain ⟨-, -, hc, hs⟩ := C27_tiling (K := ℝ) p hr had (hk ▸ hd) hn polys h2
    obtain ⟨cs, e1, e2⟩ := mapM_mapM (buildChild g 0) Geo.volume
      (fun P => polyArea (P.map (latticePoint : List ℤ → ℝ × ℝ)) * Real.sqrt (dot u u * dot v v - dot u v * dot u v))
      polys (by
        intro P hP
        have hl := (h4 P hP).1
        rw [hk, hd] at hl
        refine child_volume hd ha hq a u v hG P hl ?_ (hk ▸ (h4 P hP).2) (hc P hP)
        intro htr
        obtain ⟨q, e1, e2, hq'⟩ := cell_patterns hr had (hk ▸ hd) hn
        have key : ∀ q ∈ cellPatterns, q.ref = .tria → ∀ P ∈ (q.childPolygons 0).getD [], P.length = 3 := by
          decide +kernel
        refine key q hq' (by rw [e2, hk, htr]) P ?_
        rw [← e1, h2]
        exact hP)
    refine ⟨cs, _, _, ?_, e2, hV, ?_⟩
    · unfold child
      rw [if_pos hk]
      cases g <;> simp [kind, RefEl.dimension] at hd <;> simp only [h2, Option.bind_some, h1, if_true] <;> exact e1
    · rw [List.sum_map_mul_right, hs, hk]
  cases g with
  | point a =>
    refine ⟨[point a], [1], 1, ?_, rfl, rfl, by simp⟩
    have : p.numChildren 0 = some 1 := by
      rcases had with h | h
      · cases hp : p.pat <;> simp_all [patternTable, kind, Pattern.numChildren, RefEl.dimension]
      · cases hp : p.pat <;> simp_all [patternTable, kind]
    simp [child, hk, kind, this]
  | segO1 a b =>
    have hV : ∀ s t : ℝ, s ≤ t → (segO1 (s • b + (1 - s) • a) (t • b + (1 - t) • a)).volume =
        some ((t - s) * Real.sqrt (dot (b - a) (b - a))) := by
      intro s t hst
      change some (1 * Real.sqrt (dot _ _)) = _
      have e : (t • b + (1 - t) • a) - (s • b + (1 - s) • a) = (t - s) • (b - a) := by ext i; simp; ring
      have e2 : dot ((t - s) • (b - a)) ((t - s) • (b - a)) = (t - s) * (t - s) * dot (b - a) (b - a) := by
        simp only [dot, Finset.mul_sum]
        refine Finset.sum_congr rfl fun i _ => ?_
        simp
        ring
      rw [e, e2, Real.sqrt_mul (mul_self_nonneg _), Real.sqrt_mul_self (by linarith), one_mul]
    have hV0 : (segO1 a b).volume = some (Real.sqrt (dot (b - a) (b - a))) := by
      change some (1 * Real.sqrt (dot (b - a) (b - a))) = _
      rw [one_mul]
    have hpat : p.pat = .copy ∨ p.pat = .split := by
      rcases had with h | h <;> cases hp : p.pat <;> simp_all [patternTable, kind]
    rcases hpat with hp | hp
    · have hp2 : p.childPolygons 0 = some [[[0], [6]]] := by
        simp [Pattern.childPolygons, hk, kind, hp, RefEl.dimension, Pattern.ltHalf, Pattern.ltOne, latticeConst]
      have hnum : p.numChildren 0 = some 1 := by simp [Pattern.numChildren, hk, kind, hp, RefEl.dimension]
      refine ⟨[segO1 ((0 : ℝ) • b + (1 - (0 : ℝ)) • a) ((1 : ℝ) • b + (1 - (1 : ℝ)) • a)], [(1 - 0) * Real.sqrt (dot (b - a) (b - a))], _, ?_, ?_, hV0, ?_⟩
      · simp only [child, hk, hp2, hnum, if_true, Option.bind_some]
        simp [List.mapM_cons, buildChild, latRef, global, mkSegO1]
      · rw [List.mapM_cons, hV _ _ (by norm_num)]
        rfl
      · simp
    · have hp2 : p.childPolygons 0 = some [[[0], [3]], [[3], [6]]] := by
        simp [Pattern.childPolygons, hk, kind, hp, RefEl.dimension, Pattern.ltHalf, Pattern.ltOne, latticeConst]
      have hnum : p.numChildren 0 = some 2 := by simp [Pattern.numChildren, hk, kind, hp, RefEl.dimension]
      refine ⟨[segO1 ((0 : ℝ) • b + (1 - (0 : ℝ)) • a) ((1 / 2 : ℝ) • b + (1 - (1 / 2 : ℝ)) • a),
        segO1 ((1 / 2 : ℝ) • b + (1 - (1 / 2 : ℝ)) • a) ((1 : ℝ) • b + (1 - (1 : ℝ)) • a)],
        [(1 / 2 - 0) * Real.sqrt (dot (b - a) (b - a)), (1 - 1 / 2) * Real.sqrt (dot (b - a) (b - a))], _, ?_, ?_, hV0, ?_⟩
      · simp only [child, hk, hp2, hnum, if_true, Option.bind_some]
        norm_num [List.mapM_cons, buildChild, latRef, global, mkSegO1]
      · rw [List.mapM_cons, List.mapM_cons, hV _ _ (by norm_num), hV _ _ (by norm_num)]
        rfl
      · simp
        ring
  | triaO1 a b c =>
    refine cells a (b - a) (c - a) rfl ?_ ?_
    · intro x y; simp only [global]; congr 1; ext i; simp; ring
    · change some (1 / 2 * (if w = 2 then |det2 _ _| else Real.sqrt (dot _ _ * dot _ _ - dot _ _ * dot _ _))) = _
      rw [area_eq, if_pos (show (triaO1 a b c).kind = .tria from rfl)]
  | parallelogram a b c d =>
    refine cells a (b - a) (d - a) rfl ?_ ?_
    · intro x y; simp only [global]; congr 1; ext i; simp; ring
    · change some (1 * (if w = 2 then |det2 _ _| else Real.sqrt (dot _ _ * dot _ _ - dot _ _ * dot _ _))) = _
      rw [area_eq, if_neg (by simp [kind])]
  | segO2 a b m => simp [quadratic] at hq
  | triaO2 a b c d e f => simp [quadratic] at hq
  | quadO1 a b c d => simp [isAffine] at ha
  | quadO2 a b c d e f g h => simp [quadratic] at hq

/-- The threeedge refinement of a parallelogram meets the hypotheses of `C40_children`. -/
example : ∃ p : Pattern, p.Reachable ∧ p.Admissible ∧
    p.ref = (parallelogram (![0, 0] : Vec ℝ 2) ![2, 0] ![3, 1] ![1, 1]).kind ∧ p.pat ≠ .nil ∧ p.numChildren 0 = some 4 :=
  ⟨⟨.quad, some 2, .threeedge, true⟩, .make .quad .threeedge (some 2) _ rfl, by decide, rfl, by decide, rfl⟩

end Verif
