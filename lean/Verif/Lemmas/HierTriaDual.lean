import Verif.Lemmas.HierCell

/-!
# Duality for the hierarchic triangle
-/

namespace Verif
open HierQuad Geo

namespace HierTria
variable (F : HierTria ℝ)

/-- What the constructor guarantees if the quadrature rules are exact. -/
structure Ready : Prop where
  deg : ∀ j < 3, 1 ≤ F.e j
  edge : ∀ j < 3, (F.q j).Good .segment (2 * (F.e j - 1))
  face : F.qt.Good .tria (2 * (F.p - 1))
  top : ∀ pt ∈ F.qt.points, pt.getD 1 0 ≠ 1

theorem interior_mem {p : ℕ} {ij : ℕ × ℕ} (h : ij ∈ interior p) : ij.1 + ij.2 + 3 ≤ p := by
  unfold interior at h
  split at h
  · simp only [List.mem_flatMap, List.mem_map, List.mem_range] at h
    obtain ⟨i, hi, j, hj, rfl⟩ := h
    simp only; omega
  · simp at h

theorem interior_nodup (p : ℕ) : (interior p).Nodup := by
  unfold interior
  split
  · rw [List.nodup_flatMap]
    refine ⟨fun i _ => List.Nodup.map (fun a b h => by simpa using h) List.nodup_range, ?_⟩
    refine List.Pairwise.imp_of_mem ?_ List.nodup_range
    intro a b _ _ hab
    simp only [Function.onFun, List.disjoint_left, List.mem_map]
    rintro x ⟨j, -, rfl⟩ ⟨k, -, h⟩
    exact hab (by simp at h; exact h.1.symm)
  · exact List.nodup_nil

/-- The functional of the interior, applied to values given by a function. -/
theorem faceSum_eq (hF : F.Ready) (i j : ℕ) (g : ℝ → ℝ → ℝ) :
    (List.zipWith (· * ·) (List.zipWith (· * ·) F.qt.weights (F.qt.points.map fun p => g (p.getD 0 0) (p.getD 1 0)))
        (F.qt.points.map (F.faceWeight i j))).sum =
      F.qt.integrate fun p => g (p.getD 0 0) (p.getD 1 0) * F.wPoly i j (p.getD 0 0) (p.getD 1 0) := by
  have h : ∀ p ∈ F.qt.points, F.faceWeight i j p = F.wPoly i j (p.getD 0 0) (p.getD 1 0) := by
    intro p hp
    have hl := hF.face.2.1.1 p hp
    rw [hF.face.1] at hl
    have ht := hF.top p hp
    obtain ⟨x, y, rfl⟩ := two_coords hl
    exact F.faceWeight_eq i j x y ht
  rw [List.map_congr_left h]
  unfold QuadRule.integrate
  congr 1
  generalize F.qt.weights = w
  generalize F.qt.points = P
  induction P generalizing w with
  | nil => simp
  | cons p P ih =>
    cases w with
    | nil => simp
    | cons a w => simp only [List.map_cons, List.zipWith_cons_cons, ih, mul_assoc]

/-- Value of the functional for the interior function `(k, l)`. -/
theorem face_dual (hF : F.Ready) (i j k l : ℕ) (hij : i + j + 3 ≤ F.p) (hkl : k + l + 3 ≤ F.p) :
    F.qt.integrate (fun p => F.intFn (k, l) (p.getD 0 0) (p.getD 1 0) * F.wPoly i j (p.getD 0 0) (p.getD 1 0)) *
        ((2 * i + 3 : ℕ) : ℝ) * ((2 * j + 2 * i + 5 : ℕ) : ℝ) = if k = i ∧ l = j then 1 else 0 := by
  have hp : TP (2 * (F.p - 1)) fun x y => F.intFn (k, l) x y * F.wPoly i j x y :=
    (F.intFn_poly (k, l)).mul (F.wPoly_poly i j) (by simp only; omega)
  have h := hF.face.2.2 (fun p => F.intFn (k, l) (p.getD 0 0) (p.getD 1 0) *
    F.wPoly i j (p.getD 0 0) (p.getD 1 0)) (by
      rw [hF.face.1]
      exact TP.isPolyOn (f := fun p => F.intFn (k, l) (p.getD 0 0) (p.getD 1 0) *
        F.wPoly i j (p.getD 0 0) (p.getD 1 0)) hp)
  rw [hF.face.1] at h
  rw [h]
  change (∫ y in (0 : ℝ)..1, ∫ x in (0 : ℝ)..(1 - y), F.intFn (k, l) x y * F.wPoly i j x y) * _ * _ = _
  rw [face_ortho]
  split
  · have h1 : (2 * (i : ℝ) + 3) ≠ 0 := by positivity
    have h2 : (2 * (j : ℝ) + 2 * i + 5) ≠ 0 := by positivity
    push_cast
    field_simp
  · simp

/-- `NodalValuesToFaceDofs` depends on the values at the points in the interior only. -/
theorem faceDofs_eq (hF : F.Ready) (pre : List ℝ) (hpre : pre.length = 3 + (F.ns 0 + F.ns 1 + F.ns 2))
    (g : ℝ → ℝ → ℝ) :
    F.faceDofs (pre ++ F.qt.points.map fun p => g (p.getD 0 0) (p.getD 1 0)) = some ((interior F.p).map fun ij =>
      F.qt.integrate (fun p => g (p.getD 0 0) (p.getD 1 0) * F.wPoly ij.1 ij.2 (p.getD 0 0) (p.getD 1 0)) *
        ((2 * ij.1 + 3 : ℕ) : ℝ) * ((2 * ij.2 + 2 * ij.1 + 5 : ℕ) : ℝ)) := by
  rw [faceDofs]
  have hs := segment_append pre (F.qt.points.map fun p => g (p.getD 0 0) (p.getD 1 0)) []
    (3 + (F.ns 0 + F.ns 1 + F.ns 2)) F.qt.numPoints hpre.symm (by simp [QuadRule.numPoints])
  rw [List.append_nil] at hs
  rw [hs, Option.bind_some, (covers_counted 0 _).fill (by simp [numInterior_eq])]
  simp only [F.faceSum_eq hF]

variable (V : ℕ → ℝ) (E : ℕ → ℕ → ℝ) (I : ℕ → ℝ)

/-- The coefficient vector. -/
def coeffs : List ℝ := cellCoeffs 3 F.o (fun j => F.e j - 1) F.numInterior V E I

/-- Coefficients of the trace on an edge. -/
def traceCoef (j : ℕ) : ℕ → ℝ :=
  edgeCoef (if F.o j then V j else V ((j + 1) % 3)) (if F.o j then V ((j + 1) % 3) else V j) (E j)

theorem trace (hF : F.Ready) (j : ℕ) (hj : j < 3) (t x y : ℝ)
    (h : sidePoint .tria j (if F.o j then t else 1 - t) = [x, y]) :
    dotRow (F.coeffs V E I) (F.shapes x y) = lin1 (F.e j + 1) (F.traceCoef V E j) t := by
  obtain ⟨v, w, h1, h2, -, -, h3⟩ := F.conforms hF.deg F.q V E I j hj t
  change F.eval (sidePoint .tria j _) = _ at h1
  rw [h, eval_eq] at h1
  rw [hierSegment_eval _ (hF.deg j hj)] at h2
  cases h1
  cases h2
  change dotRow (F.coeffs V E I) (F.shapes x y) = dotRow ((if F.o j then [V j, V ((j + 1) % 3)] else
        [V ((j + 1) % 3), V j]) ++ (List.range (F.e j - 1)).map (E j)) _ at h3
  rw [h3, traceCoef, ← dotRow_segShapes _ (hF.deg j hj)]
  cases F.o j <;> rfl

theorem vertexVals (hF : F.Ready) : dotRow (F.coeffs V E I) (F.shapes 0 0) = V 0 ∧
    dotRow (F.coeffs V E I) (F.shapes 1 0) = V 1 ∧ dotRow (F.coeffs V E I) (F.shapes 0 1) = V 2 := by
  refine ⟨?_, ?_, ?_⟩
  · rw [F.trace V E I hF 0 (by omega) (if F.o 0 then 0 else 1) 0 0 (by rw [sideTria0]; split <;> simp)]
    cases h : F.o 0 <;> simp [traceCoef, h, lin1_zero, lin1_one _ (hF.deg 0 (by omega)), edgeCoef]
  · rw [F.trace V E I hF 1 (by omega) (if F.o 1 then 0 else 1) 1 0 (by rw [sideTria1]; split <;> simp)]
    cases h : F.o 1 <;> simp [traceCoef, h, lin1_zero, lin1_one _ (hF.deg 1 (by omega)), edgeCoef]
  · rw [F.trace V E I hF 2 (by omega) (if F.o 2 then 0 else 1) 0 1 (by rw [sideTria2]; split <;> simp)]
    cases h : F.o 2 <;> simp [traceCoef, h, lin1_zero, lin1_one _ (hF.deg 2 (by omega)), edgeCoef]

/-- Values at the evaluation nodes. -/
theorem nodeVals (hF : F.Ready) :
    F.nodes.map (fun p => dotRow (F.coeffs V E I) (F.shapes (p.getD 0 0) (p.getD 1 0))) =
      [V 0, V 1, V 2] ++ edgeVals (F.e 0) (F.q 0) (F.traceCoef V E 0) ++
        edgeVals (F.e 1) (F.q 1) (F.traceCoef V E 1) ++ edgeVals (F.e 2) (F.q 2) (F.traceCoef V E 2) ++
        F.qt.points.map fun p => dotRow (F.coeffs V E I) (F.shapes (p.getD 0 0) (p.getD 1 0)) := by
  obtain ⟨h0, h1, h2⟩ := F.vertexVals V E I hF
  rw [nodes, List.map_append, List.map_append, List.map_append, List.map_append]
  congr 1
  congr 1
  · congr 1
    · congr 1
      · simp [h0, h1, h2]
      · unfold edgeVals
        split
        · rw [List.map_map]
          apply List.map_congr_left
          intro s _
          rw [← F.trace V E I hF 0 (by omega) (s.getD 0 0) (if F.o 0 then s.getD 0 0 else 1 - s.getD 0 0) 0
            (by rw [sideTria0])]
          cases F.o 0 <;> rfl
        · rfl
    · unfold edgeVals
      split
      · rw [List.map_map]
        apply List.map_congr_left
        intro s _
        rw [← F.trace V E I hF 1 (by omega) (s.getD 0 0) (if F.o 1 then 1 - s.getD 0 0 else s.getD 0 0)
          (if F.o 1 then s.getD 0 0 else 1 - s.getD 0 0) (by rw [sideTria1]; cases F.o 1 <;> simp)]
        cases F.o 1 <;> rfl
      · rfl
  · unfold edgeVals
    split
    · rw [List.map_map]
      apply List.map_congr_left
      intro s _
      rw [← F.trace V E I hF 2 (by omega) (s.getD 0 0) 0 (if F.o 2 then 1 - s.getD 0 0 else s.getD 0 0)
        (by rw [sideTria2]; cases F.o 2 <;> simp)]
      cases F.o 2 <;> rfl
    · rfl

local macro "len" : tactic => `(tactic| (simp only [List.length_append, oriented_length, List.length_map,
  List.length_range, List.length_cons, List.length_nil, edgeVals_length, ns] <;> omega))

theorem edgeDofs_eq (hF : F.Ready) (rest : List ℝ) :
    F.edgeDofs ([V 0, V 1, V 2] ++ edgeVals (F.e 0) (F.q 0) (F.traceCoef V E 0) ++
        edgeVals (F.e 1) (F.q 1) (F.traceCoef V E 1) ++ edgeVals (F.e 2) (F.q 2) (F.traceCoef V E 2) ++ rest) =
      some (oriented (F.o 0) ((List.range (F.e 0 - 1)).map (E 0)) ++
        oriented (F.o 1) ((List.range (F.e 1 - 1)).map (E 1)) ++
        oriented (F.o 2) ((List.range (F.e 2 - 1)).map (E 2))) := by
  have d0 := hF.deg 0 (by omega)
  have d1 := hF.deg 1 (by omega)
  have d2 := hF.deg 2 (by omega)
  set s0 := edgeVals (F.e 0) (F.q 0) (F.traceCoef V E 0) with hs0
  set s1 := edgeVals (F.e 1) (F.q 1) (F.traceCoef V E 1) with hs1
  set s2 := edgeVals (F.e 2) (F.q 2) (F.traceCoef V E 2) with hs2
  have l0 : s0.length = F.ns 0 := edgeVals_length ..
  have l1 : s1.length = F.ns 1 := edgeVals_length ..
  have l2 : s2.length = F.ns 2 := edgeVals_length ..
  have g0 : segment ([V 0, V 1, V 2] ++ s0 ++ s1 ++ s2 ++ rest) 3 (F.ns 0) = some s0 := by
    have := segment_append [V 0, V 1, V 2] s0 (s1 ++ s2 ++ rest) 3 (F.ns 0) rfl l0.symm
    rw [← this]; simp
  have g1 : segment ([V 0, V 1, V 2] ++ s0 ++ s1 ++ s2 ++ rest) (3 + F.ns 0) (F.ns 1) = some s1 := by
    have := segment_append ([V 0, V 1, V 2] ++ s0) s1 (s2 ++ rest) (3 + F.ns 0) (F.ns 1)
      (by rw [List.length_append, l0]; rfl) l1.symm
    rw [← this]; simp
  have g2 : segment ([V 0, V 1, V 2] ++ s0 ++ s1 ++ s2 ++ rest) (3 + F.ns 0 + F.ns 1) (F.ns 2) = some s2 := by
    have := segment_append ([V 0, V 1, V 2] ++ s0 ++ s1) s2 rest (3 + F.ns 0 + F.ns 1) (F.ns 2)
      (by rw [List.length_append, List.length_append, l0, l1]; rfl) l2.symm
    rw [← this]
  have v0 : ([V 0, V 1, V 2] ++ s0 ++ s1 ++ s2 ++ rest)[0]? = some (V 0) := rfl
  have v1 : ([V 0, V 1, V 2] ++ s0 ++ s1 ++ s2 ++ rest)[1]? = some (V 1) := rfl
  have v2 : ([V 0, V 1, V 2] ++ s0 ++ s1 ++ s2 ++ rest)[2]? = some (V 2) := rfl
  have key : ∀ j < 3, ∀ i < F.e j - 1, segDual (F.q j) (i + 2) (if F.o j then V j else V ((j + 1) % 3))
      (if F.o j then V ((j + 1) % 3) else V j) (edgeVals (F.e j) (F.q j) (F.traceCoef V E j)) = E j i :=
    fun j hj i hi => segDual_edge _ _ (hF.edge j hj) _ _ _ i hi
  have c0 := covers_loop (α := ℝ) 2 (F.e 0 - 1) 0 (fun i =>
      if F.o 0 then (1 + i - 3, some (segDual (F.q 0) i (V 0) (V 1) s0))
      else (4 + (F.e 0 - 1) - i - 3, some (segDual (F.q 0) i (V 1) (V 0) s0))) (E 0) (F.o 0) (by
    intro i hi
    rw [← key 0 (by omega) i hi, add_comm 2 i, hs0]
    cases F.o 0
    · simp only [Bool.false_eq_true, if_false]; congr 1; omega
    · simp only [if_true]; congr 1; omega)
  have c1 := covers_loop (α := ℝ) 2 (F.e 1 - 1) (F.e 0 - 1) (fun i =>
      if F.o 1 then (1 + i + (F.e 0 - 1) - 3, some (segDual (F.q 1) i (V 1) (V 2) s1))
      else (4 + (F.e 0 + F.e 1 - 2) - i - 3, some (segDual (F.q 1) i (V 2) (V 1) s1))) (E 1) (F.o 1) (by
    intro i hi
    rw [← key 1 (by omega) i hi, add_comm 2 i, hs1]
    cases F.o 1
    · simp only [Bool.false_eq_true, if_false]; congr 1; omega
    · simp only [if_true]; congr 1; omega)
  have c2 := covers_loop (α := ℝ) 2 (F.e 2 - 1) (F.e 0 - 1 + (F.e 1 - 1)) (fun i =>
      if F.o 2 then (1 + i + (F.e 0 + F.e 1 - 2) - 3, some (segDual (F.q 2) i (V 2) (V 0) s2))
      else (4 + (F.e 0 + F.e 1 + F.e 2 - 3) - i - 3, some (segDual (F.q 2) i (V 0) (V 2) s2))) (E 2) (F.o 2) (by
    intro i hi
    rw [← key 2 (by omega) i hi, add_comm 2 i, hs2]
    cases F.o 2
    · simp only [Bool.false_eq_true, if_false]; congr 1; omega
    · simp only [if_true]; congr 1; omega)
  rw [edgeDofs, v0, v1, v2, Option.bind_some, Option.bind_some, Option.bind_some, g0, g1, g2, Option.bind_some,
    Option.bind_some, Option.bind_some]
  exact ((c0.append c1 (by len)).append c2 (by len)).fill (by len)

/-- The part of the function which does not vanish on the boundary. -/
noncomputable def bdry (x y : ℝ) : ℝ :=
  dotRow ([V 0, V 1, V 2] ++ (oriented (F.o 0) ((List.range (F.e 0 - 1)).map (E 0)) ++
      oriented (F.o 1) ((List.range (F.e 1 - 1)).map (E 1)) ++
      oriented (F.o 2) ((List.range (F.e 2 - 1)).map (E 2))))
    ((F.shapes x y).take (3 + ((F.e 0 - 1) + (F.e 1 - 1) + (F.e 2 - 1))))

theorem split (x y : ℝ) : dotRow (F.coeffs V E I) (F.shapes x y) = F.bdry V E x y +
    ∑ m ∈ Finset.range (interior F.p).length, I m * F.intFn ((interior F.p).getD m (0, 0)) x y := by
  have h : (F.shapes x y).take (3 + ((F.e 0 - 1) + (F.e 1 - 1) + (F.e 2 - 1))) =
      [1 - x - y, x, y] ++ F.edgeShapes 0 x y ++ F.edgeShapes 1 x y ++ F.edgeShapes 2 x y := by
    rw [shapes, List.take_left' (by simp; omega)]
  rw [bdry, h, coeffs, cellCoeffs_tria, shapes, dotRow_append _ _ (by simp), ← List.append_assoc,
    ← List.append_assoc, numInterior_eq]
  congr 1
  rw [← dotRow_eq_sum (n := (interior F.p).length) (by simp) (by simp)]
  refine Finset.sum_congr rfl fun m hm => ?_
  rw [Finset.mem_range] at hm
  simp [hm]

theorem nodes_len (hF : F.Ready) : ∀ p ∈ F.nodes, p.length = 2 := by
  intro p hp
  simp only [nodes, List.mem_append, List.mem_cons, List.not_mem_nil, or_false] at hp
  rcases hp with (((h | h) | h) | h) | h
  · rcases h with rfl | rfl | rfl <;> rfl
  · split at h
    · obtain ⟨s, -, rfl⟩ := List.mem_map.mp h; split <;> rfl
    · simp at h
  · split at h
    · obtain ⟨s, -, rfl⟩ := List.mem_map.mp h; split <;> rfl
    · simp at h
  · split at h
    · obtain ⟨s, -, rfl⟩ := List.mem_map.mp h; split <;> rfl
    · simp at h
  · have := hF.face.2.1.1 p h
    rwa [hF.face.1] at this

/-- The evaluation nodes on the boundary. -/
theorem nodes_split : ∃ pre, F.nodes = pre ++ F.qt.points ∧ pre.length = 3 + (F.ns 0 + F.ns 1 + F.ns 2) := by
  refine ⟨_, rfl, ?_⟩
  simp only [List.length_append, List.length_cons, List.length_nil, ns, QuadRule.numPoints]
  split_ifs <;> simp <;> omega

theorem face_diff (hF : F.Ready) (m : ℕ) (hm : m < (interior F.p).length) :
    F.qt.integrate (fun p => dotRow (F.coeffs V E I) (F.shapes (p.getD 0 0) (p.getD 1 0)) *
        F.wPoly (interior F.p)[m].1 (interior F.p)[m].2 (p.getD 0 0) (p.getD 1 0)) *
          ((2 * (interior F.p)[m].1 + 3 : ℕ) : ℝ) *
          ((2 * (interior F.p)[m].2 + 2 * (interior F.p)[m].1 + 5 : ℕ) : ℝ) -
      F.qt.integrate (fun p => F.bdry V E (p.getD 0 0) (p.getD 1 0) *
        F.wPoly (interior F.p)[m].1 (interior F.p)[m].2 (p.getD 0 0) (p.getD 1 0)) *
          ((2 * (interior F.p)[m].1 + 3 : ℕ) : ℝ) *
          ((2 * (interior F.p)[m].2 + 2 * (interior F.p)[m].1 + 5 : ℕ) : ℝ) = I m := by
  have hmem := interior_mem (List.getElem_mem hm)
  set ij := (interior F.p)[m] with hij
  rw [integrate_congr F.qt (g := fun p => F.bdry V E (p.getD 0 0) (p.getD 1 0) *
        F.wPoly ij.1 ij.2 (p.getD 0 0) (p.getD 1 0) +
      ∑ k ∈ Finset.range (interior F.p).length, I k * (F.intFn ((interior F.p).getD k (0, 0)) (p.getD 0 0) (p.getD 1 0) *
        F.wPoly ij.1 ij.2 (p.getD 0 0) (p.getD 1 0))) (fun p _ => by
      rw [split, add_mul, Finset.sum_mul]
      congr 1
      exact Finset.sum_congr rfl fun k _ => mul_assoc _ _ _), integrate_add, integrate_sum]
  rw [add_mul, add_mul, add_sub_cancel_left, Finset.sum_mul, Finset.sum_mul]
  rw [Finset.sum_eq_single_of_mem m (Finset.mem_range.mpr hm)]
  · rw [integrate_smul, mul_assoc, mul_assoc, ← mul_assoc (F.qt.integrate _)]
    have h := F.face_dual hF ij.1 ij.2 ij.1 ij.2 hmem hmem
    rw [if_pos ⟨rfl, rfl⟩] at h
    have hg : (interior F.p).getD m (0, 0) = (ij.1, ij.2) := by simp [hm, hij]
    rw [hg, h, mul_one]
  · intro k hk hkm
    rw [Finset.mem_range] at hk
    rw [integrate_smul, mul_assoc, mul_assoc, ← mul_assoc (F.qt.integrate _)]
    have h := F.face_dual hF ij.1 ij.2 (interior F.p)[k].1 (interior F.p)[k].2 hmem
      (interior_mem (List.getElem_mem hk))
    rw [if_neg] at h
    · have hg : (interior F.p).getD k (0, 0) = ((interior F.p)[k].1, (interior F.p)[k].2) := by simp [hk]
      rw [hg, h, mul_zero]
    · rintro ⟨h1, h2⟩
      exact hkm ((List.Nodup.getElem_inj_iff (interior_nodup F.p)).mp (Prod.ext h1 h2))

theorem toDofs_coeffs (hF : F.Ready) :
    F.toDofs (F.nodes.map fun p => dotRow (F.coeffs V E I) (F.shapes (p.getD 0 0) (p.getD 1 0))) =
      some (F.coeffs V E I) := by
  obtain ⟨pre, hn, hl⟩ := F.nodes_split
  have hvals := F.nodeVals V E I hF
  have hseg : segment (F.nodes.map fun p => dotRow (F.coeffs V E I) (F.shapes (p.getD 0 0) (p.getD 1 0))) 0 3 =
      some [V 0, V 1, V 2] := by
    rw [hvals, List.append_assoc, List.append_assoc, List.append_assoc]
    exact segment_append [] _ _ 0 3 rfl rfl
  have hedge := F.edgeDofs_eq V E hF
    (F.qt.points.map fun p => dotRow (F.coeffs V E I) (F.shapes (p.getD 0 0) (p.getD 1 0)))
  rw [← hvals] at hedge
  have hface := F.faceDofs_eq hF (pre.map fun p => dotRow (F.coeffs V E I) (F.shapes (p.getD 0 0) (p.getD 1 0)))
    (by simpa using hl) fun x y => dotRow (F.coeffs V E I) (F.shapes x y)
  rw [← List.map_append, ← hn] at hface
  have hbd := F.faceDofs_eq hF (pre.map fun p => F.bdry V E (p.getD 0 0) (p.getD 1 0))
    (by simpa using hl) fun x y => F.bdry V E x y
  rw [← List.map_append, ← hn] at hbd
  have heval : F.nodes.mapM F.eval = some (F.nodes.map fun p => F.shapes (p.getD 0 0) (p.getD 1 0)) := by
    apply mapM_some_map
    intro p hp
    obtain ⟨x, y, rfl⟩ := two_coords (F.nodes_len hF p hp)
    exact F.eval_eq x y
  rw [toDofs, hseg, hedge, hface, heval]
  simp only [Option.bind_some, List.map_map]
  have hb : (F.nodes.map ((fun b => dotRow ([V 0, V 1, V 2] ++
      (oriented (F.o 0) ((List.range (F.e 0 - 1)).map (E 0)) ++
        oriented (F.o 1) ((List.range (F.e 1 - 1)).map (E 1)) ++
        oriented (F.o 2) ((List.range (F.e 2 - 1)).map (E 2))))
      (b.take (3 + ((F.e 0 - 1) + (F.e 1 - 1) + (F.e 2 - 1))))) ∘
        fun p => F.shapes (p.getD 0 0) (p.getD 1 0))) =
      F.nodes.map fun p => F.bdry V E (p.getD 0 0) (p.getD 1 0) := rfl
  rw [hb, hbd, Option.map_some]
  congr 1
  have hc : F.coeffs V E I = _ := cellCoeffs_tria ..
  conv_rhs => rw [hc, numInterior_eq]
  rw [← List.append_assoc, ← List.append_assoc]
  congr 1
  apply List.ext_getElem
  · simp
  intro m h1 h2
  have hm : m < (interior F.p).length := by simpa using h2
  rw [List.getElem_zipWith, List.getElem_map, List.getElem_map, List.getElem_map, List.getElem_range]
  exact F.face_diff V E I hF m hm

/-- Every vector of coefficients has the form considered above. -/
theorem coeffs_repr (c : List ℝ) (h : c.length = F.num) : ∃ V E I, c = F.coeffs V E I := by
  have hn : F.num = 3 + (F.e 0 - 1) + (F.e 1 - 1) + (F.e 2 - 1) + F.numInterior := by
    unfold num; omega
  rw [hn] at h
  obtain ⟨a, ci, rfl, ha, hi⟩ := list_split _ _ _ h
  obtain ⟨a, c2, rfl, ha, h2⟩ := list_split _ _ _ ha
  obtain ⟨a, c1, rfl, ha, h1⟩ := list_split _ _ _ ha
  obtain ⟨a, c0, rfl, ha, h0⟩ := list_split _ _ _ ha
  obtain ⟨E0, rfl⟩ := block_repr (F.o 0) _ _ h0
  obtain ⟨E1, rfl⟩ := block_repr (F.o 1) _ _ h1
  obtain ⟨E2, rfl⟩ := block_repr (F.o 2) _ _ h2
  obtain ⟨I, rfl⟩ := block_repr true _ _ hi
  refine ⟨fun k => a.getD k 0, fun j => if j = 0 then E0 else if j = 1 then E1 else E2, I, ?_⟩
  rw [coeffs, cellCoeffs_tria]
  match a, ha with
  | [x, y, z], _ => simp [oriented]

theorem dual (hF : F.Ready) : F.fe.Dual := by
  intro c hc
  obtain ⟨V, E, I, rfl⟩ := F.coeffs_repr c hc
  have : (F.fe.nodes.map fun x => ∑ i ∈ Finset.range F.fe.num, (F.coeffs V E I).getD i 0 * F.fe.shape i x) =
      F.nodes.map fun p => dotRow (F.coeffs V E I) (F.shapes (p.getD 0 0) (p.getD 1 0)) := by
    apply List.map_congr_left
    intro p hp
    obtain ⟨x, y, rfl⟩ := two_coords (F.nodes_len hF p hp)
    exact RefFE.sum_shape (F.eval_eq x y) (F.shapes_length x y) hc
  rw [this]
  exact F.toDofs_coeffs V E I hF

end HierTria
end Verif
