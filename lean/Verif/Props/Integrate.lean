import Verif.Lemmas.Integrate
import Verif.Props.Quad
import Verif.Props.DofHandler

/-!
# C50: `IntegrateMeshFunction`

The property does not hold of the code: the first entity is always included, whatever the predicate says,
and there has to be one.
-/

namespace Verif

section
variable {K V : Type} [Field K] [AddCommMonoid V] [Module K V]

/-- What the function computes, for all meshes, mesh functions `f`, rules and predicates: the sum of the
local quadrature values over the selected entities *and the first one*. -/
theorem C50_value (T : Topo) (codim : ℕ) (hne : T.num codim ≠ 0) (ie : Ent → List K → Option K)
    (mf : MeshFn K V) (sel : Ent → Option (QuadRule K)) (ep : ℕ → Bool)
    (q : ℕ → QuadRule K) (detJ : ℕ → List K → K) (f : ℕ → List K → V)
    (hq : ∀ i < T.num codim, i = 0 ∨ ep i = true → sel (codim, i) = some (q i) ∧ (q i).WellFormed ∧
      (q i).points ≠ [])
    (hie : ∀ i < T.num codim, i = 0 ∨ ep i = true → ∀ x ∈ (q i).points, ie (codim, i) x = some (detJ i x))
    (hmf : ∀ i < T.num codim, i = 0 ∨ ep i = true → mf (codim, i) (q i).points = some ((q i).points.map (f i))) :
    integrateMeshFunction T ie mf sel ep codim =
      some (sumSelected (T.num codim) (fun i => i == 0 || ep i) fun i => (q i).transformed (detJ i) (f i)) :=
  integrate_eq T ie mf sel ep codim _ hne fun i hi hs =>
    localIntegral_eq ie sel mf _ (q i) _ _ (hq i hi hs).1 (hq i hi hs).2.1.2 (hq i hi hs).2.2
      (hie i hi hs) (hmf i hi hs)

/-- **C50**, partial: if there is a first entity and it is selected, the sum of the local quadrature values
over the selected entities is returned.  Missing: the cases in which the first entity is not selected or
there is none, for which the property is false, see `C50_not` and `C50_empty_not`. -/
theorem C50_partial (T : Topo) (codim : ℕ) (hne : T.num codim ≠ 0) (ie : Ent → List K → Option K)
    (mf : MeshFn K V) (sel : Ent → Option (QuadRule K)) (ep : ℕ → Bool) (h0 : ep 0 = true)
    (q : ℕ → QuadRule K) (detJ : ℕ → List K → K) (f : ℕ → List K → V)
    (hq : ∀ i < T.num codim, ep i = true → sel (codim, i) = some (q i) ∧ (q i).WellFormed ∧
      (q i).points ≠ [])
    (hie : ∀ i < T.num codim, ep i = true → ∀ x ∈ (q i).points, ie (codim, i) x = some (detJ i x))
    (hmf : ∀ i < T.num codim, ep i = true → mf (codim, i) (q i).points = some ((q i).points.map (f i))) :
    integrateMeshFunction T ie mf sel ep codim =
      some (sumSelected (T.num codim) ep fun i => (q i).transformed (detJ i) (f i)) := by
  have hor : ∀ i, i = 0 ∨ ep i = true → ep i = true := fun i h => by
    rcases h with rfl | h
    · exact h0
    · exact h
  have := C50_value T codim hne ie mf sel ep q detJ f (fun i hi h => hq i hi (hor i h))
    (fun i hi h => hie i hi (hor i h)) fun i hi h => hmf i hi (hor i h)
  rw [this]
  congr 2
  funext i
  by_cases hi : i = 0
  · simp [hi, h0]
  · simp [hi]

/-- Without entities of the codimension asked for the first one is dereferenced nevertheless, whereas the
empty sum is zero. -/
theorem C50_empty_not (T : Topo) (codim : ℕ) (h0 : T.num codim = 0) (ie : Ent → List K → Option K)
    (mf : MeshFn K V) (sel : Ent → Option (QuadRule K)) (ep : ℕ → Bool) :
    integrateMeshFunction T ie mf sel ep codim = none := by
  rw [integrateMeshFunction, if_pos h0]

/-- The version with a degree has no rules for points. -/
theorem C50_points_not (B : QuadBase K) (T : Topo) (ie : Ent → List K → Option K) (mf : MeshFn K V) (d : ℕ)
    (ep : ℕ → Bool) : integrateMeshFunctionDegree B T ie mf d ep 2 = none := by
  have : ∀ qs qt qq : QuadRule K, integrateMeshFunction T ie mf (fun e => (T.refEl e).map fun
      | .point => QuadRule.empty
      | .segment => qs
      | .tria => qt
      | .quad => qq) ep 2 = none := by
    intro qs qt qq
    rw [integrateMeshFunction]
    split
    · rfl
    · rename_i h
      rw [localIntegral_none _ _ _ _ QuadRule.empty]
      · rfl
      · rw [Topo.refEl, if_pos (show 0 < T.num 2 by omega)]; rfl
      · rfl
      · rfl
  rw [integrateMeshFunctionDegree]
  cases makeQuadRule B .segment d with
  | none => rfl
  | some qs =>
    rw [Option.bind_some]
    cases makeQuadRule B .tria d with
    | none => rfl
    | some qt =>
      rw [Option.bind_some]
      cases makeQuadRule B .quad d with
      | none => rfl
      | some qq => rw [Option.bind_some]; exact this qs qt qq

end

/-- **C50** is false: on a mesh with two cells, of which only the second is selected, the integral over both
is returned. -/
theorem C50_not : ∃ (T : Topo) (_ : T.WF) (mf : MeshFn ℚ ℚ) (q : QuadRule ℚ), q.WellFormed ∧ q.points ≠ [] ∧
    (∀ e pts, mf e pts = some (pts.map fun _ => 1)) ∧ T.num 0 = 2 ∧
    integrateMeshFunction T (fun _ _ => some 1) mf (fun _ => some q) (fun i => i == 1) 0 = some 2 ∧
    sumSelected (T.num 0) (fun i => i == 1) (fun _ => q.transformed (fun _ => 1) fun _ => (1 : ℚ)) = 1 := by
  refine ⟨sampleTopo, sampleTopo_WF, fun _ pts => some (pts.map fun _ => 1), ⟨.tria, 0, [[1 / 3, 1 / 3]], [1]⟩,
    by simp [QuadRule.WellFormed, RefEl.dimension], by simp, fun _ _ => rfl, rfl, by decide +kernel,
    by decide +kernel⟩

/-- **C50**, version with a degree, partial: on cells and edges with constant integration elements, for
mesh functions which are polynomials of that degree in local coordinates, and with rules that are exact, the
integrals over the selected entities are summed up.  Missing: as for `C50_partial`. -/
theorem C50_degree_partial (B : QuadBase ℝ) (d : ℕ) (q : RefEl → QuadRule ℝ)
    (hq : ∀ r, r ≠ .point → makeQuadRule B r d = some (q r) ∧ (q r).ref = r ∧ (q r).WellFormed ∧ (q r).ExactFor d)
    (T : Topo) (hT : T.WF) (codim : ℕ) (hcd : codim ≤ 1) (hne : T.num codim ≠ 0) (ie : Ent → List ℝ → Option ℝ)
    (mf : MeshFn ℝ ℝ) (ep : ℕ → Bool) (h0 : ep 0 = true) (detJ : ℕ → ℝ) (f : ℕ → List ℝ → ℝ) (ref : ℕ → RefEl)
    (href : ∀ i < T.num codim, T.refEl (codim, i) = some (ref i))
    (hie : ∀ i < T.num codim, ∀ x, x.length = (ref i).dimension → ie (codim, i) x = some (detJ i))
    (hmf : ∀ i < T.num codim, ∀ pts, mf (codim, i) pts = some (pts.map (f i)))
    (hf : ∀ i < T.num codim, IsPolyOn (ref i) d (f i)) :
    integrateMeshFunctionDegree B T ie mf d ep codim =
      some (sumSelected (T.num codim) ep fun i => detJ i * refIntegral (ref i) (f i)) := by
  have hrp : ∀ i < T.num codim, ref i ≠ .point := by
    intro i hi hp
    have := href i hi
    rw [hp] at this
    interval_cases codim
    · simp only [Topo.refEl, if_pos (show i < T.num 0 from hi)] at this
      rcases hT.cell_len i hi with h | h <;> simp [h] at this
    · simp [Topo.refEl, if_pos (show i < T.num 1 from hi)] at this
  rw [integrateMeshFunctionDegree, (hq .segment (by simp)).1, Option.bind_some, (hq .tria (by simp)).1,
    Option.bind_some, (hq .quad (by simp)).1, Option.bind_some]
  refine (C50_partial T codim hne ie mf _ ep h0 (fun i => q (ref i)) (fun i _ => detJ i) f ?_ ?_ ?_).trans ?_
  · intro i hi _
    obtain ⟨-, -, h3, h4⟩ := hq _ (hrp i hi)
    refine ⟨?_, h3, exact_points_ne h4⟩
    rw [href i hi, Option.map_some]
    have := hrp i hi
    cases h : ref i <;> simp_all
  · intro i hi _ x hx
    obtain ⟨-, h2, h3, -⟩ := hq _ (hrp i hi)
    exact hie i hi x (by rw [h3.1 x hx, h2])
  · intro i hi _
    exact hmf i hi _
  · congr 1
    rw [sumSelected, sumSelected]
    congr 1
    apply List.map_congr_left
    intro i hi
    have hi' : i < T.num codim := List.mem_range.mp (List.mem_filter.mp hi).1
    obtain ⟨-, h2, -, h4⟩ := hq _ (hrp i hi')
    rw [transformed_const, h4 (f i) (by rw [h2]; exact hf i hi'), h2]

/-- The hypotheses of `C50_degree_partial` can be met: one-point rules. -/
example : integrateMeshFunctionDegree onePoint sampleTopo (fun _ _ => some 3)
    (fun _ pts => some (pts.map fun _ => (5 : ℝ))) 0 (fun _ => true) 0 = some (3 * (1 / 2 * 5) + 3 * 5) := by
  obtain ⟨qs, hs, hs1, hs2, -, -, -, hs3⟩ := C41_segment onePoint 0 onePoint_exact.legendre
  obtain ⟨qt, ht, ht1, ht2, -, -, -, ht3⟩ := C41_tria onePoint 0 (Or.inl rfl) onePoint_exact
  obtain ⟨qq, hq, hq1, hq2, -, -, -, hq3⟩ := C41_quad onePoint 0 onePoint_exact.legendre
  have lift : ∀ {q : QuadRule ℝ} {r : RefEl} {n : ℕ}, q.ref = r → q.ExactFor n → q.ExactFor 0 := by
    intro q r n h1 h2 f hf
    apply h2
    subst h1
    cases hr : q.ref with
    | point => trivial
    | segment =>
      rw [hr] at hf
      obtain ⟨c, hc⟩ := hf
      refine ⟨fun a => if a = 0 then c 0 else 0, fun x => ?_⟩
      rw [hc]; simp
    | tria =>
      rw [hr] at hf
      obtain ⟨c, hc⟩ := hf
      refine ⟨fun a b => if a = 0 then (if b = 0 then c 0 0 else 0) else 0, fun x y => ?_⟩
      rw [hc, Finset.sum_eq_single (s := Finset.range (n + 1)) 0]
      · simp
      · intro a _ ha; simp [ha]
      · simp
    | quad =>
      rw [hr] at hf
      obtain ⟨c, hc⟩ := hf
      refine ⟨fun a b => if a = 0 then (if b = 0 then c 0 0 else 0) else 0, fun x y => ?_⟩
      rw [hc, Finset.sum_eq_single (s := Finset.range (n + 1)) 0]
      · simp
      · intro a _ ha; simp [ha]
      · simp
  have := C50_degree_partial onePoint 0 (fun r => match r with
      | .segment => qs | .tria => qt | .quad => qq | .point => qs) (by
      intro r hr
      cases r with
      | point => exact absurd rfl hr
      | segment => exact ⟨hs, hs1, hs2, lift hs1 hs3⟩
      | tria => exact ⟨ht, ht1, ht2, lift ht1 ht3⟩
      | quad => exact ⟨hq, hq1, hq2, lift hq1 hq3⟩)
    sampleTopo sampleTopo_WF 0 (by omega) (by decide) (fun _ _ => some 3) (fun _ pts => some (pts.map fun _ => 5))
    (fun _ => true) rfl (fun _ => 3) (fun _ _ => 5) (fun i => if i = 0 then .tria else .quad)
    (by intro i hi; change i < 2 at hi; interval_cases i <;> rfl)
    (fun _ _ _ _ => rfl) (fun _ _ _ => rfl) (by
      intro i hi
      change i < 2 at hi
      interval_cases i
      · exact ⟨fun _ _ => 5, fun x y => by simp⟩
      · exact ⟨fun _ _ => 5, fun x y => by simp⟩)
  rw [this]
  congr 1
  rw [show sampleTopo.num 0 = 2 from rfl]
  simp only [sumSelected, List.range_succ, List.range_zero, List.nil_append, List.cons_append,
    List.filter_cons, if_true, List.filter_nil, List.map_cons, List.map_nil, List.sum_cons, List.sum_nil,
    refIntegral, one_ne_zero, if_false, intervalIntegral.integral_const, smul_eq_mul, sub_zero]
  rw [intervalIntegral.integral_mul_const, intervalIntegral.integral_sub (by simp) (by simp)]
  norm_num

end Verif
