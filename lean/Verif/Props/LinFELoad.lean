import Verif.Lemmas.LinFEQuad
import Verif.Lemmas.TriaPoly
import Verif.Props.Quad
import Verif.Props.LinFE

/-!
# C65: the element vector of `LinearFELocalLoadVector`
-/

namespace Verif
open Geo

/-- The linear shape functions on a cell. -/
noncomputable def linearShapes : RefEl → RefFE ℝ
  | .quad => lagrO1Quad
  | _ => lagrO1Tria

/-- The points at which the code evaluates the function: the midpoints of the sides and, on triangles, one
more. -/
noncomputable def loadPoints (r : RefEl) : List (List ℝ) :=
  r.sideMids ++ if r = .tria then [[-1, -1]] else []

/-- **C65**, partial: on all cells, for all functions, entry `k` of the vector is the value of the edge
midpoint rule, with weights summing up to the volume, for the function times the `k`-th shape function;
entries without shape function are zero.  Missing: on triangles this requires a mesh function which can be
evaluated at the point `(-1, -1)`, which lies outside of the cell, see `C65_not`. -/
theorem C65_partial (g : Geo ℝ 2) (hk : g.kind = .tria ∨ g.kind = .quad) (V : ℝ) (hV : g.volume = some V)
    (e : Ent) (mf : MeshFn ℝ ℝ) (f : List ℝ → ℝ)
    (hf : mf e (loadPoints g.kind) = some ((loadPoints g.kind).map f)) :
    ∃ r, linearFELoad mf g e = some r ∧ r.length = 4 ∧
      (∀ k < g.kind.numNodes, r.getD k 0 =
        (g.kind.sideMids.map fun x => V / g.kind.numNodes * (f x * (linearShapes g.kind).shape k x)).sum) ∧
      ∀ k, g.kind.numNodes ≤ k → r.getD k 0 = 0 := by
  rcases hk with hk | hk
  · rw [hk] at hf ⊢
    simp only [loadPoints, RefEl.sideMids, if_true, List.cons_append, List.nil_append, List.map_cons, List.map_nil] at hf
    refine ⟨[V / 3 * (1 / 2 * f [1 / 2, 0] + 1 / 2 * f [0, 1 / 2]),
      V / 3 * (1 / 2 * f [1 / 2, 0] + 1 / 2 * f [1 / 2, 1 / 2]),
      V / 3 * (1 / 2 * f [1 / 2, 1 / 2] + 1 / 2 * f [0, 1 / 2]), 0], ?_, rfl, ?_, ?_⟩
    · simp at hf
      simp [linearFELoad, hk, refMp, hV, hf, RefEl.numNodes, List.range_succ, addAt]
    · intro k hk'
      have : k < 3 := hk'
      interval_cases k <;> simp [RefEl.sideMids, linearShapes, RefFE.shape, lagrO1Tria, RefEl.numNodes] <;>
        norm_num <;> ring
    · intro k hk'
      have : 3 ≤ k := hk'
      rcases Nat.lt_or_ge k 4 with h | h
      · interval_cases k; rfl
      · exact List.getD_eq_default _ _ h
  · rw [hk] at hf ⊢
    simp [loadPoints, RefEl.sideMids] at hf
    refine ⟨[V / 4 * (1 / 2 * f [1 / 2, 0] + 1 / 2 * f [0, 1 / 2]),
      V / 4 * (1 / 2 * f [1 / 2, 0] + 1 / 2 * f [1, 1 / 2]),
      V / 4 * (1 / 2 * f [1, 1 / 2] + 1 / 2 * f [1 / 2, 1]),
      V / 4 * (1 / 2 * f [1 / 2, 1] + 1 / 2 * f [0, 1 / 2])], ?_, rfl, ?_, ?_⟩
    · simp [linearFELoad, hk, refMp, hV, hf, RefEl.numNodes, List.range_succ, addAt]
    · intro k hk'
      have : k < 4 := hk'
      interval_cases k <;> simp [RefEl.sideMids, linearShapes, RefFE.shape, lagrO1Quad, RefEl.numNodes] <;>
        norm_num <;> ring
    · intro k hk'
      exact List.getD_eq_default _ _ hk'

/-- **C65**: on straight triangles the entries are, for all functions which are affine on the cell, the exact
integrals of the function times the shape functions (transformed to the reference triangle). -/
theorem C65_exact_tria (a b c : Vec ℝ 2) (e : Ent) (mf : MeshFn ℝ ℝ) (f : List ℝ → ℝ) (hp : IsPolyOn .tria 1 f)
    (hf : mf e (loadPoints .tria) = some ((loadPoints .tria).map f)) :
    ∃ r, linearFELoad mf (.triaO1 a b c) e = some r ∧ ∀ k < 3, r.getD k 0 =
      refIntegral .tria fun x => |det2 (b - a) (c - a)| * (f x * (lagrO1Tria : RefFE ℝ).shape k x) := by
  have hV : (triaO1 a b c : Geo ℝ 2).volume = some (1 / 2 * |det2 (b - a) (c - a)|) := by
    simp [volume, kind, integrationElement, jacobian]
  obtain ⟨r, hr, -, hk, -⟩ := C65_partial (.triaO1 a b c) (.inl rfl) _ hV e mf f hf
  refine ⟨r, hr, fun k hk3 => ?_⟩
  obtain ⟨q, hq, hr, -, -, he, -⟩ := C42_triaEdgeMidpoint
  unfold triaEdgeMidpoint at hq
  obtain ⟨rfl, -⟩ := make_some hq
  rw [hk k hk3, ← he]
  · simp [kind, RefEl.sideMids, RefEl.numNodes, QuadRule.integrate, linearShapes]
    ring
  · have h1 : TP 1 fun x y => f [x, y] := hp
    have h2 : TP 1 fun x y => (lagrO1Tria : RefFE ℝ).shape k [x, y] := by
      interval_cases k
      · exact ((TP.const 1 1).sub (TP.fst 1 le_rfl)).sub (TP.snd 1 le_rfl)
      · exact TP.fst 1 le_rfl
      · exact TP.snd 1 le_rfl
    exact (TP.isPolyOn (TP.smul _ (TP.mul h1 h2 (n := 2) (by norm_num))))

/-- **C65**: on parallelograms the entries are, for all functions which are constant on the cell, the exact
integrals of the function times the shape functions (transformed to the reference square). -/
theorem C65_exact_quad (g : Geo ℝ 2) (a b d : Vec ℝ 2)
    (hg : g = .parallelogram a b (b + (d - a)) d ∨ g = .quadO1 a b (b + (d - a)) d)
    (e : Ent) (mf : MeshFn ℝ ℝ) (z : ℝ)
    (hf : mf e (loadPoints .quad) = some ((loadPoints .quad).map fun _ => z)) :
    ∃ r, linearFELoad mf g e = some r ∧ ∀ k < 4, r.getD k 0 =
      refIntegral .quad fun x => |det2 (b - a) (d - a)| * (z * (lagrO1Quad : RefFE ℝ).shape k x) := by
  have hk : g.kind = .quad := by rcases hg with rfl | rfl <;> rfl
  have hV : g.volume = some |det2 (b - a) (d - a)| := by
    rcases hg with rfl | rfl
    · simp [volume, kind, integrationElement, jacobian]
    · have : (quadO1 a b (b + (d - a)) d).integrationElement [1 / 2, 1 / 2] = some |det2 (b - a) (d - a)| := by
        rw [integrationElement_quadO1]
        simp [quadA, quadB, det2, entry]
        ring_nf
      simp only [volume, kind, this]
      simp
  obtain ⟨r, hr, -, hk, -⟩ := C65_partial g (.inr hk) _ hV e mf _ (by rw [hk]; exact hf)
  rename_i hkq
  refine ⟨r, hr, fun k hk4 => ?_⟩
  obtain ⟨q, hq, hr, -, -, he, -⟩ := C42_quadEdgeMidpoint
  unfold quadEdgeMidpoint at hq
  obtain ⟨rfl, -⟩ := make_some hq
  rw [hk k (by rw [hkq]; exact hk4), ← he]
  · simp [hkq, RefEl.sideMids, RefEl.numNodes, QuadRule.integrate, linearShapes]
    ring
  · obtain ⟨c, hc⟩ := C44_o1Quad.polynomial k hk4
    refine ⟨fun m n => |det2 (b - a) (d - a)| * (z * c m n), fun x y => ?_⟩
    beta_reduce
    rw [hc]
    simp only [Finset.mul_sum]
    exact Finset.sum_congr rfl fun _ _ => Finset.sum_congr rfl fun _ _ => by ring

/-- **C65** is false: on a triangle with a second order geometry (all of them), with a source function given
in world coordinates (all of them), there is no result, although the function can be evaluated at the
midpoints of the sides: the code also evaluates it at `(-1, -1)`, which the geometry rejects. -/
theorem C65_not (a b c d e f : Vec ℝ 2) (i : Ent) (geo : Ent → Option (Geo ℝ 2))
    (hg : geo i = some (.triaO2 a b c d e f)) (F : Vec ℝ 2 → ℝ) :
    (meshFunctionGlobal geo F i (RefEl.sideMids .tria)).isSome ∧
    (triaO2 a b c d e f).volume.isSome ∧
    linearFELoad (meshFunctionGlobal geo F) (.triaO2 a b c d e f) i = none := by
  refine ⟨?_, ?_, ?_⟩
  · simp [meshFunctionGlobal, hg, RefEl.sideMids, global, inUnit]
    norm_num
  · simp [volume, kind, integrationElement, jacobian, inUnit]
    norm_num
  · have : meshFunctionGlobal geo F i (loadPoints .tria) = none := by
      have h1 : (triaO2 a b c d e f).global [-1, -1] = none := by
        simp only [global, inUnit]
        exact if_neg (by norm_num)
      simp [meshFunctionGlobal, hg, loadPoints, RefEl.sideMids, h1]
    simp only [loadPoints, RefEl.sideMids, if_true, List.cons_append, List.nil_append] at this
    simp only [linearFELoad, kind, refMp, Option.bind_some, this, Option.bind_none, Option.bind_fun_none]

/-- A source function on a straight triangle. -/
example : ∃ r, linearFELoad (meshFunctionGlobal (fun _ => some (.triaO1 ![0, 0] ![2, 0] ![0, 1]))
    (fun x => 1 + x 0)) (.triaO1 ![0, 0] ![2, 0] ![0, 1]) (0, 0) = some r ∧ r.getD 0 0 = 1 / 2 := by
  obtain ⟨r, hr, -, hk, -⟩ := C65_partial (.triaO1 ![0, 0] ![2, 0] ![0, 1]) (.inl rfl) 1
    (by simp [volume, kind, integrationElement, jacobian, det2, entry]) (0, 0)
    (meshFunctionGlobal (fun _ => some (.triaO1 ![0, 0] ![2, 0] ![0, 1])) (fun x => 1 + x 0))
    (fun x => 1 + 2 * x.getD 0 0) (by
      simp [meshFunctionGlobal, kind, loadPoints, RefEl.sideMids, global])
  refine ⟨r, hr, ?_⟩
  rw [hk 0 (by simp [kind, RefEl.numNodes])]
  simp [kind, RefEl.sideMids, RefEl.numNodes, linearShapes, RefFE.shape, lagrO1Tria]
  norm_num

end Verif
