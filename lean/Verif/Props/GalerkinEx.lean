import Verif.Props.GalerkinDef
import Verif.Props.Quad
import Verif.Lemmas.LinFEQuad

/-!
# C77: exactness on affine meshes; a mesh with a triangle and a parallelogram meets all hypotheses
-/

namespace Verif
open Geo Finset Matrix

variable {w : ℕ}

/-- **C77**, exactness of the mass matrix and the load vector: on meshes with affine cells (triangles with straight edges
and parallelograms), for finite elements with polynomial shape functions, quadrature rules with the degree of exactness
asked for, a coefficient constant on each cell and a source function which, in local coordinates, is on each cell a
polynomial of the degree of the finite element, the sums in `C77_mass` and `C77_load` are the integrals `∫ γ v u` and
`∫ f v` over the selected cells: here `t e` is the metric factor of the cell. -/
theorem C77_exact (S : FeSpace ℝ) (get : RefEl → ℕ → Option (QuadRule ℝ)) (geo : Ent → Option (Geo ℝ w)) (hS : S.DofsOk)
    (active : Ent → Bool) (X : Ent → EntData w) (A B : Ent → Vec ℝ w)
    (hX : ∀ e ∈ (S.entities 0).filter active, (X e).Describes get S geo e ∧
      ((X e).fe.ref = .tria ∨ (X e).fe.ref = .quad) ∧ (X e).geo.kind = (X e).fe.ref ∧ (X e).geo.ConstJacobian (A e) (B e) ∧
      (X e).fe.Evaluates ∧ (X e).fe.Polynomial ∧ (X e).rule.ref = (X e).fe.ref ∧ (X e).rule.WellFormed ∧
      (X e).rule.ExactFor (2 * (X e).fe.degree) ∧ (X e).detJ = (X e).geo.metric) :
    ∃ t : Ent → ℝ, (∀ e ∈ (S.entities 0).filter active, 0 ≤ t e ∧
        t e ^ 2 = ((matrix 2 [A e, B e]).transpose * matrix 2 [A e, B e]).det) ∧
      (∀ (γ : Ent → ℝ) (ν μ : List ℝ), ν.length = S.dofh.numDofs → μ.length = S.dofh.numDofs →
        massSum S X ((S.entities 0).filter active) (fun e _ => γ e) ν μ =
          (((S.entities 0).filter active).map fun e =>
            refIntegral (X e).geo.kind fun x => t e * (γ e * (S.value ν e x * S.value μ e x))).sum) ∧
      (∀ (f : Ent → List ℝ → ℝ) (ν : List ℝ), ν.length = S.dofh.numDofs →
        (∀ e ∈ (S.entities 0).filter active, IsPolyOn (X e).fe.ref (X e).fe.degree (f e)) →
        loadSum S X ((S.entities 0).filter active) f ν =
          (((S.entities 0).filter active).map fun e =>
            refIntegral (X e).geo.kind fun x => t e * (f e x * S.value ν e x)).sum) := by
  have hex : ∀ e, ∃ t : ℝ, e ∈ (S.entities 0).filter active → 0 ≤ t ∧
      t ^ 2 = ((matrix 2 [A e, B e]).transpose * matrix 2 [A e, B e]).det ∧ ∀ x : List ℝ, x.length = 2 → (X e).detJ x = t := by
    intro e
    by_cases he : e ∈ (S.entities 0).filter active
    · obtain ⟨-, hk, hgk, hJ, -, -, hqr, hqw, -, hm⟩ := hX e he
      obtain ⟨t, h0, h2, ht⟩ := constMetric hk hJ hgk hqr hqw
      exact ⟨t, fun _ => ⟨h0, h2, fun x hx => by rw [hm, metric, ht x hx]; rfl⟩⟩
    · exact ⟨0, fun h => absurd h he⟩
  choose t ht using hex
  have hpoly : ∀ (u : List ℝ), u.length = S.dofh.numDofs → ∀ e ∈ (S.entities 0).filter active,
      IsPolyOn (X e).fe.ref (X e).fe.degree (S.value u e) := by
    intro u hu e he
    obtain ⟨hD, hk, -, -, hev, hp, -⟩ := hX e he
    have hent := FeSpace.mem_entities (by omega) (List.mem_filter.1 he).1
    refine IsPolyOn.congr hk (combine_poly hk hp (S.loc u e (X e).fe.num)) fun x hx => ?_
    rw [FeSpace.value, evalFE_loc hS hent hD.layout hD.num hu (hev.1 x (by
      rcases hk with h | h <;> rw [h] <;> exact hx))]
    rfl
  refine ⟨t, fun e he => ⟨(ht e he).1, (ht e he).2.1⟩, fun γ ν μ hν hμ => ?_, fun f ν hν hf => ?_⟩
  · unfold massSum
    congr 1
    refine List.map_congr_left fun e he => ?_
    obtain ⟨-, hk, hgk, -, -, -, hqr, hqw, hqe, -⟩ := hX e he
    rw [hgk, ← hqr, ← hqe]
    · refine integrate_congr _ fun x hx => ?_
      rw [(ht e he).2.2 x (by rw [hqw.1 x hx, hqr]; rcases hk with h | h <;> rw [h] <;> rfl)]
    · rw [hqr]
      exact ((IsPolyOn.mul hk (hpoly ν hν e he) (hpoly μ hμ e he) (by omega)).smul hk _).smul hk _
  · unfold loadSum
    congr 1
    refine List.map_congr_left fun e he => ?_
    obtain ⟨-, hk, hgk, -, -, -, hqr, hqw, hqe, -⟩ := hX e he
    rw [hgk, ← hqr, ← hqe]
    · refine integrate_congr _ fun x hx => ?_
      rw [(ht e he).2.2 x (by rw [hqw.1 x hx, hqr]; rcases hk with h | h <;> rw [h] <;> rfl)]
    · rw [hqr]
      exact (IsPolyOn.mul hk (hf e he) (hpoly ν hν e he) (by omega)).smul hk _

/-! ## A concrete case

`sampleTopo` has the triangle with the corners 0, 1, 2 and the quadrilateral with the corners 2, 1, 3, 4.  Put the corners
at (0,0), (2,0), (0,1), (3,2), (1,3): the quadrilateral is a parallelogram. -/

noncomputable def demoRule (r : RefEl) (_ : ℕ) : Option (QuadRule ℝ) :=
  match r with
  | .tria => triaEdgeMidpoint (1 / 6)
  | .quad => some gauss22
  | _ => none

noncomputable def demoData (e : Ent) : EntData 2 :=
  let g : Geo ℝ 2 := if e.2 = 0 then triaO1 ![0, 0] ![2, 0] ![0, 1] else parallelogram ![0, 1] ![2, 0] ![3, 2] ![1, 3]
  { geo := g
    fe := lagrFE 1 g.kind
    rule := ⟨g.kind, if e.2 = 0 then 2 else 3, if e.2 = 0 then [[1 / 2, 0], [1 / 2, 1 / 2], [0, 1 / 2]] else gauss22.points,
      if e.2 = 0 then [1 / 6, 1 / 6, 1 / 6] else gauss22.weights⟩
    detJ := g.metric }

theorem demoData_zero : demoData (0, 0) = ⟨triaO1 ![0, 0] ![2, 0] ![0, 1], lagrFE 1 .tria,
    ⟨.tria, 2, [[1 / 2, 0], [1 / 2, 1 / 2], [0, 1 / 2]], [1 / 6, 1 / 6, 1 / 6]⟩, (triaO1 ![0, 0] ![2, 0] ![0, 1]).metric⟩ := rfl

theorem demoData_one : demoData (0, 1) = ⟨parallelogram ![0, 1] ![2, 0] ![3, 2] ![1, 3], lagrFE 1 .quad, gauss22,
    (parallelogram ![0, 1] ![2, 0] ![3, 2] ![1, 3]).metric⟩ := rfl

theorem demo_entities {e : Ent} (he : e ∈ (List.range (sampleTopo.num 0)).map fun i => ((0, i) : Ent)) :
    e = (0, 0) ∨ e = (0, 1) := by
  obtain ⟨i, hi, rfl⟩ := List.mem_map.1 he
  rw [List.mem_range] at hi
  change i < 2 at hi
  interval_cases i <;> simp

theorem demo_tria : triaEdgeMidpoint (1 / 6) =
    some (⟨.tria, 2, [[1 / 2, 0], [1 / 2, 1 / 2], [0, 1 / 2]], [1 / 6, 1 / 6, 1 / 6]⟩ : QuadRule ℝ) := by
  simp [triaEdgeMidpoint, QuadRule.make, RefEl.dimension]

theorem demo_good (active : Ent → Bool) : GoodCells demoRule sampleTopo (fun e => some (demoData e).geo)
    (((List.range (sampleTopo.num 0)).map fun i => ((0, i) : Ent)).filter active) demoData := by
  obtain ⟨q, hq, -, hqw, -⟩ := C42_triaEdgeMidpoint
  rw [demo_tria] at hq
  cases hq
  constructor <;> intro e he <;> rcases demo_entities (List.mem_filter.1 he).1 with rfl | rfl
  · rfl
  · rfl
  · rfl
  · rfl
  · exact demo_tria
  · rfl
  · rfl
  · rfl
  · exact hqw
  · exact gauss22_wf
  · rfl
  · rfl
  · intro x hx
    refine ⟨_, constJacobian_tria _ _ _ x (hqw.1 x hx), ?_⟩
    rw [gram_two]
    simp [dot, Fin.sum_univ_two]
  · intro x hx
    refine ⟨_, constJacobian_parallelogram _ _ _ _ x (gauss22_wf.1 x hx), ?_⟩
    rw [gram_two]
    simp [dot, Fin.sum_univ_two]
    norm_num

/-- All hypotheses of `C77_lagrange`, `C77_mass_definite` and `C77_diffusion_kernel` are met. -/
theorem demo_meets : ∃ U : UniformFESpace ℝ, lagrangeSpace sampleTopo 1 = some U ∧ U.dofh.numDofs = 5 ∧
    (∀ e ∈ (U.space sampleTopo).entities 0, (demoData e).fe = lagrFE 1 (demoData e).geo.kind ∧
      (∀ a ∈ (demoData e).rule.weights, 0 < a) ∧ (demoData e).rule.ExactFor (2 * 1)) ∧
    U.dofh.all (0, 0) = [0, 1, 2] ∧ U.dofh.all (0, 1) = [2, 1, 3, 4] := by
  obtain ⟨U, hU⟩ := Option.isSome_iff_exists.mp (show (lagrangeSpace sampleTopo 1 : Option (UniformFESpace ℝ)).isSome
    from by decide +kernel)
  obtain ⟨q, hq, -, -, -, hqe, -⟩ := C42_triaEdgeMidpoint
  rw [demo_tria] at hq
  cases hq
  have hU' := hU
  rw [lagrangeSpace_eq sampleTopo 1 (by norm_num)] at hU'
  obtain ⟨dh, hdh, rfl⟩ := Option.map_eq_some_iff.mp hU'
  have hall : ∀ h, uniformDofHandler sampleTopo (lagrangeLayout 1) true = some h →
      h.numDofs = 5 ∧ h.all (0, 0) = [0, 1, 2] ∧ h.all (0, 1) = [2, 1, 3, 4] := by
    have : (uniformDofHandler sampleTopo (lagrangeLayout 1) true).all fun h =>
        decide (h.numDofs = 5 ∧ h.all (0, 0) = [0, 1, 2] ∧ h.all (0, 1) = [2, 1, 3, 4]) := by decide +kernel
    intro h hh
    rw [hh] at this
    simpa using this
  obtain ⟨h5, ha, hb⟩ := hall dh hdh
  refine ⟨_, hU, h5, fun e he => ⟨rfl, ?_⟩, ha, hb⟩
  rcases demo_entities he with rfl | rfl
  · refine ⟨fun a ha => ?_, hqe⟩
    rw [demoData_zero] at ha
    simp at ha
    rw [ha]
    norm_num
  · refine ⟨fun a ha => ?_, fun f hf => gauss22_exact f (QP.mono (f := fun x y => f [x, y]) hf (by decide))⟩
    rw [demoData_one] at ha
    simp [gauss22] at ha
    rw [ha]
    norm_num

/-- With coefficient one, the assembled mass matrix exists and is positive definite. -/
example : ∃ U : UniformFESpace ℝ, lagrangeSpace sampleTopo 1 = some U ∧
    ∃ A D, assembleMatrixFE (U.space sampleTopo) 0 (fun _ => true)
        (massElementMatrix demoRule (U.space sampleTopo) (fun e => some (demoData e).geo) fun _ pts => some (pts.map fun _ => 1))
        (Coo.mk' 5 5) = some A ∧ A.makeDense = some D ∧ D.rows = 5 ∧ D.cols = 5 ∧
      ∀ ν : List ℝ, ν.length = 5 → (D.form ν ν = 0 ↔ ∀ d < 5, ν.getD d 0 = 0) := by
  obtain ⟨U, hU, h5, hm, ha, hb⟩ := demo_meets
  obtain ⟨A, D, h1, h2, h3, h4, hf⟩ := C77_mass_definite demoRule sampleTopo sampleTopo_WF 1 (by norm_num) U hU
    (by rw [h5]; norm_num) (fun e => some (demoData e).geo) (fun _ => true) demoData (demo_good _)
    (fun e he => (hm e (List.mem_filter.1 he).1).1) (fun e he => (hm e (List.mem_filter.1 he).1).2)
    (fun _ pts => some (pts.map fun _ => 1)) (fun _ _ => 1) (fun _ _ => rfl) (fun _ _ _ _ => one_pos)
  rw [h5] at h1 h3 h4 hf
  refine ⟨U, hU, A, D, h1, h2, h3, h4, fun ν hν => ?_⟩
  rw [(hf ν hν).2]
  have e0 : ((0, 0) : Ent) ∈ ((U.space sampleTopo).entities 0).filter fun _ => true :=
    List.mem_filter.2 ⟨List.mem_map.2 ⟨0, List.mem_range.2 (show _ < 2 by norm_num), rfl⟩, rfl⟩
  have e1 : ((0, 1) : Ent) ∈ ((U.space sampleTopo).entities 0).filter fun _ => true :=
    List.mem_filter.2 ⟨List.mem_map.2 ⟨1, List.mem_range.2 (show _ < 2 by norm_num), rfl⟩, rfl⟩
  constructor
  · intro h d hd
    have k0 := h _ e0
    have k1 := h _ e1
    rw [ha] at k0
    rw [hb] at k1
    interval_cases d
    · exact k0 0 (by simp)
    · exact k0 1 (by simp)
    · exact k0 2 (by simp)
    · exact k1 3 (by simp)
    · exact k1 4 (by simp)
  · intro h e he d hd
    refine h d ?_
    rcases demo_entities (List.mem_filter.1 he).1 with rfl | rfl
    · rw [ha] at hd
      simp at hd
      omega
    · rw [hb] at hd
      simp at hd
      omega

end Verif
