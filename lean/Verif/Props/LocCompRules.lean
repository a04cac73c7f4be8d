import Verif.Props.LocCompExact

/-!
# C53: quadrature rules passed by the user to the providers of `lf::uscalfe`
-/

namespace Verif
open Geo

variable {w : ℕ} {g : Geo ℝ w} {fe : RefFE ℝ} {q : QuadRule ℝ} {detJ : List ℝ → ℝ} {r : RefEl}

/-- **C53**: a quadrature rule for the type of the cell which the user has passed to the constructor of
`ReactionDiffusionElementMatrixProvider` or `ScalarLoadElementVectorProvider` is the one which is used. -/
theorem C53_user_rule (U : UniformFESpace ℝ) (coll : RefEl → Option (QuadRule ℝ)) (T : Topo)
    (geo : Ent → Option (Geo ℝ w)) (e : Ent) (hg : geo e = some g) (hr : T.refEl e = some r)
    (hcell : r = .tria ∨ r = .quad) (hl : U.layout r = some fe) (hc : coll r = some q) (hq : q.ref = r)
    (h : Computable g fe q detJ) (h' : ComputableGrad g fe q detJ)
    (alpha : MeshFn ℝ (DiffCoeff w)) (gamma : MeshFn ℝ ℝ) (α : List ℝ → DiffCoeff w) (γ : List ℝ → ℝ)
    (hα : alpha e q.points = some (q.points.map α)) (hγ : gamma e q.points = some (q.points.map γ)) :
    (∃ M : Matrix (Fin fe.num) (Fin fe.num) ℝ,
      reactionDiffusionElementMatrix (fun ref => (precompute U (userRule false coll) ref).join) T geo alpha gamma e =
        some ⟨fe.num, M⟩ ∧
      ∀ i j, M i j = diffusionForm g fe q detJ (fun x => (α x).toMatrix) i.val j.val +
        massForm fe q detJ γ i.val j.val) ∧
    ∃ v : Fin fe.num → ℝ,
      uLoadElementVector (fun ref => (precompute U (userRule true coll) ref).join) T geo gamma e = some ⟨fe.num, v⟩ ∧
      ∀ i, v i = loadForm fe q detJ γ i.val := by
  have hu : ∀ b, userRule b coll r fe = some (some q) := fun b => by simp [userRule, hc, hq]
  exact ⟨C53_reaction_diffusion U _ T geo e hg hr hcell hl (hu false) h h' alpha gamma α γ hα hγ,
    C53_uload U _ T geo e hg hr hcell hl (hu true) h'.dim h
      (fun x hx => (h'.grads x hx).imp fun _ hv => hv.1) gamma γ hγ⟩

/-- **C53**: both constructors refuse a rule for another reference element.  If there is no rule for a type of cells of the
space, the constructor of `ScalarLoadElementVectorProvider` fails, and that of `ReactionDiffusionElementMatrixProvider`
does not, but the provider cannot be evaluated on cells of this type. -/
theorem C53_user_rule_refused (U : UniformFESpace ℝ) (coll : RefEl → Option (QuadRule ℝ)) (hcell : r = .tria ∨ r = .quad)
    (hl : U.layout r = some fe) :
    (∀ q, coll r = some q → q.ref ≠ r → ∀ strict, precompute U (userRule strict coll) r = none) ∧
    (coll r = none → precompute U (userRule true coll) r = none ∧ precompute U (userRule false coll) r = some none ∧
      ∀ (T : Topo) (geo : Ent → Option (Geo ℝ w)) (e : Ent) alpha gamma, T.refEl e = some r →
        reactionDiffusionElementMatrix (fun ref => (precompute U (userRule false coll) ref).join) T geo alpha gamma e =
          none) := by
  have hp : ∀ strict, precompute U (userRule strict coll) r = (userRule strict coll r fe).bind fun
      | some qr => (PrecompFE.make fe qr).map some
      | none => some none := by
    intro strict
    rw [precompute, if_pos hcell, hl]
    rfl
  refine ⟨fun q hc hq strict => ?_, fun hc => ?_⟩
  · rw [hp]
    simp [userRule, hc, hq]
  · have h1 : precompute U (userRule false coll) r = some none := by
      rw [hp]
      simp [userRule, hc]
    refine ⟨by rw [hp]; simp [userRule, hc], h1, fun T geo e alpha gamma hr => ?_⟩
    unfold reactionDiffusionElementMatrix
    rw [hr, Option.bind_some]
    change ((precompute U (userRule false coll) r).join).bind _ = none
    rw [h1]
    rfl

/-- A collection with a rule for triangles only; the other hypotheses of `C53_user_rule` are met as in the example in
`LocCompExact`.  The rule is taken for triangles; for quadrilaterals there is none. -/
example : ∃ coll : RefEl → Option (QuadRule ℝ), coll .tria = some (eqTria 2) ∧ (eqTria 2).ref = .tria ∧ coll .quad = none ∧
    (eqTria 2).numPoints ≠ 0 ∧ userRule true coll .tria lagrO1Tria = some (some (eqTria 2)) ∧
    userRule true coll .quad lagrO1Quad = none ∧ userRule false coll .quad lagrO1Quad = some none :=
  ⟨fun r => if r = .tria then some (eqTria 2) else none, rfl, rfl, rfl, by decide, rfl, rfl, rfl⟩

end Verif
