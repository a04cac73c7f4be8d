import Verif.Model.DpgBuilder
import Verif.Spec.Geometry
import Verif.Spec.LocComp
import Verif.Spec.DpgLocComp
import Verif.Spec.Galerkin

/-!
# Specification vocabulary: histories of builders
-/

namespace Verif.Dpg
open Verif

/-- The results of a sequence of calls of a builder.  The calls succeed if and only if all sub-providers can be
constructed.  There is one provider for each call of `Build`; if the forms `fs` were added between the calls before, none
or a call of `Build` as the last one, and a call of `Build`, then this call returns the provider made of the
sub-providers of `fs`. -/
structure Builds {F S P : Type} (mk : F → Option S) (make : List S → P) (ops : List (BuilderOp F))
    (result : Option (Builder S × List P)) : Prop where
  succeeds : result.isSome ↔ ∀ f, BuilderOp.add f ∈ ops → (mk f).isSome
  returns : ∀ b out, result = some (b, out) → out.length = ops.countP BuilderOp.isBuild ∧
    ∀ pre (fs : List F) post, ops = pre ++ fs.map .add ++ .build :: post → (pre = [] ∨ pre.getLast? = some .build) →
      ∃ ss, fs.mapM mk = some ss ∧ out[pre.countP BuilderOp.isBuild]? = some (make ss)

end Verif.Dpg

namespace Verif
open Geo

/-- A geometry of a cell of type `r` whose Jacobian has full rank on the closed reference cell. -/
def Geo.RegularOn {w : ℕ} (g : Geo ℝ w) (r : RefEl) : Prop :=
  g.kind = r ∧ ∀ x, r.Contains x → ∃ cols, g.jacobian x = some cols ∧ ((matrix 2 cols).transpose * matrix 2 cols).det ≠ 0

/-- The metric factor `IntegrationElement` of a geometry. -/
noncomputable def Geo.metricAt {w : ℕ} (g : Geo ℝ w) (x : List ℝ) : ℝ := (g.integrationElement x).getD 0

/-- All cells have geometries of this kind. -/
def RegularCells {w : ℕ} (T : Topo) (geo : Ent → Option (Geo ℝ w)) : Prop :=
  ∀ c < T.numCells, ∃ r g, T.refEl (0, c) = some r ∧ (r = .tria ∨ r = .quad) ∧ geo (0, c) = some g ∧ g.RegularOn r

/-- The metric factor of side `s` of a cell. -/
noncomputable def Geo.sideMetric {w : ℕ} (g : Geo ℝ w) (s : ℕ) (t : List ℝ) : ℝ := ((g.sub 1 s).bind fun side => side.integrationElement t).getD 0

/-- The sides of a cell of type `r` have geometries whose metric factors can be computed. -/
def Geo.SidesOn {w : ℕ} (g : Geo ℝ w) (r : RefEl) : Prop :=
  ∀ s < r.numNodes, ∃ side, g.sub 1 s = some side ∧ ∀ t, (side.integrationElement [t]).isSome

/-- The matrices and the vector of the primal method of degree `p` with enrichment `d` on cell `c` of type `r` with
geometry `g`, as forms of a test function `v`, a trial function with the coefficients `x` for `u` followed by those for the
flux `q`, and a test function `w`:
* `B` is `∫ grad v · α grad u + v β · grad u - ∫_∂ q σ v`,
* `G` is `∫ a grad v · grad w + v w`,
* `l` is `∫ f v`,
with the elements of the library, of degree `p` for `u`, `p - 1` for `q` and `p + d` for test functions, and the
quadrature rules of the library for the sum of the degrees. -/
def PrimalForms (base : QuadBase ℝ) (T : Topo) (c : ℕ) (r : RefEl) (g : Geo ℝ 2) (p d : ℕ) (α : List ℝ → DiffCoeff 2) (a : List ℝ → ℝ)
    (β : List ℝ → Vec ℝ 2) (f : List ℝ → ℝ) (B G : Dense ℝ) (l : List ℝ) : Prop :=
  ∃ ft fv fl qb qg qs, Dpg.referenceFE r p = some ft ∧ Dpg.referenceFE r (p + d) = some fv ∧ Dpg.referenceFE .segment (p - 1) = some fl ∧
    makeQuadRule base r (p + (p + d)) = some qb ∧ makeQuadRule base r (2 * (p + d)) = some qg ∧
    makeQuadRule base .segment (p - 1 + (p + d)) = some qs ∧
    (∀ v x, B.form v x = (qb.integrate fun z => g.metricAt z *
        (dot (g.pushGrad z (Dpg.combGrad fv v z)) ((α z).toMatrix.mulVec (g.pushGrad z (Dpg.combGrad ft x z))) +
          Dpg.comb fv v z * dot (β z) (g.pushGrad z (Dpg.combGrad ft x z)))) -
      ∑ s ∈ Finset.range r.numNodes, qs.integrate fun t => g.sideMetric s t *
        (Dpg.comb fl (Dpg.sidePart fl.num (x.drop ft.num) s) t * Dpg.edgeSign T c ((T.cell c).edges.getD s 0) *
          Dpg.comb fv v (Dpg.sideAt r s t))) ∧
    (∀ v w, G.form v w = qg.integrate fun z => g.metricAt z *
      (a z * dot (g.pushGrad z (Dpg.combGrad fv v z)) (g.pushGrad z (Dpg.combGrad fv w z)) + Dpg.comb fv v z * Dpg.comb fv w z)) ∧
    ∀ v, dotList v l = qg.integrate fun z => g.metricAt z * (f z * Dpg.comb fv v z)

end Verif
