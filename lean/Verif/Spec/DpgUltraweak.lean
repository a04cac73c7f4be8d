import Verif.Model.DpgUltraweak
import Verif.Spec.DpgBuilder
import Verif.Spec.DpgSpace

/-!
# Specification vocabulary: sums of bilinear forms on product spaces
-/

namespace Verif.Dpg
open Verif Geo

/-- `U` is a space built by a factory after components of the kinds and degrees `us` have been added. -/
def BuiltSpace (T : Topo) (us : List (Kind × ℕ)) (U : ProductSpace ℝ) : Prop :=
  ∃ F is F', (SpaceFactory.new T).addAll us = some (F, is) ∧ F.build = some (F', U)

def MatForm.trialIdx : MatForm → ℕ
  | .diffusion i _ _ | .convection i _ _ _ | .reaction i _ _ | .flux i _ _ | .trace i _ _ => i

def MatForm.testIdx : MatForm → ℕ
  | .diffusion _ j _ | .convection _ j _ _ | .reaction _ j _ | .flux _ j _ | .trace _ j _ => j

/-- The coefficient is a function which is evaluated at each point. -/
def PointwiseOn {R : Type} (c : ℕ) (f : MeshFn ℝ R) (F : List ℝ → R) : Prop := ∀ pts, f (0, c) pts = some (pts.map F)

/-- The forms make sense on product spaces with components of the kinds and degrees `us` and `vs`: fluxes are trial
functions on edges, all others live on cells, test functions have a positive degree, and coefficients are functions. -/
def MatForm.Admissible (T : Topo) (us vs : List (Kind × ℕ)) (F : MatForm) : Prop :=
  (∃ k p, vs[F.testIdx]? = some (k, p) ∧ k ≠ .flux ∧ 1 ≤ p) ∧
  (∃ k p, us[F.trialIdx]? = some (k, p) ∧ (k = .flux ↔ ∃ i j a, F = .flux i j a)) ∧
  ∀ c < T.numCells, match F with
    | .diffusion _ _ alpha => ∃ a, PointwiseOn c alpha a
    | .convection _ _ beta1 beta2 => (∃ b, PointwiseOn c beta1 b) ∧ ∃ b, PointwiseOn c beta2 b
    | .reaction _ _ gamma => ∃ a, PointwiseOn c gamma a
    | .flux _ _ alpha => ∃ a, PointwiseOn c alpha a
    | .trace _ _ beta => ∃ b, PointwiseOn c beta b

/-- `φ` is the bilinear form `F` on the cell `c` of type `r` with geometry `g`, for the shape functions of the components
and the quadrature rules of the library for the sum of their degrees; first argument: coefficients of the test function. -/
def MatForm.Is (base : QuadBase ℝ) (T : Topo) (U V : ProductSpace ℝ) (c : ℕ) (r : RefEl) (g : Geo ℝ 2) (φ : List ℝ → List ℝ → ℝ) :
    MatForm → Prop
  | .diffusion i j alpha => ∃ ft fv q a, U.shapeFunctionLayout r i = some (some ft) ∧ V.shapeFunctionLayout r j = some (some fv) ∧
      makeQuadRule base r (ft.degree + fv.degree) = some q ∧ PointwiseOn c alpha a ∧
      ∀ v x, φ v x = q.integrate fun z => g.metricAt z *
        dot (g.pushGrad z (combGrad fv v z)) ((a z).toMatrix.mulVec (g.pushGrad z (combGrad ft x z)))
  | .convection i j beta1 beta2 => ∃ ft fv q b₁ b₂, U.shapeFunctionLayout r i = some (some ft) ∧
      V.shapeFunctionLayout r j = some (some fv) ∧ makeQuadRule base r (ft.degree + fv.degree) = some q ∧
      PointwiseOn c beta1 b₁ ∧ PointwiseOn c beta2 b₂ ∧
      ∀ v x, φ v x = q.integrate fun z => g.metricAt z *
        (dot (b₁ z) (g.pushGrad z (combGrad fv v z)) * comb ft x z + comb fv v z * dot (b₂ z) (g.pushGrad z (combGrad ft x z)))
  | .reaction i j gamma => ∃ ft fv q a, U.shapeFunctionLayout r i = some (some ft) ∧ V.shapeFunctionLayout r j = some (some fv) ∧
      makeQuadRule base r (ft.degree + fv.degree) = some q ∧ PointwiseOn c gamma a ∧
      ∀ v x, φ v x = q.integrate fun z => g.metricAt z * a z * (comb fv v z * comb ft x z)
  | .flux i j alpha => ∃ ft fv q a, U.shapeFunctionLayout .segment i = some (some ft) ∧ V.shapeFunctionLayout r j = some (some fv) ∧
      makeQuadRule base .segment (ft.degree + fv.degree) = some q ∧ PointwiseOn c alpha a ∧
      ∀ v x, φ v x = ∑ s ∈ Finset.range r.numNodes, q.integrate fun t => g.sideMetric s t * a (sideAt r s t) *
        edgeSign T c ((T.cell c).edges.getD s 0) * (comb fv v (sideAt r s t) * comb ft (sidePart ft.num x s) t)
  | .trace i j beta => ∃ ft fv q b ns, U.shapeFunctionLayout r i = some (some ft) ∧ V.shapeFunctionLayout r j = some (some fv) ∧
      makeQuadRule base .segment (ft.degree + fv.degree) = some q ∧ PointwiseOn c beta b ∧ outerNormals g = some ns ∧
      ∀ v x, φ v x = ∑ s ∈ Finset.range r.numNodes, q.integrate fun t => g.sideMetric s t *
        dot (ns.getD s 0) (b (sideAt r s t)) * (comb fv v (sideAt r s t) * comb ft x (sideAt r s t))

/-- `M` is the sum of the bilinear forms `Fs` on the cell `c`, applied to the parts of the vectors of coefficients which
belong to the components of the forms. -/
def SumOfForms (base : QuadBase ℝ) (T : Topo) (U V : ProductSpace ℝ) (c : ℕ) (r : RefEl) (g : Geo ℝ 2) (Fs : List MatForm)
    (M : Dense ℝ) : Prop :=
  ∃ φ : ℕ → List ℝ → List ℝ → ℝ, (∀ (k : ℕ) (F : MatForm), Fs[k]? = some F → F.Is base T U V c r g (φ k)) ∧
    ∀ v x, M.form v x = (Fs.zipIdx.map fun Fk => φ Fk.2 (v.drop ((V.data.localStartIndex (0, c) Fk.1.testIdx).getD 0))
      (x.drop ((U.data.localStartIndex (0, c) Fk.1.trialIdx).getD 0))).sum

end Verif.Dpg

namespace Verif
open Geo

/-- What the providers need of the cells: full rank, metric factors of sides and normals. -/
structure Dpg.UsableCells (T : Topo) (geo : Ent → Option (Geo ℝ 2)) : Prop where
  regular : RegularCells T geo
  sides : ∀ c r g, T.refEl (0, c) = some r → geo (0, c) = some g → g.SidesOn r
  normals : ∀ c r g, T.refEl (0, c) = some r → geo (0, c) = some g → ∃ ns, outerNormals g = some ns ∧ ns.length = r.numNodes

/-- The matrices and the vector of the ultraweak method of degree `p` with enrichment `d` on cell `c` of type `r` with
geometry `g`, as forms of test functions `y = (v, τ)`, `w`, and trial functions `x = (u, σ, û, q)`; the two coordinates of
`σ` and `τ` are two components:
* `B` is `∫ σ · grad v - u β · grad v + u div τ + (1 / α) σ · τ - ∫_∂ q σ v - ∫_∂ û τ · n`,
* `G` is `∫ grad v · grad w + v w + div τ div τ' + τ · τ'`,
* `l` is `∫ f v`. -/
def Dpg.UltraweakForms (base : QuadBase ℝ) (T : Topo) (c : ℕ) (r : RefEl) (g : Geo ℝ 2) (p d : ℕ) (α : List ℝ → ℝ)
    (β : List ℝ → Vec ℝ 2) (f : List ℝ → ℝ) (B G : Dense ℝ) (l : List ℝ) : Prop :=
  ∃ fu ft fl fv qb qg qs qt ns, Dpg.referenceFE r p = some fu ∧ (Dpg.referenceFE r (p + 1)).bind Dpg.traceFE = some ft ∧
    Dpg.referenceFE .segment p = some fl ∧ Dpg.referenceFE r (p + d) = some fv ∧
    makeQuadRule base r (p + (p + d)) = some qb ∧ makeQuadRule base r (2 * (p + d)) = some qg ∧
    makeQuadRule base .segment (p + (p + d)) = some qs ∧ makeQuadRule base .segment (p + 1 + (p + d)) = some qt ∧
    outerNormals g = some ns ∧
    let v (y : List ℝ) := Dpg.comb fv y
    let τx (y : List ℝ) := Dpg.comb fv (y.drop fv.num)
    let τy (y : List ℝ) := Dpg.comb fv (y.drop (2 * fv.num))
    let gradV (y : List ℝ) (z : List ℝ) := g.pushGrad z (Dpg.combGrad fv y z)
    let divT (y : List ℝ) (z : List ℝ) := g.pushGrad z (Dpg.combGrad fv (y.drop fv.num) z) 0 +
      g.pushGrad z (Dpg.combGrad fv (y.drop (2 * fv.num)) z) 1
    let u (x : List ℝ) := Dpg.comb fu x
    let σx (x : List ℝ) := Dpg.comb fu (x.drop fu.num)
    let σy (x : List ℝ) := Dpg.comb fu (x.drop (2 * fu.num))
    let uHat (x : List ℝ) := Dpg.comb ft (x.drop (3 * fu.num))
    let q (x : List ℝ) (s : ℕ) := Dpg.comb fl (Dpg.sidePart fl.num (x.drop (3 * fu.num + ft.num)) s)
    (∀ y x, B.form y x = (qb.integrate fun z => g.metricAt z *
        (σx x z * gradV y z 0 + σy x z * gradV y z 1 - u x z * dot (β z) (gradV y z) + u x z * divT y z +
          1 / α z * (σx x z * τx y z + σy x z * τy y z))) -
      (∑ s ∈ Finset.range r.numNodes, qs.integrate fun t => g.sideMetric s t *
        (q x s t * Dpg.edgeSign T c ((T.cell c).edges.getD s 0) * v y (Dpg.sideAt r s t))) -
      ∑ s ∈ Finset.range r.numNodes, qt.integrate fun t => g.sideMetric s t *
        (uHat x (Dpg.sideAt r s t) * (ns.getD s 0 0 * τx y (Dpg.sideAt r s t) + ns.getD s 0 1 * τy y (Dpg.sideAt r s t)))) ∧
    (∀ y w, G.form y w = qg.integrate fun z => g.metricAt z *
      (dot (gradV y z) (gradV w z) + v y z * v w z + divT y z * divT w z + (τx y z * τx w z + τy y z * τy w z))) ∧
    ∀ y, dotList y l = qg.integrate fun z => g.metricAt z * (f z * v y z)

end Verif
