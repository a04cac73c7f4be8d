import Verif.Model.EllBvp
import Verif.Spec.Galerkin
import Verif.Lemmas.LagrConform

/-!
# Specification vocabulary: the discrete variational problem
-/

namespace Verif
open Geo

variable {w : ℕ}

/-- A mesh with geometries `g`, and quadrature rules `rules`, on which the computations for Lagrangian finite elements of
degree `p` are possible: all cells and edges have a geometry of their type, the built-in quadrature rules of degree `2 p`
exist, and in their points the Jacobians of cells have full rank. -/
structure BvpMesh (B : QuadBase ℝ) (T : Topo) (p : ℕ) (geo : Ent → Option (Geo ℝ w)) (g : Ent → Geo ℝ w)
    (rules : RefEl → QuadRule ℝ) : Prop where
  rule : ∀ r, r = .segment ∨ r = .tria ∨ r = .quad → makeQuadRule B r (2 * p) = some (rules r) ∧ (rules r).ref = r ∧
    (rules r).WellFormed
  geo : ∀ e, T.IsEnt e → e.1 ≤ 1 → geo e = some (g e) ∧ T.refEl e = some (g e).kind
  regular : ∀ c < T.numCells, ∀ x ∈ (rules (g (0, c)).kind).points, ∃ cols, (g (0, c)).jacobian x = some cols ∧
    ((matrix 2 cols).transpose * matrix 2 cols).det ≠ 0
  edge : ∀ e < T.numEdges, ∀ x ∈ (rules (g (1, e)).kind).points, (∃ cols, (g (1, e)).jacobian x = some cols) ∧
    ∃ y, (g (1, e)).global x = some y

/-- Geometry, finite element, rule and metric factor of an entity of such a mesh. -/
noncomputable def bvpData (p : ℕ) (g : Ent → Geo ℝ w) (rules : RefEl → QuadRule ℝ) (e : Ent) : EntData w :=
  ⟨g e, lagrFE p (g e).kind, rules (g e).kind, fun x => ((g e).integrationElement x).getD 0⟩

section
variable (P : EllBvp w) (S : FeSpace ℝ) (geo : Ent → Option (Geo ℝ w)) (X : Ent → EntData w)

/-- The bilinear form `a(v, u) = ∫ grad v · α grad u + γ v u + ∫_{impedance edges} η v u`, with quadrature. -/
noncomputable def EllBvp.a (ν μ : List ℝ) : ℝ :=
  diffusionSum S X (S.entities 0) geo (fun e x => (P.α e x).toMatrix) ν μ + massSum S X (S.entities 0) P.γ ν μ +
    massSum S X ((S.entities 1).filter fun e => P.bd e.2 && P.imp e.2) P.η ν μ

/-- The linear form `ℓ(v) = ∫ f v + ∫_{Neumann and impedance edges} h v`, with quadrature. -/
noncomputable def EllBvp.ℓ (ν : List ℝ) : ℝ :=
  loadSum S X (S.entities 0) P.f ν + loadSum S X ((S.entities 1).filter fun e => P.bd e.2 && (P.neu e.2 || P.imp e.2)) P.h ν

/-- The finite element function with coefficients `x` takes the boundary values: on every Dirichlet edge, its values at
the interpolation nodes of the edge are those of `g`. -/
def EllBvp.TakesBoundaryValues (p : ℕ) (x : List ℝ) : Prop :=
  ∀ e < S.mesh.numEdges, (P.bd e && P.dir e) = true → ∀ y ∈ (lagrFE p .segment : RefFE ℝ).nodes, S.value x (1, e) y = P.g (1, e) y

/-- The finite element function with coefficients `ν` is zero at the nodes of Dirichlet edges. -/
def EllBvp.ZeroOnDirichlet (p : ℕ) (ν : List ℝ) : Prop :=
  ∀ e < S.mesh.numEdges, (P.bd e && P.dir e) = true → ∀ y ∈ (lagrFE p .segment : RefFE ℝ).nodes, S.value ν (1, e) y = 0

/-- The discrete variational problem: `u` takes the boundary values and `a(v, u) = ℓ(v)` for all finite element functions
`v` which vanish on the Dirichlet edges. -/
def EllBvp.DiscreteSolution (p : ℕ) (x : List ℝ) : Prop :=
  P.TakesBoundaryValues S p x ∧ ∀ ν : List ℝ, ν.length = S.dofh.numDofs → P.ZeroOnDirichlet S p ν →
    P.a S geo X ν x = P.ℓ S X ν

end
end Verif
