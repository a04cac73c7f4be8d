import Verif.Spec.Ipdg
import Mathlib.Logic.Relation

/-!
# Specification: flow through the boundary, for the interior penalty method for the Stokes system
-/

namespace Verif.Ipdg
open Verif Geo

/-- The outward unit normal at side `k` of a triangle (see `C110_normal`). -/
noncomputable def outward (p : Fin 3 → Vec ℝ 2) (k : Fin 3) : Vec ℝ 2 := ![tangent p k 1, -tangent p k 0]

section
variable (T : Topo) (pos : ℕ → Vec ℝ 2)

open Classical in
/-- The edges on the boundary. -/
noncomputable def bdEdges : Finset ℕ := (Finset.range T.numEdges).filter T.OnBoundary

open Classical in
/-- The nodes on the boundary. -/
noncomputable def bdNodes : Finset ℕ := (Finset.range T.numNodes).filter (BoundaryNode T)

/-- For an edge on the boundary: the velocity with which the fluid leaves the domain there, if the potential has the values `ψ` at the nodes. -/
noncomputable def outflow (ψ : ℕ → ℝ) (e : ℕ) : ℝ :=
  ∑ s ∈ sidesAt T e, dot (velocity T pos ψ s.1) (outward (tri T pos s.1) s.2)

/-- The same for the Dirichlet data. -/
noncomputable def outflowData (g : ℕ → Vec ℝ 2) (e : ℕ) : ℝ :=
  ∑ s ∈ sidesAt T e, dot (g e) (outward (tri T pos s.1) s.2)

/-- The amount of fluid which leaves the domain, for given velocities `q` at the edges on the boundary. -/
noncomputable def netFlow (q : ℕ → ℝ) : ℝ := ∑ e ∈ bdEdges T, edgeLength T pos e * q e

/-- Length of the boundary. -/
noncomputable def perimeter : ℝ := ∑ e ∈ bdEdges T, edgeLength T pos e

/-- The third corner of the triangle of which `s` is a side, relative to the line through the edge `e`. -/
noncomputable def sideSign (e : ℕ) (s : ℕ × Fin 3) : ℝ :=
  det2 (pos (T.edge e).2 - pos (T.edge e).1) (pos (corner T s.1 (s.2 + 2)) - pos (T.edge e).1)

/-- Two triangles with a common edge lie on different sides of it. -/
def OppositeSides : Prop :=
  ∀ e < T.numEdges, ∀ s ∈ sidesAt T e, ∀ s' ∈ sidesAt T e, s ≠ s' → sideSign T pos e s * sideSign T pos e s' < 0

/-- `v` and `w` are the end points of an edge on the boundary. -/
def BdNeighbour (v w : ℕ) : Prop := ∃ e ∈ bdEdges T, SamePair (T.edge e) (v, w)

/-- The boundary is one closed curve. -/
structure ClosedCurve : Prop where
  nonempty : (bdEdges T).Nonempty
  two : ∀ v ∈ bdNodes T, ((bdEdges T).filter fun e => (T.edge e).1 = v ∨ (T.edge e).2 = v).card = 2
  connected : ∀ v ∈ bdNodes T, ∀ w ∈ bdNodes T, Relation.ReflTransGen (BdNeighbour T) v w

/-- The discrete problem with in- and outflow: the fluid leaves the domain with the velocities given by the Dirichlet data, up to a correction which is the same
everywhere and makes the net flow zero; the potential is normalised by its mean value on the boundary; the jumps and the balance of forces are as in
`DiscreteStokes`. -/
structure FlowStokes (sigma : ℝ) (modified : Bool) (qr : QuadRule ℝ) (f : Vec ℝ 2 → Vec ℝ 2) (g : ℕ → Vec ℝ 2)
    (ψ y : ℕ → ℝ) : Prop where
  flow : ∀ e ∈ bdEdges T, outflow T pos ψ e = outflowData T pos g e - netFlow T pos (outflowData T pos g) / perimeter T pos
  mean : ∑ v ∈ bdNodes T, ψ v = 0
  jumps : ∀ e < T.numEdges, y e = penalty T pos sigma modified e * (jump T pos ψ e - prescribed T pos g e)
  balance : ∀ φ : ℕ → ℝ, (∀ v < T.numNodes, BoundaryNode T v → φ v = 0) →
    ∑ e ∈ Finset.range T.numEdges, y e * jump T pos φ e = load T pos qr f (velocity T pos φ)

end

end Verif.Ipdg
