import Verif.Spec.Mesh
import Verif.Spec.DataSet
import Verif.Model.Geometry
import Verif.Model.Quad
import Mathlib.Data.Real.Sign

/-!
# Specification for the interior penalty method for the Stokes system
-/

namespace Verif.Ipdg
open Verif Geo

/-- Twice the signed area of a triangle. -/
noncomputable def area2 (p : Fin 3 → Vec ℝ 2) : ℝ := det2 (p 1 - p 0) (p 2 - p 0)

/-- `n` is the outward unit normal at side `k` (from corner `k` to corner `k + 1`) of a triangle: a unit vector, orthogonal to the side, pointing away
from the opposite corner. -/
structure IsOutwardNormal (p : Fin 3 → Vec ℝ 2) (k : Fin 3) (n : Vec ℝ 2) : Prop where
  unit : dot n n = 1
  orthogonal : dot n (p (k + 1) - p k) = 0
  outward : dot n (p (k + 2) - p k) < 0

/-- `t` is the unit tangent at side `k` of a triangle which leads around the triangle counterclockwise: the triangle is to the left. -/
structure IsTangent (p : Fin 3 → Vec ℝ 2) (k : Fin 3) (t : Vec ℝ 2) : Prop where
  unit : dot t t = 1
  parallel : det2 t (p (k + 1) - p k) = 0
  left : 0 < det2 t (p (k + 2) - p k)

/-- The affine function with gradient `g` and value `α` at the origin has the values `v` at the corners `p`. -/
def Interpolates (p : Fin 3 → Vec ℝ 2) (v : Fin 3 → ℝ) (α : ℝ) (g : Vec ℝ 2) : Prop := ∀ i, α + dot g (p i) = v i

/-- `u` is the curl `(∂ψ/∂y, -∂ψ/∂x)` of the affine function `ψ` with the values `v` at the corners `p`. -/
def IsCurl (p : Fin 3 → Vec ℝ 2) (v : Fin 3 → ℝ) (u : Vec ℝ 2) : Prop :=
  ∃ α g, Interpolates p v α g ∧ u = ![g 1, -g 0]

/-- Corner `k` of cell `c`. -/
def corner (T : Topo) (c : ℕ) (k : Fin 3) : ℕ := (T.cell c).nodes.getD k 0

/-- Edge `k` of cell `c`. -/
def sideOf (T : Topo) (c : ℕ) (k : Fin 3) : ℕ := (T.cell c).edges.getD k 0

/-- A mesh of non-degenerate triangles with straight edges; `pos` are the positions of the nodes. -/
structure TriaMesh (T : Topo) (geo : Ent → Option (Geo ℝ 2)) (pos : ℕ → Vec ℝ 2) : Prop where
  wf : T.WF
  tria : ∀ c < T.numCells, (T.cell c).nodes.length = 3
  cell : ∀ c < T.numCells, geo (0, c) =
    some (.triaO1 (pos (corner T c 0)) (pos (corner T c 1)) (pos (corner T c 2)))
  edge : ∀ e < T.numEdges, geo (1, e) = some (.segO1 (pos (T.edge e).1) (pos (T.edge e).2))
  regular : ∀ c < T.numCells, area2 (fun k => pos (corner T c k)) ≠ 0

/-- The sides of cells (cell and number of the side) which lie on edge `e`. -/
def sidesAt (T : Topo) (e : ℕ) : Finset (ℕ × Fin 3) :=
  (Finset.range T.numCells ×ˢ Finset.univ).filter fun s => sideOf T s.1 s.2 = e

/-- Every edge is a side of one cell (edges on the boundary) or of two (the others). -/
def Manifold (T : Topo) : Prop := ∀ e < T.numEdges, 1 ≤ (sidesAt T e).card ∧ (sidesAt T e).card ≤ 2

/-- An end point of an edge on the boundary. -/
def BoundaryNode (T : Topo) (v : ℕ) : Prop :=
  ∃ e < T.numEdges, T.OnBoundary e ∧ ((T.edge e).1 = v ∨ (T.edge e).2 = v)

/-- Every node is a corner of a cell. -/
def Covered (T : Topo) : Prop := ∀ v < T.numNodes, ∃ c < T.numCells, ∃ k, corner T c k = v

/-- Cells which can be reached from a cell with an edge on the boundary, by passing through edges. -/
inductive Reached (T : Topo) : ℕ → Prop
  | start (c : ℕ) (k : Fin 3) : c < T.numCells → T.OnBoundary (sideOf T c k) → Reached T c
  | step (c c' : ℕ) (k k' : Fin 3) : Reached T c → c' < T.numCells → sideOf T c k = sideOf T c' k' → Reached T c'

/-- The curl of the affine function with the values `v` at the corners `p` (see `C97_curl`). -/
noncomputable def curl (p : Fin 3 → Vec ℝ 2) (v : Fin 3 → ℝ) : Vec ℝ 2 :=
  (area2 p)⁻¹ • ∑ i, v i • (p (i + 2) - p (i + 1))

/-- The counterclockwise unit tangent (see `C96_unique`). -/
noncomputable def tangent (p : Fin 3 → Vec ℝ 2) (k : Fin 3) : Vec ℝ 2 :=
  (Real.sign (area2 p) / Real.sqrt (dot (p (k + 1) - p k) (p (k + 1) - p k))) • (p (k + 1) - p k)

section
variable (T : Topo) (pos : ℕ → Vec ℝ 2)

/-- The corners of a cell. -/
def tri (c : ℕ) (k : Fin 3) : Vec ℝ 2 := pos (corner T c k)

/-- The velocity on cell `c` for the potential with the values `ψ` at the nodes. -/
noncomputable def velocity (ψ : ℕ → ℝ) (c : ℕ) : Vec ℝ 2 := curl (tri T pos c) fun k => ψ (corner T c k)

/-- The sum of the tangential velocities, seen from the adjacent cells.  The tangents of the two sides of an edge have opposite directions, so that
this is the jump of the tangential velocity; on the boundary it is the tangential velocity. -/
noncomputable def jump (ψ : ℕ → ℝ) (e : ℕ) : ℝ :=
  ∑ s ∈ sidesAt T e, dot (velocity T pos ψ s.1) (tangent (tri T pos s.1) s.2)

open Classical in
/-- The tangential component of the Dirichlet data on the boundary. -/
noncomputable def prescribed (g : ℕ → Vec ℝ 2) (e : ℕ) : ℝ :=
  if T.OnBoundary e then ∑ s ∈ sidesAt T e, dot (g e) (tangent (tri T pos s.1) s.2) else 0

/-- Length of an edge. -/
noncomputable def edgeLength (e : ℕ) : ℝ :=
  Real.sqrt (dot (pos (T.edge e).2 - pos (T.edge e).1) (pos (T.edge e).2 - pos (T.edge e).1))

/-- The penalty parameter on an edge. -/
noncomputable def penalty (sigma : ℝ) (modified : Bool) (e : ℕ) : ℝ := if modified then sigma * edgeLength T pos e else sigma

/-- Point of a triangle with the given local coordinates. -/
noncomputable def triPoint (p : Fin 3 → Vec ℝ 2) (x : List ℝ) : Vec ℝ 2 :=
  p 0 + x.getD 0 0 • (p 1 - p 0) + x.getD 1 0 • (p 2 - p 0)

/-- `∫ f · u` for a piecewise constant field `u`, with a quadrature rule for the reference triangle on every cell. -/
noncomputable def load (qr : QuadRule ℝ) (f : Vec ℝ 2 → Vec ℝ 2) (u : ℕ → Vec ℝ 2) : ℝ :=
  ∑ c ∈ Finset.range T.numCells, |area2 (tri T pos c)| *
    ((List.zip qr.points qr.weights).map fun q => q.2 * dot (f (triPoint (tri T pos c) q.1)) (u c)).sum

/-- The discrete problem: the potential `ψ` vanishes at the boundary, `y` are the jumps of the tangential velocity (on the boundary: the deviations from the
Dirichlet data), multiplied by the penalty parameter, and the forces are balanced for all potentials vanishing at the boundary. -/
structure DiscreteStokes (sigma : ℝ) (modified : Bool) (qr : QuadRule ℝ) (f : Vec ℝ 2 → Vec ℝ 2) (g : ℕ → Vec ℝ 2)
    (ψ y : ℕ → ℝ) : Prop where
  noFlow : ∀ v < T.numNodes, BoundaryNode T v → ψ v = 0
  jumps : ∀ e < T.numEdges, y e = penalty T pos sigma modified e * (jump T pos ψ e - prescribed T pos g e)
  balance : ∀ φ : ℕ → ℝ, (∀ v < T.numNodes, BoundaryNode T v → φ v = 0) →
    ∑ e ∈ Finset.range T.numEdges, y e * jump T pos φ e = load T pos qr f (velocity T pos φ)

end

end Verif.Ipdg
