import Verif.Model.Builders
import Mathlib.Analysis.SpecialFunctions.Trigonometric.Basic

/-!
# Model of the mesh builder for annuli of the Stokes project

`none`: an assertion fails.  Real arithmetic, unsigned overflow of the number of nodes is not modelled; for `numRadial = 0` or `numAngular = 0` the
code divides by zero, the model has the value zero there, and the theorems assume that both are positive.
-/

namespace Verif
open Builder

/-- Members of `AnnulusTriagMeshBuilder`; /repo/projects/ipdg_stokes/mesh/annulus_triag_mesh_builder.h:85-90. -/
structure Annulus where
  inner : ℝ
  outer : ℝ
  numRadial : ℕ
  numAngular : ℕ
  center : ℝ × ℝ

namespace Annulus
variable (p : Annulus) {G : Type}

/-- The constructor; /repo/projects/ipdg_stokes/mesh/annulus_triag_mesh_builder.h:35-44. -/
noncomputable def init : Annulus := ⟨1 / 4, 1, 1, 4, (0, 0)⟩

/-- `setInnerRadius`; /repo/projects/ipdg_stokes/mesh/annulus_triag_mesh_builder.h:50. -/
def setInnerRadius (r : ℝ) : Annulus := { p with inner := r }

/-- `setOuterRadius`; /repo/projects/ipdg_stokes/mesh/annulus_triag_mesh_builder.h:56. -/
def setOuterRadius (r : ℝ) : Annulus := { p with outer := r }

/-- `setCenterPoint`; /repo/projects/ipdg_stokes/mesh/annulus_triag_mesh_builder.h:63. -/
def setCenterPoint (x y : ℝ) : Annulus := { p with center := (x, y) }

/-- `setNumRadialCells`; /repo/projects/ipdg_stokes/mesh/annulus_triag_mesh_builder.h:69. -/
def setNumRadialCells (n : ℕ) : Annulus := { p with numRadial := n }

/-- `setNumAngularCells`; /repo/projects/ipdg_stokes/mesh/annulus_triag_mesh_builder.h:75. -/
def setNumAngularCells (n : ℕ) : Annulus := { p with numAngular := n }

/-- `node_position`; /repo/projects/ipdg_stokes/mesh/annulus_triag_mesh_builder.cc:16-27. -/
noncomputable def pos (i j : ℕ) : ℝ × ℝ :=
  let r := p.inner
  let R := p.outer
  let dr := (R - r) / p.numRadial
  let dphi := 2 * Real.pi / p.numAngular
  let posR := r + i * dr
  let posPhi := j * dphi
  (posR * Real.cos posPhi, posR * Real.sin posPhi)

/-- The two triangles of a patch; /repo/projects/ipdg_stokes/mesh/annulus_triag_mesh_builder.cc:45-72. -/
noncomputable def patch (geo : BuilderGeo (ℝ × ℝ) G) (v : List ℕ) (f : Factory G) (i j : ℕ) : Option (Factory G) :=
  let n := p.numAngular
  let v1 := n * i + j
  let v2 := n * (i + 1) + j
  let v3 := n * (i + 1) + (j + 1) % n
  let v4 := n * i + (j + 1) % n
  let geom1 := geo.tria (p.pos i j) (p.pos (i + 1) j) (p.pos i ((j + 1) % n))
  let geom2 := geo.tria (p.pos (i + 1) j) (p.pos (i + 1) ((j + 1) % n)) (p.pos i ((j + 1) % n))
  (entityStep v f .tria [v1, v2, v4] geom1).bind fun f => entityStep v f .tria [v2, v3, v4] geom2

/-- `AnnulusTriagMeshBuilder::Build`; /repo/projects/ipdg_stokes/mesh/annulus_triag_mesh_builder.cc:13-77. -/
noncomputable def build (ops : GeoOps G) (chk : Bool) (geo : BuilderGeo (ℝ × ℝ) G) (f : Factory G) : Option (Mesh G) :=
  (loop2 (p.numRadial + 1) p.numAngular (fun s i j => some (pointStep (geo.point (p.pos i j)) s)) (f, [])).bind fun s =>
  (loop2 p.numRadial p.numAngular (fun f i j => p.patch geo s.2 f i j) s.1).bind fun f =>
  (f.build ops chk).bind fun r => some r.1

end Annulus
end Verif
