import Verif.Model.Geometry
import Verif.Model.Refinement

/-!
# Model of `MeshHierarchy::GeometryInParent`, `ParentEntity` and of `MeshFunctionTransfer`
-/

namespace Verif
variable {K : Type} {w : ℕ} [Field K] [LinearOrder K]

/-- The operations on geometries used by `MeshHierarchy`.  The length of an edge, which `LongestEdge` computes
in floating point arithmetic (/repo/lib/lf/refinement/mesh_hierarchy.cc:1849-1852), may be any function. -/
def geoOps (len : Geo K w → ℚ) : ChildOps (Geo K w) := ⟨Geo.kind, Geo.child, len⟩

/-- Position of a point, `Geometry()->Global(zero_point)`. -/
def Geo.pos (g : Geo K w) : Vec K w := g.coords.headD 0

/-- The operations on geometries used by the constructor of the mesh: `SubGeometry`, straight edges, affine
triangles and bilinear quadrilaterals through given points; /repo/lib/lf/mesh/hybrid2d/mesh.cc:539-549, 680-704,
724-751.  The constructor uses `SubGeometry` for existing sub-entities only. -/
def geoBuild : GeoOps (Geo K w) where
  sub g codim i := (g.sub codim i).getD g
  line a b := .segO1 a.pos b.pos
  tria a b c := .triaO1 a.pos b.pos c.pos
  quad a b c d := .quadO1 a.pos b.pos c.pos d.pos

section
variable {G : Type}

/-- `parent_infos_[level][codim][index]`; /repo/lib/lf/refinement/mesh_hierarchy.cc:1862-1870, 1880-1888.
`level == 0` violates an assertion. -/
def Hierarchy.parentInfo (H : Hierarchy G) (level : ℕ) (e : Ent) : Option ParentInfo :=
  if 0 < level then
    (H.levels.reverse[level]?).bind fun L =>
      match e.1 with
      | 0 => L.parents0[e.2]?
      | 1 => L.parents1[e.2]?
      | 2 => L.parents2[e.2]?
      | _ => none
  else none

/-- `ParentEntity(level, e)`; /repo/lib/lf/refinement/mesh_hierarchy.cc:1878-1894. -/
def Hierarchy.parentEntity (H : Hierarchy G) (level : ℕ) (e : Ent) : Option Ent :=
  (H.parentInfo level e).bind fun info => info.parent

/-- `GeometryInParent(level, e)`, a geometry in a world whose dimension is that of the parent;
/repo/lib/lf/refinement/mesh_hierarchy.cc:1860-1876, 1680-1712. -/
def Hierarchy.geometryInParent (K : Type) [Field K] (H : Hierarchy G) (level : ℕ) (e : Ent) : Option (Σ n, Geo K n) :=
  (H.parentInfo level e).bind fun info => info.parent.bind fun par => info.rel.bind fun poly =>
  (Geo.relative (2 - par.1) poly).map fun r => ⟨2 - par.1, r⟩

/-- `NumLevels()`; /repo/lib/lf/refinement/mesh_hierarchy.h:143. -/
def Hierarchy.numLevels (H : Hierarchy G) : ℕ := H.levels.length

/-- One round of the loop in `MeshFunctionTransfer::operator()`: parent, and reference coordinates in the
parent; /repo/lib/lf/refinement/mesh_function_transfer.h:73-75, 78-80. -/
def transferStep (H : Hierarchy G) (level : ℕ) (e : Ent) (x : List K) : Option (Ent × List K) :=
  (H.geometryInParent K level e).bind fun r => (H.parentEntity level e).bind fun par =>
  (r.2.global x).bind fun y => some (par, List.ofFn y)

/-- The loop in `MeshFunctionTransfer::operator()`, `n` rounds beginning on level `level`;
/repo/lib/lf/refinement/mesh_function_transfer.h:73-81. -/
def transferLoop (H : Hierarchy G) : ℕ → ℕ → Ent → List K → Option (Ent × List K)
  | 0, _, e, x => some (e, x)
  | n + 1, level, e, x => (transferStep H level e x).bind fun r => transferLoop H n (level - 1) r.1 r.2

/-- `MeshFunctionTransfer`; /repo/lib/lf/refinement/mesh_function_transfer.h:100-104.  The mesh function is
applied by `transferEval`. -/
structure MFTransfer (G : Type) where
  hierarchy : Hierarchy G
  coarse : ℕ
  fine : ℕ

/-- The constructor; /repo/lib/lf/refinement/mesh_function_transfer.h:40-62.  (The last assertion, on the
mesh of a mesh function which knows its mesh, is not modelled.) -/
def MFTransfer.make (H : Hierarchy G) (coarse fine : ℕ) : Option (MFTransfer G) :=
  if coarse < H.numLevels - 1 ∧ coarse < fine ∧ fine < H.numLevels then some ⟨H, coarse, fine⟩ else none

/-- `operator()(e, local)` for one point, with the mesh function `mf` on the coarse mesh;
/repo/lib/lf/refinement/mesh_function_transfer.h:71-83. -/
def MFTransfer.eval {R : Type} (T : MFTransfer G) (mf : Ent → List K → R) (e : Ent) (x : List K) : Option R :=
  (transferLoop T.hierarchy (T.fine - T.coarse) T.fine e x).map fun r => mf r.1 r.2

/-- `getMesh()`; /repo/lib/lf/refinement/mesh_function_transfer.h:89-91. -/
def MFTransfer.getMesh (T : MFTransfer G) : Option (Mesh G) := T.hierarchy.getMesh (T.coarse + 1)

end
end Verif
