import Verif.Model.Mesh
import Mathlib.Algebra.Field.Basic
import Mathlib.Algebra.Order.Ring.Defs

/-!
# Model of the structured mesh builders

`TPQuadMeshBuilder`, `TPTriagMeshBuilder` and `TorusMeshBuilder`, running on a mesh factory `f`.  The
result is `none` if an assertion fails, `some none` for a null pointer.  Coordinates are elements of an
ordered field `K`; unsigned overflow of the entity counts is not modelled.  Geometry objects are made by
`BuilderGeo`.
-/

namespace Verif

/-- Geometry objects created by the builders from explicit coordinates. -/
structure BuilderGeo (P G : Type) where
  point : P → G
  line : P → P → G
  tria : P → P → P → G
  quad : P → P → P → P → G

namespace Builder
variable {G : Type}

/-- Members of `StructuredMeshBuilder`; /repo/lib/lf/mesh/utils/structured_mesh_builder.h:79-82. -/
structure Params (K : Type) where
  bl : K × K
  tr : K × K
  nx : ℕ
  ny : ℕ

/-- Double loop with the outer variable `a < n`, the inner variable `b < m`. -/
def loop2 {σ : Type} (n m : ℕ) (body : σ → ℕ → ℕ → Option σ) (s : σ) : Option σ :=
  (List.range n).foldlM (fun s a => (List.range m).foldlM (fun s b => body s a b) s) s

/-- `AddPoint` of a node and `v_idx[node_cnt] = ...` (`v_idx` is filled in the order of the nodes);
/repo/lib/lf/mesh/utils/tp_quad_mesh_builder.cc:46-62. -/
def pointStep (g : G) (s : Factory G × List ℕ) : Factory G × List ℕ :=
  ((s.1.addPoint g).1, s.2 ++ [(s.1.addPoint g).2])

/-- `AddEntity` for nodes given by positions in `v_idx`. -/
def entityStep (v : List ℕ) (f : Factory G) (ref : RefEl) (pos : List ℕ) (geo : G) : Option (Factory G) :=
  (pos.mapM fun p => v[p]?).bind fun nodes =>
  (f.addEntity ref nodes (some geo)).bind fun r => some r.1

section TP
variable {K : Type} [Field K] [LinearOrder K]

/-- Mesh widths; /repo/lib/lf/mesh/utils/tp_quad_mesh_builder.cc:38-39,
/repo/lib/lf/mesh/utils/tp_triag_mesh_builder.cc:42-43. -/
def Params.hx (p : Params K) : K := (p.tr.1 - p.bl.1) / p.nx
def Params.hy (p : Params K) : K := (p.tr.2 - p.bl.2) / p.ny

/-- Position of a node; /repo/lib/lf/mesh/utils/tp_quad_mesh_builder.cc:52-54,
/repo/lib/lf/mesh/utils/tp_triag_mesh_builder.cc:51-53. -/
def Params.pos (p : Params K) (i j : ℕ) : K × K := (p.bl.1 + i * p.hx, p.bl.2 + j * p.hy)

/-- `VertexIndex`; /repo/lib/lf/mesh/utils/tp_quad_mesh_builder.h:41-43,
/repo/lib/lf/mesh/utils/tp_triag_mesh_builder.h:48-50. -/
def Params.vtx (p : Params K) (i j : ℕ) : ℕ := i + j * (p.nx + 1)

/-- Creation of the nodes; /repo/lib/lf/mesh/utils/tp_quad_mesh_builder.cc:46-62,
/repo/lib/lf/mesh/utils/tp_triag_mesh_builder.cc:46-61. -/
def addNodes (geo : BuilderGeo (K × K) G) (p : Params K) (f : Factory G) : Option (Factory G × List ℕ) :=
  loop2 (p.ny + 1) (p.nx + 1) (fun s j i => some (pointStep (geo.point (p.pos i j)) s)) (f, [])

/-- `TPQuadMeshBuilder::Build`; /repo/lib/lf/mesh/utils/tp_quad_mesh_builder.cc:18-94. -/
def tpQuad (ops : GeoOps G) (chk : Bool) (geo : BuilderGeo (K × K) G) (p : Params K) (f : Factory G) :
    Option (Option (Mesh G)) :=
  if p.nx * p.ny = 0 then some none
  else if p.tr.1 - p.bl.1 ≤ 0 ∨ p.tr.2 - p.bl.2 ≤ 0 then some none
  else
    (addNodes geo p f).bind fun s =>
    (loop2 p.nx p.ny (fun f i j => entityStep s.2 f .quad
      [p.vtx i j, p.vtx (i + 1) j, p.vtx (i + 1) (j + 1), p.vtx i (j + 1)]
      (geo.quad (p.pos i j) (p.pos (i + 1) j) (p.pos (i + 1) (j + 1)) (p.pos i (j + 1)))) s.1).bind fun f =>
    (f.build ops chk).bind fun r => some (some r.1)

/-- `TPTriagMeshBuilder::Build`; /repo/lib/lf/mesh/utils/tp_triag_mesh_builder.cc:18-178. -/
def tpTriag (ops : GeoOps G) (chk : Bool) (geo : BuilderGeo (K × K) G) (p : Params K) (f : Factory G) :
    Option (Option (Mesh G)) :=
  if 2 * p.nx * p.ny = 0 then some none
  else if p.tr.1 - p.bl.1 ≤ 0 ∨ p.tr.2 - p.bl.2 ≤ 0 then some none
  else
    (addNodes geo p f).bind fun s =>
    (loop2 p.nx (p.ny + 1) (fun f i j => entityStep s.2 f .segment
      [p.vtx i j, p.vtx (i + 1) j] (geo.line (p.pos i j) (p.pos (i + 1) j))) s.1).bind fun f =>
    (loop2 (p.nx + 1) p.ny (fun f i j => entityStep s.2 f .segment
      [p.vtx i j, p.vtx i (j + 1)] (geo.line (p.pos i j) (p.pos i (j + 1)))) f).bind fun f =>
    (loop2 p.nx p.ny (fun f i j => entityStep s.2 f .segment
      [p.vtx i j, p.vtx (i + 1) (j + 1)] (geo.line (p.pos i j) (p.pos (i + 1) (j + 1)))) f).bind fun f =>
    (loop2 p.nx p.ny (fun f i j =>
      (entityStep s.2 f .tria [p.vtx i j, p.vtx (i + 1) (j + 1), p.vtx i (j + 1)]
        (geo.tria (p.pos i j) (p.pos (i + 1) (j + 1)) (p.pos i (j + 1)))).bind fun f =>
      entityStep s.2 f .tria [p.vtx i j, p.vtx (i + 1) j, p.vtx (i + 1) (j + 1)]
        (geo.tria (p.pos i j) (p.pos (i + 1) j) (p.pos (i + 1) (j + 1)))) f).bind fun f =>
    (f.build ops chk).bind fun r => some (some r.1)

/-- `VertexIndex`; /repo/lib/lf/mesh/utils/torus_mesh_builder.h:48-50. -/
def Params.tvtx (p : Params K) (i j : ℕ) : ℕ := i + j * p.nx

/-- `TorusMeshBuilder::Build`; /repo/lib/lf/mesh/utils/torus_mesh_builder.cc:27-118.  `pos i j` is the
point with the (unwrapped) grid indices; its computation with `sin` and `cos` is not modelled. -/
def torus {P : Type} (ops : GeoOps G) (chk : Bool) (geo : BuilderGeo P G) (pos : ℕ → ℕ → P) (p : Params K)
    (f : Factory G) : Option (Option (Mesh G)) :=
  if p.nx * p.ny = 0 then some none
  else if p.tr.1 - p.bl.1 ≤ 0 ∨ p.tr.2 - p.bl.2 ≤ 0 then some none
  else
    (loop2 p.ny p.nx (fun s j i => some (pointStep (geo.point (pos i j)) s)) (f, [])).bind fun s =>
    (loop2 p.nx p.ny (fun f i j => entityStep s.2 f .quad
      [p.tvtx i j, p.tvtx ((i + 1) % p.nx) j, p.tvtx ((i + 1) % p.nx) ((j + 1) % p.ny),
        p.tvtx i ((j + 1) % p.ny)]
      (geo.quad (pos i j) (pos (i + 1) j) (pos (i + 1) (j + 1)) (pos i (j + 1)))) s.1).bind fun f =>
    (f.build ops chk).bind fun r => some (some r.1)

end TP
end Builder
end Verif
