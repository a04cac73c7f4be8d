import Verif.Model.DataSet
import Verif.Model.FeTools
import Verif.Model.Quad
import Verif.Model.Geometry

/-!
# Model of the tools of `projects/dpg`

Signs of edges, outer normals, quadrature on the boundary of a reference cell, and flags of the inflow and
outflow boundary.  `double` is `ℝ`; failing assertions and accesses outside of a range are `none`.
-/

namespace Verif
namespace Dpg

/-! ## `PrescribedSignProvider` -/

/-- `lf::base::narrow<int>` of an unsigned number: the assertion fails if the value changes;
/repo/lib/lf/base/narrow.h. -/
def narrowInt (n : ℕ) : Option ℤ := if n < 2 ^ 31 then some n else none

/-- One update of `maxElement`; /repo/projects/dpg/dpg_tools.cc:135-138. -/
def signUpdate (m : MeshObj) (cell : ℕ) (d : CodimDS ℤ) (s : Ent) : Option (CodimDS ℤ) :=
  (d.read ⟨m.id, s⟩).bind fun v => (narrowInt cell).bind fun i => d.write ⟨m.id, s⟩ (max v i)

/-- The constructor of `PrescribedSignProvider` with `init()`: the data set `maxElement`;
/repo/projects/dpg/dpg_tools.h:99-105 (initial value -1) and /repo/projects/dpg/dpg_tools.cc:128-141. -/
def signInit (m : MeshObj) : Option (CodimDS ℤ) :=
  (CodimDS.make m 1 (-1 : ℤ)).bind fun d0 =>
  (m.topo.entities 0).foldlM (fun d e =>
    (m.topo.subEntities e 1).bind fun subs => subs.foldlM (signUpdate m e.2) d) d0

/-- `PrescribedSign(element, edge)`; /repo/projects/dpg/dpg_tools.cc:144-151.  The comparison of the
unsigned index with the `int` converts the latter to `unsigned`. -/
def prescribedSign (d : CodimDS ℤ) (element edge : EntObj) : Option ℤ :=
  (d.read edge).map fun v => if (element.ent.2 : ℤ) = v % 2 ^ 32 then 1 else -1

/-! ## `OuterNormals` -/

/-- `Vector2d::normalize()` of Eigen: nothing happens to the zero vector. -/
noncomputable def normalize (v : Vec ℝ 2) : Vec ℝ 2 :=
  if 0 < Geo.dot v v then (Real.sqrt (Geo.dot v v))⁻¹ • v else v

/-- `Jacobian(x).determinant()`. -/
noncomputable def jacDet (g : Geo ℝ 2) (x : List ℝ) : Option ℝ :=
  match g.jacobian x with
  | some [a, b] => some (Geo.det2 a b)
  | _ => none

/-- The variable `orientation`; /repo/projects/dpg/dpg_tools.cc:63-103. -/
noncomputable def orientation (g : Geo ℝ 2) : Option ℝ :=
  match g.kind with
  | .tria => (jacDet g [0, 0]).map fun d => if d > 0 then 1 else -1
  | .quad => ((refNodeCoords .quad).mapM (jacDet g)).map fun ds =>
      if ds.countP (fun d => decide (d > 0)) ≥ 3 then 1 else -1
  | _ => none

/-- `OuterNormals(geometry)`, its columns; /repo/projects/dpg/dpg_tools.cc:49-125.  For geometries in
other than two dimensions the assignment in line 108 has incompatible sizes. -/
noncomputable def outerNormals (g : Geo ℝ 2) : Option (List (Vec ℝ 2)) :=
  if g.kind = .tria ∨ g.kind = .quad then
    ((refNodeCoords g.kind).mapM g.global).bind fun corners =>
    (orientation g).bind fun o =>
    (List.range corners.length).mapM fun i =>
      (g.kind.subSubEntity2SubEntity 1 i 1 1).bind fun j1 =>
      (g.kind.subSubEntity2SubEntity 1 i 1 0).bind fun j0 =>
      (corners[j1]?).bind fun p1 => (corners[j0]?).map fun p0 =>
      normalize ![(p1 - p0) 1 * o, -(p1 - p0) 0 * o]
  else none

/-! ## `BoundaryQuadRule` -/

/-- The columns of `NodeCoords()` as points of the plane. -/
noncomputable def nodeVecs (r : RefEl) : List (Vec ℝ 2) := (refNodeCoords r).map fun c => ![c.getD 0 0, c.getD 1 0]

/-- The geometry of the reference element; /repo/projects/dpg/dpg_tools.cc:16-29. -/
noncomputable def refGeo : RefEl → Option (Geo ℝ 2)
  | .tria => Geo.mkTriaO1 (nodeVecs .tria)
  | .quad => Geo.mkQuadO1 (nodeVecs .quad)
  | _ => none

/-- `BoundaryQuadRule(ref_el, qr)`; /repo/projects/dpg/dpg_tools.cc:13-47. -/
noncomputable def boundaryQuadRule (r : RefEl) (q : QuadRule ℝ) : Option (List (QuadRule ℝ)) :=
  (refGeo r).bind fun g =>
  (r.numSubEntities 1).bind fun n =>
  (List.range n).mapM fun i =>
    (g.sub 1 i).bind fun edge =>
    (q.points.mapM edge.global).bind fun pts =>
    (edge.integrationElement [1 / 2]).bind fun len =>
    QuadRule.make r (pts.map fun p => [p 0, p 1]) (q.weights.map fun w => w * len) 0

/-! ## Inflow and outflow boundary -/

/-- One iteration of the loop over the edges of a cell; /repo/projects/dpg/dpg_tools.h:176-188.  `beta` is
called for the edge, with the midpoint of the reference segment. -/
noncomputable def inflowEdge (m : MeshObj) (beta : MeshFn ℝ (Vec ℝ 2)) (bd : CodimDS Bool)
    (normals : List (Vec ℝ 2)) (subs : List Ent) (d : CodimDS Bool) (i : ℕ) : Option (CodimDS Bool) :=
  (subs[i]?).bind fun edge =>
  (normals[i]?).bind fun n =>
  ((beta edge [[1 / 2]]).bind fun vs => vs[0]?).bind fun b =>
  (bd.read ⟨m.id, edge⟩).bind fun onBd =>
  d.write ⟨m.id, edge⟩ (onBd && decide (Geo.dot n b < 0))

/-- `flagEntitiesOnInflowBoundary(mesh_p, beta)`; /repo/projects/dpg/dpg_tools.h:155-190. -/
noncomputable def flagInflow (m : MeshObj) (geo : Ent → Option (Geo ℝ 2)) (beta : MeshFn ℝ (Vec ℝ 2)) :
    Option (CodimDS Bool) :=
  (flagEntitiesOnBoundary m 1).bind fun bd =>
  (CodimDS.make m 1 false).bind fun d0 =>
  (m.topo.entities 0).foldlM (fun d cell =>
    (geo cell).bind fun g =>
    (m.topo.subEntities cell 1).bind fun subs =>
    (outerNormals g).bind fun normals =>
    (m.topo.refEl cell).bind fun r =>
    (r.numSubEntities 1).bind fun n =>
    (List.range n).foldlM (inflowEdge m beta bd normals subs) d) d0

/-- `flagEntitiesOnOutflowBoundary(mesh_p, beta)`; /repo/projects/dpg/dpg_tools.h:203-226. -/
noncomputable def flagOutflow (m : MeshObj) (geo : Ent → Option (Geo ℝ 2)) (beta : MeshFn ℝ (Vec ℝ 2)) :
    Option (CodimDS Bool) :=
  (flagEntitiesOnBoundary m 1).bind fun bd =>
  (flagInflow m geo beta).bind fun inflow =>
  (CodimDS.make m 1 false).bind fun d0 =>
  (m.topo.entities 1).foldlM (fun d edge =>
    (bd.read ⟨m.id, edge⟩).bind fun b => (inflow.read ⟨m.id, edge⟩).bind fun f =>
    d.write ⟨m.id, edge⟩ (b && !f)) d0

end Dpg
end Verif
