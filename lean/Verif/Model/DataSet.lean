import Verif.Model.DofHandler

/-!
# Model of `lf::mesh::utils::CodimMeshDataSet`, `AllCodimMeshDataSet`, `CountNumSuperEntities` and
`flagEntitiesOnBoundary`

A mesh is seen through its interface (`Topo`) together with an identity, to be able to speak about
entities of other meshes.  Element access outside of a vector is `none`.
-/

namespace Verif

/-- An `Entity` object: the mesh which owns it, its codimension and its index. -/
structure EntObj where
  mesh : ℕ
  ent : Ent
  deriving DecidableEq

/-- A `Mesh` object: identity and topology. -/
structure MeshObj where
  id : ℕ
  topo : Topo

/-- `Mesh::Contains(e)`; /repo/lib/lf/mesh/hybrid2d/mesh.cc:113-126 (address in the entity arrays). -/
def MeshObj.contains (m : MeshObj) (e : EntObj) : Bool :=
  decide (e.mesh = m.id) && decide (e.ent.1 ≤ 2) && decide (e.ent.2 < m.topo.num e.ent.1)

/-! ## `CodimMeshDataSet` -/

/-- Data members; /repo/lib/lf/mesh/utils/codim_mesh_data_set.h:74-78. -/
structure CodimDS (α : Type) where
  mesh : MeshObj
  data : List α
  codim : ℕ

namespace CodimDS
variable {α : Type}

/-- Constructor with initial value; /repo/lib/lf/mesh/utils/codim_mesh_data_set.h:45-50
(`NumEntities(codim)` rejects codimensions above 2). -/
def make (m : MeshObj) (codim : ℕ) (init : α) : Option (CodimDS α) :=
  if codim ≤ 2 then some ⟨m, List.replicate (m.topo.num codim) init, codim⟩ else none

/-- `DefinedOn`; /repo/lib/lf/mesh/utils/codim_mesh_data_set.h:68-70. -/
def definedOn (d : CodimDS α) (e : EntObj) : Bool :=
  decide (e.ent.1 = d.codim) && d.mesh.contains e

/-- `operator()` used for reading; /repo/lib/lf/mesh/utils/codim_mesh_data_set.h:64-67. -/
def read (d : CodimDS α) (e : EntObj) : Option α :=
  if d.definedOn e then d.data[e.ent.2]? else none

/-- `operator()` used for writing; /repo/lib/lf/mesh/utils/codim_mesh_data_set.h:59-62. -/
def write (d : CodimDS α) (e : EntObj) (v : α) : Option (CodimDS α) :=
  if d.definedOn e then
    if e.ent.2 < d.data.length then some { d with data := d.data.set e.ent.2 v } else none
  else none

end CodimDS

/-! ## `AllCodimMeshDataSet` -/

/-- Data members; /repo/lib/lf/mesh/utils/all_codim_mesh_data_set.h:102-108. -/
structure AllDS (α : Type) where
  mesh : MeshObj
  data : List (List α)

namespace AllDS
variable {α : Type}

/-- Constructor with initial value; /repo/lib/lf/mesh/utils/all_codim_mesh_data_set.h:86-99
(`DimMesh() = 2`). -/
def make (m : MeshObj) (init : α) : AllDS α :=
  ⟨m, (List.range 3).map fun codim => List.replicate (m.topo.num codim) init⟩

/-- `DefinedOn`; /repo/lib/lf/mesh/utils/all_codim_mesh_data_set.h:56-58. -/
def definedOn (d : AllDS α) (e : EntObj) : Bool := d.mesh.contains e

/-- `operator()` used for reading; /repo/lib/lf/mesh/utils/all_codim_mesh_data_set.h:52-55. -/
def read (d : AllDS α) (e : EntObj) : Option α :=
  if d.definedOn e then (d.data[e.ent.1]?).bind fun row => row[e.ent.2]? else none

/-- `operator()` used for writing; /repo/lib/lf/mesh/utils/all_codim_mesh_data_set.h:47-50. -/
def write (d : AllDS α) (e : EntObj) (v : α) : Option (AllDS α) :=
  if d.definedOn e then
    (d.data[e.ent.1]?).bind fun row =>
      if e.ent.2 < row.length then
        some { d with data := d.data.set e.ent.1 (row.set e.ent.2 v) } else none
  else none

end AllDS

/-! ## Counting super-entities and flagging the boundary -/

/-- `Entity::SubEntities(rel_codim)`, as a list of entities; /repo/lib/lf/mesh/entity.h and the entity
classes in /repo/lib/lf/mesh/hybrid2d (`point.cc`, `segment.cc`, `triangle.cc`, `quad.cc`). -/
def Topo.subEntities (T : Topo) (e : Ent) (rel : ℕ) : Option (List Ent) :=
  match e.1, rel with
  | _, 0 => some [e]
  | 1, 1 => some [(2, (T.edge e.2).1), (2, (T.edge e.2).2)]
  | 0, 1 => some ((T.cell e.2).edges.map fun i => (1, i))
  | 0, 2 => some ((T.cell e.2).nodes.map fun i => (2, i))
  | _, _ => none

/-- `Mesh::Entities(codim)`; /repo/lib/lf/mesh/hybrid2d/mesh.cc:20-24. -/
def Topo.entities (T : Topo) (codim : ℕ) : List Ent := (List.range (T.num codim)).map fun i => (codim, i)

/-- `sup_ent_cnt(*subent) += 1`; /repo/lib/lf/mesh/utils/special_entity_sets.cc:34. -/
def bump (m : MeshObj) (d : CodimDS ℕ) (s : Ent) : Option (CodimDS ℕ) :=
  (d.read ⟨m.id, s⟩).bind fun v => d.write ⟨m.id, s⟩ (v + 1)

/-- `CountNumSuperEntities`; /repo/lib/lf/mesh/utils/special_entity_sets.cc:18-38. -/
def countNumSuperEntities (m : MeshObj) (codimSub codimSuper : ℕ) : Option (CodimDS ℕ) :=
  if codimSub ≤ 2 ∧ codimSuper ≤ codimSub then
    (CodimDS.make m codimSub 0).bind fun d0 =>
    (m.topo.entities (codimSub - codimSuper)).foldlM (fun d e =>
      (m.topo.subEntities e codimSuper).bind fun subs => subs.foldlM (bump m) d) d0
  else none

/-- `flagEntitiesOnBoundary(mesh, codim)`; /repo/lib/lf/mesh/utils/special_entity_sets.cc:40-62. -/
def flagEntitiesOnBoundary (m : MeshObj) (codim : ℕ) : Option (CodimDS Bool) :=
  if codim > 0 ∧ codim ≤ 2 then
    (countNumSuperEntities m 1 1).bind fun cnt =>
    (CodimDS.make m codim false).bind fun fl0 =>
    (m.topo.entities 1).foldlM (fun fl e =>
      (cnt.read ⟨m.id, e⟩).bind fun n =>
      if n = 1 then
        (m.topo.subEntities e (codim - 1)).bind fun subs =>
          subs.foldlM (fun (fl : CodimDS Bool) s => fl.write ⟨m.id, s⟩ true) fl
      else some fl) fl0
  else none

/-- `flagEntitiesOnBoundary(mesh)` for all codimensions;
/repo/lib/lf/mesh/utils/special_entity_sets.cc:64-86. -/
def flagAllEntitiesOnBoundary (m : MeshObj) : Option (AllDS Bool) :=
  (countNumSuperEntities m 1 1).bind fun cnt =>
  (m.topo.entities 1).foldlM (fun fl e =>
    (cnt.read ⟨m.id, e⟩).bind fun n =>
    if n = 1 then
      (List.range 2).foldlM (fun fl rel =>
        (m.topo.subEntities e rel).bind fun subs =>
          subs.foldlM (fun (fl : AllDS Bool) s => fl.write ⟨m.id, s⟩ true) fl) fl
    else some fl) (AllDS.make m false)

end Verif
