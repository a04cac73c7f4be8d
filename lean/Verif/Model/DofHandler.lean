import Verif.Spec.Mesh

/-!
# Model of `lf::assemble::DofHandler`, `UniformFEDofHandler`, `DynamicFEDofHandler` and of
`projects::dpg::ProductUniformFEDofHandler`

The dof handlers look at the mesh only through the abstract interface `lf::mesh::Mesh`, i.e. through
`Topo` (number of entities of each codimension, end points of edges, vertices, edges and relative
orientations of cells).  An entity is denoted by its codimension and its index.

`std::vector`s are lists; reading or writing outside of them is `none`.  Loops which copy or write a
contiguous block element by element are modelled by `readBlock` / `writeBlock`; the arrays read and
written by such a loop are always different ones.  Indices are natural numbers (no overflow of
`unsigned int`).
-/

namespace Verif

/-- An entity of a mesh: codimension and index. -/
abbrev Ent := ℕ × ℕ

/-- `Mesh::NumEntities(codim)` of a two-dimensional mesh; /repo/lib/lf/mesh/mesh_interface.h. -/
def Topo.num (T : Topo) : ℕ → ℕ
  | 0 => T.numCells
  | 1 => T.numEdges
  | 2 => T.numNodes
  | _ => 0

/-- `Entity::RefEl()` for the entity with given codimension and index; `none`: no such entity. -/
def Topo.refEl (T : Topo) (e : Ent) : Option RefEl :=
  if e.2 < T.num e.1 then
    if e.1 = 2 then some .point
    else if e.1 = 1 then some .segment
    else if (T.cell e.2).nodes.length = 3 then some .tria
    else if (T.cell e.2).nodes.length = 4 then some .quad
    else none
  else none

/-- The interface `DofHandler`; /repo/lib/lf/assemble/dofhandler.h:112-232.  `none`: failed assertion
or out-of-range access. -/
structure DofHandler where
  numDofs : ℕ
  numLocalDofs : Ent → Option ℕ
  numInteriorDofs : Ent → Option ℕ
  globalDofIndices : Ent → Option (List ℕ)
  interiorGlobalDofIndices : Ent → Option (List ℕ)
  entity : ℕ → Option Ent

/-- Read `n` consecutive entries of a vector from position `off`. -/
def readBlock (arr : List ℕ) (off n : ℕ) : Option (List ℕ) :=
  if off + n ≤ arr.length then some ((arr.drop off).take n) else none

/-- Overwrite consecutive entries of a vector from position `off` by `vals`. -/
def writeBlock (arr : List ℕ) (off : ℕ) (vals : List ℕ) : Option (List ℕ) :=
  if off + vals.length ≤ arr.length then
    some (arr.take off ++ vals ++ arr.drop (off + vals.length))
  else none

/-! ## `UniformFEDofHandler` -/

/-- Numbers of dofs per entity type, as extracted from the `dof_map_t` argument (0 if a type is
missing); /repo/lib/lf/assemble/dofhandler.cc:86-121. -/
structure UniformLayout where
  point : ℕ
  segment : ℕ
  tria : ℕ
  quad : ℕ

namespace UniformLayout

/-- `NumInteriorDofs(ref_el_type)`; /repo/lib/lf/assemble/dofhandler.h:452-477. -/
def interior (l : UniformLayout) : RefEl → ℕ
  | .point => l.point
  | .segment => l.segment
  | .tria => l.tria
  | .quad => l.quad

/-- `num_dofs_[kNodeOrd]`; /repo/lib/lf/assemble/dofhandler.cc:132. -/
def nNode (l : UniformLayout) : ℕ := l.point
/-- `num_dofs_[kEdgeOrd]`; /repo/lib/lf/assemble/dofhandler.cc:133. -/
def nEdge (l : UniformLayout) : ℕ := 2 * l.point + l.segment
/-- `num_dofs_tria_`; /repo/lib/lf/assemble/dofhandler.cc:134-135. -/
def nTria (l : UniformLayout) : ℕ := 3 * l.point + 3 * l.segment + l.tria
/-- `num_dofs_quad_`; /repo/lib/lf/assemble/dofhandler.cc:136-137. -/
def nQuad (l : UniformLayout) : ℕ := 4 * l.point + 4 * l.segment + l.quad
/-- `num_dofs_[kCellOrd]`; /repo/lib/lf/assemble/dofhandler.cc:138. -/
def nCell (l : UniformLayout) : ℕ := max l.nTria l.nQuad

/-- `NumCoveredDofs(ref_el_type)`; /repo/lib/lf/assemble/dofhandler.h:424-449. -/
def covered (l : UniformLayout) : RefEl → ℕ
  | .point => l.nNode
  | .segment => l.nEdge
  | .tria => l.nTria
  | .quad => l.nQuad

/-- `num_dofs_[codim]`. -/
def stride (l : UniformLayout) : ℕ → ℕ
  | 0 => l.nCell
  | 1 => l.nEdge
  | _ => l.nNode

end UniformLayout

/-- Loop state while numbering: the array of the current codimension, `dof_entities_`, `dof_idx`. -/
structure NumState where
  arr : List ℕ
  ents : List Ent
  next : ℕ

namespace UniformFE

/-- Body of the loop over nodes; /repo/lib/lf/assemble/dofhandler.cc:153-164. -/
def nodeStep (l : UniformLayout) (s : NumState) (v : ℕ) : Option NumState :=
  (writeBlock s.arr (v * l.nNode) (List.range' s.next l.point)).bind fun arr =>
  some ⟨arr, s.ents ++ List.replicate l.point (2, v), s.next + l.point⟩

/-- Body of the loop over edges; /repo/lib/lf/assemble/dofhandler.cc:175-198. -/
def edgeStep (T : Topo) (l : UniformLayout) (d2 : List ℕ) (s : NumState) (e : ℕ) : Option NumState :=
  (readBlock d2 ((T.edge e).1 * l.nNode) l.nNode).bind fun a =>
  (readBlock d2 ((T.edge e).2 * l.nNode) l.nNode).bind fun b =>
  (writeBlock s.arr (e * l.nEdge) (a ++ b ++ List.range' s.next l.segment)).bind fun arr =>
  some ⟨arr, s.ents ++ List.replicate l.segment (1, e), s.next + l.segment⟩

/-- Copying of the interior dofs of local edge `j` of cell `c`, in an order depending on the relative
orientation if `check_edge_orientation_` is set; /repo/lib/lf/assemble/dofhandler.cc:236-262. -/
def cellEdge (T : Topo) (l : UniformLayout) (chk : Bool) (d1 : List ℕ) (c j : ℕ) : Option (List ℕ) :=
  ((T.cell c).edges[j]?).bind fun e =>
  ((T.cell c).ori[j]?).bind fun o =>
  (readBlock d1 (e * l.nEdge + (l.nEdge - l.segment)) l.segment).bind fun d =>
  some (if !chk || o then d else d.reverse)

/-- Body of the loop over cells; /repo/lib/lf/assemble/dofhandler.cc:211-281. -/
def cellStep (T : Topo) (l : UniformLayout) (chk : Bool) (d2 d1 : List ℕ) (s : NumState) (c : ℕ) :
    Option NumState :=
  ((T.cell c).nodes.mapM fun v => readBlock d2 (v * l.nNode) l.nNode).bind fun vs =>
  (T.refEl (0, c)).bind fun ref =>
  (ref.numSubEntities 1).bind fun ne =>
  ((List.range ne).mapM (cellEdge T l chk d1 c)).bind fun es =>
  (writeBlock s.arr (c * l.nCell)
    (vs.flatten ++ es.flatten ++ List.range' s.next (l.interior ref))).bind fun arr =>
  some ⟨arr, s.ents ++ List.replicate (l.interior ref) (0, c), s.next + l.interior ref⟩

/-- Data members of a `UniformFEDofHandler` after construction. -/
structure Data where
  d2 : List ℕ
  d1 : List ℕ
  d0 : List ℕ
  ents : List Ent
  numDofs : ℕ

/-- `initIndexArrays()`; /repo/lib/lf/assemble/dofhandler.cc:142-284.  `resize` fills with zeros. -/
def init (T : Topo) (l : UniformLayout) (chk : Bool) : Option Data :=
  ((List.range T.numNodes).foldlM (nodeStep l)
    ⟨List.replicate (T.numNodes * l.nNode) 0, [], 0⟩).bind fun s2 =>
  ((List.range T.numEdges).foldlM (edgeStep T l s2.arr)
    ⟨List.replicate (T.numEdges * l.nEdge) 0, s2.ents, s2.next⟩).bind fun s1 =>
  ((List.range T.numCells).foldlM (cellStep T l chk s2.arr s1.arr)
    ⟨List.replicate (T.numCells * l.nCell) 0, s1.ents, s1.next⟩).bind fun s0 =>
  some ⟨s2.arr, s1.arr, s0.arr, s0.ents, s0.next⟩

/-- `dofs_[codim]`. -/
def Data.dofs (D : Data) : ℕ → List ℕ
  | 0 => D.d0
  | 1 => D.d1
  | _ => D.d2

/-- The methods of `UniformFEDofHandler`; /repo/lib/lf/assemble/dofhandler.cc:286-338 and
/repo/lib/lf/assemble/dofhandler.h:376-381. -/
def Data.handler (T : Topo) (l : UniformLayout) (D : Data) : DofHandler where
  numDofs := D.numDofs
  numLocalDofs e := (T.refEl e).map l.covered
  numInteriorDofs e := (T.refEl e).map l.interior
  globalDofIndices e := (T.refEl e).bind fun ref =>
    if e.2 < T.num e.1 then
      readBlock (D.dofs (2 - ref.dimension)) (l.stride (2 - ref.dimension) * e.2) (l.covered ref)
    else none
  interiorGlobalDofIndices e := (T.refEl e).bind fun ref =>
    if e.2 < T.num e.1 then
      readBlock (D.dofs (2 - ref.dimension))
        (l.stride (2 - ref.dimension) * e.2 + (l.covered ref - l.interior ref)) (l.interior ref)
    else none
  entity d := D.ents[d]?

end UniformFE

/-- Construction of a `UniformFEDofHandler` on a mesh; /repo/lib/lf/assemble/dofhandler.cc:86-129. -/
def uniformDofHandler (T : Topo) (l : UniformLayout) (chk : Bool) : Option DofHandler :=
  (UniformFE.init T l chk).map (UniformFE.Data.handler T l)

/-! ## `DynamicFEDofHandler` -/

namespace DynamicFE

/-- The three vectors kept per codimension: `num_int_dofs_[codim]`, `offsets_[codim]` (without the
sentinel while the loop runs), `dofs_[codim]`; plus `dof_entities_` and `dof_idx`.
Simplification: `num_int_dofs_` and `offsets_` are resized beforehand and filled in index order by the
code, here they grow by appending. -/
structure St where
  numInt : List ℕ
  offs : List ℕ
  arr : List ℕ
  ents : List Ent
  next : ℕ

/-- Loop over nodes; /repo/lib/lf/assemble/dofhandler.h:583-601.  The offset is `dof_idx`. -/
def nodeStep (cnt : Ent → ℕ) (s : St) (v : ℕ) : St :=
  { numInt := s.numInt ++ [cnt (2, v)]
    offs := s.offs ++ [s.next]
    arr := s.arr ++ List.range' s.next (cnt (2, v))
    ents := s.ents ++ List.replicate (cnt (2, v)) (2, v)
    next := s.next + cnt (2, v) }

/-- The dofs of a node, `dofs_[2][offsets_[2][v] + j]`, `j < num_int_dofs_[2][v]`. -/
def nodeDofs (s2 : St) (v : ℕ) : Option (List ℕ) :=
  (s2.offs[v]?).bind fun off => (s2.numInt[v]?).bind fun n => readBlock s2.arr off n

/-- Loop over edges; /repo/lib/lf/assemble/dofhandler.h:612-644.  `edge_dof_offset` always equals the
current length of `dofs_[1]`. -/
def edgeStep (T : Topo) (cnt : Ent → ℕ) (s2 : St) (s : St) (e : ℕ) : Option St :=
  (nodeDofs s2 (T.edge e).1).bind fun a =>
  (nodeDofs s2 (T.edge e).2).bind fun b =>
  some
    { numInt := s.numInt ++ [cnt (1, e)]
      offs := s.offs ++ [s.arr.length]
      arr := s.arr ++ (a ++ b ++ List.range' s.next (cnt (1, e)))
      ents := s.ents ++ List.replicate (cnt (1, e)) (1, e)
      next := s.next + cnt (1, e) }

/-- Copying the interior dofs of local edge `j`; /repo/lib/lf/assemble/dofhandler.h:675-704. -/
def cellEdge (T : Topo) (s1 : St) (c j : ℕ) : Option (List ℕ) :=
  ((T.cell c).edges[j]?).bind fun e =>
  ((T.cell c).ori[j]?).bind fun o =>
  (s1.numInt[e]?).bind fun n =>
  (s1.offs[e + 1]?).bind fun off =>
  (readBlock s1.arr (off - n) n).bind fun d =>
  some (if o then d else d.reverse)

/-- Loop over cells; /repo/lib/lf/assemble/dofhandler.h:653-713. -/
def cellStep (T : Topo) (cnt : Ent → ℕ) (s2 s1 : St) (s : St) (c : ℕ) : Option St :=
  ((T.cell c).nodes.mapM (nodeDofs s2)).bind fun vs =>
  (T.refEl (0, c)).bind fun ref =>
  (ref.numSubEntities 1).bind fun ne =>
  ((List.range ne).mapM (cellEdge T s1 c)).bind fun es =>
  some
    { numInt := s.numInt ++ [cnt (0, c)]
      offs := s.offs ++ [s.arr.length]
      arr := s.arr ++ (vs.flatten ++ es.flatten ++ List.range' s.next (cnt (0, c)))
      ents := s.ents ++ List.replicate (cnt (0, c)) (0, c)
      next := s.next + cnt (0, c) }

/-- Setting the sentinel of `offsets_[codim]`; /repo/lib/lf/assemble/dofhandler.h:603, :646, :715. -/
def St.sentinel (s : St) (off : ℕ) : St := { s with offs := s.offs ++ [off] }

/-- Vectors of the next lower codimension are empty, counter and entity vector are kept. -/
def St.fresh (s : St) : St := ⟨[], [], [], s.ents, s.next⟩

/-- The constructor of `DynamicFEDofHandler`; /repo/lib/lf/assemble/dofhandler.h:564-719.
The functor `locdof` is a pure function of the entity. -/
def init (T : Topo) (cnt : Ent → ℕ) : Option (St × St × St) :=
  let r2 := (List.range T.numNodes).foldl (nodeStep cnt) ⟨[], [], [], [], 0⟩
  let s2 := r2.sentinel r2.next
  ((List.range T.numEdges).foldlM (edgeStep T cnt s2) s2.fresh).bind fun r1 =>
  let s1 := r1.sentinel r1.arr.length
  ((List.range T.numCells).foldlM (cellStep T cnt s2 s1) s1.fresh).bind fun r0 =>
  some (s2, s1, r0.sentinel r0.arr.length)

/-- `num_int_dofs_[codim]`, `offsets_[codim]`, `dofs_[codim]` for one codimension. -/
def sel (D : St × St × St) : ℕ → St
  | 0 => D.2.2
  | 1 => D.2.1
  | _ => D.1

/-- `offsets_[codim][entity_index]`, `offsets_[codim][entity_index + 1] - idx_offset` and
`num_int_dofs_[codim][entity_index]`. -/
def look (T : Topo) (D : St × St × St) (e : Ent) : Option (ℕ × ℕ × ℕ × ℕ) :=
  (T.refEl e).bind fun ref =>
  ((sel D (2 - ref.dimension)).offs[e.2]?).bind fun a =>
  ((sel D (2 - ref.dimension)).offs[e.2 + 1]?).bind fun b =>
  ((sel D (2 - ref.dimension)).numInt[e.2]?).bind fun n =>
  some (2 - ref.dimension, a, b - a, n)

/-- The methods of `DynamicFEDofHandler`; /repo/lib/lf/assemble/dofhandler.cc:344-402 and
/repo/lib/lf/assemble/dofhandler.h:750-755. -/
def handler (T : Topo) (D : St × St × St) : DofHandler where
  numDofs := D.2.2.next
  numLocalDofs e := (look T D e).map fun x => x.2.2.1
  numInteriorDofs e := (look T D e).map fun x => x.2.2.2
  globalDofIndices e := (look T D e).bind fun x => readBlock (sel D x.1).arr x.2.1 x.2.2.1
  interiorGlobalDofIndices e := (look T D e).bind fun x =>
    readBlock (sel D x.1).arr (x.2.1 + (x.2.2.1 - x.2.2.2)) x.2.2.2
  entity d := D.2.2.ents[d]?

end DynamicFE

/-- Construction of a `DynamicFEDofHandler`. -/
def dynamicDofHandler (T : Topo) (cnt : Ent → ℕ) : Option DofHandler :=
  (DynamicFE.init T cnt).map (DynamicFE.handler T)

/-! ## `ProductUniformFEDofHandler` -/

namespace ProductFE

/-- Data members; /repo/projects/dpg/product_dofhandler.h:218-240. -/
structure Data where
  comps : List DofHandler
  offs : List ℕ
  dofs : List (List (List ℕ))
  internal : List (List (List ℕ))

/-- Construction of component handlers and offsets (with the final offset);
/repo/projects/dpg/product_dofhandler.cc:17-30. -/
def initComps (T : Topo) : List UniformLayout → ℕ → Option (List DofHandler × List ℕ)
  | [], off => some ([], [off])
  | l :: ls, off =>
    (uniformDofHandler T l true).bind fun h =>
    (initComps T ls (off + h.numDofs)).bind fun r =>
    some (h :: r.1, off :: r.2)

/-- Inner loops over the components for one entity, with `f` = `GlobalDofIndices` or
`InteriorGlobalDofIndices`; /repo/projects/dpg/product_dofhandler.cc:48-63. -/
def collect (comps : List DofHandler) (offs : List ℕ) (f : DofHandler → Option (List ℕ)) :
    Option (List ℕ) :=
  ((List.range comps.length).mapM fun i =>
    (comps[i]?).bind fun h => (offs[i]?).bind fun o =>
    (f h).map fun ds => ds.map (· + o)).map List.flatten

/-- Constructor; /repo/projects/dpg/product_dofhandler.cc:8-66. -/
def init (T : Topo) (ls : List UniformLayout) : Option Data :=
  if ls.length = 0 then none else
  (initComps T ls 0).bind fun r =>
  ((List.range 3).mapM fun codim => (List.range (T.num codim)).mapM fun i =>
    collect r.1 r.2 fun h => h.globalDofIndices (codim, i)).bind fun dofs =>
  ((List.range 3).mapM fun codim => (List.range (T.num codim)).mapM fun i =>
    collect r.1 r.2 fun h => h.interiorGlobalDofIndices (codim, i)).bind fun internal =>
  some ⟨r.1, r.2, dofs, internal⟩

/-- `Component(dofnum)`; /repo/projects/dpg/product_dofhandler.cc:152-162. -/
def Data.component (D : Data) (d : ℕ) : Option ℕ :=
  (D.offs[D.comps.length]?).bind fun n =>
  if d < n then (List.range D.comps.length).find? fun i => (D.offs[i + 1]?).any (fun o => decide (o > d))
  else none

/-- `LocalStartIndex(entity, component)`; /repo/projects/dpg/product_dofhandler.cc:143-150. -/
def Data.localStartIndex (D : Data) (e : Ent) (comp : ℕ) : Option ℕ :=
  (List.range comp).foldlM (fun acc i =>
    (D.comps[i]?).bind fun h => (h.numLocalDofs e).map (acc + ·)) 0

/-- `Offset(component)`; /repo/projects/dpg/product_dofhandler.h:208-210. -/
def Data.offset (D : Data) (i : ℕ) : Option ℕ := D.offs[i]?

/-- Access pattern `[codim][entity_idx]` into the index arrays, with `codim` from the reference
element. -/
def lookup (T : Topo) (a : List (List (List ℕ))) (e : Ent) : Option (List ℕ) :=
  (T.refEl e).bind fun ref => (a[2 - ref.dimension]?).bind fun b => b[e.2]?

/-- Methods of the `DofHandler` interface; /repo/projects/dpg/product_dofhandler.cc:68-141. -/
def Data.handler (T : Topo) (D : Data) : DofHandler where
  numDofs := (D.offs[D.comps.length]?).getD 0
  numLocalDofs e := (lookup T D.dofs e).map List.length
  numInteriorDofs e := (lookup T D.internal e).map List.length
  globalDofIndices e := lookup T D.dofs e
  interiorGlobalDofIndices e := lookup T D.internal e
  entity d := (D.component d).bind fun i => (D.offs[i]?).bind fun o =>
    (D.comps[i]?).bind fun h => h.entity (d - o)

end ProductFE

end Verif
