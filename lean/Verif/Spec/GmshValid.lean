import Verif.Spec.GmshReader
import Verif.Spec.Mesh

/-!
# Gmsh files which describe a mesh

Conditions on a file under which reading it must not fail.  They speak about the numbers of the nodes in the file only.
-/

namespace Verif

/-- Numbers of the corners of an element. -/
def cornerNumbers (t : GmshType) (nodes : List ℕ) : List ℕ := nodes.take t.corners

/-- The lists of the corners of two edges have the same end points. -/
def SameEnds (x y : List ℕ) : Prop := x = y ∨ x = y.reverse

instance (x y : List ℕ) : Decidable (SameEnds x y) := inferInstanceAs (Decidable (x = y ∨ x = y.reverse))

/-- A cell or an edge whose nodes are in the file and whose corners are different, and for which there is a geometry object. -/
structure ElementValid {P G : Type} (geo : GmshGeo P G) (nodes : List (ℕ × P)) (t : GmshType) (ns : List ℕ) : Prop where
  dim : t.dim ≤ 2
  long : t.corners ≤ ns.length
  known : ∀ n ∈ ns, n ∈ nodes.map (·.1)
  corners : (cornerNumbers t ns).Nodup
  made : (elementGeo geo nodes t ns).isSome = true

/-- What `Build()` asks for with `check_completeness`: every edge is a side of a cell and every node in the mesh is a corner of
a cell.  `elements` are the types and nodes of all elements. -/
structure FileComplete (elements : List (GmshType × List ℕ)) (main : ℕ → Bool) : Prop where
  edges : ∀ e ∈ elements, e.1.dim = 1 → ∃ c ∈ elements, c.1.dim = 2 ∧ ∃ j < c.1.corners,
    SameEnds (cornerNumbers e.1 e.2) [(side (cornerNumbers c.1 c.2) j).1, (side (cornerNumbers c.1 c.2) j).2]
  nodes : ∀ n, main n = true → ∃ c ∈ elements, c.1.dim = 2 ∧ n ∈ cornerNumbers c.1 c.2

/-- A file of version 2 which describes a mesh. -/
structure FileV2.Valid {P G : Type} (geo : GmshGeo P G) (chk : Bool) (file : FileV2 P) : Prop where
  numbers : (file.nodes.map (·.1)).Nodup
  cell : ∃ e ∈ file.elements, e.type.dim = 2
  /-- the node of a point element belongs to the mesh, or its number is less than the number of nodes -/
  points : ∀ e ∈ file.elements, e.type = .point → ∃ n, e.nodes = [n] ∧ (file.isMain n = true ∨ n < file.nodes.length)
  elements : ∀ e ∈ file.elements, e.type ≠ .point → ElementValid geo file.nodes e.type e.nodes
  /-- there is a geometry object for every node -/
  nodes : ∀ x ∈ file.nodes, file.isMain x.1 = true → (geo.point x.2).isSome = true
  repeats : file.RepeatsOk
  /-- an edge is repeated only directly after an entry with the same nodes -/
  once : ∀ l y r, file.elements = l ++ y :: r → y.type.dim = 1 → ∀ x ∈ l, x.type.dim = 1 →
    SameEnds (cornerNumbers x.type x.nodes) (cornerNumbers y.type y.nodes) →
    ∃ z, l.getLast? = some z ∧ z.type = y.type ∧ z.nodes = y.nodes
  complete : chk = true → FileComplete (file.elements.map fun e => (e.type, e.nodes)) file.isMain

/-- A file of version 4 which describes a mesh. -/
structure FileV4.Valid {P G : Type} (geo : GmshGeo P G) (chk : Bool) (file : FileV4 P) : Prop where
  numbers : (file.allNodes.map (·.1)).Nodup
  range : ∀ x ∈ file.allNodes, file.minTag ≤ x.1 ∧ x.1 ≤ file.maxTag
  cell : ∃ e ∈ file.elements, e.1.type.dim = 2
  dims : ∀ b ∈ file.blocks, b.dim ≤ 2 ∧ b.dim = b.type.dim
  points : ∀ e ∈ file.elements, e.1.type = .point → ∃ n, e.2 = [n] ∧ n ∈ file.allNodes.map (·.1)
  elements : ∀ e ∈ file.elements, e.1.type ≠ .point → ElementValid geo file.allNodes e.1.type e.2
  /-- corners of edges are corners of cells -/
  ends : ∀ e ∈ file.elements, e.1.type.dim = 1 → ∀ n ∈ cornerNumbers e.1.type e.2, file.isMain n = true
  nodes : ∀ x ∈ file.allNodes, file.isMain x.1 = true → (geo.point x.2).isSome = true
  repeats : file.RepeatsOk
  /-- an edge is repeated only directly after an entry with the same nodes in the same block -/
  once : ∀ pre b post, file.blocks = pre ++ b :: post → b.type.dim = 1 → ∀ l y r, b.elements = l ++ y :: r →
    ∀ x ∈ (pre.flatMap fun b => b.elements.map fun ns => (b.type, ns)) ++ l.map fun ns => (b.type, ns), x.1.dim = 1 →
    SameEnds (cornerNumbers x.1 x.2) (cornerNumbers b.type y) → l.getLast? = some y
  /-- the entity of every block is listed -/
  tags : ∀ b ∈ file.blocks, b.entity ∈ (file.entities b.dim).map (·.1)
  complete : chk = true → FileComplete (file.elements.map fun e => (e.1.type, e.2)) file.isMain

end Verif
