import Verif.Model.GmshReader

/-!
# What a Gmsh file says about the mesh

The functions below read a file on their own, without the tables used by the reader.
-/

namespace Verif

/-- Number of corners of an element; the corners are the first nodes in the list of nodes. -/
def GmshType.corners (t : GmshType) : ℕ :=
  match t.refEl with
  | some .point => 1
  | some .segment => 2
  | some .tria => 3
  | some .quad => 4
  | none => 0

/-- Dimension and number of corners of the element types, from the documentation of Gmsh (three-dimensional types are not
supported). -/
def gmshShape : GmshType → ℕ × ℕ
  | .point => (0, 1)
  | .edge2 | .edge3 | .edge4 | .edge5 | .edge6 => (1, 2)
  | .tria3 | .tria6 | .tria9 | .tria10 | .tria12 | .tria15 | .tria15_5 | .tria21 => (2, 3)
  | .quad4 | .quad8 | .quad9 => (2, 4)
  | .solid _ => (3, 0)

/-- The numbers (in the file) of the nodes inserted into the mesh, in the order of their indices in the mesh: `numbers` are the
numbers of all nodes in the order of the file and `main n` says whether the node with number `n` is inserted. -/
def mainNumbers (numbers : List ℕ) (main : ℕ → Bool) : List ℕ := numbers.filter main

/-- The corners of an element as indices of nodes of the mesh, whose numbers in the file are `nums`. -/
def elementCorners (nums : List ℕ) (t : GmshType) (nodes : List ℕ) : Option (List ℕ) :=
  if nodes.length < t.corners then none else (nodes.take t.corners).mapM fun n => nums.idxOf? n

/-- Coordinates of the node with a number. -/
def nodeCoord {P : Type} (nodes : List (ℕ × P)) (n : ℕ) : Option P :=
  (nodes.find? fun x => decide (x.1 = n)).map (·.2)

/-- The geometry described by an element. -/
def elementGeo {P G : Type} (geo : GmshGeo P G) (nodes : List (ℕ × P)) (t : GmshType) (ns : List ℕ) : Option G :=
  (ns.mapM (nodeCoord nodes)).bind (geo.make t)

/-! ### Version 2 -/

/-- A node is inserted into the mesh if it is a corner of an element which is not a point. -/
def FileV2.isMain {P : Type} (file : FileV2 P) (n : ℕ) : Bool :=
  file.elements.any fun e => decide (e.type ≠ .point) && decide (n ∈ e.nodes.take e.type.corners)

/-- Numbers of the nodes of the mesh. -/
def FileV2.nums {P : Type} (file : FileV2 P) : List ℕ := mainNumbers (file.nodes.map (·.1)) file.isMain

/-- The physical numbers of the elements of dimension `d` whose corners satisfy a condition, in the order of the file. -/
def FileV2.physOf {P : Type} (file : FileV2 P) (d : ℕ) (cond : List ℕ → Bool) : List ℕ :=
  (file.elements.filter fun e => decide (e.type.dim = d) &&
    (elementCorners file.nums e.type e.nodes).any cond).map (·.phys)

/-! ### Version 4 -/

/-- All nodes of the file. -/
def FileV4.allNodes {P : Type} (file : FileV4 P) : List (ℕ × P) := file.nodeBlocks.flatten

/-- All elements of the file, with the block they belong to. -/
def FileV4.elements {P : Type} (file : FileV4 P) : List (BlockV4 × List ℕ) :=
  file.blocks.flatMap fun b => b.elements.map fun ns => (b, ns)

/-- A node is inserted into the mesh if it is a corner of a cell. -/
def FileV4.isMain {P : Type} (file : FileV4 P) (n : ℕ) : Bool :=
  file.elements.any fun e => decide (e.1.type.dim = 2) && decide (n ∈ e.2.take e.1.type.corners)

/-- Numbers of the nodes of the mesh. -/
def FileV4.nums {P : Type} (file : FileV4 P) : List ℕ := mainNumbers (file.allNodes.map (·.1)) file.isMain

/-- The physical tags of the entity of dimension `d` with a tag. -/
def FileV4.entityTags {P : Type} (file : FileV4 P) (d tag : ℕ) : List ℕ :=
  (((file.entities d).find? fun e => decide (e.1 = tag)).map (·.2)).getD []

/-- The physical tags of the elements of dimension `d` whose corners satisfy a condition, in the order of the file. -/
def FileV4.physOf {P : Type} (file : FileV4 P) (d : ℕ) (cond : List ℕ → Bool) : List ℕ :=
  (file.elements.filter fun e => decide (e.1.type.dim = d) &&
    (elementCorners file.nums e.1.type e.2).any cond).flatMap fun e => file.entityTags d e.1.entity

/-! ### Repeated points

A point belonging to several physical groups is listed several times in a row in a file of version 2. -/

/-- The point elements `x` and `y` are consecutive entries with the same nodes after the entries `l`: their node belongs to the
mesh and none of the points listed before has a greater index. -/
def repeatOk (nums : List ℕ) (before : List (GmshType × List ℕ)) (y : List ℕ) : Prop :=
  ∃ i, elementCorners nums .point y = some [i] ∧
    ∀ z ∈ before, z.1 = .point → ∀ j, elementCorners nums .point z.2 = some [j] → j ≤ i

/-- All consecutive entries for the same point satisfy `repeatOk`. -/
def FileV2.RepeatsOk {P : Type} (file : FileV2 P) : Prop :=
  ∀ l x y r, file.elements = l ++ x :: y :: r → x.type = .point → y.type = .point → x.nodes = y.nodes →
    repeatOk file.nums ((l ++ [x]).map fun e => (e.type, e.nodes)) y.nodes

/-- All consecutive entries for the same point in a block satisfy `repeatOk`. -/
def FileV4.RepeatsOk {P : Type} (file : FileV4 P) : Prop :=
  ∀ pre b post, file.blocks = pre ++ b :: post → b.type = .point → ∀ l x r, b.elements = l ++ x :: x :: r →
    repeatOk file.nums ((pre.flatMap fun b => b.elements.map fun ns => (b.type, ns)) ++ (l ++ [x]).map fun ns => (b.type, ns)) x

end Verif
