import Verif.Spec.Mesh
import Mathlib.Algebra.Field.Basic

/-!
# Model of `writeTikZ`

A picture is a list of commands; fonts, scales and the printing of numbers are not modelled.  Entities are pairs of codimension and index.
-/

namespace Verif.Tikz
variable {K : Type}

/-- Flags; /repo/lib/lf/io/write_tikz.h:24-32. -/
inductive Flag
  | renderCells | cellNumbering | verticeNumbering | nodeNumbering | edgeNumbering | arrowTips | withPreamble
deriving DecidableEq

/-- Values of the flags; /repo/lib/lf/io/write_tikz.h:25-31. -/
def Flag.value : Flag → ℕ
  | .renderCells => 1
  | .cellNumbering => 2
  | .verticeNumbering => 4
  | .nodeNumbering => 8
  | .edgeNumbering => 16
  | .arrowTips => 32
  | .withPreamble => 64

/-- `static_cast<bool>(output_ctrl & flag)`; /repo/lib/lf/io/write_tikz.cc:18-21, 35-48. -/
def on (ctrl : ℕ) (f : Flag) : Bool := ctrl &&& f.value != 0

/-- The default of the parameter `output_ctrl`; /repo/lib/lf/io/write_tikz.h:132, 143. -/
def defaultCtrl : ℕ := Flag.renderCells.value

/-- Commands of a picture. -/
inductive Cmd (K : Type)
  /-- A node, with its number or as a star. -/
  | node (p : K × K) (num : Option ℕ)
  /-- A line or arrow between two points, with a number or without. -/
  | line (arrow : Bool) (p q : K × K) (num : Option ℕ)
  /-- A closed polygon, with numbers 0, 1, … at its corners or without. -/
  | polygon (ps : List (K × K)) (nums : Bool)
  /-- A number. -/
  | text (p : K × K) (num : ℕ)
  | beginDocument
  | endDocument
  | beginPicture
  | endPicture

variable [Field K]

/-- `vertices.rowwise().sum() / vertices.cols()`; /repo/lib/lf/io/write_tikz.cc:96-97. -/
def center (l : List (K × K)) : K × K := ((l.map Prod.fst).sum / l.length, (l.map Prod.snd).sum / l.length)

/-- `vertices * s + center_mat * t`. -/
def scaled (s t : K) (c p : K × K) : K × K := (p.1 * s + c.1 * t, p.2 * s + c.2 * t)

/-- Commands for a node; /repo/lib/lf/io/write_tikz.cc:101-113. -/
def drawNode (ctrl : ℕ) (pos : ℕ → K × K) (v : ℕ) : List (Cmd K) :=
  if on ctrl .nodeNumbering then [.node (pos v) (some v)] else [.node (pos v) none]

/-- Commands for an edge; /repo/lib/lf/io/write_tikz.cc:115-165. -/
def drawEdge (ctrl : ℕ) (T : Topo) (pos : ℕ → K × K) (e : ℕ) : List (Cmd K) :=
  let p := pos (T.edge e).1
  let q := pos (T.edge e).2
  let c := center [p, q]
  let sc := scaled (80 / 100) (2 / 10) c
  let ss := scaled (95 / 100) (5 / 100) c
  let edgeNum := on ctrl .edgeNumbering
  let nodeNum := on ctrl .nodeNumbering
  if on ctrl .arrowTips then
    if edgeNum && nodeNum then [.line true (sc p) (sc q) (some e)]
    else if nodeNum && !edgeNum then [.line true (sc p) (sc q) none]
    else if !nodeNum && edgeNum then [.line true (ss p) (ss q) (some e)]
    else if !nodeNum && !edgeNum then [.line true (ss p) (ss q) none]
    else []
  else
    if edgeNum then [.line false p q (some e)]
    else if !edgeNum then [.line false p q none]
    else []

/-- Commands for a cell; /repo/lib/lf/io/write_tikz.cc:167-194 (triangles), 196-228 (quadrilaterals), 230-235 (others). -/
def drawCell (ctrl : ℕ) (T : Topo) (pos : ℕ → K × K) (c : ℕ) : List (Cmd K) :=
  let vertices := (T.cell c).nodes.map pos
  let m := center vertices
  let sc := vertices.map (scaled (70 / 100) (30 / 100) m)
  if vertices.length = 3 ∨ vertices.length = 4 then
    if on ctrl .renderCells then
      (if on ctrl .verticeNumbering then [.polygon sc true] else [.polygon sc false]) ++
        if on ctrl .cellNumbering then [.text m c] else []
    else []
  else []

/-- `writeTikZ(mesh, filename, selector, output_ctrl)`: the contents of the file, if it can be opened; /repo/lib/lf/io/write_tikz.cc:65-247. -/
def picture (T : Topo) (pos : ℕ → K × K) (sel : ℕ × ℕ → Bool) (ctrl : ℕ) : List (Cmd K) :=
  (if on ctrl .withPreamble then [.beginDocument] else []) ++ [.beginPicture] ++
  ((List.range T.numCells).flatMap fun c => if sel (0, c) then drawCell ctrl T pos c else []) ++
  ((List.range T.numEdges).flatMap fun e => if sel (1, e) then drawEdge ctrl T pos e else []) ++
  ((List.range T.numNodes).flatMap fun v => if sel (2, v) then drawNode ctrl pos v else []) ++
  [.endPicture] ++ (if on ctrl .withPreamble then [.endDocument] else [])

/-- `writeTikZ(mesh, filename, output_ctrl)`; /repo/lib/lf/io/write_tikz.cc:252-255. -/
def pictureAll (T : Topo) (pos : ℕ → K × K) (ctrl : ℕ) : List (Cmd K) := picture T pos (fun _ => true) ctrl

end Verif.Tikz
