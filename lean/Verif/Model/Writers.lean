import Verif.Spec.Mesh

/-!
# Model of the writers for Matlab and matplotlib

The mesh is given by its topology and the positions of its nodes (elements of a type `K`).  Files are modelled as sequences of statements (Matlab) and
lines of fields (matplotlib): how numbers are printed is not modelled.  `none`: an assertion or exception, or undefined behaviour.
-/

namespace Verif.Writers
variable {K : Type}

/-! ## `writeMatlab` -/

/-- Variables of the Matlab function. -/
inductive MVar
  | x | y | eds | tri | quad
deriving DecidableEq

/-- Statements: `v = zeros(rows,cols);`, `v = [];` and `v(row,:) = [vals];` (for vectors `v(row) = val;`). -/
inductive MStmt (K : Type)
  | zeros (v : MVar) (rows cols : ℕ)
  | empty (v : MVar)
  | row (v : MVar) (i : ℕ) (vals : List (ℕ ⊕ K))

/-- Name of the file and name of the Matlab function; /repo/lib/lf/io/write_matlab.cc:15-29.  `pop_back` of an empty string is undefined, and no file
can be opened with an empty name. -/
def matlabName (name : List Char) : Option (List Char × List Char) :=
  let n := name.length
  let name' := if 1 < n ∧ name[n - 2]? ≠ some '.' ∧ name[n - 1]? ≠ some 'm' then name ++ ['.', 'm'] else name
  if name'.length < 2 then none else some (name', name'.dropLast.dropLast)

/-- Coordinates of the nodes; /repo/lib/lf/io/write_matlab.cc:37-56. -/
def matlabNodes (numNodes : ℕ) (pos : ℕ → K × K) : List (MStmt K) :=
  [.zeros .x numNodes 1, .zeros .y numNodes 1] ++
    (List.range numNodes).flatMap fun v => [.row .x (v + 1) [.inr (pos v).1], .row .y (v + 1) [.inr (pos v).2]]

/-- End points of the edges; /repo/lib/lf/io/write_matlab.cc:58-73. -/
def matlabEdges (T : Topo) : List (MStmt K) :=
  .zeros .eds T.numEdges 2 :: (List.range T.numEdges).map fun e => .row .eds (e + 1) [.inl ((T.edge e).1 + 1), .inl ((T.edge e).2 + 1)]

/-- One cell; counters for triangles and quadrilaterals; /repo/lib/lf/io/write_matlab.cc:80-112. -/
def matlabCell (T : Topo) (s : List (MStmt K) × ℕ × ℕ) (c : ℕ) : Option (List (MStmt K) × ℕ × ℕ) :=
  match (T.cell c).nodes with
  | [v0, v1, v2] => some (s.1 ++ [.row .tri (s.2.1 + 1) [.inl (v0 + 1), .inl (v1 + 1), .inl (v2 + 1), .inl c]], s.2.1 + 1, s.2.2)
  | [v0, v1, v2, v3] =>
    some (s.1 ++ [.row .quad (s.2.2 + 1) [.inl (v0 + 1), .inl (v1 + 1), .inl (v2 + 1), .inl (v3 + 1), .inl c]], s.2.1, s.2.2 + 1)
  | _ => none

/-- The body of the Matlab function; /repo/lib/lf/io/write_matlab.cc:32-113. -/
def matlabBody (T : Topo) (pos : ℕ → K × K) : Option (List (MStmt K)) :=
  ((List.range T.numCells).foldlM (matlabCell T) ([.empty .tri, .empty .quad], 0, 0)).bind fun s =>
  some (matlabNodes T.numNodes pos ++ matlabEdges T ++ s.1)

/-! ## `writeMatplotlib` -/

/-- A field of a line. -/
inductive CsvField (K : Type)
  | nat (n : ℕ)
  | coord (x : K)
  | blank

/-- Name of the file; `compare` throws an exception if its first argument exceeds the length, and `filename.size() - 4` is an unsigned number;
/repo/lib/lf/io/write_matplotlib.cc:20-23. -/
def matplotlibName (name : List Char) : Option (List Char) :=
  if name.length < 4 then none
  else some (if name.drop (name.length - 4) = ['.', 'c', 's', 'v'] then name else name ++ ['.', 'c', 's', 'v'])

/-- Lines of the cells, edges and nodes; numbers of sub-entities are followed by a comma; /repo/lib/lf/io/write_matplotlib.cc:32-76. -/
def matplotlibLines (T : Topo) (pos : ℕ → K × K) : Option (List (List (CsvField K))) :=
  ((List.range T.numCells).mapM fun c =>
    if (T.cell c).nodes.length = 3 ∨ (T.cell c).nodes.length = 4 then
      some ([.nat 0, .nat c] ++ (T.cell c).edges.map .nat ++ [.blank]) else none).bind fun cells =>
  some (cells ++ ((List.range T.numEdges).map fun e => [.nat 1, .nat e, .nat (T.edge e).1, .nat (T.edge e).2, .blank]) ++
    (List.range T.numNodes).map fun v => [.nat 2, .nat v, .coord (pos v).1, .coord (pos v).2])

end Verif.Writers
