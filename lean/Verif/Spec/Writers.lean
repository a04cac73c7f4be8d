import Verif.Model.Writers
import Mathlib.Algebra.Field.Basic

/-!
# What a reader makes of the files: Matlab's semantics of the statements, and the script `plot_mesh.py`
-/

namespace Verif.Writers
variable {K : Type}

/-- Values of the Matlab variables: matrices, as lists of rows. -/
abbrev MState (K : Type) := MVar → List (List (ℕ ⊕ K))

/-- One statement.  Rows are numbered from 1.  An assignment to the row after the last one adds a row; all rows of a matrix have the same length.
`none`: an error (or an assignment which would leave a gap). -/
def exec (s : MState K) : MStmt K → Option (MState K)
  | .zeros v r c => some (Function.update s v (List.replicate r (List.replicate c (.inl 0))))
  | .empty v => some (Function.update s v [])
  | .row v i vals =>
    if 1 ≤ i ∧ i ≤ (s v).length + 1 ∧ ∀ r ∈ s v, r.length = vals.length then
      some (Function.update s v (if i ≤ (s v).length then (s v).set (i - 1) vals else s v ++ [vals]))
    else none

/-- A sequence of statements, started without variables. -/
def runMatlab (p : List (MStmt K)) : Option (MState K) := p.foldlM exec fun _ => []

/-- What `plot_mesh.py` collects. -/
structure Plot (K : Type) where
  vertices : List (ℕ × K × K)
  segments : List (ℕ × ℕ × ℕ)
  triangles : List (ℕ × List ℕ)
  quads : List (ℕ × List ℕ)

/-- Numbers of a list of fields, up to the end or an empty field (`np.fromstring(…, sep=',')`). -/
def readNats : List (CsvField K) → Option (List ℕ)
  | [] => some []
  | [.blank] => some []
  | .nat n :: l => (readNats l).map (n :: ·)
  | _ => none

/-- One line, read by /repo/lib/lf/io/plot_mesh.py:15-30. -/
def readLine (s : Plot K) : List (CsvField K) → Option (Plot K)
  | .nat 0 :: .nat i :: rest => (readNats rest).bind fun es =>
    if es.length = 3 then some { s with triangles := s.triangles ++ [(i, es)] }
    else if es.length = 4 then some { s with quads := s.quads ++ [(i, es)] } else none
  | .nat 1 :: .nat i :: rest => (readNats rest).bind fun ps =>
    match ps with
    | [p, q] => some { s with segments := s.segments ++ [(i, p, q)] }
    | _ => none
  | [.nat 2, .nat i, .coord x, .coord y] => some { s with vertices := s.vertices ++ [(i, x, y)] }
  | _ => none

/-- The file, read by /repo/lib/lf/io/plot_mesh.py:15-30. -/
def readPlot (ls : List (List (CsvField K))) : Option (Plot K) := ls.foldlM readLine ⟨[], [], [], []⟩

/-- Position of the vertex with number `v`, if any: /repo/lib/lf/io/plot_mesh.py:54. -/
def Plot.vertex (p : Plot K) (v : ℕ) : Option (K × K) := (p.vertices.find? fun a => a.1 = v).map (·.2)

/-- The segment with number `e`, if any: /repo/lib/lf/io/plot_mesh.py:78. -/
def Plot.segment (p : Plot K) (e : ℕ) : Option (ℕ × ℕ) := (p.segments.find? fun a => a.1 = e).map (·.2)

/-- End points of the segments of a cell; /repo/lib/lf/io/plot_mesh.py:76-86. -/
def Plot.cellVertices (p : Plot K) (es : List ℕ) : Option (List (K × K)) :=
  es.foldlM (fun acc e => (p.segment e).bind fun s => (p.vertex s.1).bind fun a => (p.vertex s.2).bind fun b => some (acc ++ [a, b])) []

/-- Mean of points: `np.mean(cell_vertices, axis=0)`, /repo/lib/lf/io/plot_mesh.py:90. -/
def mean [Field K] (l : List (K × K)) : K × K := ((l.map Prod.fst).sum / l.length, (l.map Prod.snd).sum / l.length)

end Verif.Writers
